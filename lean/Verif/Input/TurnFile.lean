import Verif.Input.SlimFile

/-! # A slab of two regions and its mirror image, for examples -/

namespace Verif.Input

open Verif Outcome

noncomputable section

/-- A slab of two thin cells and a thick one that gives all neutrons back on the left and half of them on the right, in one group; or this slab turned round, in the forward or in the adjoint direction. -/
def turnFile (t a : Bool) : List Text :=
  ["solvers diffusion".toList, "geometry slab".toList, (if t then "mesh 1 1.0 fuel 2 0.02 fuel" else "mesh 2 0.02 fuel 1 1.0 fuel").toList, "plots neutronFlux totalFlux powerDensity".toList,
    "solver diffusion".toList, "accuracy 0.001".toList, "max_iteration_number 100".toList, (if t then "albedo 0.5 1.0" else "albedo 1.0 0.5").toList, "energies 1".toList,
    (if a then "direction adjoint" else "direction forward").toList, "eigenmodes fundamental".toList,
    "material fuel".toList, "ni(1) 2.5".toList, "chi(1) 1.0".toList, "fission(1) 0.5".toList, "total(1) 2.0".toList, "diffCoeff(1) 1.0".toList,
    "scattMatrix(1, 1) 1.0".toList]

def turnRegions : List Region := [⟨2, 1 / 50, "fuel".toList⟩, ⟨1, 1, "fuel".toList⟩]

/-- The regions of the two files. -/
def turnedRegions (t : Bool) : List Region := if t then turnRegions.reverse else turnRegions

/-- The words for the albedos. -/
def turnAlbedo (t : Bool) : List Text := if t then ["0.5".toList, "1.0".toList] else ["1.0".toList, "0.5".toList]

/-- The albedos. -/
def turnAlb (t : Bool) : Vec ℝ := if t then Vec.ofList [1 / 2, 1] else Vec.ofList [1, 1 / 2]

/-- The data of the file. -/
def turnTables : Tables where
  nu _ _ := Vec.ofList [5 / 2]
  chi _ _ := Vec.ofList [1]
  fiss _ _ := Vec.ofList [1 / 2]
  tot _ _ := Vec.ofList [2]
  scatt _ _ _ := Vec.ofList [1]
  diff _ _ := Vec.ofList [1]

theorem turnStored (t a : Bool) : Stored (turnFile t a) (turnFile t a) := by
  cases t <;> cases a <;> exact (C36_tidy _ _).1 (by rfl)

theorem turnProper (t a : Bool) : Proper (turnFile t a) := by
  cases t <;> cases a <;> exact proper_eval (by decide +kernel)

theorem turnBlocks : ∀ t a, blockB slimLib (turnFile t a) "solver".toList (blockName .diffusion) 4 4294967295 = true ∧
    blockB slimLib (turnFile t a) "material".toList "fuel".toList 11 4294967295 = true := by
  decide +kernel

/-- The number of the file under the heading `name`. -/
def turnWord (name : String) : Text :=
  if name = "ni" then "2.5".toList else if name = "fission" then "0.5".toList else if name = "total" then "2.0".toList else "1.0".toList

theorem turnMaterials : ∀ t a, ∀ name ∈ ["ni", "chi", "fission", "total", "diffCoeff"],
    saysB slimLib (turnFile t a) (groupKey name 0) 11 4294967295 [small (groupKey name 0), turnWord name] = true := by
  decide +kernel

theorem turnMatrix : ∀ t a, saysB slimLib (turnFile t a) (scattKey 0 0) 11 4294967295 (splitLine (small (scattKey 0 0)) ++ ["1.0".toList]) = true ∧
    (splitLine (small (scattKey 0 0))).length = 2 := by
  decide +kernel

/-- The direction of the file. -/
def turnDir (a : Bool) : String := if a then "adjoint" else "forward"

/-- The settings of the file. -/
def turnSays (t a : Bool) : List (String × List Text) := [("accuracy", ["0.001".toList]), ("max_iteration_number", ["100".toList]), ("albedo", turnAlbedo t),
  ("energies", ["1".toList]), ("direction", [(turnDir a).toList]), ("eigenmodes", ["fundamental".toList])]

theorem turnSettings : ∀ t a, ∀ s ∈ turnSays t a, saysB slimLib (turnFile t a) s.1.toList 4 4294967295 (s.1.toList :: s.2) = true := by
  decide +kernel

theorem turnCards : ∀ t a, saysB slimLib (turnFile t a) "solvers".toList 0 4294967295 ["solvers".toList, "diffusion".toList] = true ∧
    saysB slimLib (turnFile t a) ("solver ".toList ++ blockName .diffusion) 0 4294967295 ["solver".toList, "diffusion".toList] = true ∧
    saysB slimLib (turnFile t a) "geometry".toList 0 4294967295 ["geometry".toList, "slab".toList] = true ∧
    saysB slimLib (turnFile t a) "mesh".toList 0 4294967295 ("mesh".toList :: if t then ["1".toList, "1.0".toList, "fuel".toList, "2".toList, "0.02".toList, "fuel".toList] else ["2".toList, "0.02".toList, "fuel".toList, "1".toList, "1.0".toList, "fuel".toList]) = true ∧
    saysB slimLib (turnFile t a) "plots".toList 0 4294967295 ["plots".toList, "neutronflux".toList, "totalflux".toList, "powerdensity".toList] = true ∧
    saysB slimLib (turnFile t a) "material fuel".toList 0 4294967295 ["material".toList, "fuel".toList] = true := by
  decide +kernel

theorem turn_law {t a : Bool} {name : String} (hn : name ∈ ["ni", "chi", "fission", "total", "diffCoeff"]) {x : ℝ} (hx : slimLib.stod (turnWord name) = ok x) :
    Law slimLib (turnFile t a) "fuel".toList (groupKey name 0) 1 (Vec.ofList [x]) := by
  refine ⟨_, _, [small (groupKey name 0), turnWord name], blockB_block slimLib_sane (turnBlocks t a).2, saysB_card slimLib_sane (turnMaterials t a name hn), by simp, ?_⟩
  rw [ofList_toList]
  exact .cons hx .nil

theorem turn_scatt {t a : Bool} : Law slimLib (turnFile t a) "fuel".toList (scattKey 0 0) 2 (Vec.ofList [1]) := by
  obtain ⟨h1, h2⟩ := turnMatrix t a
  refine ⟨_, _, _, blockB_block slimLib_sane (turnBlocks t a).2, saysB_card slimLib_sane h1, by simp [h2], ?_⟩
  rw [ofList_toList, ← h2, List.drop_left]
  exact .cons rfl .nil

theorem turn_mem {t : Bool} {r : Region} (hr : r ∈ turnedRegions t) : r ∈ turnRegions := by
  cases t
  · exact hr
  · exact List.mem_reverse.1 hr

theorem turn_region {t : Bool} {r : Region} (hr : r ∈ turnedRegions t) : r = ⟨2, 1 / 50, "fuel".toList⟩ ∨ r = ⟨1, 1, "fuel".toList⟩ := by
  simpa [turnRegions] using turn_mem hr

theorem turn_fuel {t : Bool} {r : Region} (hr : r ∈ turnedRegions t) : r.mat = "fuel".toList := by
  rcases turn_region hr with rfl | rfl <;> rfl

theorem turn_tables {t a : Bool} : TableFile slimLib (turnFile t a) (turnedRegions t) 1 turnTables where
  nu r hr e he := by
    rw [turn_fuel hr]
    obtain rfl : e = 0 := by omega
    exact turn_law (by simp) (by simp [slimLib, turnWord])
  chi r hr e he := by
    rw [turn_fuel hr]
    obtain rfl : e = 0 := by omega
    exact turn_law (by simp) (by simp [slimLib, turnWord])
  fiss r hr e he := by
    rw [turn_fuel hr]
    obtain rfl : e = 0 := by omega
    exact turn_law (by simp) (by simp [slimLib, turnWord])
  tot r hr e he := by
    rw [turn_fuel hr]
    obtain rfl : e = 0 := by omega
    exact turn_law (by simp) (by simp [slimLib, turnWord])
  scatt r hr e f he hf := by
    rw [turn_fuel hr]
    obtain rfl : e = 0 := by omega
    obtain rfl : f = 0 := by omega
    exact turn_scatt

theorem turn_setting {t a : Bool} {s : String × List Text} (hs : s ∈ turnSays t a) : Setting (turnFile t a) .diffusion s.1 s.2 :=
  ⟨_, _, blockB_block slimLib_sane (turnBlocks t a).1, saysB_card slimLib_sane (turnSettings t a s hs)⟩

theorem turn_full {t a : Bool} : Full slimLib (turnFile t a) [.diffusion] .slab (turnedRegions t) 1 where
  solvers := ⟨_, _, saysB_card slimLib_sane (turnCards t a).1, .cons (by simp [solverNames]) .nil⟩
  some := by simp
  headers := by
    intro k hk
    obtain rfl : k = .diffusion := by simpa [everyone] using hk
    exact ⟨_, _, saysB_card slimLib_sane (turnCards t a).2.1⟩
  settings := by
    intro k hk key hkey
    obtain rfl : k = .diffusion := by simpa [everyone] using hk
    simp only [settingsOf, List.cons_append, List.nil_append, List.mem_cons, List.not_mem_nil, or_false] at hkey
    rcases hkey with rfl | rfl | rfl | rfl | rfl | rfl
    · exact ⟨_, turn_setting (s := ("accuracy", ["0.001".toList])) (by simp [turnSays]), .accuracy rfl⟩
    · exact ⟨_, turn_setting (s := ("max_iteration_number", ["100".toList])) (by simp [turnSays]), .limit n100 (by decide)⟩
    · exact ⟨_, turn_setting (s := ("albedo", turnAlbedo t)) (by simp [turnSays]), by cases t <;> exact .twoAlbedos (by simp) rfl rfl rfl⟩
    · exact ⟨_, turn_setting (s := ("energies", ["1".toList])) (by simp [turnSays]), .groups (wDigit (i := 1) (by decide)) (by decide)⟩
    · exact ⟨_, turn_setting (s := ("direction", [(turnDir a).toList])) (by simp [turnSays]), by cases a <;> exact .direction (by simp [turnDir])⟩
    · exact ⟨_, turn_setting (s := ("eigenmodes", ["fundamental".toList])) (by simp [turnSays]), .modes (Or.inl rfl)⟩
  relaxation := by simp
  body := fun _ => {
    geometry := ⟨_, _, saysB_card slimLib_sane (turnCards t a).2.2.1, by simp [geometries]⟩
    mesh := ⟨_, _, saysB_card slimLib_sane (turnCards t a).2.2.2.1, by
      cases t
      · exact .cons (wDigit (i := 2) (by decide)) rfl (.cons (wDigit (i := 1) (by decide)) rfl .nil)
      · exact .cons (wDigit (i := 1) (by decide)) rfl (.cons (wDigit (i := 2) (by decide)) rfl .nil)⟩
    some := by cases t <;> simp [turnedRegions, turnRegions]
    cells := fun r hr => by rcases turn_region hr with rfl | rfl <;> norm_num
    few := by cases t <;> simp [turnedRegions, turnRegions]
    named := by
      intro r hr
      rw [turn_fuel hr]
      exact wNamed _ _ (by decide)
    headers := by
      intro r hr
      rw [turn_fuel hr]
      exact ⟨_, _, saysB_card slimLib_sane (turnCards t a).2.2.2.2.2⟩ }
  tables := by
    intro k hk hn r hr name hname e he
    rw [turn_fuel hr]
    obtain rfl : e = 0 := by omega
    obtain ⟨x, hx⟩ : ∃ x, slimLib.stod (turnWord name) = ok x := ⟨_, rfl⟩
    refine ⟨_, turn_law ?_ hx⟩
    unfold tables at hname
    split at hname <;> simp at hname <;> simp <;> tauto
  scattering := by
    intro k hk hn r hr e f he hf
    rw [turn_fuel hr]
    obtain rfl : e = 0 := by omega
    obtain rfl : f = 0 := by omega
    exact ⟨_, turn_scatt⟩
  conductivity := by simp
  temperatures := by simp
  sources := by simp
  power := by simp
  kinetics := by simp
  plots := Or.inr ⟨_, _, by simp, saysB_card slimLib_sane (turnCards t a).2.2.2.2.1⟩

theorem turn_critical {t a : Bool} : CriticalFile slimLib (turnFile t a) .diffusion (turnDir a) .slab (turnedRegions t) 1 turnTables (turnAlb t) (1 / 1000) 100 where
  full := turn_full
  data := turn_tables
  diff := fun _ r hr e he => by
    rw [turn_fuel hr]
    obtain rfl : e = 0 := by omega
    exact turn_law (by simp) (by simp [slimLib, turnWord])
  accuracy := ⟨_, turn_setting (s := ("accuracy", ["0.001".toList])) (by simp [turnSays]), rfl⟩
  limit := ⟨_, turn_setting (s := ("max_iteration_number", ["100".toList])) (by simp [turnSays]), n100, by decide⟩
  albedo := ⟨_, turn_setting (s := ("albedo", turnAlbedo t)) (by simp [turnSays]), by
    cases t <;> (simp only [turnAlb, turnAlbedo, Bool.false_eq_true, if_true, if_false]; rw [ofList_toList]; exact .cons rfl (.cons rfl .nil))⟩
  direction := fun _ => turn_setting (s := ("direction", [(turnDir a).toList])) (by simp [turnSays])
  modes := turn_setting (s := ("eigenmodes", ["fundamental".toList])) (by simp [turnSays])

theorem turn_case {t : Bool} {X : Set ℝ} : CriticalCase (turnedRegions t) 1 turnTables X where
  widths := fun r hr => by rcases turn_region hr with rfl | rfl <;> norm_num
  nu r hr e he x hx := by simp only [turnTables, valueAt_one]; norm_num
  chi r hr e he x hx := by simp only [turnTables, valueAt_one]; norm_num
  fiss r hr e he x hx := by simp only [turnTables, valueAt_one]; norm_num
  scatt r hr e f he hf x hx := by simp only [turnTables, valueAt_one]; norm_num
  absorbs r hr e he x hx := by
    simp only [turnTables, valueAt_one, Finset.sum_range_succ, Finset.sum_range_zero]
    norm_num
  somewhere := ⟨⟨2, 1 / 50, "fuel".toList⟩, by cases t <;> simp [turnedRegions, turnRegions], 0, by norm_num, fun x hx => by simp only [turnTables, valueAt_one]; norm_num⟩
  emitted := fun r hr _ => ⟨0, by norm_num, fun x hx => by simp only [turnTables, valueAt_one]; norm_num⟩
  linked := fun a ha b hb fa fb => ⟨0, 0, by norm_num, by norm_num, fun x hx => by simp only [turnTables, valueAt_one]; norm_num,
    fun x hx => by simp only [turnTables, valueAt_one]; norm_num, .refl⟩

end

end Verif.Input
