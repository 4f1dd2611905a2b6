import Verif.Input.PileFile

/-! # A thin slab of one material that gives all neutrons back, for examples -/

namespace Verif.Input

open Verif Outcome

noncomputable section

/-- A library that reads the numbers of the example. -/
def slimLib : Lib := ⟨fun w => ok (if w = "1.0".toList then 1 else if w = "0.5".toList then 1 / 2 else if w = "2.5".toList then 5 / 2 else if w = "2.0".toList then 2 else
  if w = "0.001".toList then 1 / 1000 else if w = "0.02".toList then 1 / 50 else 0), ok 'x'⟩

theorem slimLib_sane : Sane slimLib := fun c e => by cases e; decide

theorem slimLib_clean (ls : List Text) : Clean slimLib ls := ⟨slimLib_sane, fun _ => ⟨'x', rfl⟩⟩

/-- A slab of two cells of one centimetre each, in one group: the factor is 2.5 * 0.5 / (2.0 - 1.0). -/
def slimFile : List Text :=
  ["solvers diffusion".toList, "geometry slab".toList, "mesh 2 0.02 fuel".toList, "plots neutronFlux totalFlux powerDensity".toList,
    "solver diffusion".toList, "accuracy 0.001".toList, "max_iteration_number 100".toList, "albedo 1.0 1.0".toList, "energies 1".toList,
    "direction forward".toList, "eigenmodes fundamental".toList,
    "material fuel".toList, "ni(1) 2.5".toList, "chi(1) 1.0".toList, "fission(1) 0.5".toList, "total(1) 2.0".toList, "diffCoeff(1) 1.0".toList,
    "scattMatrix(1, 1) 1.0".toList]

def slimRegions : List Region := [⟨2, 1 / 50, "fuel".toList⟩]

/-- The data of the file. -/
def slimTables : Tables where
  nu _ _ := Vec.ofList [5 / 2]
  chi _ _ := Vec.ofList [1]
  fiss _ _ := Vec.ofList [1 / 2]
  tot _ _ := Vec.ofList [2]
  scatt _ _ _ := Vec.ofList [1]
  diff _ _ := Vec.ofList [1]

theorem slimStored : Stored slimFile slimFile := (C36_tidy _ _).1 (by rfl)

theorem slimProper : Proper slimFile := proper_eval (by decide +kernel)

theorem slimBlocks : blockB slimLib slimFile "solver".toList (blockName .diffusion) 4 4294967295 = true ∧
    blockB slimLib slimFile "material".toList "fuel".toList 11 4294967295 = true := by
  decide +kernel

/-- The number of the file under the heading `name`. -/
def slimWord (name : String) : Text :=
  if name = "ni" then "2.5".toList else if name = "fission" then "0.5".toList else if name = "total" then "2.0".toList else "1.0".toList

theorem slimMaterials : ∀ name ∈ ["ni", "chi", "fission", "total", "diffCoeff"],
    saysB slimLib slimFile (groupKey name 0) 11 4294967295 [small (groupKey name 0), slimWord name] = true := by
  decide +kernel

theorem slimMatrix : saysB slimLib slimFile (scattKey 0 0) 11 4294967295 (splitLine (small (scattKey 0 0)) ++ ["1.0".toList]) = true ∧
    (splitLine (small (scattKey 0 0))).length = 2 := by
  decide +kernel

/-- The settings of the file. -/
def slimSays : List (String × List Text) := [("accuracy", ["0.001".toList]), ("max_iteration_number", ["100".toList]), ("albedo", ["1.0".toList, "1.0".toList]),
  ("energies", ["1".toList]), ("direction", ["forward".toList]), ("eigenmodes", ["fundamental".toList])]

theorem slimSettings : ∀ s ∈ slimSays, saysB slimLib slimFile s.1.toList 4 4294967295 (s.1.toList :: s.2) = true := by
  decide +kernel

theorem slimCards : saysB slimLib slimFile "solvers".toList 0 4294967295 ["solvers".toList, "diffusion".toList] = true ∧
    saysB slimLib slimFile ("solver ".toList ++ blockName .diffusion) 0 4294967295 ["solver".toList, "diffusion".toList] = true ∧
    saysB slimLib slimFile "geometry".toList 0 4294967295 ["geometry".toList, "slab".toList] = true ∧
    saysB slimLib slimFile "mesh".toList 0 4294967295 ["mesh".toList, "2".toList, "0.02".toList, "fuel".toList] = true ∧
    saysB slimLib slimFile "plots".toList 0 4294967295 ["plots".toList, "neutronflux".toList, "totalflux".toList, "powerdensity".toList] = true ∧
    saysB slimLib slimFile "material fuel".toList 0 4294967295 ["material".toList, "fuel".toList] = true := by
  decide +kernel

theorem slim_law {name : String} (hn : name ∈ ["ni", "chi", "fission", "total", "diffCoeff"]) {x : ℝ} (hx : slimLib.stod (slimWord name) = ok x) :
    Law slimLib slimFile "fuel".toList (groupKey name 0) 1 (Vec.ofList [x]) := by
  refine ⟨_, _, [small (groupKey name 0), slimWord name], blockB_block slimLib_sane slimBlocks.2, saysB_card slimLib_sane (slimMaterials name hn), by simp, ?_⟩
  rw [ofList_toList]
  exact .cons hx .nil

theorem slim_scatt : Law slimLib slimFile "fuel".toList (scattKey 0 0) 2 (Vec.ofList [1]) := by
  obtain ⟨h1, h2⟩ := slimMatrix
  refine ⟨_, _, _, blockB_block slimLib_sane slimBlocks.2, saysB_card slimLib_sane h1, by simp [h2], ?_⟩
  rw [ofList_toList, ← h2, List.drop_left]
  exact .cons rfl .nil

theorem slim_region {r : Region} (hr : r ∈ slimRegions) : r = ⟨2, 1 / 50, "fuel".toList⟩ := by
  simpa [slimRegions] using hr

theorem slim_tables : TableFile slimLib slimFile slimRegions 1 slimTables where
  nu r hr e he := by
    obtain rfl := slim_region hr
    obtain rfl : e = 0 := by omega
    exact slim_law (by simp) (by simp [slimLib, slimWord])
  chi r hr e he := by
    obtain rfl := slim_region hr
    obtain rfl : e = 0 := by omega
    exact slim_law (by simp) (by simp [slimLib, slimWord])
  fiss r hr e he := by
    obtain rfl := slim_region hr
    obtain rfl : e = 0 := by omega
    exact slim_law (by simp) (by simp [slimLib, slimWord])
  tot r hr e he := by
    obtain rfl := slim_region hr
    obtain rfl : e = 0 := by omega
    exact slim_law (by simp) (by simp [slimLib, slimWord])
  scatt r hr e f he hf := by
    obtain rfl := slim_region hr
    obtain rfl : e = 0 := by omega
    obtain rfl : f = 0 := by omega
    exact slim_scatt

theorem slim_setting {s : String × List Text} (hs : s ∈ slimSays) : Setting slimFile .diffusion s.1 s.2 :=
  ⟨_, _, blockB_block slimLib_sane slimBlocks.1, saysB_card slimLib_sane (slimSettings s hs)⟩

theorem slim_full : Full slimLib slimFile [.diffusion] .slab slimRegions 1 where
  solvers := ⟨_, _, saysB_card slimLib_sane slimCards.1, .cons (by simp [solverNames]) .nil⟩
  some := by simp
  headers := by
    intro k hk
    obtain rfl : k = .diffusion := by simpa [everyone] using hk
    exact ⟨_, _, saysB_card slimLib_sane slimCards.2.1⟩
  settings := by
    intro k hk key hkey
    obtain rfl : k = .diffusion := by simpa [everyone] using hk
    simp only [settingsOf, List.cons_append, List.nil_append, List.mem_cons, List.not_mem_nil, or_false] at hkey
    rcases hkey with rfl | rfl | rfl | rfl | rfl | rfl
    · exact ⟨_, slim_setting (s := ("accuracy", ["0.001".toList])) (by simp [slimSays]), .accuracy rfl⟩
    · exact ⟨_, slim_setting (s := ("max_iteration_number", ["100".toList])) (by simp [slimSays]), .limit n100 (by decide)⟩
    · exact ⟨_, slim_setting (s := ("albedo", ["1.0".toList, "1.0".toList])) (by simp [slimSays]), .twoAlbedos (by simp) rfl rfl rfl⟩
    · exact ⟨_, slim_setting (s := ("energies", ["1".toList])) (by simp [slimSays]), .groups (wDigit (i := 1) (by decide)) (by decide)⟩
    · exact ⟨_, slim_setting (s := ("direction", ["forward".toList])) (by simp [slimSays]), .direction (Or.inl rfl)⟩
    · exact ⟨_, slim_setting (s := ("eigenmodes", ["fundamental".toList])) (by simp [slimSays]), .modes (Or.inl rfl)⟩
  relaxation := by simp
  body := fun _ => {
    geometry := ⟨_, _, saysB_card slimLib_sane slimCards.2.2.1, by simp [geometries]⟩
    mesh := ⟨_, _, saysB_card slimLib_sane slimCards.2.2.2.1, .cons (wDigit (i := 2) (by decide)) rfl .nil⟩
    some := by simp [slimRegions]
    cells := by simp [slimRegions]
    few := by simp [slimRegions]
    named := by
      intro r hr
      obtain rfl := slim_region hr
      exact wNamed _ _ (by decide)
    headers := by
      intro r hr
      obtain rfl := slim_region hr
      exact ⟨_, _, saysB_card slimLib_sane slimCards.2.2.2.2.2⟩ }
  tables := by
    intro k hk hn r hr name hname e he
    obtain rfl := slim_region hr
    obtain rfl : e = 0 := by omega
    obtain ⟨x, hx⟩ : ∃ x, slimLib.stod (slimWord name) = ok x := ⟨_, rfl⟩
    refine ⟨_, slim_law ?_ hx⟩
    unfold tables at hname
    split at hname <;> simp at hname <;> simp <;> tauto
  scattering := by
    intro k hk hn r hr e f he hf
    obtain rfl := slim_region hr
    obtain rfl : e = 0 := by omega
    obtain rfl : f = 0 := by omega
    exact ⟨_, slim_scatt⟩
  conductivity := by simp
  temperatures := by simp
  sources := by simp
  power := by simp
  kinetics := by simp
  plots := Or.inr ⟨_, _, by simp, saysB_card slimLib_sane slimCards.2.2.2.2.1⟩

theorem slim_critical : CriticalFile slimLib slimFile .diffusion "forward" .slab slimRegions 1 slimTables (Vec.ofList [1, 1]) (1 / 1000) 100 where
  full := slim_full
  data := slim_tables
  diff := fun _ r hr e he => by
    obtain rfl := slim_region hr
    obtain rfl : e = 0 := by omega
    exact slim_law (by simp) (by simp [slimLib, slimWord])
  accuracy := ⟨_, slim_setting (s := ("accuracy", ["0.001".toList])) (by simp [slimSays]), rfl⟩
  limit := ⟨_, slim_setting (s := ("max_iteration_number", ["100".toList])) (by simp [slimSays]), n100, by decide⟩
  albedo := ⟨_, slim_setting (s := ("albedo", ["1.0".toList, "1.0".toList])) (by simp [slimSays]), by rw [ofList_toList]; exact .cons rfl (.cons rfl .nil)⟩
  direction := fun _ => slim_setting (s := ("direction", ["forward".toList])) (by simp [slimSays])
  modes := slim_setting (s := ("eigenmodes", ["fundamental".toList])) (by simp [slimSays])

theorem slim_case {X : Set ℝ} : CriticalCase slimRegions 1 slimTables X where
  widths := by simp [slimRegions]
  nu r hr e he x hx := by simp only [slimTables, valueAt_one]; norm_num
  chi r hr e he x hx := by simp only [slimTables, valueAt_one]; norm_num
  fiss r hr e he x hx := by simp only [slimTables, valueAt_one]; norm_num
  scatt r hr e f he hf x hx := by simp only [slimTables, valueAt_one]; norm_num
  absorbs r hr e he x hx := by
    simp only [slimTables, valueAt_one, Finset.sum_range_succ, Finset.sum_range_zero]
    norm_num
  somewhere := ⟨⟨2, 1 / 50, "fuel".toList⟩, by simp [slimRegions], 0, by norm_num, fun x hx => by simp only [slimTables, valueAt_one]; norm_num⟩
  emitted := fun r hr _ => ⟨0, by norm_num, fun x hx => by simp only [slimTables, valueAt_one]; norm_num⟩
  linked := fun a ha b hb fa fb => ⟨0, 0, by norm_num, by norm_num, fun x hx => by simp only [slimTables, valueAt_one]; norm_num,
    fun x hx => by simp only [slimTables, valueAt_one]; norm_num, .refl⟩

end

end Verif.Input
