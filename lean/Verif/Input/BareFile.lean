import Verif.Input.SlimFile

/-! # A slab without scattering that gives all neutrons back, for examples -/

namespace Verif.Input

open Verif Outcome

noncomputable section

/-- A transport calculation of a slab of two cells, in one group: the factor is 2.5 * 0.5 / 2.0. -/
def bareFile : List Text :=
  ["solvers transport".toList, "geometry slab".toList, "mesh 2 0.02 fuel".toList, "plots neutronFlux totalFlux powerDensity".toList,
    "solver transport".toList, "accuracy 0.001".toList, "max_iteration_number 100".toList, "albedo 1.0".toList, "energies 1".toList,
    "direction forward".toList, "eigenmodes fundamental".toList,
    "material fuel".toList, "ni(1) 2.5".toList, "chi(1) 1.0".toList, "fission(1) 0.5".toList, "total(1) 2.0".toList, "diffCoeff(1) 1.0".toList,
    "scattMatrix(1, 1) 0.0".toList]

def bareRegions : List Region := [⟨2, 1 / 50, "fuel".toList⟩]

/-- The data of the file. -/
def bareTables : Tables where
  nu _ _ := Vec.ofList [5 / 2]
  chi _ _ := Vec.ofList [1]
  fiss _ _ := Vec.ofList [1 / 2]
  tot _ _ := Vec.ofList [2]
  scatt _ _ _ := Vec.ofList [0]
  diff _ _ := Vec.ofList [1]

theorem bareStored : Stored bareFile bareFile := (C36_tidy _ _).1 (by rfl)

theorem bareProper : Proper bareFile := proper_eval (by decide +kernel)

theorem bareBlocks : blockB slimLib bareFile "solver".toList (blockName .transport) 4 4294967295 = true ∧
    blockB slimLib bareFile "material".toList "fuel".toList 11 4294967295 = true := by
  decide +kernel

/-- The number of the file under the heading `name`. -/
def bareWord (name : String) : Text :=
  if name = "ni" then "2.5".toList else if name = "fission" then "0.5".toList else if name = "total" then "2.0".toList else "1.0".toList

theorem bareMaterials : ∀ name ∈ ["ni", "chi", "fission", "total", "diffCoeff"],
    saysB slimLib bareFile (groupKey name 0) 11 4294967295 [small (groupKey name 0), bareWord name] = true := by
  decide +kernel

theorem bareMatrix : saysB slimLib bareFile (scattKey 0 0) 11 4294967295 (splitLine (small (scattKey 0 0)) ++ ["0.0".toList]) = true ∧
    (splitLine (small (scattKey 0 0))).length = 2 := by
  decide +kernel

/-- The settings of the file. -/
def bareSays : List (String × List Text) := [("accuracy", ["0.001".toList]), ("max_iteration_number", ["100".toList]), ("albedo", ["1.0".toList]),
  ("energies", ["1".toList]), ("direction", ["forward".toList]), ("eigenmodes", ["fundamental".toList])]

theorem bareSettings : ∀ s ∈ bareSays, saysB slimLib bareFile s.1.toList 4 4294967295 (s.1.toList :: s.2) = true := by
  decide +kernel

theorem bareCards : saysB slimLib bareFile "solvers".toList 0 4294967295 ["solvers".toList, "transport".toList] = true ∧
    saysB slimLib bareFile ("solver ".toList ++ blockName .transport) 0 4294967295 ["solver".toList, "transport".toList] = true ∧
    saysB slimLib bareFile "geometry".toList 0 4294967295 ["geometry".toList, "slab".toList] = true ∧
    saysB slimLib bareFile "mesh".toList 0 4294967295 ["mesh".toList, "2".toList, "0.02".toList, "fuel".toList] = true ∧
    saysB slimLib bareFile "plots".toList 0 4294967295 ["plots".toList, "neutronflux".toList, "totalflux".toList, "powerdensity".toList] = true ∧
    saysB slimLib bareFile "material fuel".toList 0 4294967295 ["material".toList, "fuel".toList] = true := by
  decide +kernel

theorem bare_law {name : String} (hn : name ∈ ["ni", "chi", "fission", "total", "diffCoeff"]) {x : ℝ} (hx : slimLib.stod (bareWord name) = ok x) :
    Law slimLib bareFile "fuel".toList (groupKey name 0) 1 (Vec.ofList [x]) := by
  refine ⟨_, _, [small (groupKey name 0), bareWord name], blockB_block slimLib_sane bareBlocks.2, saysB_card slimLib_sane (bareMaterials name hn), by simp, ?_⟩
  rw [ofList_toList]
  exact .cons hx .nil

set_option maxRecDepth 20000 in
theorem bare_scatt : Law slimLib bareFile "fuel".toList (scattKey 0 0) 2 (Vec.ofList [0]) := by
  obtain ⟨h1, h2⟩ := bareMatrix
  refine ⟨_, _, _, blockB_block slimLib_sane bareBlocks.2, saysB_card slimLib_sane h1, by simp [h2], ?_⟩
  rw [ofList_toList, ← h2, List.drop_left]
  exact .cons rfl .nil

theorem bare_region {r : Region} (hr : r ∈ bareRegions) : r = ⟨2, 1 / 50, "fuel".toList⟩ := by
  simpa [bareRegions] using hr

theorem bare_tables : TableFile slimLib bareFile bareRegions 1 bareTables where
  nu r hr e he := by
    obtain rfl := bare_region hr
    obtain rfl : e = 0 := by omega
    exact bare_law (by simp) (by simp [slimLib, bareWord])
  chi r hr e he := by
    obtain rfl := bare_region hr
    obtain rfl : e = 0 := by omega
    exact bare_law (by simp) (by simp [slimLib, bareWord])
  fiss r hr e he := by
    obtain rfl := bare_region hr
    obtain rfl : e = 0 := by omega
    exact bare_law (by simp) (by simp [slimLib, bareWord])
  tot r hr e he := by
    obtain rfl := bare_region hr
    obtain rfl : e = 0 := by omega
    exact bare_law (by simp) (by simp [slimLib, bareWord])
  scatt r hr e f he hf := by
    obtain rfl := bare_region hr
    obtain rfl : e = 0 := by omega
    obtain rfl : f = 0 := by omega
    exact bare_scatt

theorem bare_setting {s : String × List Text} (hs : s ∈ bareSays) : Setting bareFile .transport s.1 s.2 :=
  ⟨_, _, blockB_block slimLib_sane bareBlocks.1, saysB_card slimLib_sane (bareSettings s hs)⟩

theorem bare_full : Full slimLib bareFile [.transport] .slab bareRegions 1 where
  solvers := ⟨_, _, saysB_card slimLib_sane bareCards.1, .cons (by simp [solverNames]) .nil⟩
  some := by simp
  headers := by
    intro k hk
    obtain rfl : k = .transport := by simpa [everyone] using hk
    exact ⟨_, _, saysB_card slimLib_sane bareCards.2.1⟩
  settings := by
    intro k hk key hkey
    obtain rfl : k = .transport := by simpa [everyone] using hk
    simp only [settingsOf, List.cons_append, List.nil_append, List.mem_cons, List.not_mem_nil, or_false] at hkey
    rcases hkey with rfl | rfl | rfl | rfl | rfl
    · exact ⟨_, bare_setting (s := ("accuracy", ["0.001".toList])) (by simp [bareSays]), .accuracy rfl⟩
    · exact ⟨_, bare_setting (s := ("max_iteration_number", ["100".toList])) (by simp [bareSays]), .limit n100 (by decide)⟩
    · exact ⟨_, bare_setting (s := ("albedo", ["1.0".toList])) (by simp [bareSays]), .oneAlbedo (Or.inl rfl) rfl⟩
    · exact ⟨_, bare_setting (s := ("energies", ["1".toList])) (by simp [bareSays]), .groups (wDigit (i := 1) (by decide)) (by decide)⟩
    · exact ⟨_, bare_setting (s := ("eigenmodes", ["fundamental".toList])) (by simp [bareSays]), .modes (Or.inl rfl)⟩
  relaxation := by simp
  body := fun _ => {
    geometry := ⟨_, _, saysB_card slimLib_sane bareCards.2.2.1, by simp [geometries]⟩
    mesh := ⟨_, _, saysB_card slimLib_sane bareCards.2.2.2.1, .cons (wDigit (i := 2) (by decide)) rfl .nil⟩
    some := by simp [bareRegions]
    cells := by simp [bareRegions]
    few := by simp [bareRegions]
    named := by
      intro r hr
      obtain rfl := bare_region hr
      exact wNamed _ _ (by decide)
    headers := by
      intro r hr
      obtain rfl := bare_region hr
      exact ⟨_, _, saysB_card slimLib_sane bareCards.2.2.2.2.2⟩ }
  tables := by
    intro k hk hn r hr name hname e he
    obtain rfl := bare_region hr
    obtain rfl : e = 0 := by omega
    obtain ⟨x, hx⟩ : ∃ x, slimLib.stod (bareWord name) = ok x := ⟨_, rfl⟩
    refine ⟨_, bare_law ?_ hx⟩
    unfold tables at hname
    split at hname <;> simp at hname <;> simp <;> tauto
  scattering := by
    intro k hk hn r hr e f he hf
    obtain rfl := bare_region hr
    obtain rfl : e = 0 := by omega
    obtain rfl : f = 0 := by omega
    exact ⟨_, bare_scatt⟩
  conductivity := by simp
  temperatures := by simp
  sources := by simp
  power := by simp
  kinetics := by simp
  plots := Or.inr ⟨_, _, by simp, saysB_card slimLib_sane bareCards.2.2.2.2.1⟩

theorem bare_critical {dir : String} : CriticalFile slimLib bareFile .transport dir .slab bareRegions 1 bareTables (Vec.ofList [1]) (1 / 1000) 100 where
  full := bare_full
  data := bare_tables
  diff := by simp
  accuracy := ⟨_, bare_setting (s := ("accuracy", ["0.001".toList])) (by simp [bareSays]), rfl⟩
  limit := ⟨_, bare_setting (s := ("max_iteration_number", ["100".toList])) (by simp [bareSays]), n100, by decide⟩
  albedo := ⟨_, bare_setting (s := ("albedo", ["1.0".toList])) (by simp [bareSays]), by rw [ofList_toList]; exact .cons rfl .nil⟩
  direction := by simp
  modes := bare_setting (s := ("eigenmodes", ["fundamental".toList])) (by simp [bareSays])

theorem bare_case {X : Set ℝ} : CriticalCase bareRegions 1 bareTables X where
  widths := by simp [bareRegions]
  nu r hr e he x hx := by simp only [bareTables, valueAt_one]; norm_num
  chi r hr e he x hx := by simp only [bareTables, valueAt_one]; norm_num
  fiss r hr e he x hx := by simp only [bareTables, valueAt_one]; norm_num
  scatt r hr e f he hf x hx := by simp only [bareTables, valueAt_one]; norm_num
  absorbs r hr e he x hx := by
    simp only [bareTables, valueAt_one, Finset.sum_range_succ, Finset.sum_range_zero]
    norm_num
  somewhere := ⟨⟨2, 1 / 50, "fuel".toList⟩, by simp [bareRegions], 0, by norm_num, fun x hx => by simp only [bareTables, valueAt_one]; norm_num⟩
  emitted := fun r hr _ => ⟨0, by norm_num, fun x hx => by simp only [bareTables, valueAt_one]; norm_num⟩
  linked := fun a ha b hb fa fb => ⟨0, 0, by norm_num, by norm_num, fun x hx => by simp only [bareTables, valueAt_one]; norm_num,
    fun x hx => by simp only [bareTables, valueAt_one]; norm_num, .refl⟩

end

end Verif.Input
