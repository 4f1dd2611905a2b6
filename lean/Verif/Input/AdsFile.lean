import Verif.Input.PileFile

/-! # A slab with a source, for examples -/

namespace Verif.Input

open Verif Outcome Finset

noncomputable section

/-- A library that reads the numbers of the example. -/
def adsLib : Lib := ⟨fun w => ok (if w = "1.0".toList then 1 else if w = "0.5".toList then 1 / 2 else if w = "0.02".toList then 1 / 50 else 0), ok 'x'⟩

theorem adsLib_sane : Sane adsLib := fun c e => by cases e; decide

theorem adsLib_clean (ls : List Text) : Clean adsLib ls := ⟨adsLib_sane, fun _ => ⟨'x', rfl⟩⟩

/-- Two cells of one centimetre, reflected on both sides, half a neutron per collision and a source in the first cell. -/
def adsFile : List Text :=
  ["solvers ads".toList, "geometry slab".toList, "mesh 2 0.02 fuel".toList, "plots neutronFlux totalFlux".toList,
    "solver ads".toList, "accuracy 0.5".toList, "max_iteration_number 100".toList, "albedo 1.0 1.0".toList, "energies 1".toList, "ext_source 1.0 1 1".toList,
    "material fuel".toList, "ni(1) 1.0".toList, "chi(1) 1.0".toList, "fission(1) 0.5".toList, "total(1) 1.0".toList, "diffCoeff(1) 1.0".toList,
    "scattMatrix(1, 1) 0.0".toList]

def adsRegions : List Region := [⟨2, 1 / 50, "fuel".toList⟩]

/-- The data of the file. -/
def adsTables : Tables where
  nu _ _ := Vec.ofList [1]
  chi _ _ := Vec.ofList [1]
  fiss _ _ := Vec.ofList [1 / 2]
  tot _ _ := Vec.ofList [1]
  scatt _ _ _ := Vec.ofList [0]
  diff _ _ := Vec.ofList [1]

theorem adsStored : Stored adsFile adsFile := (C36_tidy adsFile adsFile).1 (by rfl)

theorem adsProper : Proper adsFile := proper_eval (by decide +kernel)

theorem adsBlocks : blockB adsLib adsFile "solver".toList (blockName .ads) 4 4294967295 = true ∧ blockB adsLib adsFile "material".toList "fuel".toList 10 4294967295 = true := by
  decide +kernel

/-- The number of the file under the heading `name`. -/
def adsWord (name : String) : Text := if name = "fission" then "0.5".toList else "1.0".toList

theorem adsMaterials : (∀ name ∈ ["ni", "chi", "fission", "total", "diffCoeff"],
    saysB adsLib adsFile (groupKey name 0) 10 4294967295 [small (groupKey name 0), adsWord name] = true) ∧
    saysB adsLib adsFile (scattKey 0 0) 10 4294967295 ["scattmatrix(1,".toList, "1)".toList, "0.0".toList] = true := by
  decide +kernel

theorem adsSettings : ∀ s ∈ [("accuracy", ["0.5".toList]), ("max_iteration_number", ["100".toList]), ("albedo", ["1.0".toList, "1.0".toList]), ("energies", ["1".toList]),
      ("ext_source", ["1.0".toList, "1".toList, "1".toList])],
    saysB adsLib adsFile s.1.toList 4 4294967295 (s.1.toList :: s.2) = true := by
  decide +kernel

theorem adsCards : saysB adsLib adsFile "solvers".toList 0 4294967295 ["solvers".toList, "ads".toList] = true ∧
    saysB adsLib adsFile ("solver ".toList ++ blockName .ads) 0 4294967295 ["solver".toList, "ads".toList] = true ∧
    saysB adsLib adsFile "geometry".toList 0 4294967295 ["geometry".toList, "slab".toList] = true ∧
    saysB adsLib adsFile "mesh".toList 0 4294967295 ["mesh".toList, "2".toList, "0.02".toList, "fuel".toList] = true ∧
    saysB adsLib adsFile "plots".toList 0 4294967295 ["plots".toList, "neutronflux".toList, "totalflux".toList] = true ∧
    saysB adsLib adsFile "material fuel".toList 0 4294967295 ["material".toList, "fuel".toList] = true := by
  decide +kernel

theorem ads_law {name : String} (hn : name ∈ ["ni", "chi", "fission", "total", "diffCoeff"]) {x : ℝ} (hx : adsLib.stod (adsWord name) = ok x) :
    Law adsLib adsFile "fuel".toList (groupKey name 0) 1 (Vec.ofList [x]) := by
  refine ⟨_, _, [small (groupKey name 0), adsWord name], blockB_block adsLib_sane adsBlocks.2, saysB_card adsLib_sane (adsMaterials.1 name hn), by simp, ?_⟩
  rw [ofList_toList]
  exact .cons hx .nil

theorem ads_scatt : Law adsLib adsFile "fuel".toList (scattKey 0 0) 2 (Vec.ofList [0]) := by
  refine ⟨_, _, _, blockB_block adsLib_sane adsBlocks.2, saysB_card adsLib_sane adsMaterials.2, by simp, ?_⟩
  rw [ofList_toList]
  exact .cons (by simp [adsLib]) .nil

theorem ads_region {q : Region} (hq : q ∈ adsRegions) : q = ⟨2, 1 / 50, "fuel".toList⟩ := by simpa [adsRegions] using hq

theorem ads_tables : TableFile adsLib adsFile adsRegions 1 adsTables where
  nu q hq e he := by obtain rfl := ads_region hq; obtain rfl : e = 0 := by omega
                     exact ads_law (by simp) (by simp [adsLib, adsWord])
  chi q hq e he := by obtain rfl := ads_region hq; obtain rfl : e = 0 := by omega
                      exact ads_law (by simp) (by simp [adsLib, adsWord])
  fiss q hq e he := by obtain rfl := ads_region hq; obtain rfl : e = 0 := by omega
                       exact ads_law (by simp) (by simp [adsLib, adsWord])
  tot q hq e he := by obtain rfl := ads_region hq; obtain rfl : e = 0 := by omega
                      exact ads_law (by simp) (by simp [adsLib, adsWord])
  scatt q hq e f he hf := by obtain rfl := ads_region hq; obtain rfl : e = 0 := by omega
                             obtain rfl : f = 0 := by omega
                             exact ads_scatt

theorem ads_diff : DiffFile adsLib adsFile adsRegions 1 adsTables := fun q hq e he => by
  obtain rfl := ads_region hq
  obtain rfl : e = 0 := by omega
  exact ads_law (by simp) (by simp [adsLib, adsWord])

theorem ads_setting {s : String × List Text} (hs : s ∈ [("accuracy", ["0.5".toList]), ("max_iteration_number", ["100".toList]), ("albedo", ["1.0".toList, "1.0".toList]),
    ("energies", ["1".toList]), ("ext_source", ["1.0".toList, "1".toList, "1".toList])]) : Setting adsFile .ads s.1 s.2 :=
  ⟨_, _, blockB_block adsLib_sane adsBlocks.1, saysB_card adsLib_sane (adsSettings s hs)⟩

theorem ads_full : Full adsLib adsFile [.ads] .slab adsRegions 1 where
  solvers := ⟨_, _, saysB_card adsLib_sane adsCards.1, .cons (by simp [solverNames]) .nil⟩
  some := by simp
  headers := by
    intro k hk
    obtain rfl : k = .ads := by simpa [everyone] using hk
    exact ⟨_, _, saysB_card adsLib_sane adsCards.2.1⟩
  settings := by
    intro k hk key hkey
    obtain rfl : k = .ads := by simpa [everyone] using hk
    have S := fun s hs => ads_setting (s := s) hs
    have n1 : Numeral "1".toList 1 := wDigit (i := 1) (by decide)
    have hkey' : key = "accuracy" ∨ key = "max_iteration_number" ∨ key = "albedo" ∨ key = "energies" ∨ key = "ext_source" := by
      simp [settingsOf] at hkey
      tauto
    rcases hkey' with rfl | rfl | rfl | rfl | rfl
    · exact ⟨_, S ("accuracy", ["0.5".toList]) (by simp), .accuracy rfl⟩
    · exact ⟨_, S ("max_iteration_number", ["100".toList]) (by simp), .limit n100 (by decide)⟩
    · exact ⟨_, S ("albedo", ["1.0".toList, "1.0".toList]) (by simp), .twoAlbedos (by simp) rfl rfl rfl⟩
    · exact ⟨_, S ("energies", ["1".toList]) (by simp), .groups n1 (by decide)⟩
    · exact ⟨_, S ("ext_source", ["1.0".toList, "1".toList, "1".toList]) (by simp), .source rfl n1 (by decide) n1 (by decide)⟩
  relaxation := by simp
  body := fun _ => {
    geometry := ⟨_, _, saysB_card adsLib_sane adsCards.2.2.1, by simp [geometries]⟩
    mesh := ⟨_, _, saysB_card adsLib_sane adsCards.2.2.2.1, .cons (wDigit (i := 2) (by decide)) rfl .nil⟩
    some := by simp [adsRegions]
    cells := by simp [adsRegions]
    few := by simp [adsRegions]
    named := by
      intro q hq
      obtain rfl := ads_region hq
      exact wNamed _ _ (by decide)
    headers := by
      intro q hq
      obtain rfl := ads_region hq
      exact ⟨_, _, saysB_card adsLib_sane adsCards.2.2.2.2.2⟩ }
  tables := by
    intro k hk hn q hq name hname e he
    obtain rfl := ads_region hq
    obtain rfl : e = 0 := by omega
    obtain ⟨x, hx⟩ : ∃ x, adsLib.stod (adsWord name) = ok x := ⟨_, rfl⟩
    refine ⟨_, ads_law ?_ hx⟩
    unfold tables at hname
    split at hname <;> simp at hname <;> simp <;> tauto
  scattering := by
    intro k hk hn q hq e f he hf
    obtain rfl := ads_region hq
    obtain rfl : e = 0 := by omega
    obtain rfl : f = 0 := by omega
    exact ⟨_, ads_scatt⟩
  conductivity := by simp
  temperatures := by simp
  sources := by simp
  power := by simp
  kinetics := by simp
  plots := Or.inr ⟨_, _, by simp, saysB_card adsLib_sane adsCards.2.2.2.2.1⟩

theorem ads_driven : DrivenFile adsLib adsFile .slab adsRegions 1 adsTables (Vec.ofList [1, 1]) 1 0 0 where
  full := ads_full
  data := ads_tables
  diff := ads_diff
  albedo := ⟨_, ads_setting (s := ("albedo", ["1.0".toList, "1.0".toList])) (by simp), by rw [ofList_toList]; exact .cons rfl (.cons rfl .nil)⟩
  source := ⟨_, _, _, ads_setting (s := ("ext_source", ["1.0".toList, "1".toList, "1".toList])) (by simp), rfl, wDigit (i := 1) (by decide), wDigit (i := 1) (by decide)⟩

theorem ads_case {X : Set ℝ} : CriticalCase adsRegions 1 adsTables X where
  widths := by simp [adsRegions]
  nu q hq e he x hx := by simp only [adsTables, valueAt_one]; norm_num
  chi q hq e he x hx := by simp only [adsTables, valueAt_one]; norm_num
  fiss q hq e he x hx := by simp only [adsTables, valueAt_one]; norm_num
  scatt q hq e f he hf x hx := by simp only [adsTables, valueAt_one]; norm_num
  absorbs q hq e he x hx := by
    simp only [adsTables, valueAt_one, Finset.sum_range_succ, Finset.sum_range_zero]
    norm_num
  somewhere := ⟨⟨2, 1 / 50, "fuel".toList⟩, by simp [adsRegions], 0, by norm_num, fun x hx => by simp only [adsTables, valueAt_one]; norm_num⟩
  emitted q hq _ := ⟨0, by norm_num, fun x hx => by simp only [adsTables, valueAt_one]; norm_num⟩
  linked a ha b hb _ _ := ⟨0, 0, by norm_num, by norm_num, fun x hx => by simp only [adsTables, valueAt_one]; norm_num, fun x hx => by simp only [adsTables, valueAt_one]; norm_num, .refl⟩

theorem ads_good : Calc.GoodAlbedos .slab (Vec.ofList [(1 : ℝ), 1]) := by
  refine ⟨fun _ => ⟨?_, ?_, ?_⟩, ?_, ?_, ?_⟩ <;> simp [Vec.ofList] <;> norm_num

end

end Verif.Input
