import Verif.Input.CompleteProps

/-! # A complete file for one diffusion solver, for examples -/

namespace Verif.Input

open Verif Outcome

noncomputable section

/-- A library that reads the numbers of the example. -/
def critLib : Lib := ⟨fun w => ok (if w = "1.0".toList then 1 else if w = "0.5".toList then 1 / 2 else if w = "2.5".toList then 5 / 2 else if w = "2.0".toList then 2 else
  if w = "0.001".toList then 1 / 1000 else 0), ok 'x'⟩

theorem critLib_sane : Sane critLib := fun c e => by cases e; decide

theorem critLib_clean (ls : List Text) : Clean critLib ls := ⟨critLib_sane, fun _ => ⟨'x', rfl⟩⟩

/-- A slab of one material in two cells that gives all neutrons back at its faces, in one group: the factor is 2.5 * 0.5 / (2.0 - 1.0). -/
def critFile (kind direction modes : Text) : List Text :=
  ["solvers ".toList ++ kind, "geometry slab".toList, "mesh 2 1.0 fuel".toList, "plots neutronFlux totalFlux powerDensity".toList,
    "solver ".toList ++ kind, "accuracy 0.001".toList, "max_iteration_number 100".toList, "albedo 1.0 1.0".toList, "energies 1".toList,
    "direction ".toList ++ direction, "eigenmodes ".toList ++ modes,
    "material fuel".toList, "ni(1) 2.5".toList, "chi(1) 1.0".toList, "fission(1) 0.5".toList, "total(1) 2.0".toList, "diffCoeff(1) 1.0".toList,
    "scattMatrix(1, 1) 1.0".toList]

def critRegions : List Region := [⟨2, 1, "fuel".toList⟩]

/-- The same for a diffusion solver. -/
def critDiffusion : List Text := critFile "diffusion".toList "forward".toList "all".toList

theorem critStored : Stored critDiffusion critDiffusion := (C36_tidy critDiffusion critDiffusion).1 (by rfl)

theorem critProper : Proper critDiffusion := proper_eval (by decide +kernel)

theorem reads_exist {lib : Lib} (h : ∀ w, ∃ x, lib.stod w = ok x) (ws : List Text) : ∃ xs, Reads lib ws xs := by
  induction ws with
  | nil => exact ⟨[], .nil⟩
  | cons w ws ih =>
    obtain ⟨xs, hx⟩ := ih
    obtain ⟨x, e⟩ := h w
    exact ⟨_, .cons e hx⟩

theorem setting_eval {lib : Lib} {lines : List Text} (hs : Sane lib) {k : Calc.Kind} {key : String} {a b : Nat} {l : Text} {ws : List Text}
    (h1 : findBlock lib lines "solver".toList (blockName k) = ok (a, b)) (h2 : findKeyword lib lines key.toList a b = ok l) (h3 : splitLine l = key.toList :: ws) :
    Setting lines k key ws :=
  ⟨a, b, findBlock_sound hs h1, card_eval hs h2 h3⟩

theorem law_eval {lib : Lib} {lines : List Text} (hs : Sane lib) {w key : Text} {n : Nat} {a b : Nat} {l : Text} {ws : List Text} {v : Vec ℝ}
    (h1 : findBlock lib lines "material".toList w = ok (a, b)) (h2 : findKeyword lib lines key a b = ok l) (h3 : splitLine l = ws) (hn : n ≤ ws.length)
    (hv : Reads lib (ws.drop n) v.toList) : Law lib lines w key n v :=
  ⟨a, b, ws, findBlock_sound hs h1, card_eval hs h2 h3, hn, hv⟩

set_option maxRecDepth 20000 in
theorem critB1 : findBlock critLib critDiffusion "solver".toList (blockName .diffusion) = ok (4, 4294967295) := by rfl

set_option maxRecDepth 20000 in
theorem critB2 : findBlock critLib critDiffusion "material".toList "fuel".toList = ok (11, 4294967295) := by rfl

/-- The constants of the file. -/
def critLaw (name : String) : Vec ℝ := Vec.ofList [if name = "ni" then 5 / 2 else if name = "fission" then 1 / 2 else if name = "total" then 2 else 1]

set_option maxRecDepth 20000 in
theorem critLaws (name : String) (h : name = "ni" ∨ name = "chi" ∨ name = "fission" ∨ name = "total" ∨ name = "diffCoeff") :
    Law critLib critDiffusion "fuel".toList (groupKey name 0) 1 (critLaw name) := by
  rcases h with rfl | rfl | rfl | rfl | rfl
  · exact law_eval critLib_sane critB2 (l := "ni(1) 2.5".toList) (by rfl) rfl (by decide) (by unfold critLaw; rw [ofList_toList]; exact .cons rfl .nil)
  · exact law_eval critLib_sane critB2 (l := "chi(1) 1.0".toList) (by rfl) rfl (by decide) (by unfold critLaw; rw [ofList_toList]; exact .cons rfl .nil)
  · exact law_eval critLib_sane critB2 (l := "fission(1) 0.5".toList) (by rfl) rfl (by decide) (by unfold critLaw; rw [ofList_toList]; exact .cons rfl .nil)
  · exact law_eval critLib_sane critB2 (l := "total(1) 2.0".toList) (by rfl) rfl (by decide) (by unfold critLaw; rw [ofList_toList]; exact .cons rfl .nil)
  · exact law_eval critLib_sane critB2 (l := "diffcoeff(1) 1.0".toList) (by rfl) rfl (by decide) (by unfold critLaw; rw [ofList_toList]; exact .cons rfl .nil)

set_option maxRecDepth 20000 in
theorem critScatt : Law critLib critDiffusion "fuel".toList (scattKey 0 0) 2 (critLaw "scatt") :=
  law_eval critLib_sane critB2 (l := "scattmatrix(1, 1) 1.0".toList) (by rfl) rfl (by decide) (by unfold critLaw; rw [ofList_toList]; exact .cons rfl .nil)

set_option maxRecDepth 20000 in
theorem critFull : Full critLib critDiffusion [.diffusion] .slab critRegions 1 where
  solvers := ⟨"solvers".toList, ["diffusion".toList], card_eval critLib_sane (l := "solvers diffusion".toList) (by rfl) (by rfl), .cons (by simp [solverNames]) .nil⟩
  some := by simp
  headers := by
    intro k hk
    obtain rfl : k = .diffusion := by simpa [everyone] using hk
    exact ⟨"solver".toList, "diffusion".toList, card_eval critLib_sane (l := "solver diffusion".toList) (by rfl) (by rfl)⟩
  settings := by
    intro k hk key hkey
    obtain rfl : k = .diffusion := by simpa [everyone] using hk
    have n100 : Numeral "100".toList 100 := .snoc (.snoc (wDigit (i := 1) (by decide)) (i := 0) (by decide)) (i := 0) (by decide)
    have n1 : Numeral "1".toList 1 := wDigit (i := 1) (by decide)
    simp only [settingsOf, List.cons_append, List.nil_append, List.mem_cons, List.not_mem_nil, or_false] at hkey
    rcases hkey with rfl | rfl | rfl | rfl | rfl | rfl
    · exact ⟨["0.001".toList], setting_eval critLib_sane critB1 (l := "accuracy 0.001".toList) (by rfl) (by rfl), .accuracy rfl⟩
    · exact ⟨["100".toList], setting_eval critLib_sane critB1 (l := "max_iteration_number 100".toList) (by rfl) (by rfl), .limit n100 (by decide)⟩
    · exact ⟨["1.0".toList, "1.0".toList], setting_eval critLib_sane critB1 (l := "albedo 1.0 1.0".toList) (by rfl) (by rfl), .twoAlbedos (by simp) rfl rfl rfl⟩
    · exact ⟨["1".toList], setting_eval critLib_sane critB1 (l := "energies 1".toList) (by rfl) (by rfl), .groups n1 (by decide)⟩
    · exact ⟨["forward".toList], setting_eval critLib_sane critB1 (l := "direction forward".toList) (by rfl) (by rfl), .direction (Or.inl rfl)⟩
    · exact ⟨["all".toList], setting_eval critLib_sane critB1 (l := "eigenmodes all".toList) (by rfl) (by rfl), .modes (Or.inr rfl)⟩
  relaxation := by simp
  body := fun _ => {
    geometry := ⟨"geometry".toList, "slab".toList, card_eval critLib_sane (l := "geometry slab".toList) (by rfl) (by rfl), by simp [geometries]⟩
    mesh := ⟨"mesh".toList, ["2".toList, "1.0".toList, "fuel".toList],
      card_eval critLib_sane (l := "mesh 2 1.0 fuel".toList) (by rfl) (by rfl), .cons (wDigit (i := 2) (by decide)) rfl .nil⟩
    some := by simp [critRegions]
    cells := by simp [critRegions]
    few := by simp [critRegions]
    named := by
      intro q hq
      obtain rfl : q = ⟨2, 1, "fuel".toList⟩ := by simpa [critRegions] using hq
      exact wNamed _ _ (by decide)
    headers := by
      intro q hq
      obtain rfl : q = ⟨2, 1, "fuel".toList⟩ := by simpa [critRegions] using hq
      exact ⟨"material".toList, "fuel".toList, card_eval critLib_sane (l := "material fuel".toList) (by rfl) (by rfl)⟩ }
  tables := by
    intro k hk hn q hq name hname e he
    obtain rfl : e = 0 := by omega
    obtain rfl : q = ⟨2, 1, "fuel".toList⟩ := by simpa [critRegions] using hq
    refine ⟨_, critLaws name ?_⟩
    unfold tables at hname
    split at hname <;> simp at hname <;> tauto
  scattering := by
    intro k hk hn q hq e f he hf
    obtain rfl : e = 0 := by omega
    obtain rfl : f = 0 := by omega
    obtain rfl : q = ⟨2, 1, "fuel".toList⟩ := by simpa [critRegions] using hq
    exact ⟨_, critScatt⟩
  conductivity := by simp
  temperatures := by simp
  sources := by simp
  power := by simp
  kinetics := by simp
  plots := Or.inr ⟨"plots".toList, ["neutronflux".toList, "totalflux".toList, "powerdensity".toList], by simp,
    card_eval critLib_sane (l := "plots neutronflux totalflux powerdensity".toList) (by rfl) (by rfl)⟩

end

end Verif.Input
