import Verif.Input.CriticalSpec
import Verif.Input.CriticalFile

/-! # A cylinder of two materials in two groups, for examples -/

namespace Verif.Input

open Verif Outcome

noncomputable section

/-- Does the search for a keyword give these words? -/
def saysB (lib : Lib) (lines : List Text) (key : Text) (a b : Nat) (ws : List Text) : Bool :=
  match findKeyword lib lines key a b with
  | .ok l => splitLine l == ws
  | _ => false

/-- Does a block have these lines? -/
def blockB (lib : Lib) (lines : List Text) (one two : Text) (a b : Nat) : Bool :=
  match findBlock lib lines one two with
  | .ok q => q == (a, b)
  | _ => false

theorem saysB_card {lib : Lib} (hs : Sane lib) {lines : List Text} {key : Text} {a b : Nat} {ws : List Text} (h : saysB lib lines key a b ws = true) :
    CardIn lines key a b ws := by
  unfold saysB at h
  split at h
  · exact card_eval hs (by assumption) (by simpa using h)
  · cases h

theorem blockB_block {lib : Lib} (hs : Sane lib) {lines : List Text} {one two : Text} {a b : Nat} (h : blockB lib lines one two a b = true) :
    Block lines one two a b := by
  unfold blockB at h
  split at h
  · rename_i q hq
    obtain rfl : q = (a, b) := by simpa using h
    exact findBlock_sound hs hq
  · cases h

/-- A cylinder of fuel and water with a surface that sends half of the neutrons back (or another part of them). Fissions happen in the second group and give neutrons of the first. -/
def pileFile (kind direction modes : Text) (albedo : Text := "0.5".toList) : List Text :=
  ["solvers ".toList ++ kind, "geometry cylinder".toList, "mesh 2 1.0 fuel 1 0.5 water".toList, "plots neutronFlux powerDensity".toList,
    "solver ".toList ++ kind, "accuracy 0.001".toList, "max_iteration_number 100".toList, "albedo ".toList ++ albedo, "energies 2".toList,
    "direction ".toList ++ direction, "eigenmodes ".toList ++ modes, "ext_source 1.0 1 2".toList,
    "material fuel".toList, "ni(1) 2.5".toList, "ni(2) 2.5".toList, "chi(1) 1.0".toList, "chi(2) 0.0".toList, "fission(1) 0.0".toList, "fission(2) 1.0".toList,
    "total(1) 2.0".toList, "total(2) 2.0".toList, "diffCoeff(1) 1.0".toList, "diffCoeff(2) 0.5".toList,
    "scattMatrix(1, 1) 0.5".toList, "scattMatrix(1, 2) 1.0".toList, "scattMatrix(2, 1) 0.0".toList, "scattMatrix(2, 2) 0.5".toList,
    "material water".toList, "ni(1) 0.0".toList, "ni(2) 0.0".toList, "chi(1) 0.0".toList, "chi(2) 0.0".toList, "fission(1) 0.0".toList, "fission(2) 0.0".toList,
    "total(1) 2.0".toList, "total(2) 2.0".toList, "diffCoeff(1) 1.0".toList, "diffCoeff(2) 0.5".toList,
    "scattMatrix(1, 1) 0.5".toList, "scattMatrix(1, 2) 1.0".toList, "scattMatrix(2, 1) 0.0".toList, "scattMatrix(2, 2) 1.0".toList]

def pileRegions : List Region := [⟨2, 1, "fuel".toList⟩, ⟨1, 1 / 2, "water".toList⟩]

/-- The data of the file. -/
def pileTables : Tables where
  nu _ w := Vec.ofList [if w = "fuel".toList then 5 / 2 else 0]
  chi e w := Vec.ofList [if w = "fuel".toList ∧ e = 0 then 1 else 0]
  fiss e w := Vec.ofList [if w = "fuel".toList ∧ e = 1 then 1 else 0]
  tot _ _ := Vec.ofList [2]
  scatt e f w := Vec.ofList [if e = 0 then (if f = 0 then 1 / 2 else 1) else if f = 0 then 0 else if w = "fuel".toList then 1 / 2 else 1]
  diff e _ := Vec.ofList [if e = 0 then 1 else 1 / 2]

/-- The variants used. -/
def pileKinds : List (Calc.Kind × Text × Text × Text × Text) :=
  [(.diffusion, "diffusion".toList, "forward".toList, "fundamental".toList, "0.5".toList), (.diffusion, "diffusion".toList, "adjoint".toList, "fundamental".toList, "0.5".toList),
    (.transport, "transport".toList, "forward".toList, "fundamental".toList, "0.5".toList), (.ads, "ads".toList, "forward".toList, "fundamental".toList, "0.5".toList),
    (.diffusion, "diffusion".toList, "forward".toList, "fundamental".toList, "0.0".toList)]

/-- The variant `q`. -/
def pileOf (q : Calc.Kind × Text × Text × Text × Text) : List Text := pileFile q.2.1 q.2.2.1 q.2.2.2.1 q.2.2.2.2

theorem pileStored : ∀ q ∈ pileKinds, Stored (pileOf q) (pileOf q) := by
  intro q hq
  simp only [pileKinds, List.mem_cons, List.not_mem_nil, or_false] at hq
  rcases hq with rfl | rfl | rfl | rfl | rfl <;> exact (C36_tidy _ _).1 (by rfl)

theorem pileProper : ∀ q ∈ pileKinds, Proper (pileOf q) := by
  have h : ∀ q ∈ pileKinds, (active (pileOf q)).all (fun m => settingKeys.all (fun k => !has (small k.toList) (small m) || (splitLine (small m)).head? == some k.toList)) = true := by
    decide +kernel
  exact fun q hq => proper_eval (h q hq)

theorem pileBlocks : ∀ q ∈ pileKinds, blockB critLib (pileOf q) "solver".toList (blockName q.1) 4 4294967295 = true ∧
    blockB critLib (pileOf q) "material".toList "fuel".toList 12 27 = true ∧ blockB critLib (pileOf q) "material".toList "water".toList 27 4294967295 = true := by
  decide +kernel

/-- The lines of the material. -/
def pileLines (w : Text) : Nat × Nat := if w = "fuel".toList then (12, 27) else (27, 4294967295)

/-- The number of the file under the heading `name` of group `e`. -/
def pileWord (name : String) (e : Nat) (w : Text) : Text :=
  if name = "ni" then (if w = "fuel".toList then "2.5".toList else "0.0".toList)
  else if name = "chi" then (if w = "fuel".toList ∧ e = 0 then "1.0".toList else "0.0".toList)
  else if name = "fission" then (if w = "fuel".toList ∧ e = 1 then "1.0".toList else "0.0".toList)
  else if name = "total" then "2.0".toList
  else if e = 0 then "1.0".toList else "0.5".toList

/-- The number for the scattering from `e` to `f`. -/
def pileScatt (e f : Nat) (w : Text) : Text :=
  if e = 0 then (if f = 0 then "0.5".toList else "1.0".toList) else if f = 0 then "0.0".toList else if w = "fuel".toList then "0.5".toList else "1.0".toList

theorem pileMaterials : ∀ q ∈ pileKinds, ∀ w ∈ ["fuel".toList, "water".toList], ∀ e ∈ [0, 1], ∀ name ∈ ["ni", "chi", "fission", "total", "diffCoeff"],
    saysB critLib (pileOf q) (groupKey name e) (pileLines w).1 (pileLines w).2 [small (groupKey name e), pileWord name e w] = true := by
  decide +kernel

theorem pileMatrices : ∀ q ∈ pileKinds, ∀ w ∈ ["fuel".toList, "water".toList], ∀ e ∈ [0, 1], ∀ f ∈ [0, 1],
    saysB critLib (pileOf q) (scattKey e f) (pileLines w).1 (pileLines w).2 (splitLine (small (scattKey e f)) ++ [pileScatt e f w]) = true ∧
      (splitLine (small (scattKey e f))).length = 2 := by
  decide +kernel

theorem pileSettings : ∀ q ∈ pileKinds, ∀ s ∈ [("accuracy", ["0.001".toList]), ("max_iteration_number", ["100".toList]), ("albedo", [q.2.2.2.2]), ("energies", ["2".toList]),
      ("direction", [q.2.2.1]), ("eigenmodes", [q.2.2.2.1]), ("ext_source", ["1.0".toList, "1".toList, "2".toList])],
    saysB critLib (pileOf q) s.1.toList 4 4294967295 (s.1.toList :: s.2) = true := by
  decide +kernel

theorem pileCards : ∀ q ∈ pileKinds, saysB critLib (pileOf q) "solvers".toList 0 4294967295 ["solvers".toList, q.2.1] = true ∧
    saysB critLib (pileOf q) ("solver ".toList ++ blockName q.1) 0 4294967295 ["solver".toList, q.2.1] = true ∧
    saysB critLib (pileOf q) "geometry".toList 0 4294967295 ["geometry".toList, "cylinder".toList] = true ∧
    saysB critLib (pileOf q) "mesh".toList 0 4294967295 ["mesh".toList, "2".toList, "1.0".toList, "fuel".toList, "1".toList, "0.5".toList, "water".toList] = true ∧
    saysB critLib (pileOf q) "plots".toList 0 4294967295 ["plots".toList, "neutronflux".toList, "powerdensity".toList] = true ∧
    saysB critLib (pileOf q) "material fuel".toList 0 4294967295 ["material".toList, "fuel".toList] = true ∧
    saysB critLib (pileOf q) "material water".toList 0 4294967295 ["material".toList, "water".toList] = true := by
  decide +kernel

theorem pile_block {q : Calc.Kind × Text × Text × Text × Text} (hq : q ∈ pileKinds) {w : Text} (hw : w = "fuel".toList ∨ w = "water".toList) :
    Block (pileOf q) "material".toList w (pileLines w).1 (pileLines w).2 := by
  rcases hw with rfl | rfl
  · exact blockB_block critLib_sane (pileBlocks q hq).2.1
  · exact blockB_block critLib_sane (pileBlocks q hq).2.2

theorem two_cases {e : Nat} (h : e < 2) : e ∈ [0, 1] := by
  have : e = 0 ∨ e = 1 := by omega
  simpa using this

theorem pile_law {q : Calc.Kind × Text × Text × Text × Text} (hq : q ∈ pileKinds) {w : Text} (hw : w = "fuel".toList ∨ w = "water".toList) {name : String}
    (hn : name ∈ ["ni", "chi", "fission", "total", "diffCoeff"]) {e : Nat} (he : e < 2) {x : ℝ} (hx : critLib.stod (pileWord name e w) = ok x) :
    Law critLib (pileOf q) w (groupKey name e) 1 (Vec.ofList [x]) := by
  refine ⟨_, _, [small (groupKey name e), pileWord name e w], pile_block hq hw, saysB_card critLib_sane (pileMaterials q hq w (by simpa using hw) e (two_cases he) name hn), by simp, ?_⟩
  rw [ofList_toList]
  exact .cons hx .nil

theorem pile_scatt {q : Calc.Kind × Text × Text × Text × Text} (hq : q ∈ pileKinds) {w : Text} (hw : w = "fuel".toList ∨ w = "water".toList) {e f : Nat} (he : e < 2) (hf : f < 2) {x : ℝ}
    (hx : critLib.stod (pileScatt e f w) = ok x) : Law critLib (pileOf q) w (scattKey e f) 2 (Vec.ofList [x]) := by
  obtain ⟨h1, h2⟩ := pileMatrices q hq w (by simpa using hw) e (two_cases he) f (two_cases hf)
  refine ⟨_, _, _, pile_block hq hw, saysB_card critLib_sane h1, by simp [h2], ?_⟩
  rw [ofList_toList, ← h2, List.drop_left]
  exact .cons hx .nil

theorem pile_mat {r : Region} (hr : r ∈ pileRegions) : r.mat = "fuel".toList ∨ r.mat = "water".toList := by
  simp only [pileRegions, List.mem_cons, List.not_mem_nil, or_false] at hr
  rcases hr with rfl | rfl
  · exact Or.inl rfl
  · exact Or.inr rfl

theorem pile_tables {q : Calc.Kind × Text × Text × Text × Text} (hq : q ∈ pileKinds) : TableFile critLib (pileOf q) pileRegions 2 pileTables where
  nu r hr e he := pile_law hq (pile_mat hr) (by simp) he (by
    rcases pile_mat hr with h | h <;> rw [h] <;> rcases (by omega : e = 0 ∨ e = 1) with rfl | rfl <;> simp [critLib, pileWord])
  chi r hr e he := pile_law hq (pile_mat hr) (by simp) he (by
    rcases pile_mat hr with h | h <;> rw [h] <;> rcases (by omega : e = 0 ∨ e = 1) with rfl | rfl <;> simp [critLib, pileWord])
  fiss r hr e he := pile_law hq (pile_mat hr) (by simp) he (by
    rcases pile_mat hr with h | h <;> rw [h] <;> rcases (by omega : e = 0 ∨ e = 1) with rfl | rfl <;> simp [critLib, pileWord])
  tot r hr e he := pile_law hq (pile_mat hr) (by simp) he (by
    rcases pile_mat hr with h | h <;> rw [h] <;> rcases (by omega : e = 0 ∨ e = 1) with rfl | rfl <;> simp [critLib, pileWord])
  scatt r hr e f he hf := pile_scatt hq (pile_mat hr) he hf (by
    rcases pile_mat hr with h | h <;> rw [h] <;> rcases (by omega : e = 0 ∨ e = 1) with rfl | rfl <;> rcases (by omega : f = 0 ∨ f = 1) with rfl | rfl <;>
      simp [critLib, pileScatt])

theorem pile_diff {q : Calc.Kind × Text × Text × Text × Text} (hq : q ∈ pileKinds) : DiffFile critLib (pileOf q) pileRegions 2 pileTables := fun r hr e he =>
  pile_law hq (pile_mat hr) (by simp) he (by
    rcases pile_mat hr with h | h <;> rw [h] <;> rcases (by omega : e = 0 ∨ e = 1) with rfl | rfl <;> simp [critLib, pileWord])

theorem pile_setting {q : Calc.Kind × Text × Text × Text × Text} (hq : q ∈ pileKinds) {s : String × List Text} (hs : s ∈ [("accuracy", ["0.001".toList]),
    ("max_iteration_number", ["100".toList]), ("albedo", [q.2.2.2.2]), ("energies", ["2".toList]),
      ("direction", [q.2.2.1]), ("eigenmodes", [q.2.2.2.1]), ("ext_source", ["1.0".toList, "1".toList, "2".toList])]) : Setting (pileOf q) q.1 s.1 s.2 :=
  ⟨_, _, blockB_block critLib_sane (pileBlocks q hq).1, saysB_card critLib_sane (pileSettings q hq s hs)⟩

theorem n100 : Numeral "100".toList 100 := .snoc (.snoc (wDigit (i := 1) (by decide)) (i := 0) (by decide)) (i := 0) (by decide)

theorem pile_body {q : Calc.Kind × Text × Text × Text × Text} (hq : q ∈ pileKinds) : BodyFile critLib (pileOf q) .cylinder pileRegions where
  geometry := ⟨_, _, saysB_card critLib_sane (pileCards q hq).2.2.1, by simp [geometries]⟩
  mesh := ⟨_, _, saysB_card critLib_sane (pileCards q hq).2.2.2.1, .cons (wDigit (i := 2) (by decide)) rfl (.cons (wDigit (i := 1) (by decide)) rfl .nil)⟩
  some := by simp [pileRegions]
  cells := by simp [pileRegions]
  few := by simp [pileRegions]
  named := by
    intro r hr
    simp only [pileRegions, List.mem_cons, List.not_mem_nil, or_false] at hr
    rcases hr with rfl | rfl
    · exact wNamed _ _ (by decide)
    · exact wNamed _ _ (by decide)
  headers := by
    intro r hr
    simp only [pileRegions, List.mem_cons, List.not_mem_nil, or_false] at hr
    rcases hr with rfl | rfl
    · exact ⟨_, _, saysB_card critLib_sane (pileCards q hq).2.2.2.2.2.1⟩
    · exact ⟨_, _, saysB_card critLib_sane (pileCards q hq).2.2.2.2.2.2⟩

theorem pile_full {q : Calc.Kind × Text × Text × Text × Text} (hq : q ∈ pileKinds) : Full critLib (pileOf q) [q.1] .cylinder pileRegions 2 where
  solvers := ⟨_, _, saysB_card critLib_sane (pileCards q hq).1, .cons (by
    simp only [pileKinds, List.mem_cons, List.not_mem_nil, or_false] at hq
    rcases hq with rfl | rfl | rfl | rfl | rfl <;> simp [solverNames]) .nil⟩
  some := by simp
  headers := by
    intro k hk
    obtain rfl : k = q.1 := by simpa [everyone] using hk
    exact ⟨_, _, saysB_card critLib_sane (pileCards q hq).2.1⟩
  settings := by
    intro k hk key hkey
    obtain rfl : k = q.1 := by simpa [everyone] using hk
    have S := fun s hs => pile_setting hq (s := s) hs
    have hdir : q.2.2.1 = "forward".toList ∨ q.2.2.1 = "adjoint".toList := by
      simp only [pileKinds, List.mem_cons, List.not_mem_nil, or_false] at hq
      rcases hq with rfl | rfl | rfl | rfl | rfl <;> simp
    have hmodes : q.2.2.2.1 = "fundamental".toList := by
      simp only [pileKinds, List.mem_cons, List.not_mem_nil, or_false] at hq
      rcases hq with rfl | rfl | rfl | rfl | rfl <;> rfl
    have n2 : Numeral "2".toList 2 := wDigit (i := 2) (by decide)
    have hkey' : key = "accuracy" ∨ key = "max_iteration_number" ∨ key = "albedo" ∨ key = "energies" ∨ key = "direction" ∨ key = "eigenmodes" ∨ key = "ext_source" := by
      simp only [pileKinds, List.mem_cons, List.not_mem_nil, or_false] at hq
      rcases hq with rfl | rfl | rfl | rfl | rfl <;> simp [settingsOf] at hkey <;> tauto
    rcases hkey' with rfl | rfl | rfl | rfl | rfl | rfl | rfl
    · exact ⟨_, S ("accuracy", ["0.001".toList]) (by simp), .accuracy rfl⟩
    · exact ⟨_, S ("max_iteration_number", ["100".toList]) (by simp), .limit n100 (by decide)⟩
    · exact ⟨_, S ("albedo", [q.2.2.2.2]) (by simp), .oneAlbedo (Or.inr (by decide)) rfl⟩
    · exact ⟨_, S ("energies", ["2".toList]) (by simp), .groups n2 (by decide)⟩
    · exact ⟨_, S ("direction", _) (by simp), .direction hdir⟩
    · exact ⟨_, S ("eigenmodes", _) (by simp), .modes (Or.inl hmodes)⟩
    · exact ⟨_, S ("ext_source", ["1.0".toList, "1".toList, "2".toList]) (by simp), .source rfl (wDigit (i := 1) (by decide)) (by decide) n2 (by decide)⟩
  relaxation := by
    simp only [pileKinds, List.mem_cons, List.not_mem_nil, or_false] at hq
    rcases hq with rfl | rfl | rfl | rfl | rfl <;> simp
  body := fun _ => pile_body hq
  tables := by
    intro k hk hn r hr name hname e he
    obtain ⟨x, hx⟩ : ∃ x, critLib.stod (pileWord name e r.mat) = ok x := ⟨_, rfl⟩
    refine ⟨_, pile_law hq (pile_mat hr) ?_ he hx⟩
    unfold tables at hname
    split at hname <;> simp at hname <;> simp <;> tauto
  scattering := by
    intro k hk hn r hr e f he hf
    obtain ⟨x, hx⟩ : ∃ x, critLib.stod (pileScatt e f r.mat) = ok x := ⟨_, rfl⟩
    exact ⟨_, pile_scatt hq (pile_mat hr) he hf hx⟩
  conductivity := by
    simp only [pileKinds, List.mem_cons, List.not_mem_nil, or_false] at hq
    rcases hq with rfl | rfl | rfl | rfl | rfl <;> simp
  temperatures := by
    simp only [pileKinds, List.mem_cons, List.not_mem_nil, or_false] at hq
    rcases hq with rfl | rfl | rfl | rfl | rfl <;> simp
  sources := by
    simp only [pileKinds, List.mem_cons, List.not_mem_nil, or_false] at hq
    rcases hq with rfl | rfl | rfl | rfl | rfl <;> simp
  power := by
    simp only [pileKinds, List.mem_cons, List.not_mem_nil, or_false] at hq
    rcases hq with rfl | rfl | rfl | rfl | rfl <;> simp
  kinetics := by
    simp only [pileKinds, List.mem_cons, List.not_mem_nil, or_false] at hq
    rcases hq with rfl | rfl | rfl | rfl | rfl <;> simp
  plots := Or.inr ⟨_, _, by simp, saysB_card critLib_sane (pileCards q hq).2.2.2.2.1⟩

theorem valueAt_one (c x : ℝ) : valueAt (Vec.ofList [c]) x = c := by
  simp [valueAt, Numeric.polyValue, Vec.ofList]

theorem pile_case {X : Set ℝ} : CriticalCase pileRegions 2 pileTables X where
  widths := by simp [pileRegions]
  nu r hr e he x hx := by
    simp only [pileTables, valueAt_one]
    split_ifs <;> norm_num
  chi r hr e he x hx := by
    simp only [pileTables, valueAt_one]
    split_ifs <;> norm_num
  fiss r hr e he x hx := by
    simp only [pileTables, valueAt_one]
    split_ifs <;> norm_num
  scatt r hr e f he hf x hx := by
    simp only [pileTables, valueAt_one]
    split_ifs <;> norm_num
  absorbs r hr e he x hx := by
    simp only [pileTables, valueAt_one, Finset.sum_range_succ, Finset.sum_range_zero]
    split_ifs <;> norm_num at *
  somewhere := ⟨⟨2, 1, "fuel".toList⟩, by simp [pileRegions], 1, by norm_num, fun x hx => by simp only [pileTables, valueAt_one]; norm_num⟩
  emitted := by
    rintro r hr ⟨e, he, x, hx, h⟩
    rcases pile_mat hr with h' | h'
    · exact ⟨0, by norm_num, fun x hx => by rw [h']; simp only [pileTables, valueAt_one]; norm_num⟩
    · rw [h'] at h
      simp only [pileTables, valueAt_one] at h
      simp [show "water".toList ≠ "fuel".toList by decide] at h
  linked := by
    have fuel : ∀ r ∈ pileRegions, Fissile 2 pileTables X r.mat → r.mat = "fuel".toList := by
      rintro r hr ⟨e, he, x, hx, h⟩
      rcases pile_mat hr with h' | h'
      · exact h'
      · rw [h'] at h
        simp only [pileTables, valueAt_one] at h
        simp [show "water".toList ≠ "fuel".toList by decide] at h
    intro a ha b hb fa fb
    rw [fuel a ha fa, fuel b hb fb]
    refine ⟨0, 1, by norm_num, by norm_num, fun x hx => by simp only [pileTables, valueAt_one]; norm_num, fun x hx => by simp only [pileTables, valueAt_one]; norm_num,
      .single ⟨by norm_num, by norm_num, ⟨1, 1 / 2, "water".toList⟩, by simp [pileRegions], fun x hx => by simp only [pileTables, valueAt_one]; norm_num⟩⟩

theorem pile_critical {q : Calc.Kind × Text × Text × Text × Text} (hq : q ∈ pileKinds) {dir : String} (hd : q.2.2.1 = dir.toList) {x : ℝ} (hx : critLib.stod q.2.2.2.2 = ok x) :
    CriticalFile critLib (pileOf q) q.1 dir .cylinder pileRegions 2 pileTables (Vec.ofList [x]) (1 / 1000) 100 where
  full := pile_full hq
  data := pile_tables hq
  diff := fun _ => pile_diff hq
  accuracy := ⟨_, pile_setting hq (s := ("accuracy", ["0.001".toList])) (by simp), rfl⟩
  limit := ⟨_, pile_setting hq (s := ("max_iteration_number", ["100".toList])) (by simp), n100, by decide⟩
  albedo := ⟨_, pile_setting hq (s := ("albedo", [q.2.2.2.2])) (by simp), by rw [ofList_toList]; exact .cons hx .nil⟩
  direction := fun _ => by
    have := pile_setting hq (s := ("direction", [q.2.2.1])) (by simp)
    rwa [hd] at this
  modes := by
    have := pile_setting hq (s := ("eigenmodes", [q.2.2.2.1])) (by simp)
    have h : q.2.2.2.1 = "fundamental".toList := by
      simp only [pileKinds, List.mem_cons, List.not_mem_nil, or_false] at hq
      rcases hq with rfl | rfl | rfl | rfl | rfl <;> rfl
    rwa [h] at this

end

end Verif.Input
