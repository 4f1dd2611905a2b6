import Verif.Input.Complete
import Verif.Input.DataProps

/-!
# Properties: complete files are read
-/

namespace Verif.Input

open Verif Outcome

noncomputable section

variable {lib : Lib}

/-! ### C36 -/

theorem squeezeFrom_char {a : Char} (h : ¬ White a) (l : Text) : squeezeFrom a l = removeExtraSpaces l := by
  cases l with
  | nil => rfl
  | cons b l =>
    unfold squeezeFrom removeExtraSpaces
    rw [isSpace_false.2 h]
    simp

theorem squeezeFrom_white {a : Char} (h : White a) {s l : Text} (hs : ∀ d ∈ s, White d) (hl : ∀ d ∈ l.head?, ¬ White d) :
    squeezeFrom a (s ++ l) = removeExtraSpaces l := by
  induction s with
  | nil =>
    cases l with
    | nil => rfl
    | cons b l =>
      rw [List.nil_append]
      unfold squeezeFrom removeExtraSpaces
      rw [isSpace_false.2 (hl b rfl)]
      simp
  | cons b s ih =>
    rw [List.cons_append]
    unfold squeezeFrom
    rw [isSpace_iff.2 h, isSpace_iff.2 (hs b (by simp))]
    simp only [Bool.and_self, if_true]
    exact ih (fun d hd => hs d (by simp [hd]))

theorem squeezed_eq {l m : Text} (h : Squeezed l m) : removeExtraSpaces l = m := by
  induction h with
  | nil => rfl
  | char hc h ih =>
    rw [removeExtraSpaces, squeezeFrom_char hc, ih]
  | white hc hs hl h ih =>
    rw [removeExtraSpaces, squeezeFrom_white hc hs hl, ih]

theorem squeezed_self (n : Nat) : ∀ l : Text, l.length ≤ n → Squeezed l (removeExtraSpaces l) := by
  induction n with
  | zero =>
    intro l hl
    obtain rfl := List.length_eq_zero_iff.1 (Nat.le_zero.1 hl)
    exact .nil
  | succ n ih =>
    intro l hl
    cases l with
    | nil => exact .nil
    | cons c l =>
      simp at hl
      by_cases hc : White c
      · obtain ⟨s, r, rfl, hs, hr⟩ : ∃ s r, l = s ++ r ∧ (∀ d ∈ s, White d) ∧ ∀ d ∈ r.head?, ¬ White d := by
          refine ⟨l.takeWhile isSpace, l.dropWhile isSpace, (List.takeWhile_append_dropWhile).symm, fun d hd => isSpace_iff.1 (List.mem_takeWhile_imp hd), fun d hd => ?_⟩
          have := List.head?_dropWhile_not isSpace l
          rw [hd] at this
          exact isSpace_false.1 (by simpa using this)
        rw [removeExtraSpaces, squeezeFrom_white hc hs hr]
        exact .white hc hs hr (ih r (by simp at hl; omega))
      · rw [removeExtraSpaces, squeezeFrom_char hc]
        exact .char hc (ih l hl)

theorem squeezed_iff {l m : Text} : Squeezed l m ↔ removeExtraSpaces l = m :=
  ⟨squeezed_eq, by rintro rfl; exact squeezed_self _ l le_rfl⟩

theorem storeLine_iff {l m : Text} : storeLine l = ok m ↔
    (∀ c ∈ l, c.toNat < 128) ∧ ∃ s k, l = s ++ k ∧ (∀ c ∈ s, c = ' ') ∧ (∀ c ∈ k.head?, c ≠ ' ') ∧ Squeezed k m := by
  unfold storeLine
  constructor
  · intro h
    split at h
    · rename_i ha
      cases h
      refine ⟨by simpa using ha, l.takeWhile (fun c => c == ' '), l.dropWhile (fun c => c == ' '), (List.takeWhile_append_dropWhile).symm,
        fun c hc => by simpa using List.mem_takeWhile_imp hc, fun c hc => ?_, squeezed_iff.2 rfl⟩
      have := List.head?_dropWhile_not (fun c => c == ' ') l
      rw [hc] at this
      simpa using this
    · cases h
  · rintro ⟨ha, s, k, rfl, hs, hk, hm⟩
    rw [if_pos (List.all_eq_true.2 (fun c hc => decide_eq_true (ha c hc))), ← squeezed_iff.1 hm]
    congr 2
    rw [List.dropWhile_append_of_pos (by simpa using hs)]
    cases k with
    | nil => rfl
    | cons c k => rw [List.dropWhile_cons_of_neg (by simpa using hk c rfl)]

/-- **C36.** What is kept of a file: a line of ASCII characters without its leading blanks and with every run of white space replaced by its first character; a file with
any other character is refused or worse. -/
theorem C36_tidy (raw lines : List Text) : storeInput (some raw) = ok lines ↔ Stored raw lines := by
  show storeLines raw = ok lines ↔ _
  unfold Stored
  induction raw generalizing lines with
  | nil =>
    constructor
    · intro h
      cases h
      exact .nil
    · intro h
      cases h
      rfl
  | cons l raw ih =>
    unfold storeLines
    constructor
    · intro h
      obtain ⟨x, hx, h⟩ := bind_eq_ok.1 h
      obtain ⟨xs, hxs, h⟩ := bind_eq_ok.1 h
      cases h
      exact .cons (storeLine_iff.1 hx) ((ih xs).1 hxs)
    · intro h
      cases h with
      | cons h1 h2 => exact bind_eq_ok.2 ⟨_, storeLine_iff.2 h1, bind_eq_ok.2 ⟨_, (ih _).2 h2, rfl⟩⟩

/-- **C36.** A character that is not ASCII is undefined behaviour, wherever it stands in the file: the functions for characters are called with a negative number. -/
theorem C36_foreign {raw : List Text} (h : ∃ l ∈ raw, ∃ c ∈ l, 128 ≤ c.toNat) : storeInput (some raw) = ub := by
  show storeLines raw = ub
  induction raw with
  | nil =>
    obtain ⟨l, hl, -⟩ := h
    cases hl
  | cons k raw ih =>
    unfold storeLines storeLine
    by_cases hk : ∀ c ∈ k, c.toNat < 128
    · rw [if_pos (List.all_eq_true.2 (fun c hc => decide_eq_true (hk c hc))), ok_bind, ih, ub_bind]
      obtain ⟨l, hl, c, hc, h⟩ := h
      rcases List.mem_cons.1 hl with rfl | hl
      · have := hk c hc
        omega
      · exact ⟨l, hl, c, hc, h⟩
    · rw [if_neg (fun e => hk (fun c hc => of_decide_eq_true (List.all_eq_true.1 e c hc))), ub_bind]

/-- **C36.** A file that cannot be opened ends the program. -/
theorem C36_closed (p : Calc.Plant) : readData lib none p = exit := rfl

example : storeInput (some ["solvers heat".toList, "% Wärme".toList]) = ub := C36_foreign ⟨_, List.mem_cons_of_mem _ List.mem_cons_self, 'ä', by decide, by decide⟩

/-! ### C87 -/

/-- **C87.** A file in which nothing is missing is read: the reader ends with the solvers, the body and the number of groups of the file. -/
theorem C87 {raw lines : List Text} (hc : Clean lib lines) (hraw : Stored raw lines) {ks : List Calc.Kind} {g : Diffusion.Geom} {rs : List Region} {E : Nat}
    (h : Full lib lines ks g rs E) (p : Calc.Plant) :
    ∃ r, readData lib (some raw) p = ok r ∧ r.lines = lines ∧ r.solvers.map Calc.Settings.kind = everyone ks ∧
      ((∃ k ∈ ks, k ≠ .kinetics) → r.plant.grid.geom = g ∧ Meshed rs r.plant.grid) ∧ ((∃ k ∈ ks, k ∈ neutronics) → r.plant.grid.energies = E) := by
  obtain ⟨c, ws, h1, h2⟩ := h.solvers
  obtain ⟨r2, a2, b2, c2, d2, -⟩ := setShape_ok hc h p
  obtain ⟨r3, a3, b3⟩ := setSettings_ok hc h b2 (by rw [c2, kinds_new]) (fun hk => ⟨(d2 hk).1, (d2 hk).2.1⟩)
  obtain ⟨r4, a4, b4⟩ := setAll_ok hc h b3 (ss := r3.solvers) (fun s hs => by rw [← b3.kinds]; exact List.mem_map_of_mem hs)
  obtain ⟨r5, a5⟩ := setPlots_ok (lib := lib) (r := r4) (by rw [b4.lines]; exact hc) (by rw [b4.lines]; exact h.plots)
  obtain ⟨f5, -, e5⟩ := setPlots_frame a5
  have f4 := (setAll_frame a4).1
  have f3 := setSettings_frame a3
  refine ⟨r5, ?_, f5.lines.trans b4.lines, f5.kinds.trans b4.kinds, fun hk => ⟨?_, ?_⟩, fun hk => ?_⟩
  · unfold readData
    rw [(C36_tidy raw lines).2 hraw, ok_bind, setSolvers_ok hc h1 h2 h.some p, ok_bind, a2, ok_bind, a3, ok_bind, a4, ok_bind, a5]
  · rw [e5, f4.grid.geom, f3.grid.geom]
    exact (d2 hk).2.1
  · rw [e5]
    exact meshed_kept (meshed_kept (d2 hk).2.2 f3.grid) f4.grid
  · rw [e5]
    exact b4.energies hk

/-! ### C88 -/

theorem plotOf_iff {w : Text} : (∀ x, plotOf w = some x ↔ (w, x) ∈ plotNames) := by
  intro x
  unfold plotOf plotNames
  constructor
  · intro h
    repeat' split at h
    all_goals first
      | (rename_i hw; cases h; rw [hw]; simp)
      | cases h
  · intro h
    simp only [List.mem_cons, Prod.mk.injEq, List.not_mem_nil, or_false] at h
    rcases h with ⟨rfl, rfl⟩ | ⟨rfl, rfl⟩ | ⟨rfl, rfl⟩ | ⟨rfl, rfl⟩ | ⟨rfl, rfl⟩ <;> rfl

theorem plotted_filter (ws : List Text) : Plotted ws (ws.filterMap plotOf) := by
  induction ws with
  | nil => exact .nil
  | cons w ws ih =>
    cases h : plotOf w with
    | none =>
      rw [List.filterMap_cons_none h]
      refine .skip (fun x hx => ?_) ih
      rw [(plotOf_iff x).2 hx] at h
      cases h
    | some x =>
      rw [List.filterMap_cons_some h]
      exact .plot ((plotOf_iff x).1 h) ih

theorem setProperty_plots {key : String} {input : Calc.Kind} {r r' : Reader} (h : setProperty lib key input r = ok r') : r'.plots = r.plots := by
  obtain ⟨x, -, h⟩ := bind_eq_ok.1 h
  cases h
  rfl

theorem runPasses_plots {l : List (String × Calc.Kind)} {r r' : Reader} (h : runPasses lib l r = ok r') : r'.plots = r.plots := by
  induction l generalizing r with
  | nil =>
    cases h
    rfl
  | cons x l ih =>
    obtain ⟨r1, h1, h⟩ := bind_eq_ok.1 h
    exact (ih h).trans (setProperty_plots h1)

theorem setSettings_plots {r r' : Reader} (h : setSettings lib r = ok r') : r'.plots = r.plots := by
  rw [setSettings_passes] at h
  obtain ⟨r1, h1, h⟩ := bind_eq_ok.1 h
  refine Eq.trans ?_ (runPasses_plots h1)
  unfold setRelaxation at h
  split at h
  · exact setProperty_plots h
  · cases h
    rfl

theorem setXS_plots {name : String} {put : Mesh.Material → Vec ℝ → Mesh.Material} {r r' : Reader} (h : setXS lib name put r = ok r') : r'.plots = r.plots := by
  obtain ⟨g, -, h⟩ := bind_eq_ok.1 h
  cases h
  rfl

theorem setNuclear_plots {d : Bool} {r r' : Reader} (h : setNuclear lib d r = ok r') : r'.plots = r.plots := by
  obtain ⟨r1, h1, h⟩ := bind_eq_ok.1 h
  obtain ⟨r2, h2, h⟩ := bind_eq_ok.1 h
  obtain ⟨r3, h3, h⟩ := bind_eq_ok.1 h
  obtain ⟨r4, h4, h⟩ := bind_eq_ok.1 h
  obtain ⟨r5, h5, h⟩ := bind_eq_ok.1 h
  obtain ⟨g, -, h⟩ := bind_eq_ok.1 h
  cases h
  show r5.plots = _
  rw [← setXS_plots h1, ← setXS_plots h2, ← setXS_plots h3, ← setXS_plots h4]
  cases d with
  | false =>
    cases h5
    rfl
  | true => exact setXS_plots (name := "diffCoeff") (put := fun x v => { x with diff := x.diff ++ [v] }) h5

theorem setHeat_plots {r r' : Reader} (h : setHeat lib r = ok r') : r'.plots = r.plots := by
  obtain ⟨r1, h1, h⟩ := bind_eq_ok.1 h
  obtain ⟨r2, h2, h⟩ := bind_eq_ok.1 h
  obtain ⟨t, -, h⟩ := bind_eq_ok.1 h
  obtain ⟨g, -, h⟩ := bind_eq_ok.1 h
  cases h
  obtain ⟨g, -, h2⟩ := bind_eq_ok.1 h2
  cases h2
  show r1.plots = _
  unfold setLoad at h1
  split at h1
  · obtain ⟨x, rfl⟩ := setPower_eq h1
    rfl
  · obtain ⟨t, -, h1⟩ := bind_eq_ok.1 h1
    obtain ⟨g, -, h1⟩ := bind_eq_ok.1 h1
    cases h1
    rfl

theorem setAll_plots {ss : List Calc.Settings} {r r' : Reader} (h : setAll lib ss r = ok r') : r'.plots = r.plots := by
  induction ss generalizing r with
  | nil =>
    cases h
    rfl
  | cons s ss ih =>
    obtain ⟨r1, h1, h⟩ := bind_eq_ok.1 h
    rw [ih h]
    generalize s.kind = k at h1
    cases k with
    | transport => exact setNuclear_plots h1
    | diffusion => exact setNuclear_plots h1
    | ads => exact setNuclear_plots h1
    | kinetics =>
      obtain ⟨x, rfl⟩ := setKinetics_eq h1
      rfl
    | heat => exact setHeat_plots h1
    | undefined =>
      cases h1
      rfl
    | coupled =>
      cases h1
      rfl

theorem read_plots {file : Option (List Text)} {p : Calc.Plant} {r : Reader} (h : readData lib file p = ok r) :
    ∃ ws, readMany lib r.lines "plots".toList true = ok ws ∧ r.plots = ws.filterMap plotOf := by
  obtain ⟨ls, r1, r2, r3, r4, -, h1, h2, h3, h4, h5⟩ := readData_stages h
  obtain ⟨ws, hw, h5⟩ := bind_eq_ok.1 h5
  cases h5
  refine ⟨ws, hw, ?_⟩
  show r4.plots ++ _ = _
  suffices r4.plots = [] by rw [this, List.nil_append]
  have e1 : r1.plots = [] := by
    obtain ⟨ws, -, h1⟩ := bind_eq_ok.1 h1
    obtain ⟨ss, -, h1⟩ := bind_eq_ok.1 h1
    cases h1
    rfl
  have e2 : r2.plots = [] := by
    unfold setShape at h2
    split at h2
    · obtain ⟨r1', hg, h2⟩ := bind_eq_ok.1 h2
      obtain ⟨g, -, rfl⟩ := setGeometry_eq hg
      exact (setMesh_solvers h2).2.2.1.trans e1
    · cases h2
      exact e1
  rw [setAll_plots h4, setSettings_plots h3, e2]

/-- **C88.** The plots are those named behind `plots` in the first line that speaks about them, in the order of the line; unknown names are ignored. Without such a line there are none. -/
theorem C88 (hs : Sane lib) {file : Option (List Text)} {p : Calc.Plant} {r : Reader} (h : readData lib file p = ok r) :
    (∃ c ws, Card r.lines "plots" (c :: ws) ∧ ws ≠ [] ∧ Plotted ws r.plots) ∨
    ((Card r.lines "plots" [] ∨ Silent r.lines "plots".toList 0 4294967295) ∧ r.plots = []) := by
  obtain ⟨ws, h1, h2⟩ := read_plots h
  obtain ⟨l, hl, h1⟩ := bind_eq_ok.1 h1
  rcases findKeyword_sound hs hl with ⟨i, m, hf, rfl⟩ | ⟨-, rfl, hS⟩
  · have hcard : Card r.lines "plots" (splitLine (small m)) := ⟨i, m, hf, says_iff.2 rfl⟩
    split at h1
    · rename_i e
      cases h1
      rw [e] at hcard
      exact Or.inr ⟨Or.inl hcard, h2⟩
    · cases h1
    · rename_i k vs hne e
      cases h1
      rw [e] at hcard
      refine Or.inl ⟨k, ws, hcard, fun e' => hne e', ?_⟩
      rw [h2]
      exact plotted_filter ws
  · cases h1
    exact Or.inr ⟨Or.inr hS, h2⟩

/-- **C88.** A line about plots that names nothing is refused. -/
theorem C88_empty {file : Option (List Text)} {p : Calc.Plant} {r : Reader} (h : readData lib file p = ok r) (hc : Clean lib r.lines) (c : Text) :
    ¬ Card r.lines "plots" [c] := by
  intro hcard
  obtain ⟨ws, h1, -⟩ := read_plots h
  obtain ⟨l, h2, h3⟩ := findKeyword_cardIn hc true hcard
  unfold readMany at h1
  rw [show maxU = 4294967295 from rfl, h2, ok_bind, h3] at h1
  cases h1

/-! ### examples -/

/-- A coupled calculation of a slab of two materials, as it is written. -/
def wRaw : List Text :=
  ["  % two materials".toList, "solvers   diffusion heat".toList, "geometry slab".toList, "mesh 2 1.0 fuel 1  1.0 water".toList,
    "temperatures 7.0 9.0 1.0".toList, "Thermal_power 9.0 % watts".toList, "plots \t temperature neutronFlux other".toList,
    "solver diffusion".toList, "   accuracy 7.0".toList, "   max_iteration_number 100".toList, "   albedo 7.0 9.0".toList, "   energies 1".toList,
    "   direction forward".toList, "   eigenmodes fundamental".toList,
    "solver heat".toList, "   accuracy 7.0".toList, "   max_iteration_number 20".toList, "   heat_boundary_conditions 7.0 9.0 1.0 7.0 9.0 1.0".toList,
    "solver coupled".toList, "   accuracy 9.0".toList, "   max_iteration_number 5".toList, "   relaxation_parameter 1.0".toList,
    "material fuel".toList, "   ni(1) 7.0".toList, "   chi(1) 1.0".toList, "   fission(1) 9.0".toList, "   total(1) 7.0".toList, "   diffCoeff(1) 9.0".toList,
    "   scattMatrix(1, 1) 1.0".toList, "   thermal_conductivity 7.0".toList,
    "material water".toList, "   ni(1) 1.0".toList, "   chi(1) 1.0".toList, "   fission(1) 1.0".toList, "   total(1) 9.0".toList, "   diffCoeff(1) 7.0".toList,
    "   scattMatrix(1, 1) 7.0".toList, "   thermal_conductivity 9.0 1.0".toList]

/-- The same as it is kept. -/
def wKept : List Text :=
  ["% two materials".toList, "solvers diffusion heat".toList, "geometry slab".toList, "mesh 2 1.0 fuel 1 1.0 water".toList,
    "temperatures 7.0 9.0 1.0".toList, "Thermal_power 9.0 % watts".toList, "plots temperature neutronFlux other".toList,
    "solver diffusion".toList, "accuracy 7.0".toList, "max_iteration_number 100".toList, "albedo 7.0 9.0".toList, "energies 1".toList,
    "direction forward".toList, "eigenmodes fundamental".toList,
    "solver heat".toList, "accuracy 7.0".toList, "max_iteration_number 20".toList, "heat_boundary_conditions 7.0 9.0 1.0 7.0 9.0 1.0".toList,
    "solver coupled".toList, "accuracy 9.0".toList, "max_iteration_number 5".toList, "relaxation_parameter 1.0".toList,
    "material fuel".toList, "ni(1) 7.0".toList, "chi(1) 1.0".toList, "fission(1) 9.0".toList, "total(1) 7.0".toList, "diffCoeff(1) 9.0".toList,
    "scattMatrix(1, 1) 1.0".toList, "thermal_conductivity 7.0".toList,
    "material water".toList, "ni(1) 1.0".toList, "chi(1) 1.0".toList, "fission(1) 1.0".toList, "total(1) 9.0".toList, "diffCoeff(1) 7.0".toList,
    "scattMatrix(1, 1) 7.0".toList, "thermal_conductivity 9.0 1.0".toList]

/-- Its regions. -/
def wRegions : List Region := [⟨2, 1, "fuel".toList⟩, ⟨1, 1, "water".toList⟩]

theorem wStored : Stored wRaw wKept := (C36_tidy wRaw wKept).1 (by rfl)

theorem wDecimal : ∀ w ∈ ["7.0".toList, "9.0".toList, "1.0".toList], Decimal w ∧ w.getLast? ≠ some '.' := by
  intro w hw
  simp only [List.mem_cons, List.not_mem_nil, or_false] at hw
  rcases hw with rfl | rfl | rfl
  · exact ⟨⟨[], ['7'], ['0'], [], rfl, Or.inl rfl, by simp [Digit], by simp [Digit], by simp, Or.inl rfl⟩, by decide⟩
  · exact ⟨⟨[], ['9'], ['0'], [], rfl, Or.inl rfl, by simp [Digit], by simp [Digit], by simp, Or.inl rfl⟩, by decide⟩
  · exact ⟨⟨[], ['1'], ['0'], [], rfl, Or.inl rfl, by simp [Digit], by simp [Digit], by simp, Or.inl rfl⟩, by decide⟩

theorem wReads (ws : List Text) : ∃ xs, Reads wLib ws xs := by
  induction ws with
  | nil => exact ⟨[], .nil⟩
  | cons w ws ih =>
    obtain ⟨xs, h⟩ := ih
    exact ⟨_, .cons rfl h⟩

theorem wSetting {k : Calc.Kind} {key : String} {a b : Nat} {l : Text} {ws : List Text} (h1 : findBlock wLib wKept "solver".toList (blockName k) = ok (a, b))
    (h2 : findKeyword wLib wKept key.toList a b = ok l) (h3 : splitLine l = key.toList :: ws) : Setting wKept k key ws :=
  ⟨a, b, findBlock_sound wLib_sane h1, card_eval wLib_sane h2 h3⟩

theorem wLaw {w key : Text} {n : Nat} {a b : Nat} {l : Text} {ws : List Text} (h1 : findBlock wLib wKept "material".toList w = ok (a, b))
    (h2 : findKeyword wLib wKept key a b = ok l) (h3 : splitLine l = ws) (hn : n ≤ ws.length) :
    ∃ v, Law wLib wKept w key n v ∧ v.n = (ws.drop n).length := by
  obtain ⟨xs, hx⟩ := wReads (ws.drop n)
  refine ⟨Vec.ofList xs, ⟨a, b, ws, findBlock_sound wLib_sane h1, card_eval wLib_sane h2 h3, hn, ?_⟩, ?_⟩
  · rw [ofList_toList]
    exact hx
  · exact hx.length_eq.symm

theorem wDigit {i : Nat} (h : i < 10) : Numeral [i.digitChar] i := .digit h

set_option maxRecDepth 20000 in
theorem wB1 : findBlock wLib wKept "solver".toList (blockName .diffusion) = ok (6, 17) := by rfl

set_option maxRecDepth 20000 in
theorem wB2 : findBlock wLib wKept "solver".toList (blockName .heat) = ok (13, 17) := by rfl

set_option maxRecDepth 20000 in
theorem wB3 : findBlock wLib wKept "solver".toList (blockName .coupled) = ok (17, 4294967295) := by rfl

set_option maxRecDepth 20000 in
theorem wB4 : findBlock wLib wKept "material".toList "fuel".toList = ok (21, 29) := by rfl

set_option maxRecDepth 20000 in
theorem wB5 : findBlock wLib wKept "material".toList "water".toList = ok (29, 4294967295) := by rfl

theorem card_unique {key : String} {ls ws ws' : List Text} (h : Card ls key ws) (h' : Card ls key ws') : ws = ws' := by
  obtain ⟨i, m, hf, hw⟩ := h
  obtain ⟨i', m', hf', hw'⟩ := h'
  obtain ⟨rfl, rfl⟩ := first_unique hf hf'
  exact (says_iff.1 hw).symm.trans (says_iff.1 hw')

set_option maxRecDepth 20000 in
theorem wFull : Full wLib wKept [.diffusion, .heat] .slab wRegions 1 where
  solvers := ⟨"solvers".toList, ["diffusion".toList, "heat".toList], card_eval wLib_sane (l := "solvers diffusion heat".toList) (by rfl) (by rfl),
    .cons (by simp [solverNames]) (.cons (by simp [solverNames]) .nil)⟩
  some := by simp
  headers := by
    intro k hk
    simp only [everyone, List.length_cons, List.length_nil, le_refl, if_true, List.cons_append, List.nil_append, List.mem_cons, List.not_mem_nil, or_false] at hk
    rcases hk with rfl | rfl | rfl
    · exact ⟨"solver".toList, "diffusion".toList, card_eval wLib_sane (l := "solver diffusion".toList) (by rfl) (by rfl)⟩
    · exact ⟨"solver".toList, "heat".toList, card_eval wLib_sane (l := "solver heat".toList) (by rfl) (by rfl)⟩
    · exact ⟨"solver".toList, "coupled".toList, card_eval wLib_sane (l := "solver coupled".toList) (by rfl) (by rfl)⟩
  settings := by
    intro k hk key hkey
    simp only [everyone, List.length_cons, List.length_nil, le_refl, if_true, List.cons_append, List.nil_append, List.mem_cons, List.not_mem_nil, or_false] at hk
    have n100 : Numeral "100".toList 100 := .snoc (.snoc (wDigit (i := 1) (by decide)) (i := 0) (by decide)) (i := 0) (by decide)
    have n20 : Numeral "20".toList 20 := .snoc (wDigit (i := 2) (by decide)) (i := 0) (by decide)
    have n5 : Numeral "5".toList 5 := wDigit (i := 5) (by decide)
    have n1 : Numeral "1".toList 1 := wDigit (i := 1) (by decide)
    rcases hk with rfl | rfl | rfl
    · simp only [settingsOf, List.cons_append, List.nil_append, List.mem_cons, List.not_mem_nil, or_false] at hkey
      rcases hkey with rfl | rfl | rfl | rfl | rfl | rfl
      · exact ⟨["7.0".toList], wSetting wB1 (l := "accuracy 7.0".toList) (by rfl) (by rfl), .accuracy rfl⟩
      · exact ⟨["100".toList], wSetting wB1 (l := "max_iteration_number 100".toList) (by rfl) (by rfl), .limit n100 (by decide)⟩
      · exact ⟨["7.0".toList, "9.0".toList], wSetting wB1 (l := "albedo 7.0 9.0".toList) (by rfl) (by rfl), .twoAlbedos (by simp) rfl rfl rfl⟩
      · exact ⟨["1".toList], wSetting wB1 (l := "energies 1".toList) (by rfl) (by rfl), .groups n1 (by decide)⟩
      · exact ⟨["forward".toList], wSetting wB1 (l := "direction forward".toList) (by rfl) (by rfl), .direction (Or.inl rfl)⟩
      · exact ⟨["fundamental".toList], wSetting wB1 (l := "eigenmodes fundamental".toList) (by rfl) (by rfl), .modes (Or.inl rfl)⟩
    · simp only [settingsOf, List.cons_append, List.nil_append, List.mem_cons, List.not_mem_nil, or_false] at hkey
      rcases hkey with rfl | rfl | rfl
      · exact ⟨["7.0".toList], wSetting wB2 (l := "accuracy 7.0".toList) (by rfl) (by rfl), .accuracy rfl⟩
      · exact ⟨["20".toList], wSetting wB2 (l := "max_iteration_number 20".toList) (by rfl) (by rfl), .limit n20 (by decide)⟩
      · exact ⟨["7.0".toList, "9.0".toList, "1.0".toList, "7.0".toList, "9.0".toList, "1.0".toList],
          wSetting wB2 (l := "heat_boundary_conditions 7.0 9.0 1.0 7.0 9.0 1.0".toList) (by rfl) (by rfl), .six rfl rfl (wReads _).choose_spec⟩
    · simp only [settingsOf, List.append_nil, List.mem_cons, List.not_mem_nil, or_false] at hkey
      rcases hkey with rfl | rfl
      · exact ⟨["9.0".toList], wSetting wB3 (l := "accuracy 9.0".toList) (by rfl) (by rfl), .accuracy rfl⟩
      · exact ⟨["5".toList], wSetting wB3 (l := "max_iteration_number 5".toList) (by rfl) (by rfl), .limit n5 (by decide)⟩
  relaxation := fun _ _ => ⟨["1.0".toList], wSetting wB3 (l := "relaxation_parameter 1.0".toList) (by rfl) (by rfl), .relaxation rfl⟩
  body := fun _ => {
    geometry := ⟨"geometry".toList, "slab".toList, card_eval wLib_sane (l := "geometry slab".toList) (by rfl) (by rfl), by simp [geometries]⟩
    mesh := ⟨"mesh".toList, ["2".toList, "1.0".toList, "fuel".toList, "1".toList, "1.0".toList, "water".toList],
      card_eval wLib_sane (l := "mesh 2 1.0 fuel 1 1.0 water".toList) (by rfl) (by rfl), .cons (wDigit (i := 2) (by decide)) rfl (.cons (wDigit (i := 1) (by decide)) rfl .nil)⟩
    some := by simp [wRegions]
    cells := by simp [wRegions]
    few := by simp [wRegions]
    named := by
      intro q hq
      simp only [wRegions, List.mem_cons, List.not_mem_nil, or_false] at hq
      rcases hq with rfl | rfl
      · exact wNamed _ _ (by decide)
      · exact wNamed _ _ (by decide)
    headers := by
      intro q hq
      simp only [wRegions, List.mem_cons, List.not_mem_nil, or_false] at hq
      rcases hq with rfl | rfl
      · exact ⟨"material".toList, "fuel".toList, card_eval wLib_sane (l := "material fuel".toList) (by rfl) (by rfl)⟩
      · exact ⟨"material".toList, "water".toList, card_eval wLib_sane (l := "material water".toList) (by rfl) (by rfl)⟩ }
  tables := by
    intro k hk hn q hq name hname e he
    obtain rfl : e = 0 := by omega
    have hname : name = "ni" ∨ name = "chi" ∨ name = "fission" ∨ name = "total" ∨ name = "diffCoeff" := by
      unfold tables at hname
      split at hname <;> simp at hname <;> tauto
    simp only [wRegions, List.mem_cons, List.not_mem_nil, or_false] at hq
    rcases hq with rfl | rfl
    · rcases hname with rfl | rfl | rfl | rfl | rfl
      · exact (wLaw wB4 (l := "ni(1) 7.0".toList) (by rfl) rfl (by decide)).imp fun _ h => h.1
      · exact (wLaw wB4 (l := "chi(1) 1.0".toList) (by rfl) rfl (by decide)).imp fun _ h => h.1
      · exact (wLaw wB4 (l := "fission(1) 9.0".toList) (by rfl) rfl (by decide)).imp fun _ h => h.1
      · exact (wLaw wB4 (l := "total(1) 7.0".toList) (by rfl) rfl (by decide)).imp fun _ h => h.1
      · exact (wLaw wB4 (l := "diffcoeff(1) 9.0".toList) (by rfl) rfl (by decide)).imp fun _ h => h.1
    · rcases hname with rfl | rfl | rfl | rfl | rfl
      · exact (wLaw wB5 (l := "ni(1) 1.0".toList) (by rfl) rfl (by decide)).imp fun _ h => h.1
      · exact (wLaw wB5 (l := "chi(1) 1.0".toList) (by rfl) rfl (by decide)).imp fun _ h => h.1
      · exact (wLaw wB5 (l := "fission(1) 1.0".toList) (by rfl) rfl (by decide)).imp fun _ h => h.1
      · exact (wLaw wB5 (l := "total(1) 9.0".toList) (by rfl) rfl (by decide)).imp fun _ h => h.1
      · exact (wLaw wB5 (l := "diffcoeff(1) 7.0".toList) (by rfl) rfl (by decide)).imp fun _ h => h.1
  scattering := by
    intro k hk hn q hq e f he hf
    obtain rfl : e = 0 := by omega
    obtain rfl : f = 0 := by omega
    simp only [wRegions, List.mem_cons, List.not_mem_nil, or_false] at hq
    rcases hq with rfl | rfl
    · exact (wLaw wB4 (l := "scattmatrix(1, 1) 1.0".toList) (by rfl) rfl (by decide)).imp fun _ h => h.1
    · exact (wLaw wB5 (l := "scattmatrix(1, 1) 7.0".toList) (by rfl) rfl (by decide)).imp fun _ h => h.1
  conductivity := by
    intro _ q hq
    simp only [wRegions, List.mem_cons, List.not_mem_nil, or_false] at hq
    rcases hq with rfl | rfl
    · obtain ⟨v, h, e⟩ := wLaw (n := 1) (w := "fuel".toList) (key := "thermal_conductivity".toList) wB4 (l := "thermal_conductivity 7.0".toList) (by rfl) rfl (by decide)
      exact ⟨v, h, by rw [e]; decide, by rw [e]; decide⟩
    · obtain ⟨v, h, e⟩ := wLaw (n := 1) (w := "water".toList) (key := "thermal_conductivity".toList) wB5 (l := "thermal_conductivity 9.0 1.0".toList) (by rfl) rfl (by decide)
      exact ⟨v, h, by rw [e]; decide, by rw [e]; decide⟩
  temperatures := fun _ => ⟨Vec.ofList [7, 9, 1], ⟨"temperatures".toList, ["7.0".toList, "9.0".toList, "1.0".toList],
    card_eval wLib_sane (l := "temperatures 7.0 9.0 1.0".toList) (by rfl) (by rfl),
    .plain (by rw [ofList_toList]; exact .cons rfl (.cons rfl (.cons rfl .nil))) (by simp) wDecimal⟩, by decide⟩
  sources := fun _ _ h => absurd (List.mem_cons_self) h
  power := fun _ _ => ⟨9, "thermal_power".toList, "9.0".toList, card_eval wLib_sane (l := "thermal_power 9.0 % watts".toList) (by rfl) (by rfl), rfl⟩
  kinetics := by simp
  plots := Or.inr ⟨"plots".toList, ["temperature".toList, "neutronflux".toList, "other".toList], by simp,
    card_eval wLib_sane (l := "plots temperature neutronflux other".toList) (by rfl) (by rfl)⟩

example (p : Calc.Plant) : ∃ r, readData wLib (some wRaw) p = ok r ∧ r.lines = wKept ∧ r.solvers.map Calc.Settings.kind = [.diffusion, .heat, .coupled] ∧
    r.plant.grid.geom = .slab ∧ Meshed wRegions r.plant.grid ∧ r.plant.grid.energies = 1 ∧ r.plots = [.temperature, .neutronFlux] := by
  obtain ⟨r, h1, h2, h3, h4, h5⟩ := C87 (wLib_clean _) wStored wFull p
  refine ⟨r, h1, h2, h3, (h4 ⟨.heat, by simp⟩).1, (h4 ⟨.heat, by simp⟩).2, h5 ⟨.diffusion, by simp [neutronics]⟩, ?_⟩
  have hcard : Card r.lines "plots" ("plots".toList :: ["temperature".toList, "neutronflux".toList, "other".toList]) := by
    rw [h2]
    exact card_eval wLib_sane (l := "plots temperature neutronflux other".toList) (by rfl) (by rfl)
  rcases C88 wLib_sane h1 with ⟨c, ws, h6, -, h7⟩ | ⟨h6 | h6, -⟩
  · cases card_unique hcard h6
    generalize r.plots = ps at h7 ⊢
    rcases h7 with - | ⟨hw, h7⟩ | ⟨hw, h7⟩
    · rcases h7 with - | ⟨hw', h7⟩ | ⟨hw', h7⟩
      · rcases h7 with - | ⟨hw'', h7⟩ | ⟨hw'', h7⟩
        · simp [plotNames] at hw''
        · cases h7
          simp [plotNames] at hw hw'
          rw [hw, hw']
      · exact absurd (by simp [plotNames]) (hw' .neutronFlux)
    · exact absurd (by simp [plotNames]) (hw .temperature)
  · cases card_unique hcard h6
  · obtain ⟨i, m, hf, -⟩ := hcard
    exact absurd hf.1 (h6 i m hf.2.1 hf.2.2.1)

end

end Verif.Input
