import Verif.Input.SettingProps
import Verif.Input.MeshProps
import Verif.Input.PileFile

/-!
# Properties of negative and huge counts in an input file

No count of an input file is checked for its range.
-/

namespace Verif.Input

open Verif Outcome

noncomputable section

variable {lib : Lib}

theorem stoi_negative {w : Text} {n : Nat} (h : Numeral w n) (hn : n ≤ 2147483648) : stoi ('-' :: w) = ok (-(n : Int)) := by
  obtain ⟨h1, h2, h3⟩ := numeral_facts h
  have e1 : ('-' :: w).dropWhile isSpace = '-' :: w := by
    rw [List.dropWhile_cons, if_neg (by decide)]
  have e3 : w.takeWhile Char.isDigit = w := List.takeWhile_eq_self_iff.2 h2
  unfold stoi
  rw [e1]
  simp only [sign, e3, h3]
  have : w.isEmpty = false := by
    cases w with
    | nil => exact absurd rfl h1
    | cons => rfl
  rw [this]
  simp only [Bool.false_eq_true, if_false, if_true]
  rw [if_pos (by constructor <;> omega)]

theorem toUns_negative {n : Nat} (h1 : 1 ≤ n) (hn : n ≤ 2147483648) : toUns (-(n : Int)) = 4294967296 - n := by
  unfold toUns
  omega

theorem total_negative {n : Nat} (h1 : 1 ≤ n) (hn : n ≤ 2147483648) : total [4294967296 - n] = -(n : Int) ∧ total [0, 4294967296 - n] = -(n : Int) := by
  unfold total
  have e : ([4294967296 - n] : List Nat).sum = 4294967296 - n := by simp
  have e' : ([0, 4294967296 - n] : List Nat).sum = 4294967296 - n := by simp
  rw [e, e']
  refine ⟨?_, ?_⟩ <;> rw [Nat.mod_eq_of_lt (by omega), if_neg (by omega)] <;> omega

/-- **C33, negative counts.** A value with a negative count is not refused with a message: the program throws an exception that nothing catches. -/
theorem C33_negative {v w : Text} {x : ℝ} {n : Nat} (hv : lib.stod v = ok x) (hd : Decimal v) (hl : v.getLast? ≠ some '.') (hw : Numeral w n) (h1 : 1 ≤ n)
    (hn : n ≤ 2147483648) : values lib [v, '-' :: w] = throws .lengthError := by
  have hfl : isFloat v = ok true := C38_decimal hd hl
  have hnf : isFloat ('-' :: w) = ok false := by
    apply isFloat_none
    intro h
    rcases List.mem_cons.1 h with h | h
    · exact absurd h (by decide)
    · have := (numeral_facts hw).2.1 _ h
      revert this
      decide
  have ha : allFloat [v, '-' :: w] = ok false := by
    rw [allFloat, hfl, ok_bind, if_pos rfl, allFloat, hnf, ok_bind, if_neg (by simp)]
  unfold values
  rw [ha, ok_bind, if_neg (by simp)]
  show (isFloat v >>= fun f => expand lib f [v, '-' :: w]) = _
  rw [hfl, ok_bind]
  show (valueCount lib [v, '-' :: w] >>= _) = _
  have hvc : valueCount lib [v, '-' :: w] = ok ([x], [4294967296 - n]) := by
    unfold valueCount
    rw [hv, ok_bind, stoi_negative hw hn, ok_bind]
    show (valueCount lib [] >>= _) = _
    rw [valueCount, ok_bind, toUns_negative h1 hn]
  rw [hvc, ok_bind, (total_negative h1 hn).1, resize, if_pos (by omega)]
  rfl

/-- **C32, negative numbers of cells.** A mesh card with a negative number of cells is undefined behaviour. -/
theorem C32_negative {r : Reader} (hc : Clean lib r.lines) {k w v m : Text} {n : Nat} {x : ℝ} (hw : Numeral w n) (h2 : 2 ≤ n) (hn : n ≤ 2147483648)
    (hv : lib.stod v = ok x) (hk : Card r.lines "mesh" [k, '-' :: w, v, m]) : setMesh lib r = ub := by
  have hreg : regions lib ['-' :: w, v, m] = ok ([4294967296 - n], [x], [m]) := by
    show (stoi ('-' :: w) >>= _) = _
    rw [stoi_negative hw hn, ok_bind, hv, ok_bind, toUns_negative (by omega) hn]
    rfl
  unfold setMesh
  rw [readMany_card hc hk (by simp), ok_bind, hreg, ok_bind]
  simp only [meshBounds]
  rw [(total_negative (by omega) hn).2, if_pos (Or.inl (by omega))]
  rfl

/-- **C32, too many cells.** A mesh card with the largest number of cells that an `int` can hold is undefined behaviour: adding one for the boundaries overflows. -/
theorem C32_huge {r : Reader} (hc : Clean lib r.lines) {k w v m : Text} {x : ℝ} (hw : Numeral w 2147483647) (hv : lib.stod v = ok x)
    (hk : Card r.lines "mesh" [k, w, v, m]) : setMesh lib r = ub := by
  have hreg : regions lib [w, v, m] = ok ([2147483647], [x], [m]) := by
    show (stoi w >>= _) = _
    rw [stoi_numeral hw (by omega), ok_bind, hv, ok_bind, toUns_nat (by omega)]
    rfl
  unfold setMesh
  rw [readMany_card hc hk (by simp), ok_bind, hreg, ok_bind]
  simp only [meshBounds]
  rw [if_pos (Or.inr (by decide))]
  rfl

/-- **C79, negative limits.** A negative limit is taken as it is. -/
theorem C79_negative (hs : Sane lib) {file : Option (List Text)} {p : Calc.Plant} {r : Reader} (h : readData lib file p = ok r) (hp : Proper r.lines)
    {s : Calc.Settings} (hm : s ∈ r.solvers) {w : Text} {n : Nat} (hw : Numeral w n) (hn : n ≤ 2147483648)
    (hset : Setting r.lines s.kind "max_iteration_number" ['-' :: w]) : s.maxIter = -(n : Int) := by
  obtain ⟨vs, s1, s2, q, q', hset', -, ha, e1, e2⟩ := read_setting hs h hp hm (key := "max_iteration_number") (f := Calc.Settings.maxIter)
    (fun _ _ _ _ _ hk hne => hk.maxIter hne) [_] _ rfl (Or.inl rfl) (by decide) (by decide) (by intro k _; cases k <;> decide)
  cases setting_unique hset hset'
  rcases assign_given ha (by decide) (by decide) (by decide) with ⟨v, e, hv⟩ | ⟨e, -⟩
  · cases e
    obtain ⟨x, hx, e⟩ := bind_eq_ok.1 hv
    cases e
    rw [stoi_negative hw hn] at hx
    cases hx
    exact e2
  · simp at e

/-! ### examples -/

example : values exLib ["0.5".toList, "-3".toList] = throws .lengthError :=
  C33_negative (w := "3".toList) (x := 1 / 2) rfl (decimal_simple (by unfold Digit; decide) (by unfold Digit; decide)) (by decide) (.digit (i := 3) (by decide)) (by decide) (by decide)

example (p : Calc.Plant) : setMesh exLib ⟨["mesh -3 1.0 fuel".toList], [], p, [], [], []⟩ = ub :=
  C32_negative (exLib_clean _) (w := "3".toList) (v := "1.0".toList) (.digit (i := 3) (by decide)) (by decide) (by decide) rfl
    (card_eval exLib_sane (l := "mesh -3 1.0 fuel".toList) (by rfl) (by rfl))

example (p : Calc.Plant) : setMesh exLib ⟨["mesh 2147483647 1.0 fuel".toList], [], p, [], [], []⟩ = ub :=
  C32_huge (exLib_clean _) (w := "2147483647".toList) (v := "1.0".toList)
    (.snoc (w := "214748364".toList) (n := 214748364) (i := 7) (.snoc (w := "21474836".toList) (n := 21474836) (i := 4) (.snoc (w := "2147483".toList) (n := 2147483) (i := 6)
      (.snoc (w := "214748".toList) (n := 214748) (i := 3) (.snoc (w := "21474".toList) (n := 21474) (i := 8) (.snoc (w := "2147".toList) (n := 2147) (i := 4)
      (.snoc (w := "214".toList) (n := 214) (i := 7) (.snoc (w := "21".toList) (n := 21) (i := 4) (.snoc (w := "2".toList) (n := 2) (i := 1) (.digit (i := 2) (by decide))
      (by decide)) (by decide)) (by decide)) (by decide)) (by decide)) (by decide)) (by decide)) (by decide)) (by decide)) rfl
    (card_eval exLib_sane (l := "mesh 2147483647 1.0 fuel".toList) (by rfl) (by rfl))

/-- One solver with a negative limit. -/
def negativeFile : List Text := wKinetics ++ ["solver kinetics".toList, "max_iteration_number -3".toList, "accuracy 7.0".toList]

example (p : Calc.Plant) : ∃ r s, readData wLib (some negativeFile) p = ok r ∧ s ∈ r.solvers ∧ s.maxIter = -3 := by
  obtain ⟨r, s, h1, h2, h3, h4⟩ : ∃ r s, readData wLib (some negativeFile) p = ok r ∧ r.lines = negativeFile ∧ r.solvers = [s] ∧ s.kind = .kinetics :=
    ⟨_, _, rfl, rfl, rfl, rfl⟩
  have hm : s ∈ r.solvers := by simp [h3]
  refine ⟨r, s, h1, hm, C79_negative wLib_sane h1 (by rw [h2]; exact proper_eval (by decide)) hm (w := "3".toList) (n := 3) (.digit (i := 3) (by decide)) (by decide) ?_⟩
  rw [h2, h4]
  exact ⟨7, 4294967295, blockB_block wLib_sane (by decide +kernel), saysB_card wLib_sane (by decide +kernel)⟩

end

end Verif.Input
