import Verif.Numeric.Lemmas
import Mathlib.Tactic.IntervalCases

/-!
# Properties C09, C10, C11, C12: temperature laws, tolerant comparisons, vector arithmetic, tridiagonal solver
-/

namespace Verif.Numeric

open Verif Outcome Finset

/-! ## C09: temperature laws -/

/-- C09: `calc(x)` always ends normally with the value of the polynomial. -/
theorem C09_calc (c : Vec ℝ) (x : ℝ) : polyCalc c x = ok (polyValue c.n c.v x) := by
  unfold polyCalc polyValue
  rw [loop_sum (f := fun i => c.v i * x ^ i) c.n 0 _ (by intro i t hi; simp [Vec.get_ok hi]), zero_add]

/-- C09: `round_to` for precisions 0 … 9 returns the nearest multiple of `10^-p`, halves away from zero. -/
theorem C09_round_to (x : ℝ) (p : Nat) (hp : p < 10) :
    ∃ k : ℤ, IsRounding k (x * 10 ^ p) ∧ roundTo x p = ok ((k : ℝ) / 10 ^ p) := by
  refine ⟨cround (x * 10 ^ p), cround_isRounding _, ?_⟩
  unfold roundTo
  rw [if_neg (by omega), if_neg (by omega)]
  simp

/-- The other precisions: negative ones give `0/0`, from ten on the integer conversion is undefined. -/
theorem C09_round_to_bad (x : ℝ) (p : ℤ) :
    (p < 0 → roundTo x p = nonfinite) ∧ (10 ≤ p → roundTo x p = ub) := by
  constructor
  · intro h; simp [roundTo, h]
  · intro h; unfold roundTo; rw [if_neg (by omega), if_pos h]

/-- C09: `calc(x, base)` terminates the program exactly when `x` lies half a millionth or more below `base`; otherwise the
difference is rounded to the nearest multiple `k` of `10^-6` (`k ≥ 0`) and the polynomial is evaluated there. -/
theorem C09_calc_base (c : Vec ℝ) (x base : ℝ) :
    (x - base ≤ -(1 / (2 * 10 ^ 6)) → polyCalcBase c x base = Outcome.exit) ∧
    (-(1 / (2 * 10 ^ 6)) < x - base →
      ∃ k : ℤ, 0 ≤ k ∧ IsRounding k ((x - base) * 10 ^ 6) ∧
        polyCalcBase c x base = ok (polyValue c.n c.v ((k : ℝ) / 10 ^ 6))) := by
  obtain ⟨k, hk, hr⟩ := C09_round_to (x - base) 6 (by norm_num)
  have hr' : roundTo (x - base) 6 = ok ((k : ℝ) / 10 ^ 6) := hr
  have ht := tol_pos
  have ht' := tol_lt
  constructor
  · intro h
    have hk1 : k ≤ -1 := by
      by_contra hc
      have hk0 : (0 : ℝ) ≤ k := by exact_mod_cast (by omega : 0 ≤ k)
      have hy : (x - base) * 10 ^ 6 ≤ -(1 / 2) := by norm_num at h ⊢; linarith
      rcases hk with h1 | ⟨h1, h2⟩
      · rw [abs_lt] at h1; linarith
      · rw [abs_of_nonneg (by linarith)] at h1
        rw [abs_of_nonneg hk0, abs_of_nonpos (by linarith)] at h2
        linarith
    have hk1' : (k : ℝ) ≤ -1 := by exact_mod_cast hk1
    unfold polyCalcBase
    rw [hr', ok_bind, if_pos]
    unfold isLower
    have : (k : ℝ) / 10 ^ 6 ≤ -1 / 10 ^ 6 := by
      apply div_le_div_of_nonneg_right hk1' (by positivity)
    have h3 : (-1 : ℝ) / 10 ^ 6 = -(1 / 10 ^ 6) := by ring
    linarith
  · intro h
    have hk0 : 0 ≤ k := by
      by_contra hc
      have hk1 : (k : ℝ) ≤ -1 := by exact_mod_cast (by omega : k ≤ -1)
      have hy : -(1 / 2) < (x - base) * 10 ^ 6 := by norm_num at h ⊢; linarith
      rcases hk with h1 | ⟨h1, h2⟩
      · rw [abs_lt] at h1; linarith
      · rw [abs_of_nonpos (by linarith)] at h1
        linarith
    refine ⟨k, hk0, hk, ?_⟩
    have hk0' : (0 : ℝ) ≤ k := by exact_mod_cast hk0
    unfold polyCalcBase
    rw [hr', ok_bind, if_neg]
    · unfold polyValue
      rw [loop_sum (f := fun i => c.v i * ((k : ℝ) / 10 ^ 6) ^ i) c.n 0 _ (by intro i t hi; simp [Vec.get_ok hi]),
        zero_add]
    · unfold isLower
      have : (0 : ℝ) ≤ (k : ℝ) / 10 ^ 6 := by positivity
      push Not
      linarith

/-- Corollary: within half a millionth of the base, on either side, the constant term is returned. -/
theorem C09_calc_base_at_base (c0 : ℝ) (c : Vec ℝ) (hc : 0 < c.n) (h0 : c.v 0 = c0) (x base : ℝ)
    (h : |x - base| < 1 / (2 * 10 ^ 6)) : polyCalcBase c x base = ok c0 := by
  rw [abs_lt] at h
  obtain ⟨k, hk0, hk, hr⟩ := (C09_calc_base c x base).2 h.1
  have hz : k = 0 := isRounding_unique hk (Or.inl (by
    rw [Int.cast_zero, zero_sub, abs_neg, abs_lt]
    norm_num at h ⊢
    constructor <;> linarith))
  rw [hr, hz]
  congr 1
  unfold polyValue
  obtain ⟨m, hm⟩ : ∃ m, c.n = m + 1 := ⟨c.n - 1, by omega⟩
  rw [hm, sum_range_succ', Int.cast_zero, zero_div]
  simp [h0]

/-- Both branches of `C09_calc_base` are inhabited: the law `2 + 3 t` with base 300 at 300.5 gives `3.5`, at 299 it exits. -/
example : polyCalcBase ⟨2, fun i => if i = 0 then 2 else 3⟩ 300.5 300 = ok 3.5 ∧
    polyCalcBase ⟨2, fun i => if i = 0 then 2 else 3⟩ 299 300 = Outcome.exit := by
  constructor
  · obtain ⟨k, -, hk, hr⟩ := (C09_calc_base ⟨2, fun i => if i = 0 then 2 else 3⟩ 300.5 300).2 (by norm_num)
    have : k = 500000 := isRounding_unique hk (Or.inl (by norm_num))
    rw [hr, this]
    norm_num [polyValue, sum_range_succ]
  · exact (C09_calc_base _ _ _).1 (by norm_num)

/-! ## C10: tolerant comparisons -/

/-- C10, laws that hold without exception: `is_equal` is reflexive, symmetric and implied by equality; it is the conjunction of
`is_lower_equal` and `is_greater_equal`; the strict comparisons are mirror images, imply the true order, exclude each
other and the opposite weak comparison, and are transitive; every pair is comparable in the weak sense. -/
theorem C10_laws (x y z : ℝ) :
    isEqual x x ∧ (isEqual x y ↔ isEqual y x) ∧ (isEqual x y ↔ isLowerEqual x y ∧ isGreaterEqual x y) ∧
    (notEqual x y ↔ ¬ isEqual x y) ∧
    (isGreater x y ↔ isLower y x) ∧ (isGreaterEqual x y ↔ isLowerEqual y x) ∧
    (isGreater x y → y < x) ∧ (isLower x y → x < y) ∧
    ¬ (isGreater x y ∧ isLower x y) ∧ ¬ (isGreater x y ∧ isLowerEqual x y) ∧ ¬ (isLower x y ∧ isGreaterEqual x y) ∧
    ¬ (isEqual x y ∧ (isLower x y ∨ isGreater x y)) ∧
    (x ≤ y → isLowerEqual x y) ∧ (y ≤ x → isGreaterEqual x y) ∧
    (isGreater x y → isGreater y z → isGreater x z) := by
  have ht := tol_pos
  unfold isEqual isGreater isLower isGreaterEqual isLowerEqual notEqual isEqual
  refine ⟨by simpa using ht, by rw [abs_sub_comm], ?_, Iff.rfl, ?_, ?_, ?_, ?_, ?_, ?_, ?_, ?_, ?_, ?_, ?_⟩
  · rw [abs_lt]; constructor
    · rintro ⟨h1, h2⟩; constructor <;> linarith
    · rintro ⟨h1, h2⟩; constructor <;> linarith
  · constructor <;> intro h <;> linarith
  · constructor <;> intro h <;> linarith
  · intro h; linarith
  · intro h; linarith
  · rintro ⟨h, h'⟩; linarith
  · rintro ⟨h, h'⟩; linarith
  · rintro ⟨h, h'⟩; linarith
  · rintro ⟨h, h'⟩; rw [abs_lt] at h; rcases h' with h' | h' <;> linarith
  · intro h; linarith
  · intro h; linarith
  · intro h h'; linarith

/-- C10 as stated ("exact negation", "exactly one of") fails at the exact distance of the tolerance: there `x` is neither
lower, nor greater, nor equal, nor lower-or-equal. The witness `10 ε, 0` is a pair of exactly representable doubles. -/
theorem C10_negation_fails :
    ∃ x y : ℝ, ¬ isGreater x y ∧ ¬ isLowerEqual x y ∧ ¬ isEqual x y ∧ ¬ isLower x y := by
  have ht := tol_pos
  refine ⟨tol, 0, ?_, ?_, ?_, ?_⟩
  · unfold isGreater; simp
  · unfold isLowerEqual; simp
  · unfold isEqual; simp [abs_of_pos ht]
  · unfold isLower; push Not; linarith

/-- C10, what remains true: away from the exact tolerance distance the strict comparisons are the negations of the opposite
weak ones and exactly one of lower / equal / greater holds. Missing for the full property: the two points `|x - y| = tol`. -/
theorem C10_negation_partial (x y : ℝ) (h : |x - y| ≠ tol) :
    (isGreater x y ↔ ¬ isLowerEqual x y) ∧ (isLower x y ↔ ¬ isGreaterEqual x y) ∧
    (isEqual x y ∨ isLower x y ∨ isGreater x y) := by
  have ht := tol_pos
  have h1 : x ≠ y + tol := by
    intro e; apply h; rw [e, add_sub_cancel_left, abs_of_pos ht]
  have h2 : x ≠ y - tol := by
    intro e; apply h; rw [e, show y - tol - y = -tol by ring, abs_neg, abs_of_pos ht]
  unfold isEqual isGreater isLower isGreaterEqual isLowerEqual
  refine ⟨?_, ?_, ?_⟩
  · constructor
    · intro h; push Not; linarith
    · intro h; push Not at h; exact lt_of_le_of_ne h (Ne.symm h1)
  · constructor
    · intro h; push Not; linarith
    · intro h; push Not at h; exact lt_of_le_of_ne h h2
  · rcases lt_or_gt_of_ne h1 with h3 | h3
    · rcases lt_or_gt_of_ne h2 with h4 | h4
      · right; left; exact h4
      · left; rw [abs_lt]; constructor <;> linarith
    · right; right; exact h3

example : |(3 : ℝ) - 1| ≠ tol ∧ isGreater 3 1 ∧ ¬ isLowerEqual 3 1 := by
  have h : |(3 : ℝ) - 1| ≠ tol := by norm_num [tol]
  have hg : isGreater 3 1 := by norm_num [isGreater, tol]
  exact ⟨h, hg, (C10_negation_partial 3 1 h).1.1 hg⟩

/-- C10: `is_equal` is not transitive. -/
theorem C10_equal_not_transitive : ∃ x y z : ℝ, isEqual x y ∧ isEqual y z ∧ ¬ isEqual x z := by
  refine ⟨0, 9 / 2 ^ 52, 18 / 2 ^ 52, ?_, ?_, ?_⟩ <;> norm_num [isEqual, tol, abs_of_nonneg, abs_of_nonpos]

/-! ## C11: vector arithmetic -/

/-- C11: sum, difference and in-place sum and difference of vectors of equal length end normally, keep the length and act
entry by entry. -/
theorem C11_add_sub (a b : Vec ℝ) (h : a.n = b.n) :
    (∃ p, vadd a b = ok p ∧ p.n = a.n ∧ ∀ i < a.n, p.v i = a.v i + b.v i) ∧
    (∃ p, vsub a b = ok p ∧ p.n = a.n ∧ ∀ i < a.n, p.v i = a.v i - b.v i) ∧
    (∃ p, vaddAssign a b = ok p ∧ p.n = a.n ∧ ∀ i < a.n, p.v i = a.v i + b.v i) ∧
    (∃ p, vsubAssign a b = ok p ∧ p.n = a.n ∧ ∀ i < a.n, p.v i = a.v i - b.v i) := by
  refine ⟨⟨⟨a.n, fun i => a.v i + b.v i⟩, by simp [vadd, h], rfl, fun _ _ => rfl⟩,
    ⟨⟨a.n, fun i => a.v i - b.v i⟩, by simp [vsub, h], rfl, fun _ _ => rfl⟩, ?_, ?_⟩
  · unfold vaddAssign
    rw [if_neg (by simpa using h)]
    apply loop_map (fun i x => x + b.v i)
    intro i t hi htn hti
    simp [Vec.get_ok (x := t) (i := i) (by omega), Vec.get_ok (x := b) (i := i) (by omega),
      Vec.set_ok (x := t) (i := i) (by omega), hti]
  · unfold vsubAssign
    rw [if_neg (by simpa using h)]
    apply loop_map (fun i x => x - b.v i)
    intro i t hi htn hti
    simp [Vec.get_ok (x := t) (i := i) (by omega), Vec.get_ok (x := b) (i := i) (by omega),
      Vec.set_ok (x := t) (i := i) (by omega), hti]

/-- C11: vectors of different lengths are refused. -/
theorem C11_length_error (a b : Vec ℝ) (h : a.n ≠ b.n) :
    vadd a b = throws .lengthError ∧ vsub a b = throws .lengthError ∧
    vaddAssign a b = throws .lengthError ∧ vsubAssign a b = throws .lengthError := by
  simp [vadd, vsub, vaddAssign, vsubAssign, h]

/-- C11: scaling acts entry by entry and keeps the length. -/
theorem C11_mul (a : Vec ℝ) (m : ℝ) :
    ((vmul a m).n = a.n ∧ ∀ i < a.n, (vmul a m).v i = a.v i * m) ∧
    (∃ p, vmulAssign a m = ok p ∧ p.n = a.n ∧ ∀ i < a.n, p.v i = a.v i * m) := by
  refine ⟨⟨rfl, fun _ _ => rfl⟩, ?_⟩
  unfold vmulAssign
  apply loop_map (fun _ x => x * m)
  intro i t hi htn hti
  simp [Vec.get_ok (x := t) (i := i) (by omega), Vec.set_ok (x := t) (i := i) (by omega), hti]

/-- C11: dividing by a number at distance at least the tolerance from zero acts entry by entry; otherwise `overflow_error`. -/
theorem C11_div (a : Vec ℝ) (d : ℝ) :
    (10 / 2 ^ 52 ≤ |d| →
      (∃ p, vdiv a d = ok p ∧ p.n = a.n ∧ ∀ i < a.n, p.v i = a.v i / d) ∧
      (∃ p, vdivAssign a d = ok p ∧ p.n = a.n ∧ ∀ i < a.n, p.v i = a.v i / d)) ∧
    (|d| < 10 / 2 ^ 52 → vdiv a d = throws .overflowError ∧ vdivAssign a d = throws .overflowError) := by
  constructor
  · intro h
    have hne : ¬ isEqual d 0 := by unfold isEqual tol; rw [sub_zero]; push Not; exact h
    refine ⟨⟨⟨a.n, fun i => a.v i / d⟩, by simp [vdiv, hne], rfl, fun _ _ => rfl⟩, ?_⟩
    unfold vdivAssign
    rw [if_neg hne]
    apply loop_map (fun _ x => x / d)
    intro i t hi htn hti
    simp [Vec.get_ok (x := t) (i := i) (by omega), Vec.set_ok (x := t) (i := i) (by omega), hti]
  · intro h
    have he : isEqual d 0 := by unfold isEqual tol; rw [sub_zero]; exact h
    simp [vdiv, vdivAssign, he]

example : (10 : ℝ) / 2 ^ 52 ≤ |(2 : ℝ)| ∧ |(0 : ℝ)| < 10 / 2 ^ 52 ∧
    ((⟨2, fun i => i⟩ : Vec ℝ).n = (⟨2, fun _ => 1⟩ : Vec ℝ).n) ∧ ((⟨2, fun i => i⟩ : Vec ℝ).n ≠ (⟨3, fun _ => 1⟩ : Vec ℝ).n) := by
  norm_num

/-! ## C12: tridiagonal solver -/

/-- C12 fails: there is a strictly diagonally dominant system of three equations for which the returned vector is not a solution
(row 1 is eliminated with the superdiagonal entry of row 0). -/
theorem C12_fails :
    ∃ a b c d : Vec ℝ, a.n = 2 ∧ b.n = 3 ∧ c.n = 2 ∧ d.n = 3 ∧ DiagDominant 3 a.v b.v c.v ∧
      ∃ x, tridiagSolver a b c d = ok x ∧ ¬ SolvesTridiag 3 a.v b.v c.v d.v x.v := by
  refine ⟨⟨2, fun _ => 0⟩, ⟨3, fun _ => 4⟩, ⟨2, fun i => if i = 1 then 1 else 0⟩, ⟨3, fun i => if i = 2 then 4 else 0⟩,
    rfl, rfl, rfl, rfl, ?_, ?_⟩
  · intro i hi
    interval_cases i <;> norm_num
  · obtain ⟨x, hx, -, hs⟩ := tridiagSolver_shifted ⟨2, fun _ => 0⟩ ⟨3, fun _ => 4⟩ ⟨2, fun i => if i = 1 then 1 else 0⟩
      ⟨3, fun i => if i = 2 then 4 else 0⟩ (by norm_num) (by norm_num) (by norm_num) (by norm_num) (by norm_num)
      (by norm_num) (by intro i _; norm_num)
    refine ⟨x, hx, fun h => ?_⟩
    have h1 := hs 1 (by norm_num)
    have h2 := hs 2 (by norm_num)
    have h3 := h 1 (by norm_num)
    norm_num at h1 h2 h3
    linarith

/-- C12, what remains true: if the superdiagonal is constant, then for every size and every strictly diagonally dominant system
the call ends normally and the result solves the system. Missing for the full property: non-constant superdiagonals, for
which `C12_fails` shows the code is wrong. -/
theorem C12_partial (a b c d : Vec ℝ) (hn : 0 < d.n) (ha : a.n = d.n - 1) (hb : b.n = d.n)
    (hc : c.n = d.n - 1 ∨ c.n = d.n) (hc0 : 0 < c.n)
    (hdom : DiagDominant d.n a.v b.v c.v) (hconst : ∀ i, i + 1 < d.n → c.v i = c.v 0) :
    ∃ x, tridiagSolver a b c d = ok x ∧ x.n = d.n ∧ SolvesTridiag d.n a.v b.v c.v d.v x.v := by
  have h0 : b.v 0 ≠ 0 := by
    have h := hdom 0 hn
    rw [if_pos rfl] at h
    have h3 : (0 : ℝ) ≤ (if 0 + 1 = d.n then 0 else |c.v 0|) := by split_ifs; exact le_rfl; exact abs_nonneg _
    intro hz
    rw [hz, abs_zero] at h
    linarith
  obtain ⟨x, hx, hxn, hs⟩ := tridiagSolver_shifted a b c d hn (by omega) (by omega) (by omega) hc0 h0
    (fun i hi => (Pseq_abs_lt d.n a.v b.v c.v hdom hconst i hi).2)
  refine ⟨x, hx, hxn, ?_⟩
  intro i hi
  have h := hs i hi
  by_cases hl : i + 1 = d.n
  · simpa [hl] using h
  · rw [if_neg hl] at h ⊢
    have : c.v (i - 1) = c.v i := by rw [hconst i (by omega), hconst (i - 1) (by omega)]
    simpa only [this] using h

/-- `C12_partial` applies to the discrete Laplacian `[-1, 3, -1]` with four unknowns. -/
example : ∃ x, tridiagSolver ⟨3, fun _ => -1⟩ ⟨4, fun _ => 3⟩ ⟨3, fun _ => -1⟩ ⟨4, fun i => i⟩ = ok x ∧ x.n = 4 ∧
    SolvesTridiag 4 (fun _ => -1) (fun _ => 3) (fun _ => -1) (fun i => i) x.v :=
  C12_partial ⟨3, fun _ => -1⟩ ⟨4, fun _ => 3⟩ ⟨3, fun _ => -1⟩ ⟨4, fun i => i⟩ (by norm_num) rfl rfl (Or.inl rfl)
    (by norm_num) (by intro i _; dsimp only; split_ifs <;> norm_num) (fun _ _ => rfl)

end Verif.Numeric
