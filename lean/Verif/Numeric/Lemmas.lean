import Verif.Numeric.Model
import Verif.Numeric.Spec
import Verif.Core.Lemmas
import Mathlib.Tactic.Linarith
import Mathlib.Tactic.FieldSimp
import Mathlib.Tactic.Ring
import Mathlib.Tactic.NormNum
import Mathlib.Tactic.Positivity
import Mathlib.Tactic.LinearCombination

/-! Helper lemmas for the numeric tools. -/

namespace Verif.Numeric

open Verif Outcome Finset

theorem tol_pos : 0 < tol := by norm_num [tol]

theorem tol_lt : tol < 1 / 10 ^ 6 := by norm_num [tol]

theorem loopFrom_inv {σ : Type} {body : Nat → σ → Outcome σ} {a n : Nat} {s : σ} (Inv : Nat → σ → Prop)
    (h0 : Inv a s)
    (hstep : ∀ i t, a ≤ i → i < a + n → Inv i t → ∃ t', body i t = ok t' ∧ Inv (i + 1) t') :
    ∃ t, loopFrom a body n s = ok t ∧ Inv (a + n) t :=
  loop_inv (fun i t => Inv (a + i) t) h0 (fun i t hi h => hstep (a + i) t (by omega) (by omega) h)

/-- `P` of the elimination, as a recurrence. -/
noncomputable def Pseq (a b c : Nat → ℝ) : Nat → ℝ
  | 0 => -c 0 / b 0
  | i + 1 => -c i / (b (i + 1) + a i * Pseq a b c i)

/-- `Q` of the elimination, as a recurrence. -/
noncomputable def Qseq (a b c d : Nat → ℝ) : Nat → ℝ
  | 0 => d 0 / b 0
  | i + 1 => (d (i + 1) - a i * Qseq a b c d i) / (b (i + 1) + a i * Pseq a b c i)

theorem tridiagForward_ok (a b c d : Vec ℝ) (n : Nat) (hn : 0 < n) (ha : n ≤ a.n + 1) (hb : n ≤ b.n)
    (hc : n ≤ c.n + 1) (hc1 : 0 < c.n) (hd : n ≤ d.n) (h0 : b.v 0 ≠ 0)
    (hpiv : ∀ i, i + 1 < n → b.v (i + 1) + a.v i * Pseq a.v b.v c.v i ≠ 0) :
    ∃ PQ, tridiagForward a b c d n = ok PQ ∧ PQ.1.n = n ∧ PQ.2.n = n ∧
      (∀ i, i < n → PQ.1.v i = Pseq a.v b.v c.v i) ∧ (∀ i, i < n → PQ.2.v i = Qseq a.v b.v c.v d.v i) := by
  unfold tridiagForward
  have e1 : (Vec.const n (0 : ℝ)).set 0 (-c.v 0 / b.v 0) = ok ⟨n, Function.update (fun _ => 0) 0 (-c.v 0 / b.v 0)⟩ :=
    Vec.set_ok hn
  have e2 : (Vec.const n (0 : ℝ)).set 0 (d.v 0 / b.v 0) = ok ⟨n, Function.update (fun _ => 0) 0 (d.v 0 / b.v 0)⟩ :=
    Vec.set_ok hn
  simp only [Vec.get_ok (x := b) (i := 0) (by omega), Vec.get_ok (x := c) hc1,
    Vec.get_ok (x := d) (i := 0) (by omega), ok_bind, fdiv_ok h0, e1, e2]
  obtain ⟨t, ht, h1, h2, h3, h4⟩ := loopFrom_inv (a := 1) (n := n - 1)
    (body := fun i (PQ : Vec ℝ × Vec ℝ) => do
      let bi ← b.get i
      let ai ← a.get (i - 1)
      let pi ← PQ.1.get (i - 1)
      let qi ← PQ.2.get (i - 1)
      let ci ← c.get (i - 1)
      let di ← d.get i
      let denominator := bi + ai * pi
      let p ← fdiv (-ci) denominator
      let q ← fdiv (di - ai * qi) denominator
      let P' ← PQ.1.set i p
      let Q' ← PQ.2.set i q
      ok (P', Q'))
    (s := (⟨n, Function.update (fun _ => 0) 0 (-c.v 0 / b.v 0)⟩, ⟨n, Function.update (fun _ => 0) 0 (d.v 0 / b.v 0)⟩))
    (fun i PQ => PQ.1.n = n ∧ PQ.2.n = n ∧
      (∀ j, j < i → PQ.1.v j = Pseq a.v b.v c.v j) ∧ (∀ j, j < i → PQ.2.v j = Qseq a.v b.v c.v d.v j))
    ⟨rfl, rfl, by intro j hj; obtain rfl : j = 0 := by omega
                  simp [Pseq], by intro j hj; obtain rfl : j = 0 := by omega
                                  simp [Qseq]⟩
    (by
      rintro i ⟨P, Q⟩ hi1 hi ⟨hP, hQ, hPv, hQv⟩
      simp only at hP hQ hPv hQv
      obtain ⟨k, rfl⟩ : ∃ k, i = k + 1 := ⟨i - 1, by omega⟩
      have hk : k + 1 - 1 = k := by omega
      have hp := hPv k (by omega)
      have hq := hQv k (by omega)
      have hne := hpiv k (by omega)
      refine ⟨(⟨P.n, Function.update P.v (k + 1) (Pseq a.v b.v c.v (k + 1))⟩,
        ⟨Q.n, Function.update Q.v (k + 1) (Qseq a.v b.v c.v d.v (k + 1))⟩), ?_, hP, hQ, ?_, ?_⟩
      · simp only [hk, Vec.get_ok (x := b) (i := k + 1) (by omega), Vec.get_ok (x := a) (i := k) (by omega),
          Vec.get_ok (x := P) (i := k) (by omega), Vec.get_ok (x := Q) (i := k) (by omega),
          Vec.get_ok (x := c) (i := k) (by omega), Vec.get_ok (x := d) (i := k + 1) (by omega), ok_bind,
          fdiv_ok hne, Vec.set_ok (x := P) (i := k + 1) (by omega), Vec.set_ok (x := Q) (i := k + 1) (by omega),
          hp, hq, Pseq, Qseq]
      · intro j hj
        by_cases h : j = k + 1
        · subst h; simp
        · simp only [Function.update_of_ne h]; exact hPv j (by omega)
      · intro j hj
        by_cases h : j = k + 1
        · subst h; simp
        · simp only [Function.update_of_ne h]; exact hQv j (by omega))
  refine ⟨t, ht, h1, h2, ?_, ?_⟩
  · intro i hi; exact h3 i (by omega)
  · intro i hi; exact h4 i (by omega)

/-- What the code's `tridiag_solver` solves: the system whose superdiagonal is `c` with the first entry repeated,
`c 0, c 0, c 1, c 2, …`. -/
theorem tridiagSolver_shifted (a b c d : Vec ℝ) (hn : 0 < d.n) (ha : d.n ≤ a.n + 1) (hb : d.n ≤ b.n)
    (hc : d.n ≤ c.n + 1) (hc1 : 0 < c.n) (h0 : b.v 0 ≠ 0)
    (hpiv : ∀ i, i + 1 < d.n → b.v (i + 1) + a.v i * Pseq a.v b.v c.v i ≠ 0) :
    ∃ x, tridiagSolver a b c d = ok x ∧ x.n = d.n ∧
      SolvesTridiag d.n a.v b.v (fun i => c.v (i - 1)) d.v x.v := by
  obtain ⟨⟨P, Q⟩, hPQ, hPn, hQn, hPv, hQv⟩ := tridiagForward_ok a b c d d.n hn ha hb hc hc1 le_rfl h0 hpiv
  simp only at hPn hQn hPv hQv
  unfold tridiagSolver
  have e1 : (Vec.const d.n (0 : ℝ)).set (d.n - 1) (Q.v (d.n - 1)) =
      ok ⟨d.n, Function.update (fun _ => 0) (d.n - 1) (Q.v (d.n - 1))⟩ := Vec.set_ok (by simp [Vec.const]; omega)
  simp only [hPQ, ok_bind, Vec.get_ok (x := Q) (i := d.n - 1) (by omega), e1]
  obtain ⟨x, hx, hxn, hlast, hrec⟩ := loop_inv (n := d.n - 1)
    (body := fun k (r : Vec ℝ) => do
      let i := d.n - 2 - k
      let p ← P.get i
      let x ← r.get (i + 1)
      let q ← Q.get i
      r.set i (p * x + q))
    (s := (⟨d.n, Function.update (fun _ => 0) (d.n - 1) (Q.v (d.n - 1))⟩ : Vec ℝ))
    (fun k r => r.n = d.n ∧ r.v (d.n - 1) = Q.v (d.n - 1) ∧
      ∀ i, d.n ≤ i + 1 + k → i + 1 < d.n → r.v i = P.v i * r.v (i + 1) + Q.v i)
    ⟨rfl, by simp, by intro i h1 h2; omega⟩
    (by
      rintro k r hk ⟨hr, hl, hi⟩
      refine ⟨⟨r.n, Function.update r.v (d.n - 2 - k) (P.v (d.n - 2 - k) * r.v (d.n - 2 - k + 1) + Q.v (d.n - 2 - k))⟩,
        ?_, hr, ?_, ?_⟩
      · simp only [Vec.get_ok (x := P) (i := d.n - 2 - k) (by omega), Vec.get_ok (x := Q) (i := d.n - 2 - k) (by omega),
          Vec.get_ok (x := r) (i := d.n - 2 - k + 1) (by omega), ok_bind, Vec.set_ok (x := r) (i := d.n - 2 - k) (by omega)]
      · dsimp only
        rw [Function.update_of_ne (by omega)]; exact hl
      · intro i h1 h2
        dsimp only
        by_cases h : i = d.n - 2 - k
        · subst h
          rw [Function.update_self, Function.update_of_ne (by omega)]
        · rw [Function.update_of_ne h, Function.update_of_ne (by omega)]
          exact hi i (by omega) h2)
  refine ⟨x, hx, hxn, ?_⟩
  intro i hi
  -- the relation left by the backward pass, including the last row
  have hback : ∀ j, j < d.n → x.v j = (if j + 1 = d.n then 0 else Pseq a.v b.v c.v j * x.v (j + 1)) + Qseq a.v b.v c.v d.v j := by
    intro j hj
    by_cases hjl : j + 1 = d.n
    · have : j = d.n - 1 := by omega
      subst this
      rw [if_pos hjl, zero_add, hlast, hQv _ hj]
    · rw [if_neg hjl, ← hPv j hj, ← hQv j hj]
      exact hrec j (by omega) (by omega)
  cases i with
  | zero =>
    have h := hback 0 hi
    simp only [if_true, zero_add, Nat.zero_sub]
    by_cases hl : 0 + 1 = d.n
    · rw [if_pos hl] at h ⊢
      rw [h]; simp only [Qseq]; field_simp; ring
    · rw [if_neg hl] at h ⊢
      rw [h]; simp only [Qseq, Pseq]; field_simp; simp
  | succ k =>
    have hk := hback k (by omega)
    have h := hback (k + 1) hi
    have hne := hpiv k hi
    simp only [Nat.add_sub_cancel, if_neg (Nat.succ_ne_zero k)]
    rw [if_neg (show ¬ k + 1 = d.n by omega)] at hk
    by_cases hl : k + 1 + 1 = d.n
    · rw [if_pos hl] at h ⊢
      have h' : (b.v (k + 1) + a.v k * Pseq a.v b.v c.v k) * x.v (k + 1) = d.v (k + 1) - a.v k * Qseq a.v b.v c.v d.v k := by
        rw [h]; simp only [Qseq]; field_simp; ring
      rw [hk]; linear_combination h'
    · rw [if_neg hl] at h ⊢
      have h' : (b.v (k + 1) + a.v k * Pseq a.v b.v c.v k) * x.v (k + 1) =
          -c.v k * x.v (k + 2) + (d.v (k + 1) - a.v k * Qseq a.v b.v c.v d.v k) := by
        rw [h]; simp only [Qseq, Pseq]; field_simp
      rw [hk]; linear_combination h'

theorem cround_isRounding (y : ℝ) : IsRounding (cround y) y := by
  unfold cround IsRounding
  split_ifs with h
  · have h1 := Int.floor_le (y + 1 / 2)
    have h2 := Int.lt_floor_add_one (y + 1 / 2)
    set k : ℤ := ⌊y + 1 / 2⌋
    by_cases he : (k : ℝ) = y + 1 / 2
    · right
      rw [he]
      refine ⟨by rw [add_sub_cancel_left]; norm_num, ?_⟩
      rw [abs_of_nonneg h, abs_of_nonneg (by linarith)]; linarith
    · left
      have : (k : ℝ) < y + 1 / 2 := lt_of_le_of_ne h1 he
      rw [abs_lt]; constructor <;> linarith
  · push Not at h
    have h1 := Int.le_ceil (y - 1 / 2)
    have h2 := Int.ceil_lt_add_one (y - 1 / 2)
    set k : ℤ := ⌈y - 1 / 2⌉
    by_cases he : (k : ℝ) = y - 1 / 2
    · right
      rw [he]
      refine ⟨by rw [show y - 1 / 2 - y = -(1 / 2) by ring, abs_neg]; norm_num, ?_⟩
      rw [abs_of_neg h, abs_of_neg (by linarith)]; linarith
    · left
      have : y - 1 / 2 < (k : ℝ) := lt_of_le_of_ne h1 (Ne.symm he)
      rw [abs_lt]; constructor <;> linarith

theorem isRounding_unique {k l : ℤ} {y : ℝ} (hk : IsRounding k y) (hl : IsRounding l y) : k = l := by
  by_contra hne
  have h1 : (1 : ℝ) ≤ |(k : ℝ) - l| := by
    have : (1 : ℤ) ≤ |k - l| := Int.one_le_abs (sub_ne_zero.2 hne)
    exact_mod_cast this
  have h2 : |(k : ℝ) - l| ≤ |(k : ℝ) - y| + |(l : ℝ) - y| := by
    have := abs_sub_le (k : ℝ) y l
    rwa [abs_sub_comm y] at this
  rcases hk with hk | ⟨hk, hk'⟩ <;> rcases hl with hl | ⟨hl, hl'⟩ <;> try linarith
  -- both are at distance exactly one half, and both have larger absolute value: impossible
  have hk2 : (k : ℝ) = y + 1 / 2 ∨ (k : ℝ) = y - 1 / 2 := by
    rcases abs_eq (by norm_num : (0 : ℝ) ≤ 1 / 2) |>.1 hk with h | h
    · left; linarith
    · right; linarith
  have hl2 : (l : ℝ) = y + 1 / 2 ∨ (l : ℝ) = y - 1 / 2 := by
    rcases abs_eq (by norm_num : (0 : ℝ) ≤ 1 / 2) |>.1 hl with h | h
    · left; linarith
    · right; linarith
  have hne' : (k : ℝ) ≠ l := by exact_mod_cast hne
  have key : |y| < |y + 1 / 2| ∧ |y| < |y - 1 / 2| := by
    rcases hk2 with h | h <;> rcases hl2 with h' | h'
    · exact absurd (h.trans h'.symm) hne'
    · exact ⟨h ▸ hk', h' ▸ hl'⟩
    · exact ⟨h' ▸ hl', h ▸ hk'⟩
    · exact absurd (h.trans h'.symm) hne'
  -- `y + 1/2` and `y - 1/2` are consecutive integers, so `2 y` is an odd integer
  obtain ⟨m, hm⟩ : ∃ m : ℤ, y = m + 1 / 2 := by
    rcases hk2 with h | h
    · exact ⟨k - 1, by push_cast; linarith⟩
    · exact ⟨k, by linarith⟩
  rcases le_or_gt 0 m with h0 | h0
  · have hm0 : (0 : ℝ) ≤ m := by exact_mod_cast h0
    have := key.2
    rw [hm, abs_of_nonneg (by linarith), abs_of_nonneg (by linarith)] at this
    linarith
  · have hm1 : (m : ℝ) ≤ -1 := by exact_mod_cast (by omega : m ≤ -1)
    have := key.1
    rw [hm, abs_of_nonpos (by linarith), abs_of_nonpos (by linarith)] at this
    linarith

/-- Under diagonal dominance with a constant superdiagonal all pivots are nonzero. -/
theorem Pseq_abs_lt (n : Nat) (a b c : Nat → ℝ) (hdom : DiagDominant n a b c) (hconst : ∀ i, i + 1 < n → c i = c 0) :
    ∀ i, i + 1 < n → |Pseq a b c i| < 1 ∧ b (i + 1) + a i * Pseq a b c i ≠ 0 := by
  have hpiv : ∀ i, i + 1 < n → |Pseq a b c i| < 1 → |b (i + 1)| - |a i| ≤ |b (i + 1) + a i * Pseq a b c i| := by
    intro i hi hP
    have h1 : |a i * Pseq a b c i| ≤ |a i| := by
      rw [abs_mul]; exact mul_le_of_le_one_right (abs_nonneg _) hP.le
    have h2 := abs_sub_abs_le_abs_sub (b (i + 1)) (-(a i * Pseq a b c i))
    rw [abs_neg, sub_neg_eq_add] at h2
    linarith
  intro i
  induction i with
  | zero =>
    intro hi
    have h0 := hdom 0 (by omega)
    rw [if_pos rfl, if_neg (by omega), zero_add] at h0
    have hP : |Pseq a b c 0| < 1 := by
      simp only [Pseq]
      rw [abs_div, abs_neg]
      exact (div_lt_one (lt_of_le_of_lt (abs_nonneg _) h0)).2 h0
    refine ⟨hP, ?_⟩
    have h1 := hdom 1 hi
    have h2 := hpiv 0 hi hP
    rw [if_neg (by omega)] at h1
    have h3 : (0 : ℝ) ≤ (if 1 + 1 = n then 0 else |c 1|) := by split_ifs; exact le_rfl; exact abs_nonneg _
    simp only [Nat.sub_self] at h1
    intro h
    rw [zero_add] at h h2
    rw [h, abs_zero] at h2
    linarith
  | succ i ih =>
    intro hi
    obtain ⟨hP, hne⟩ := ih (by omega)
    have h1 := hdom (i + 1) (by omega)
    rw [if_neg (by omega), if_neg (by omega), Nat.add_sub_cancel, hconst (i + 1) hi, ← hconst i (by omega)] at h1
    have h2 := hpiv i (by omega) hP
    have hP' : |Pseq a b c (i + 1)| < 1 := by
      simp only [Pseq]
      rw [abs_div, abs_neg]
      exact (div_lt_one (abs_pos.2 hne)).2 (by linarith)
    refine ⟨hP', ?_⟩
    have h3 := hdom (i + 2) (by omega)
    rw [if_neg (by omega), show i + 2 - 1 = i + 1 by omega] at h3
    have h4 : (0 : ℝ) ≤ (if i + 2 + 1 = n then 0 else |c (i + 2)|) := by split_ifs; exact le_rfl; exact abs_nonneg _
    have h5 := hpiv (i + 1) hi hP'
    intro h
    rw [h, abs_zero] at h5
    linarith

end Verif.Numeric
