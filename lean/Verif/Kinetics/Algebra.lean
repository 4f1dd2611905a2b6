import Mathlib.LinearAlgebra.Lagrange
import Mathlib.Algebra.Polynomial.Derivative
import Mathlib.Algebra.Polynomial.Monic
import Mathlib.Algebra.Polynomial.BigOperators
import Mathlib.Tactic.FieldSimp
import Mathlib.Tactic.LinearCombination
import Mathlib.Tactic.Ring

/-!
# Partial fractions of the in-hour function (pure algebra, no model definitions)

`w = ∏ (X + λ_i)`, `w_i = ∏_{k ≠ i} (X + λ_k)`, `q = w (X - a) - ∑ c_i w_i`.
-/

namespace Verif.Kinetics

open Polynomial Finset

variable {F : Type} [Field F]

theorem degree_C_mul_le {x : F} {p : F[X]} : (C x * p).degree ≤ p.degree := by
  rw [← smul_eq_C_mul]; exact degree_smul_le _ _

/-- `∏ (X + λ_i)`. -/
noncomputable def wPoly (n : Nat) (lam : Nat → F) : F[X] := ∏ i ∈ range n, (X + C (lam i))

/-- `∏_{k ≠ i} (X + λ_k)`. -/
noncomputable def wPolyI (n : Nat) (lam : Nat → F) (i : Nat) : F[X] := ∏ k ∈ (range n).erase i, (X + C (lam k))

/-- The monic in-hour polynomial. -/
noncomputable def qPoly (n : Nat) (lam c : Nat → F) (a : F) : F[X] :=
  wPoly n lam * (X - C a) - ∑ i ∈ range n, C (c i) * wPolyI n lam i

theorem wPoly_erase {n : Nat} {lam : Nat → F} {i : Nat} (hi : i < n) :
    wPolyI n lam i * (X + C (lam i)) = wPoly n lam := by
  unfold wPoly wPolyI
  exact prod_erase_mul _ _ (mem_range.2 hi)

theorem wPoly_monic (n : Nat) (lam : Nat → F) : (wPoly n lam).Monic :=
  monic_prod_of_monic _ _ (fun _ _ => monic_X_add_C _)

theorem wPoly_natDegree (n : Nat) (lam : Nat → F) : (wPoly n lam).natDegree = n := by
  unfold wPoly
  rw [natDegree_prod_of_monic _ _ (fun i _ => monic_X_add_C _)]
  simp

theorem wPolyI_degree_lt {n : Nat} (lam : Nat → F) {i : Nat} (hi : i < n) : (wPolyI n lam i).degree < (n : WithBot ℕ) := by
  have hm : (wPolyI n lam i).Monic := monic_prod_of_monic _ _ (fun _ _ => monic_X_add_C _)
  rw [degree_eq_natDegree hm.ne_zero]
  unfold wPolyI
  rw [natDegree_prod_of_monic _ _ (fun i _ => monic_X_add_C _)]
  simp only [natDegree_X_add_C, sum_const, smul_eq_mul, mul_one]
  rw [card_erase_of_mem (mem_range.2 hi), card_range]
  exact_mod_cast (by omega : n - 1 < n)

theorem eval_wPoly (n : Nat) (lam : Nat → F) (x : F) : (wPoly n lam).eval x = ∏ i ∈ range n, (x + lam i) := by
  simp [wPoly, eval_prod]

theorem eval_wPoly_ne_zero {n : Nat} {lam : Nat → F} {x : F} (h : ∀ i, i < n → x + lam i ≠ 0) :
    (wPoly n lam).eval x ≠ 0 := by
  rw [eval_wPoly]
  exact prod_ne_zero_iff.2 (fun i hi => h i (mem_range.1 hi))

theorem eval_wPolyI {n : Nat} {lam : Nat → F} {i : Nat} (hi : i < n) {x : F} (h : x + lam i ≠ 0) :
    (wPolyI n lam i).eval x = (wPoly n lam).eval x / (x + lam i) := by
  rw [← wPoly_erase hi]
  simp only [eval_mul, eval_add, eval_X, eval_C]
  field_simp

/-- Value of `q` away from the poles. -/
theorem eval_qPoly {n : Nat} {lam c : Nat → F} {a x : F} (h : ∀ i, i < n → x + lam i ≠ 0) :
    (qPoly n lam c a).eval x = (wPoly n lam).eval x * (x - a - ∑ i ∈ range n, c i / (x + lam i)) := by
  unfold qPoly
  simp only [eval_sub, eval_mul, eval_X, eval_C, eval_finsetSum]
  rw [mul_sub _ (x - a), mul_sum]
  congr 1
  apply sum_congr rfl
  intro i hi
  rw [eval_wPolyI (mem_range.1 hi) (h i (mem_range.1 hi))]
  ring

/-- Value of `q` at a pole. -/
theorem eval_qPoly_pole {n : Nat} {lam c : Nat → F} {a : F} {i : Nat} (hi : i < n) :
    (qPoly n lam c a).eval (-lam i) = -(c i * (wPolyI n lam i).eval (-lam i)) := by
  unfold qPoly
  simp only [eval_sub, eval_mul, eval_X, eval_C, eval_finsetSum]
  have h0 : (wPoly n lam).eval (-lam i) = 0 := by
    rw [eval_wPoly]; exact prod_eq_zero (mem_range.2 hi) (by ring)
  rw [h0, zero_mul, zero_sub, sum_eq_single i]
  · intro k hk hki
    have : (wPolyI n lam k).eval (-lam i) = 0 := by
      unfold wPolyI
      rw [eval_prod]
      exact prod_eq_zero (mem_erase.2 ⟨Ne.symm hki, mem_range.2 hi⟩) (by simp)
    rw [this, mul_zero]
  · intro h; exact absurd (mem_range.2 hi) h

theorem eval_wPolyI_pole_ne_zero {n : Nat} {lam : Nat → F} {i : Nat}
    (hinj : ∀ k, k < n → lam i = lam k → i = k) : (wPolyI n lam i).eval (-lam i) ≠ 0 := by
  unfold wPolyI
  rw [eval_prod, prod_ne_zero_iff]
  intro k hk
  rw [mem_erase, mem_range] at hk
  simp only [eval_add, eval_X, eval_C]
  intro h
  exact hk.1 (hinj k hk.2 (by linear_combination -h)).symm

theorem qPoly_monic (n : Nat) (lam c : Nat → F) (a : F) : (qPoly n lam c a).Monic ∧ (qPoly n lam c a).natDegree = n + 1 := by
  have hm : (wPoly n lam * (X - C a)).Monic := (wPoly_monic n lam).mul (monic_X_sub_C a)
  have hd : (wPoly n lam * (X - C a)).degree = ((n + 1 : ℕ) : WithBot ℕ) := by
    rw [degree_eq_natDegree hm.ne_zero, Monic.natDegree_mul (wPoly_monic n lam) (monic_X_sub_C a), wPoly_natDegree,
      natDegree_X_sub_C]
  have hlt : (∑ i ∈ range n, C (c i) * wPolyI n lam i).degree < (wPoly n lam * (X - C a)).degree := by
    rw [hd]
    refine lt_of_le_of_lt (degree_sum_le _ _) ?_
    rw [Finset.sup_lt_iff (by exact_mod_cast WithBot.bot_lt_coe _)]
    intro i hi
    refine lt_of_le_of_lt degree_C_mul_le ?_
    exact lt_trans (wPolyI_degree_lt lam (mem_range.1 hi)) (by exact_mod_cast Nat.lt_succ_self n)
  constructor
  · exact hm.sub_of_left hlt
  · unfold qPoly
    rw [natDegree_eq_of_degree_eq_some (n := n + 1)]
    rw [degree_sub_eq_left_of_degree_lt hlt, hd]

/-- Dividing out a root. -/
theorem qPoly_factor {n : Nat} {lam c : Nat → F} {a r : F} (hne : ∀ i, i < n → r + lam i ≠ 0)
    (hr : r - a - ∑ i ∈ range n, c i / (r + lam i) = 0) :
    qPoly n lam c a = (X - C r) * (wPoly n lam + ∑ i ∈ range n, C (c i / (r + lam i)) * wPolyI n lam i) := by
  have ha : a = r - ∑ i ∈ range n, c i / (r + lam i) := by linear_combination -hr
  rw [mul_add, mul_sum]
  have : ∀ i ∈ range n, (X - C r) * (C (c i / (r + lam i)) * wPolyI n lam i) =
      C (c i / (r + lam i)) * wPoly n lam - C (c i) * wPolyI n lam i := by
    intro i hi
    rw [← wPoly_erase (mem_range.1 hi)]
    have h1 : (C (c i) : F[X]) = C (c i / (r + lam i)) * (C r + C (lam i)) := by
      rw [← C_add, ← C_mul, div_mul_cancel₀ _ (hne i (mem_range.1 hi))]
    rw [h1]; ring
  rw [sum_congr rfl this, sum_sub_distrib, ← sum_mul, ← map_sum]
  unfold qPoly
  rw [ha, map_sub]
  ring

/-- The derivative of `q` at a root. -/
theorem eval_derivative_qPoly {n : Nat} {lam c : Nat → F} {a r : F} (hne : ∀ i, i < n → r + lam i ≠ 0)
    (hr : r - a - ∑ i ∈ range n, c i / (r + lam i) = 0) :
    (derivative (qPoly n lam c a)).eval r =
      (wPoly n lam).eval r * (1 + ∑ i ∈ range n, c i / (r + lam i) ^ 2) := by
  rw [qPoly_factor hne hr, derivative_mul]
  simp only [derivative_sub, derivative_X, derivative_C, sub_zero, one_mul, eval_add, eval_mul, eval_sub, eval_X, eval_C,
    sub_self, zero_mul, add_zero, eval_finsetSum]
  rw [mul_add, mul_one, mul_sum]
  congr 1
  apply sum_congr rfl
  intro i hi
  have h := hne i (mem_range.1 hi)
  rw [eval_wPolyI (mem_range.1 hi) h]
  field_simp

section Residues

variable {n : Nat} {lam c g r : Nat → F} {a P : F}

/-- The residues used by the code, in terms of `g_i = λ_i C_i`. -/
noncomputable def resid (n : Nat) (lam c g : Nat → F) (P x : F) : F :=
  (P + ∑ i ∈ range n, g i / (x + lam i)) / (1 + ∑ i ∈ range n, c i / (x + lam i) ^ 2)

/-- Numerator polynomial. -/
noncomputable def nPoly (n : Nat) (lam g : Nat → F) (P : F) : F[X] :=
  C P * wPoly n lam + ∑ i ∈ range n, C (g i) * wPolyI n lam i

theorem nPoly_degree_lt : (nPoly n lam g P).degree < ((n + 1 : ℕ) : WithBot ℕ) := by
  unfold nPoly
  refine lt_of_le_of_lt (degree_add_le _ _) (max_lt ?_ ?_)
  · refine lt_of_le_of_lt degree_C_mul_le ?_
    rw [degree_eq_natDegree (wPoly_monic n lam).ne_zero, wPoly_natDegree]
    exact_mod_cast Nat.lt_succ_self n
  · refine lt_of_le_of_lt (degree_sum_le _ _) ?_
    rw [Finset.sup_lt_iff (by exact_mod_cast WithBot.bot_lt_coe _)]
    intro i hi
    refine lt_of_le_of_lt degree_C_mul_le ?_
    exact lt_trans (wPolyI_degree_lt lam (mem_range.1 hi)) (by exact_mod_cast Nat.lt_succ_self n)

theorem nPoly_coeff : (nPoly n lam g P).coeff n = P := by
  unfold nPoly
  rw [coeff_add, coeff_C_mul]
  have h1 : (wPoly n lam).coeff n = 1 := by
    have := (wPoly_monic n lam).coeff_natDegree
    rwa [wPoly_natDegree] at this
  rw [h1, mul_one, finsetSum_coeff, sum_eq_zero, add_zero]
  intro i hi
  rw [coeff_C_mul, coeff_eq_zero_of_degree_lt (wPolyI_degree_lt lam (mem_range.1 hi)), mul_zero]

theorem eval_nPoly {x : F} (h : ∀ i, i < n → x + lam i ≠ 0) :
    (nPoly n lam g P).eval x = (wPoly n lam).eval x * (P + ∑ i ∈ range n, g i / (x + lam i)) := by
  unfold nPoly
  simp only [eval_add, eval_mul, eval_C, eval_finsetSum]
  rw [mul_add, mul_sum]
  congr 1
  · ring
  · apply sum_congr rfl
    intro i hi
    rw [eval_wPolyI (mem_range.1 hi) (h i (mem_range.1 hi))]
    ring

theorem eval_nPoly_pole {i : Nat} (hi : i < n) :
    (nPoly n lam g P).eval (-lam i) = g i * (wPolyI n lam i).eval (-lam i) := by
  have h := eval_qPoly_pole (lam := lam) (c := fun k => -g k) (a := 0) hi
  unfold qPoly at h
  unfold nPoly
  simp only [eval_sub, eval_add, eval_mul, eval_X, eval_C, eval_finsetSum] at h ⊢
  have h0 : (wPoly n lam).eval (-lam i) = 0 := by
    rw [eval_wPoly]; exact prod_eq_zero (mem_range.2 hi) (by ring)
  rw [h0] at h ⊢
  simp only [neg_mul, sum_neg_distrib] at h
  linear_combination h

/-- Hypotheses on the roots: `r 0, …, r n` are the pairwise distinct roots of `q`, none of them a pole. -/
structure Roots (n : Nat) (lam c : Nat → F) (a : F) (r : Nat → F) : Prop where
  factor : qPoly n lam c a = ∏ j ∈ range (n + 1), (X - C (r j))
  inj : ∀ i, i < n + 1 → ∀ j, j < n + 1 → r i = r j → i = j
  ne : ∀ j, j < n + 1 → ∀ i, i < n → r j + lam i ≠ 0

theorem Roots.injOn (h : Roots n lam c a r) : Set.InjOn r (range (n + 1) : Finset ℕ) := by
  intro i hi j hj hij
  simp only [coe_range, Set.mem_Iio] at hi hj
  exact h.inj i hi j hj hij

theorem Roots.root (h : Roots n lam c a r) {j : Nat} (hj : j < n + 1) :
    r j - a - ∑ i ∈ range n, c i / (r j + lam i) = 0 := by
  have h1 := eval_qPoly (c := c) (a := a) (h.ne j hj)
  have h0 : (qPoly n lam c a).eval (r j) = 0 := by
    rw [h.factor, eval_prod]; exact prod_eq_zero (mem_range.2 hj) (by simp)
  rw [h0] at h1
  rcases mul_eq_zero.1 h1.symm with h2 | h2
  · exact absurd h2 (eval_wPoly_ne_zero (h.ne j hj))
  · exact h2

theorem Roots.weight (h : Roots n lam c a r) {j : Nat} (hj : j < n + 1) :
    ∏ k ∈ (range (n + 1)).erase j, (r j - r k) =
      (wPoly n lam).eval (r j) * (1 + ∑ i ∈ range n, c i / (r j + lam i) ^ 2) := by
  rw [← eval_derivative_qPoly (h.ne j hj) (h.root hj), h.factor]
  have := Lagrange.eval_nodal_derivative_eval_node_eq (s := range (n + 1)) (v := r) (mem_range.2 hj)
  rw [Lagrange.nodal_eq] at this
  rw [this, Lagrange.eval_nodal]

theorem Roots.weight_ne_zero (h : Roots n lam c a r) {j : Nat} (hj : j < n + 1) :
    ∏ k ∈ (range (n + 1)).erase j, (r j - r k) ≠ 0 := by
  rw [prod_ne_zero_iff]
  intro k hk
  rw [mem_erase, mem_range] at hk
  exact sub_ne_zero.2 (fun e => hk.1 (h.inj j hj k hk.2 e).symm)

theorem Roots.denom_ne_zero (h : Roots n lam c a r) {j : Nat} (hj : j < n + 1) :
    1 + ∑ i ∈ range n, c i / (r j + lam i) ^ 2 ≠ 0 := by
  have h1 := h.weight_ne_zero hj
  rw [h.weight hj] at h1
  exact right_ne_zero_of_mul h1

theorem Roots.resid_eq (h : Roots n lam c a r) {j : Nat} (hj : j < n + 1) :
    resid n lam c g P (r j) = (nPoly n lam g P).eval (r j) / ∏ k ∈ (range (n + 1)).erase j, (r j - r k) := by
  rw [h.weight hj, eval_nPoly (h.ne j hj), resid,
    mul_div_mul_left _ _ (eval_wPoly_ne_zero (h.ne j hj))]

/-- The residues add up to the initial power. -/
theorem Roots.sum_resid (h : Roots n lam c a r) : ∑ j ∈ range (n + 1), resid n lam c g P (r j) = P := by
  have h1 := Lagrange.coeff_eq_sum (P := nPoly n lam g P) h.injOn (by rw [card_range]; exact nPoly_degree_lt)
  rw [card_range, Nat.add_sub_cancel, nPoly_coeff] at h1
  refine Eq.trans ?_ h1.symm
  exact sum_congr rfl (fun j hj => h.resid_eq (mem_range.1 hj))

/-- The identity at the poles. -/
theorem Roots.sum_resid_div (h : Roots n lam c a r) {i : Nat} (hi : i < n) :
    c i * ∑ j ∈ range (n + 1), resid n lam c g P (r j) / (lam i + r j) = g i := by
  have hx : ∀ j ∈ range (n + 1), -lam i ≠ r j := by
    intro j hj e
    exact h.ne j (mem_range.1 hj) i hi (by rw [← e]; ring)
  have h1 := Lagrange.eval_interpolate_not_at_node (fun j => (nPoly n lam g P).eval (r j)) (s := range (n + 1)) (v := r) hx
  rw [← Lagrange.eq_interpolate h.injOn (by rw [card_range]; exact nPoly_degree_lt), eval_nPoly_pole hi,
    Lagrange.nodal_eq, ← h.factor, eval_qPoly_pole hi] at h1
  have hne : (wPolyI n lam i).eval (-lam i) ≠ 0 := by
    intro h0
    have h2 : (qPoly n lam c a).eval (-lam i) = 0 := by rw [eval_qPoly_pole hi, h0, mul_zero, neg_zero]
    rw [h.factor, eval_prod, prod_eq_zero_iff] at h2
    obtain ⟨j, hj, h3⟩ := h2
    simp only [eval_sub, eval_X, eval_C] at h3
    exact hx j hj (by linear_combination h3)
  have h4 : ∑ j ∈ range (n + 1), Lagrange.nodalWeight (range (n + 1)) r j * (-lam i - r j)⁻¹ * (nPoly n lam g P).eval (r j)
      = -∑ j ∈ range (n + 1), resid n lam c g P (r j) / (lam i + r j) := by
    rw [← sum_neg_distrib]
    apply sum_congr rfl
    intro j hj
    rw [h.resid_eq (mem_range.1 hj), Lagrange.nodalWeight, prod_inv_distrib,
      show -lam i - r j = -(lam i + r j) by ring, inv_neg]
    ring
  rw [h4] at h1
  apply mul_right_cancel₀ hne
  linear_combination -h1

end Residues

end Verif.Kinetics
