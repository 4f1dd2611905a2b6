import Mathlib.LinearAlgebra.FiniteDimensional.Basic
import Mathlib.LinearAlgebra.Matrix.ToLin
import Mathlib.Algebra.Order.BigOperators.Group.Finset
import Mathlib.Data.Real.Basic
import Mathlib.Tactic.Linarith
import Mathlib.Tactic.Ring

/-! Linear algebra with matrices given as functions of natural indices. -/

namespace Verif

open Finset

/-- Entries of a matrix with non-positive off-diagonal part and positive column sums: a solution of `M x = b ≥ 0` is `≥ 0`. -/
theorem zmatrix_nonneg {N : Nat} {M : Nat → Nat → ℝ} (hoff : ∀ p q, p < N → q < N → p ≠ q → M p q ≤ 0)
    (hcol : ∀ q, q < N → 0 < ∑ p ∈ range N, M p q) {x : Nat → ℝ}
    (hb : ∀ p, p < N → 0 ≤ ∑ q ∈ range N, M p q * x q) : ∀ q, q < N → 0 ≤ x q := by
  classical
  by_contra hcon
  push Not at hcon
  obtain ⟨q0, hq0, hneg⟩ := hcon
  set S := (range N).filter (fun q => x q < 0) with hS
  have hS0 : q0 ∈ S := by rw [hS, mem_filter]; exact ⟨mem_range.2 hq0, hneg⟩
  have h1 : 0 ≤ ∑ p ∈ S, ∑ q ∈ range N, M p q * x q :=
    sum_nonneg (fun p hp => hb p (mem_range.1 (mem_filter.1 hp).1))
  rw [sum_comm] at h1
  have h2 : ∀ q ∈ range N, ∑ p ∈ S, M p q * x q ≤ 0 := by
    intro q hq
    rw [← sum_mul]
    by_cases hx : x q < 0
    · have : 0 ≤ ∑ p ∈ S, M p q := by
        refine le_trans (hcol q (mem_range.1 hq)).le ?_
        rw [← sum_filter_add_sum_filter_not (range N) (fun q => x q < 0)]
        have : ∑ p ∈ (range N).filter (fun q => ¬ x q < 0), M p q ≤ 0 := by
          refine sum_nonpos (fun p hp => hoff p q (mem_range.1 (mem_filter.1 hp).1) (mem_range.1 hq) ?_)
          rintro rfl
          exact (mem_filter.1 hp).2 hx
        linarith
      exact mul_nonpos_of_nonneg_of_nonpos this hx.le
    · refine mul_nonpos_of_nonpos_of_nonneg ?_ (not_lt.1 hx)
      refine sum_nonpos (fun p hp => hoff p q (mem_range.1 (mem_filter.1 hp).1) (mem_range.1 hq) ?_)
      rintro rfl
      exact hx (mem_filter.1 hp).2
  have h3 : ∑ p ∈ S, M p q0 * x q0 < 0 := by
    rw [← sum_mul]
    refine mul_neg_of_pos_of_neg ?_ hneg
    refine lt_of_lt_of_le (hcol q0 hq0) ?_
    rw [← sum_filter_add_sum_filter_not (range N) (fun q => x q < 0)]
    have : ∑ p ∈ (range N).filter (fun q => ¬ x q < 0), M p q0 ≤ 0 := by
      refine sum_nonpos (fun p hp => hoff p q0 (mem_range.1 (mem_filter.1 hp).1) hq0 ?_)
      rintro rfl
      exact (mem_filter.1 hp).2 hneg
    linarith
  exact absurd h1 (not_le.2 (sum_neg' h2 ⟨q0, mem_range.2 hq0, h3⟩))

/-- An injective square system is solvable. -/
theorem solvable_of_injective {N : Nat} {M : Nat → Nat → ℝ}
    (hinj : ∀ x : Nat → ℝ, (∀ p, p < N → ∑ q ∈ range N, M p q * x q = 0) → ∀ q, q < N → x q = 0) (b : Nat → ℝ) :
    ∃ x : Nat → ℝ, ∀ p, p < N → ∑ q ∈ range N, M p q * x q = b p := by
  let A : Matrix (Fin N) (Fin N) ℝ := fun p q => M p q
  have key : ∀ (y : Fin N → ℝ) (p : Fin N), A.mulVecLin y p = ∑ q : Fin N, M p q * y q := fun _ _ => rfl
  have hA : Function.Injective A.mulVecLin := by
    rw [← LinearMap.ker_eq_bot, LinearMap.ker_eq_bot']
    intro y hy
    have hz := hinj (fun q => if h : q < N then y ⟨q, h⟩ else 0) (by
      intro p hp
      have := congrFun hy ⟨p, hp⟩
      rw [key, Pi.zero_apply] at this
      refine Eq.trans ?_ this
      rw [← Fin.sum_univ_eq_sum_range (fun q => M p q * if h : q < N then y ⟨q, h⟩ else 0)]
      exact sum_congr rfl (fun q _ => by simp))
    funext q
    have := hz q q.2
    simpa using this
  obtain ⟨y, hy⟩ := (LinearMap.injective_iff_surjective.1 hA) (fun p => b p)
  refine ⟨fun q => if h : q < N then y ⟨q, h⟩ else 0, ?_⟩
  intro p hp
  have := congrFun hy ⟨p, hp⟩
  rw [key] at this
  refine Eq.trans ?_ this
  rw [← Fin.sum_univ_eq_sum_range (fun q => M p q * if h : q < N then y ⟨q, h⟩ else 0)]
  exact sum_congr rfl (fun q _ => by simp)

/-- A square matrix and its transpose have the same generalized eigenvalues. -/
theorem transpose_eigen {N : Nat} {M F M' F' : Nat → Nat → ℝ} (hM : ∀ p q, p < N → q < N → M' p q = M q p)
    (hF : ∀ p q, p < N → q < N → F' p q = F q p) (l : ℝ)
    (h : ∃ x : Nat → ℝ, (∃ q, q < N ∧ x q ≠ 0) ∧
      ∀ p, p < N → ∑ q ∈ range N, M p q * x q = l * ∑ q ∈ range N, F p q * x q) :
    ∃ x : Nat → ℝ, (∃ q, q < N ∧ x q ≠ 0) ∧
      ∀ p, p < N → ∑ q ∈ range N, M' p q * x q = l * ∑ q ∈ range N, F' p q * x q := by
  obtain ⟨x, ⟨q0, hq0, hx0⟩, hx⟩ := h
  by_contra hcon
  push Not at hcon
  let A : Nat → Nat → ℝ := fun p q => M' p q - l * F' p q
  obtain ⟨y, hy⟩ := solvable_of_injective (N := N) (M := A) (by
    intro z hz
    by_contra hz0
    push Not at hz0
    obtain ⟨p, hp, hne⟩ := hcon z hz0
    apply hne
    have := hz p hp
    simp only [A, sub_mul, sum_sub_distrib] at this
    rw [mul_sum]
    simp only [mul_assoc] at this
    linarith) (fun p => x p)
  have e : ∑ p ∈ range N, x p * ∑ q ∈ range N, A p q * y q = ∑ q ∈ range N, (∑ p ∈ range N, (M q p - l * F q p) * x p) * y q := by
    simp only [mul_sum, sum_mul]
    rw [sum_comm]
    refine sum_congr rfl (fun q hq => sum_congr rfl (fun p hp => ?_))
    simp only [A, hM p q (mem_range.1 hp) (mem_range.1 hq), hF p q (mem_range.1 hp) (mem_range.1 hq)]
    ring
  have e2 : ∑ q ∈ range N, (∑ p ∈ range N, (M q p - l * F q p) * x p) * y q = 0 := by
    refine sum_eq_zero (fun q hq => ?_)
    have := hx q (mem_range.1 hq)
    simp only [sub_mul, sum_sub_distrib]
    rw [this, mul_sum]
    simp only [mul_assoc, sub_self]
  rw [e2, sum_congr rfl (fun p hp => by rw [hy p (mem_range.1 hp)])] at e
  have hp := (sum_eq_zero_iff_of_nonneg (fun p _ => mul_self_nonneg (x p))).1 e q0 (mem_range.2 hq0)
  exact hx0 (mul_self_eq_zero.1 hp)

end Verif
