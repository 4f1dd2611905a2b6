import Verif.Core.Fl
import Mathlib.Algebra.BigOperators.Group.Finset.Basic
import Mathlib.Algebra.Order.BigOperators.Group.Finset

/-! Lemmas about the special values of IEEE 754: finite results have finite arguments. -/

namespace Verif.Fl

open Finset

theorem add_fin {a b : Fl} {z : ℝ} (h : add a b = fin z) : ∃ x y, a = fin x ∧ b = fin y ∧ z = x + y := by
  cases a <;> cases b <;> simp only [add, reduceCtorEq, fin.injEq] at h
  · exact ⟨_, _, rfl, rfl, h.symm⟩
  · split at h <;> simp at h

theorem sub_fin {a b : Fl} {z : ℝ} (h : sub a b = fin z) : ∃ x y, a = fin x ∧ b = fin y ∧ z = x - y := by
  cases a <;> cases b <;> simp only [sub, reduceCtorEq, fin.injEq] at h
  · exact ⟨_, _, rfl, rfl, h.symm⟩
  · split at h <;> simp at h

theorem mul_fin {a b : Fl} {z : ℝ} (h : mul a b = fin z) : ∃ x y, a = fin x ∧ b = fin y ∧ z = x * y := by
  cases a <;> cases b <;> simp only [mul, reduceCtorEq, fin.injEq] at h
  · exact ⟨_, _, rfl, rfl, h.symm⟩
  · split at h <;> simp at h
  · split at h <;> simp at h

theorem div_fin {a b : Fl} {z : ℝ} (h : div a b = fin z) :
    ∃ x, a = fin x ∧ ((∃ y, b = fin y ∧ y ≠ 0 ∧ z = x / y) ∨ ((∃ s, b = inf s) ∧ z = 0)) := by
  cases a <;> cases b <;> simp only [div, reduceCtorEq, fin.injEq] at h
  · rename_i x y
    by_cases hy : y = 0
    · rw [if_pos hy] at h; split at h <;> simp at h
    · rw [if_neg hy] at h
      exact ⟨_, rfl, .inl ⟨_, rfl, hy, by simpa using h.symm⟩⟩
  · exact ⟨_, rfl, .inr ⟨⟨_, rfl⟩, h.symm⟩⟩

theorem add_of_fin (x y : ℝ) : add (fin x) (fin y) = fin (x + y) := rfl
theorem sub_of_fin (x y : ℝ) : sub (fin x) (fin y) = fin (x - y) := rfl
theorem mul_of_fin (x y : ℝ) : mul (fin x) (fin y) = fin (x * y) := rfl
theorem div_of_fin {x y : ℝ} (h : y ≠ 0) : div (fin x) (fin y) = fin (x / y) := by simp [div, h]
theorem div_zero_zero : div (fin 0) (fin 0) = nan := by simp [div]

theorem mul_nan_right (a : Fl) : mul a nan = nan := by cases a <;> rfl
theorem div_nan_right (a : Fl) : div a nan = nan := by cases a <;> rfl
theorem sub_nan_right (a : Fl) : sub a nan = nan := by cases a <;> rfl

theorem sumTo_of_fin {f : Nat → Fl} {g : Nat → ℝ} {n : Nat} (h : ∀ i, i < n → f i = fin (g i)) :
    sumTo f n = fin (∑ i ∈ range n, g i) := by
  induction n with
  | zero => simp [sumTo]
  | succ n ih =>
    rw [sumTo, ih (fun i hi => h i (by omega)), h n (by omega), add_of_fin, sum_range_succ]

theorem sumTo_fin {f : Nat → Fl} {n : Nat} {z : ℝ} (h : sumTo f n = fin z) :
    ∃ g : Nat → ℝ, (∀ i, i < n → f i = fin (g i)) ∧ z = ∑ i ∈ range n, g i := by
  have key : ∀ i, i < n → ∃ x, f i = fin x := by
    induction n generalizing z with
    | zero => intro i hi; omega
    | succ n ih =>
      obtain ⟨x, y, hx, hy, -⟩ := add_fin h
      intro i hi
      by_cases hin : i = n
      · exact ⟨y, by rw [hin]; exact hy⟩
      · exact ih hx i (by omega)
  classical
  have hg : ∀ i, i < n → f i = fin (if hi : i < n then (key i hi).choose else 0) := by
    intro i hi
    rw [dif_pos hi]
    exact (key i hi).choose_spec
  refine ⟨_, hg, ?_⟩
  have := sumTo_of_fin hg
  rw [h] at this
  simpa using this

theorem sumTo_congr {f g : Nat → Fl} {n : Nat} (h : ∀ i, i < n → f i = g i) : sumTo f n = sumTo g n := by
  induction n with
  | zero => rfl
  | succ n ih => rw [sumTo, sumTo, ih (fun i hi => h i (by omega)), h n (by omega)]

/-- a strict bound on an absolute value: the value is finite -/
theorem abs_lt_fin {a : Fl} {z : ℝ} (h : lt (abs a) (fin z)) : ∃ x, a = fin x ∧ |x| < z := by
  cases a with
  | nan => exact h.elim
  | fin x => exact ⟨x, rfl, h⟩
  | inf b => simp [abs, lt] at h

end Verif.Fl
