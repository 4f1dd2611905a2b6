import Mathlib.LinearAlgebra.Eigenspace.Basic
import Mathlib.LinearAlgebra.Matrix.ToLin
import Mathlib.LinearAlgebra.Matrix.NonsingularInverse
import Mathlib.LinearAlgebra.FiniteDimensional.Lemmas
import Mathlib.Data.Real.Basic
import Mathlib.Tactic.Ring
import Mathlib.Tactic.Linarith
import Mathlib.Tactic.FieldSimp

/-!
# Expansion of the solution of `M x = F x + b` in the modes of the pair `(M, F)`
-/

namespace Verif

open Matrix Finset

variable {n : Nat} {M F : Matrix (Fin n) (Fin n) ℝ} {k : Fin n → ℝ} {φ ψ : Fin n → Fin n → ℝ}

theorem modes_independent (hM : IsUnit M.det) (hk : ∀ m, k m ≠ 0) (hinj : Function.Injective k)
    (hφ : ∀ m, M *ᵥ φ m = (k m)⁻¹ • (F *ᵥ φ m)) (hne : ∀ m, φ m ≠ 0) : LinearIndependent ℝ φ := by
  refine Module.End.eigenvectors_linearIndependent' (Matrix.toLin' (M⁻¹ * F)) k hinj φ (fun m => ⟨?_, hne m⟩)
  rw [Module.End.mem_eigenspace_iff, Matrix.toLin'_apply, ← Matrix.mulVec_mulVec]
  have e : F *ᵥ φ m = k m • (M *ᵥ φ m) := by rw [hφ m, smul_smul, mul_inv_cancel₀ (hk m), one_smul]
  rw [e, Matrix.mulVec_smul, Matrix.mulVec_mulVec, Matrix.nonsing_inv_mul _ hM, Matrix.one_mulVec]

theorem functional_zero (hi : LinearIndependent ℝ φ) {a : Fin n → ℝ} (h : ∀ m, a ⬝ᵥ φ m = 0) : a = 0 := by
  have hs := hi.span_eq_top_of_card_eq_finrank' (by simp)
  have hz : ∀ x : Fin n → ℝ, a ⬝ᵥ x = 0 := by
    intro x
    have hx : x ∈ Submodule.span ℝ (Set.range φ) := by rw [hs]; trivial
    induction hx using Submodule.span_induction with
    | mem y hy => obtain ⟨m, rfl⟩ := hy; exact h m
    | zero => simp
    | add y z _ _ hy hz => rw [dotProduct_add, hy, hz, add_zero]
    | smul c y _ hy => rw [dotProduct_smul, hy, smul_zero]
  funext i
  simpa using hz (Pi.single i 1)

theorem modes_orthogonal (hinj : Function.Injective k)
    (hφ : ∀ m, M *ᵥ φ m = (k m)⁻¹ • (F *ᵥ φ m)) (hψ : ∀ m, ψ m ᵥ* M = (k m)⁻¹ • (ψ m ᵥ* F))
    {i j : Fin n} (hij : i ≠ j) : ψ i ⬝ᵥ (F *ᵥ φ j) = 0 := by
  have h1 : ψ i ⬝ᵥ (M *ᵥ φ j) = (k j)⁻¹ * (ψ i ⬝ᵥ (F *ᵥ φ j)) := by rw [hφ j, dotProduct_smul, smul_eq_mul]
  have h2 : ψ i ⬝ᵥ (M *ᵥ φ j) = (k i)⁻¹ * (ψ i ⬝ᵥ (F *ᵥ φ j)) := by
    rw [dotProduct_mulVec, hψ i, smul_dotProduct, smul_eq_mul, ← dotProduct_mulVec]
  have h3 : ((k i)⁻¹ - (k j)⁻¹) * (ψ i ⬝ᵥ (F *ᵥ φ j)) = 0 := by rw [sub_mul, ← h1, ← h2, sub_self]
  rcases mul_eq_zero.1 h3 with h | h
  · exact absurd (hinj (inv_injective (sub_eq_zero.1 h))) hij
  · exact h

theorem modes_pairing (hM : IsUnit M.det) (hk : ∀ m, k m ≠ 0) (hinj : Function.Injective k)
    (hφ : ∀ m, M *ᵥ φ m = (k m)⁻¹ • (F *ᵥ φ m)) (hψ : ∀ m, ψ m ᵥ* M = (k m)⁻¹ • (ψ m ᵥ* F))
    (hne : ∀ m, φ m ≠ 0) (hne' : ∀ m, ψ m ≠ 0) (m : Fin n) : ψ m ⬝ᵥ (F *ᵥ φ m) ≠ 0 := by
  intro h0
  have hi := modes_independent hM hk hinj hφ hne
  have hz : ψ m ᵥ* F = 0 := by
    refine functional_zero hi (fun j => ?_)
    rw [← dotProduct_mulVec]
    by_cases hj : m = j
    · rw [← hj]; exact h0
    · exact modes_orthogonal hinj hφ hψ hj
  have hz' : ψ m ᵥ* M = 0 := by rw [hψ m, hz, smul_zero]
  have : ψ m = ψ m ᵥ* M ᵥ* M⁻¹ := by rw [vecMul_vecMul, Matrix.mul_nonsing_inv _ hM, vecMul_one]
  rw [hz', zero_vecMul] at this
  exact hne' m this

/-- The modal expansion solves the equation with a source. -/
theorem modal_expansion (hM : IsUnit M.det) (hk : ∀ m, k m ≠ 0) (hk1 : ∀ m, k m ≠ 1) (hinj : Function.Injective k)
    (hφ : ∀ m, M *ᵥ φ m = (k m)⁻¹ • (F *ᵥ φ m)) (hψ : ∀ m, ψ m ᵥ* M = (k m)⁻¹ • (ψ m ᵥ* F))
    (hne : ∀ m, φ m ≠ 0) (hne' : ∀ m, ψ m ≠ 0) (b : Fin n → ℝ) {Φ : Fin n → ℝ}
    (hΦ : Φ = ∑ m, (k m / (1 - k m) * (ψ m ⬝ᵥ b / (ψ m ⬝ᵥ (F *ᵥ φ m)))) • φ m) : M *ᵥ Φ - F *ᵥ Φ = b := by
  have hp := modes_pairing hM hk hinj hφ hψ hne hne'
  have hψi : LinearIndependent ℝ ψ := by
    refine modes_independent (M := Mᵀ) (F := Fᵀ) (by rwa [Matrix.det_transpose]) hk hinj (fun m => ?_) hne'
    rw [mulVec_transpose, mulVec_transpose, hψ m]
  have e : M *ᵥ Φ - F *ᵥ Φ = ∑ m, (ψ m ⬝ᵥ b / (ψ m ⬝ᵥ (F *ᵥ φ m))) • (F *ᵥ φ m) := by
    rw [hΦ, mulVec_sum, mulVec_sum, ← Finset.sum_sub_distrib]
    refine Finset.sum_congr rfl (fun m _ => ?_)
    rw [mulVec_smul, mulVec_smul, hφ m, smul_smul, ← sub_smul]
    congr 1
    have h0 := hk m
    have h1 : 1 - k m ≠ 0 := sub_ne_zero.2 (Ne.symm (hk1 m))
    field_simp
  rw [e, ← sub_eq_zero]
  refine functional_zero hψi (fun j => ?_)
  rw [sub_dotProduct, sum_dotProduct, Finset.sum_eq_single j]
  · rw [smul_dotProduct, smul_eq_mul, dotProduct_comm _ (ψ j), div_mul_cancel₀ _ (hp j), dotProduct_comm b, sub_self]
  · intro m _ hm
    rw [smul_dotProduct, dotProduct_comm _ (ψ j), modes_orthogonal hinj hφ hψ (Ne.symm hm), smul_zero]
  · exact fun h => absurd (mem_univ j) h

end Verif
