import Verif.Kinetics.Spec
import Verif.Kinetics.Algebra
import Mathlib.Analysis.ODE.ExistUnique
import Mathlib.Analysis.SpecialFunctions.ExpDeriv
import Mathlib.Analysis.Calculus.Deriv.Prod
import Mathlib.Analysis.Calculus.Deriv.Pi
import Mathlib.Topology.Algebra.Module.FiniteDimension

/-! Existence (by residues) and uniqueness of the solution of the point-kinetics equations. -/

namespace Verif.Kinetics

open Finset

/-- Right-hand side of the point-kinetics equations as a linear map. -/
noncomputable def rhsLin (n : Nat) (lam beta : Nat → ℝ) (alpha rho : ℝ) : (ℝ × (Fin n → ℝ)) →ₗ[ℝ] (ℝ × (Fin n → ℝ)) where
  toFun x := ((rho - ∑ i ∈ range n, beta i) / alpha * x.1 + ∑ i : Fin n, lam i * x.2 i,
    fun i => beta i / alpha * x.1 - lam i * x.2 i)
  map_add' x y := by
    ext
    · simp only [Prod.fst_add, Prod.snd_add, Pi.add_apply, mul_add, sum_add_distrib]; ring
    · simp only [Prod.fst_add, Prod.snd_add, Pi.add_apply]; ring
  map_smul' k x := by
    ext
    · simp only [Prod.smul_fst, Prod.smul_snd, Pi.smul_apply, smul_eq_mul, RingHom.id_apply, mul_add, mul_sum]
      congr 1
      · ring
      · exact sum_congr rfl (fun i _ => by ring)
    · simp only [Prod.smul_fst, Prod.smul_snd, Pi.smul_apply, smul_eq_mul, RingHom.id_apply]; ring

/-- Two solutions of the point-kinetics equations that agree at one time agree at all times. -/
theorem PointKinetics.unique {n : Nat} {lam beta : Nat → ℝ} {alpha rho : ℝ} {P P' : ℝ → ℝ} {C C' : Nat → ℝ → ℝ}
    (h : PointKinetics n lam beta alpha rho P C) (h' : PointKinetics n lam beta alpha rho P' C') (t0 : ℝ)
    (hP : P t0 = P' t0) (hC : ∀ i, i < n → C i t0 = C' i t0) :
    ∀ t, P t = P' t ∧ ∀ i, i < n → C i t = C' i t := by
  set L := (rhsLin n lam beta alpha rho).toContinuousLinearMap with hL
  have key : ∀ {P : ℝ → ℝ} {C : Nat → ℝ → ℝ}, PointKinetics n lam beta alpha rho P C →
      ∀ t, HasDerivAt (fun t => ((P t, fun i : Fin n => C i t) : ℝ × (Fin n → ℝ)))
        (L (P t, fun i : Fin n => C i t)) t := by
    intro P C h t
    have h1 := h.power t
    have h2 : HasDerivAt (fun t => fun i : Fin n => C i t)
        (fun i : Fin n => beta i / alpha * P t - lam i * C i t) t :=
      hasDerivAt_pi.2 (fun i => h.conc i i.2 t)
    have h3 := h1.prodMk h2
    have h4 : L (P t, fun i : Fin n => C i t) =
        ((rho - ∑ i ∈ range n, beta i) / alpha * P t + ∑ i ∈ range n, lam i * C i t,
          fun i : Fin n => beta i / alpha * P t - lam i * C i t) := by
      rw [Finset.sum_range (fun i => lam i * C i t)]
      rfl
    rw [h4]
    exact h3
  have := ODE_solution_unique_univ (v := fun _ => L) (s := fun _ => Set.univ)
    (f := fun t => ((P t, fun i : Fin n => C i t) : ℝ × (Fin n → ℝ)))
    (g := fun t => ((P' t, fun i : Fin n => C' i t) : ℝ × (Fin n → ℝ))) (t₀ := t0) (K := ‖L‖₊)
    (fun t => L.lipschitz.lipschitzOnWith) (fun t => ⟨key h t, trivial⟩) (fun t => ⟨key h' t, trivial⟩)
    (by
      simp only [Prod.mk.injEq]
      exact ⟨hP, funext fun i => hC i i.2⟩)
  intro t
  have ht := congrFun this t
  simp only [Prod.mk.injEq] at ht
  exact ⟨ht.1, fun i hi => congrFun ht.2 ⟨i, hi⟩⟩

variable {n : Nat} {lam beta r : Nat → ℝ} {alpha rho P0 : ℝ} {C0 : Nat → ℝ}

theorem Roots.c_ne_zero {c : Nat → ℝ} {a : ℝ} (h : Roots n lam c a r) {i : Nat} (hi : i < n) : c i ≠ 0 := by
  intro h0
  have h1 := eval_qPoly_pole (lam := lam) (c := c) (a := a) hi
  rw [h0, zero_mul, neg_zero, h.factor, Polynomial.eval_prod, prod_eq_zero_iff] at h1
  obtain ⟨j, hj, h3⟩ := h1
  simp only [Polynomial.eval_sub, Polynomial.eval_X, Polynomial.eval_C] at h3
  exact h.ne j (mem_range.1 hj) i hi (by linarith)

/-- The power as a sum of exponentials. -/
noncomputable def solP (n : Nat) (r R : Nat → ℝ) (t : ℝ) : ℝ := ∑ j ∈ range (n + 1), R j * Real.exp (r j * t)

/-- The concentration formula of the code. -/
noncomputable def solC (n : Nat) (lam beta r R : Nat → ℝ) (alpha : ℝ) (C0 : Nat → ℝ) (i : Nat) (t : ℝ) : ℝ :=
  beta i / alpha * ∑ j ∈ range (n + 1), R j * (Real.exp (r j * t) - Real.exp (-lam i * t)) / (lam i + r j)
    + C0 i * Real.exp (-lam i * t)

/-- The residue formula solves the point-kinetics equations with the given initial values. -/
theorem Roots.solves (hα : alpha ≠ 0)
    (h : Roots n lam (fun i => lam i * beta i / alpha) ((rho - ∑ i ∈ range n, beta i) / alpha) r) (R : Nat → ℝ)
    (hR : ∀ j, j < n + 1 → R j = resid n lam (fun i => lam i * beta i / alpha) (fun i => lam i * C0 i) P0 (r j)) :
    PointKinetics n lam beta alpha rho (solP n r R) (solC n lam beta r R alpha C0) ∧
      solP n r R 0 = P0 ∧ ∀ i, i < n → solC n lam beta r R alpha C0 i 0 = C0 i := by
  have hlam : ∀ i, i < n → lam i ≠ 0 := by
    intro i hi h0
    exact h.c_ne_zero hi (by simp [h0])
  have hsum : ∑ j ∈ range (n + 1), R j = P0 := by
    rw [← h.sum_resid (g := fun i => lam i * C0 i) (P := P0)]
    exact sum_congr rfl (fun j hj => hR j (mem_range.1 hj))
  have hpole : ∀ i, i < n → beta i / alpha * ∑ j ∈ range (n + 1), R j / (lam i + r j) = C0 i := by
    intro i hi
    have h1 := h.sum_resid_div (g := fun i => lam i * C0 i) (P := P0) hi
    rw [← sum_congr rfl (fun j hj => by rw [hR j (mem_range.1 hj)] :
      ∀ j ∈ range (n + 1), R j / (lam i + r j) = _)] at h1
    apply mul_left_cancel₀ (hlam i hi)
    rw [← h1]; ring
  -- closed form of the concentrations
  have hC : ∀ i, i < n → solC n lam beta r R alpha C0 i =
      fun t => beta i / alpha * ∑ j ∈ range (n + 1), R j / (lam i + r j) * Real.exp (r j * t) := by
    intro i hi
    funext t
    unfold solC
    have h1 : ∑ j ∈ range (n + 1), R j * (Real.exp (r j * t) - Real.exp (-lam i * t)) / (lam i + r j) =
        ∑ j ∈ range (n + 1), R j / (lam i + r j) * Real.exp (r j * t) -
          (∑ j ∈ range (n + 1), R j / (lam i + r j)) * Real.exp (-lam i * t) := by
      rw [sum_mul, ← sum_sub_distrib]
      exact sum_congr rfl (fun j _ => by ring)
    rw [h1, ← hpole i hi]; ring
  have hexp : ∀ j t, HasDerivAt (fun t => Real.exp (r j * t)) (r j * Real.exp (r j * t)) t := by
    intro j t
    have h1 : HasDerivAt (fun t => r j * t) (r j) t := by simpa using (hasDerivAt_id t).const_mul (r j)
    simpa [mul_comm] using h1.exp
  refine ⟨⟨?_, ?_⟩, ?_, ?_⟩
  · intro t
    have h1 : HasDerivAt (solP n r R) (∑ j ∈ range (n + 1), R j * (r j * Real.exp (r j * t))) t := by
      have := HasDerivAt.fun_sum (u := range (n + 1)) (fun j _ => (hexp j t).const_mul (R j))
      exact this
    convert h1 using 1
    have h2 : ∑ i ∈ range n, lam i * solC n lam beta r R alpha C0 i t =
        ∑ j ∈ range (n + 1), R j * Real.exp (r j * t) * ∑ i ∈ range n, lam i * beta i / alpha / (r j + lam i) := by
      simp_rw [mul_sum]
      rw [sum_comm]
      apply sum_congr rfl
      intro i hi
      rw [hC i (mem_range.1 hi)]
      simp only [mul_sum]
      apply sum_congr rfl
      intro j _
      rw [add_comm (r j)]; ring
    rw [h2]
    unfold solP
    rw [mul_sum, ← sum_add_distrib]
    apply sum_congr rfl
    intro j hj
    have h3 := h.root (mem_range.1 hj)
    linear_combination (-(R j * Real.exp (r j * t))) * h3
  · intro i hi t
    rw [hC i hi]
    have h1 : HasDerivAt (fun t => beta i / alpha * ∑ j ∈ range (n + 1), R j / (lam i + r j) * Real.exp (r j * t))
        (beta i / alpha * ∑ j ∈ range (n + 1), R j / (lam i + r j) * (r j * Real.exp (r j * t))) t := by
      have := HasDerivAt.fun_sum (u := range (n + 1)) (fun j _ => (hexp j t).const_mul (R j / (lam i + r j)))
      exact this.const_mul _
    convert h1 using 1
    unfold solP
    simp only [mul_sum]
    rw [← sum_sub_distrib]
    apply sum_congr rfl
    intro j hj
    have hne := h.ne j (mem_range.1 hj) i hi
    rw [add_comm] at hne
    field_simp
    ring
  · unfold solP
    simp [hsum]
  · intro i _
    unfold solC
    simp

end Verif.Kinetics
