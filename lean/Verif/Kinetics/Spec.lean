import Verif.Core.Outcome
import Mathlib.Analysis.Calculus.Deriv.Basic
import Mathlib.Analysis.Complex.Basic
import Mathlib.Algebra.Polynomial.BigOperators
import Mathlib.Algebra.Polynomial.Eval.Defs

/-!
# Specification vocabulary for point kinetics (no model definitions)
-/

namespace Verif.Kinetics

open Finset Polynomial

/-- The point-kinetics equations for `n` groups of delayed neutrons:
`P' = ((rho - ∑ beta)/alpha) P + ∑ lambda_i C_i` and `C_i' = (beta_i/alpha) P - lambda_i C_i`, for all times. -/
structure PointKinetics (n : Nat) (lam beta : Nat → ℝ) (alpha rho : ℝ) (P : ℝ → ℝ) (C : Nat → ℝ → ℝ) : Prop where
  power : ∀ t, HasDerivAt P ((rho - ∑ i ∈ range n, beta i) / alpha * P t + ∑ i ∈ range n, lam i * C i t) t
  conc : ∀ i, i < n → ∀ t, HasDerivAt (C i) (beta i / alpha * P t - lam i * C i t) t

/-- Physical data: positive generation time, positive and pairwise distinct decay constants, positive fractions. -/
structure Physical (n : Nat) (lam beta : Nat → ℝ) (alpha : ℝ) : Prop where
  alpha_pos : 0 < alpha
  lam_pos : ∀ i, i < n → 0 < lam i
  beta_pos : ∀ i, i < n → 0 < beta i
  lam_inj : ∀ i, i < n → ∀ j, j < n → lam i = lam j → i = j

/-- The in-hour equation: `rho = alpha s + ∑ beta - ∑ lambda_i beta_i / (lambda_i + s)`. -/
def InHour (n : Nat) (lam beta : Nat → ℝ) (alpha rho s : ℝ) : Prop :=
  rho = alpha * s + ∑ i ∈ range n, beta i - ∑ i ∈ range n, lam i * beta i / (lam i + s)

/-- What the root finder is assumed to do (`poly_roots` with exact arithmetic): for a coefficient list with nonzero last
entry it returns the real parts of all complex roots, each as often as its multiplicity. -/
def ExactRootFinder (solver : Vec ℝ → Vec ℝ) : Prop :=
  ∀ p : Vec ℝ, 0 < p.n → p.v (p.n - 1) ≠ 0 →
    ∃ z : Nat → ℂ,
      (∑ i ∈ range p.n, C ((p.v i : ℝ) : ℂ) * X ^ i : ℂ[X]) =
        C ((p.v (p.n - 1) : ℝ) : ℂ) * ∏ j ∈ range (p.n - 1), (X - C (z j)) ∧
      (solver p).n = p.n - 1 ∧ ∀ j, j < p.n - 1 → (solver p).v j = (z j).re

end Verif.Kinetics
