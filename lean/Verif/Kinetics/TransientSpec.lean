import Verif.Kinetics.Spec

/-! # Specification: the power with a reactivity that changes at given times -/

namespace Verif.Kinetics

/-- A reactor with `n` groups of delayed neutrons is in equilibrium at the power `power` until time zero. Then its reactivity is `rhos 0` until the time `times 0`, `rhos 1` until the time
`times 1`, and so on: `P k` and `C k` are the power and the precursors that go with the reactivity `rhos k`. -/
structure Transient (n : Nat) (lam beta : Nat → ℝ) (alpha power : ℝ) (m : Nat) (rhos times : Nat → ℝ) (P : Nat → ℝ → ℝ) (C : Nat → Nat → ℝ → ℝ) : Prop where
  solves : ∀ k, k < m → PointKinetics n lam beta alpha (rhos k) (P k) (C k)
  start : P 0 0 = power
  equilibrium : ∀ i, i < n → beta i / alpha * power - lam i * C 0 i 0 = 0
  joined : ∀ k, k + 1 < m → P (k + 1) (times k) = P k (times k) ∧ ∀ i, i < n → C (k + 1) i (times k) = C k i (times k)

end Verif.Kinetics
