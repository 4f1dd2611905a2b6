import Verif.Core.Outcome
import Mathlib.Data.Real.Basic
import Mathlib.Algebra.BigOperators.Group.Finset.Basic

/-! Specification vocabulary for numeric tools: no model definitions are used here. -/

namespace Verif.Numeric

open Finset

/-- `x` solves the tridiagonal system of size `n`: in row `i` the subdiagonal entry is `a (i-1)`, the diagonal entry `b i`,
the superdiagonal entry `c i`, and the right-hand side `d i`. -/
def SolvesTridiag (n : Nat) (a b c d x : Nat → ℝ) : Prop :=
  ∀ i, i < n →
    (if i = 0 then 0 else a (i - 1) * x (i - 1)) + b i * x i + (if i + 1 = n then 0 else c i * x (i + 1)) = d i

/-- Strict diagonal dominance by rows of that system. -/
def DiagDominant (n : Nat) (a b c : Nat → ℝ) : Prop :=
  ∀ i, i < n → (if i = 0 then 0 else |a (i - 1)|) + (if i + 1 = n then 0 else |c i|) < |b i|

/-- The value at `x` of the polynomial with coefficients `c 0, …, c (n-1)`. -/
def polyValue (n : Nat) (c : Nat → ℝ) (x : ℝ) : ℝ := ∑ i ∈ range n, c i * x ^ i

/-- `k` is the integer nearest to `y`, halves being rounded away from zero. -/
def IsRounding (k : ℤ) (y : ℝ) : Prop := |(k : ℝ) - y| < 1 / 2 ∨ (|(k : ℝ) - y| = 1 / 2 ∧ |y| < |(k : ℝ)|)

end Verif.Numeric
