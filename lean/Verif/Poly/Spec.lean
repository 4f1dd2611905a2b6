import Verif.Core.Outcome
import Mathlib.Algebra.Polynomial.BigOperators
import Mathlib.Algebra.Polynomial.Eval.Defs

/-!
# Specification vocabulary for coefficient vectors

A coefficient vector `p` (constant term first) denotes the polynomial `∑ i < n, p_i X^i`.
-/

namespace Verif.Poly

open Polynomial Finset

variable {K : Type} [CommRing K]

/-- The polynomial with coefficients `p_0, …, p_(n-1)`, constant term first. -/
noncomputable def den (p : Vec K) : K[X] := ∑ i ∈ range p.n, C (p.v i) * X ^ i

end Verif.Poly
