import Verif.Poly.Lemmas

/-!
# Property C08: polynomial products are products
-/

namespace Verif.Poly

open Polynomial Finset Outcome

variable {K : Type} [CommRing K]

/-- C08, product of two coefficient vectors: unless both are empty the call ends normally, returns `m + n - 1`
coefficients, and they denote the product polynomial. -/
theorem C08_multiply_poly (a b : Vec K) (h : a.n ≠ 0 ∨ b.n ≠ 0) :
    ∃ p, multiplyPoly a b = ok p ∧ p.n = a.n + b.n - 1 ∧ den p = den a * den b :=
  multiplyPoly_spec a b (by omega)

/-- The hypothesis of `C08_multiply_poly` is met by `(1 + 2x)(3 + x²)`, and the code's own loop gives `3 + 6x + x² + 2x³`. -/
example : ((Vec.ofList [(1 : ℤ), 2]).n ≠ 0 ∨ (Vec.ofList [(3 : ℤ), 0, 1]).n ≠ 0) ∧
    (∃ p, multiplyPoly (Vec.ofList [(1 : ℤ), 2]) (Vec.ofList [(3 : ℤ), 0, 1]) = ok p ∧ p.toList = [3, 6, 1, 2]) := by
  refine ⟨Or.inl (by decide), _, rfl, by decide⟩

/-- C08, the case excluded above: two empty coefficient vectors make the allocation fail. -/
theorem C08_multiply_poly_empty (a b : Vec K) (ha : a.n = 0) (hb : b.n = 0) :
    multiplyPoly a b = throws .lengthError := by
  simp [multiplyPoly, ha, hb]

/-- C08, full product: `prod_poly` of `c_0 … c_(n-1)` always ends normally with the `n + 1` coefficients of `∏ (c_k + x)`. -/
theorem C08_prod_poly (c : Vec K) :
    ∃ p, prodPoly c = ok p ∧ p.n = c.n + 1 ∧ den p = ∏ k ∈ range c.n, (C (c.v k) + X) :=
  prodPoly_spec c

example : ∃ p, prodPoly (Vec.ofList [(1 : ℤ), 2, 3]) = ok p ∧ p.toList = [6, 11, 6, 1] :=
  ⟨_, rfl, by decide⟩

/-- C08, product without one factor: for an index in range `prod_poly_i` ends normally with the `n` coefficients of the
product of all factors but the `i`-th. -/
theorem C08_prod_poly_i (c : Vec K) (i : Nat) (hi : i < c.n) :
    ∃ p, prodPolyI c i = ok p ∧ p.n = c.n ∧ den p = ∏ k ∈ (range c.n).erase i, (C (c.v k) + X) :=
  prodPolyI_spec c i hi

example : ∃ p, prodPolyI (Vec.ofList [(1 : ℤ), 2, 3]) 1 = ok p ∧ p.toList = [3, 4, 1] :=
  ⟨_, rfl, by decide⟩

end Verif.Poly
