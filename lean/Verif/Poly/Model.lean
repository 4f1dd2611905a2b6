import Verif.Core.Outcome
import Mathlib.Algebra.Ring.Basic
import Mathlib.Algebra.Field.Defs

/-!
# Model of the polynomial helpers of `Utilities/numeric_tools.cpp`

`double` is replaced by a commutative ring; coefficient vectors are `Vec` with checked access.
-/

namespace Verif.Poly

open Verif Outcome

variable {K : Type} [CommRing K]

/-- `multiply_poly`, `Utilities/numeric_tools.cpp:72-85`. The result is allocated with `m + n - 1` entries
(`size_t` arithmetic: for two empty arguments this wraps to the largest `size_t`, for which the `std::vector`
constructor throws `std::length_error`); then `result[i + j] += a[i] * b[j]` in a double loop.
Simplification: exact arithmetic. -/
def multiplyPoly (a b : Vec K) : Outcome (Vec K) :=
  if a.n + b.n = 0 then throws .lengthError
  else
    loop (fun i res =>
      loop (fun j res => do
        let x ← a.get i
        let y ← b.get j
        let r ← res.get (i + j)
        res.set (i + j) (r + x * y)) b.n res) a.n (Vec.const (a.n + b.n - 1) 0)

/-- The two-entry vector `{a, 1.0}`, `Utilities/numeric_tools.cpp:94,108`. -/
def linear (a : K) : Vec K := ⟨2, fun i => if i = 0 then a else 1⟩

/-- `prod_poly`, `Utilities/numeric_tools.cpp:88-99`: starts from `{1.0}` and multiplies by `{a_i, 1.0}` for every
entry. Simplification: exact arithmetic. -/
def prodPoly (a : Vec K) : Outcome (Vec K) :=
  loop (fun j res => do
    let x ← a.get j
    multiplyPoly res (linear x)) a.n (Vec.const 1 1)

/-- `prod_poly_i`, `Utilities/numeric_tools.cpp:101-113`: as `prod_poly` but the factor with index `i` is skipped
(`continue`). Simplification: exact arithmetic. -/
def prodPolyI (a : Vec K) (i : Nat) : Outcome (Vec K) :=
  loop (fun j res =>
    if j = i then ok res
    else do
      let x ← a.get j
      multiplyPoly res (linear x)) a.n (Vec.const 1 1)

end Verif.Poly
