import Verif.Core.Outcome
import Mathlib.Data.Real.Basic
import Mathlib.Algebra.Order.Archimedean.Real.Basic
import Mathlib.Algebra.Order.Floor.Ring

/-!
# Model of `Utilities/numeric_tools.h`, `tridiag_solver` and `Utilities/PolynomialFunction.cpp`

`double` is replaced by the exact reals `ℝ`.
-/

namespace Verif.Numeric

open Verif Outcome

noncomputable section

open scoped Classical

/-- `10.0 * std::numeric_limits<double>::epsilon()`, `Utilities/numeric_tools.h:50,62,68,74,80`; the machine epsilon of
a `double` is `2⁻⁵²`. -/
def tol : ℝ := 10 / 2 ^ 52

/-- `is_equal`, `Utilities/numeric_tools.h:47-51`. -/
def isEqual (x y : ℝ) : Prop := |x - y| < tol

/-- `not_equal`, `Utilities/numeric_tools.h:53-57`. -/
def notEqual (x y : ℝ) : Prop := ¬ isEqual x y

/-- `is_greater`, `Utilities/numeric_tools.h:59-63`. -/
def isGreater (x y : ℝ) : Prop := x > y + tol

/-- `is_greater_equal`, `Utilities/numeric_tools.h:65-69`. -/
def isGreaterEqual (x y : ℝ) : Prop := x > y - tol

/-- `is_lower`, `Utilities/numeric_tools.h:71-75`. -/
def isLower (x y : ℝ) : Prop := x < y - tol

/-- `is_lower_equal`, `Utilities/numeric_tools.h:77-81`. -/
def isLowerEqual (x y : ℝ) : Prop := x < y + tol

/-- `std::round`: to the nearest integer, halves away from zero (used in `Utilities/numeric_tools.h:44`). -/
def cround (x : ℝ) : ℤ := if 0 ≤ x then ⌊x + 1 / 2⌋ else ⌈x - 1 / 2⌉

/-- `round_to(number, precision)`, `Utilities/numeric_tools.h:40-45`.
`int decimals = std::pow(10, precision)` truncates to `int`: for a negative precision it is `0`, so the quotient is `0/0`;
for `precision ≥ 10` the value does not fit an `int` (32 bits), which is undefined behaviour. -/
def roundTo (x : ℝ) (precision : ℤ) : Outcome ℝ :=
  if precision < 0 then nonfinite
  else if 10 ≤ precision then ub
  else ok ((cround (x * (10 : ℝ) ^ precision.toNat) : ℝ) / (10 : ℝ) ^ precision.toNat)

/-- `operator+` on vectors, `Utilities/numeric_tools.h:83-95` (`std::transform` with `std::plus`). -/
def vadd (a b : Vec ℝ) : Outcome (Vec ℝ) :=
  if a.n ≠ b.n then throws .lengthError else ok ⟨a.n, fun i => a.v i + b.v i⟩

/-- `operator-` on vectors, `Utilities/numeric_tools.h:97-109`. -/
def vsub (a b : Vec ℝ) : Outcome (Vec ℝ) :=
  if a.n ≠ b.n then throws .lengthError else ok ⟨a.n, fun i => a.v i - b.v i⟩

/-- `operator*` by a scalar, `Utilities/numeric_tools.h:111-119`. -/
def vmul (a : Vec ℝ) (m : ℝ) : Vec ℝ := ⟨a.n, fun i => a.v i * m⟩

/-- `operator/` by a scalar, `Utilities/numeric_tools.h:121-132`. -/
def vdiv (a : Vec ℝ) (d : ℝ) : Outcome (Vec ℝ) :=
  if isEqual d 0 then throws .overflowError else ok ⟨a.n, fun i => a.v i / d⟩

/-- `operator+=`, `Utilities/numeric_tools.h:134-144`: an index loop writing into `a`. -/
def vaddAssign (a b : Vec ℝ) : Outcome (Vec ℝ) :=
  if a.n ≠ b.n then throws .lengthError
  else loop (fun i a => do
    let x ← a.get i
    let y ← b.get i
    a.set i (x + y)) a.n a

/-- `operator-=`, `Utilities/numeric_tools.h:146-156`. -/
def vsubAssign (a b : Vec ℝ) : Outcome (Vec ℝ) :=
  if a.n ≠ b.n then throws .lengthError
  else loop (fun i a => do
    let x ← a.get i
    let y ← b.get i
    a.set i (x - y)) a.n a

/-- `operator*=`, `Utilities/numeric_tools.h:158-166`. -/
def vmulAssign (a : Vec ℝ) (m : ℝ) : Outcome (Vec ℝ) :=
  loop (fun i a => do
    let x ← a.get i
    a.set i (x * m)) a.n a

/-- `operator/=`, `Utilities/numeric_tools.h:168-178`. -/
def vdivAssign (a : Vec ℝ) (d : ℝ) : Outcome (Vec ℝ) :=
  if isEqual d 0 then throws .overflowError
  else loop (fun i a => do
    let x ← a.get i
    a.set i (x / d)) a.n a

/-- `PolynomialFunction::calc(double x)`, `Utilities/PolynomialFunction.cpp:6-16`. -/
def polyCalc (coeffs : Vec ℝ) (x : ℝ) : Outcome ℝ :=
  loop (fun i result => do
    let c ← coeffs.get i
    ok (result + c * x ^ i)) coeffs.n 0

/-- `PolynomialFunction::calc(double x, double base)`, `Utilities/PolynomialFunction.cpp:18-35`;
`std::numeric_limits<float>::digits10` is `6`. The message printed before `exit(-1)` is not modelled. -/
def polyCalcBase (coeffs : Vec ℝ) (x base : ℝ) : Outcome ℝ := do
  let value ← roundTo (x - base) 6
  if isLower value 0 then exit
  else loop (fun i result => do
    let c ← coeffs.get i
    ok (result + c * value ^ i)) coeffs.n 0

/-- Forward pass of `tridiag_solver`, `Utilities/numeric_tools.cpp:147-156`: state is the pair `(P, Q)`. Row `i` reads
`c(i - 1)`, exactly as in the code. -/
def tridiagForward (a b c d : Vec ℝ) (n : Nat) : Outcome (Vec ℝ × Vec ℝ) := do
  let b0 ← b.get 0
  let c0 ← c.get 0
  let d0 ← d.get 0
  let p0 ← fdiv (-c0) b0
  let q0 ← fdiv d0 b0
  let P ← (Vec.const n 0).set 0 p0
  let Q ← (Vec.const n 0).set 0 q0
  loopFrom 1 (fun i (PQ : Vec ℝ × Vec ℝ) => do
    let bi ← b.get i
    let ai ← a.get (i - 1)
    let pi ← PQ.1.get (i - 1)
    let qi ← PQ.2.get (i - 1)
    let ci ← c.get (i - 1)
    let di ← d.get i
    let denominator := bi + ai * pi
    let p ← fdiv (-ci) denominator
    let q ← fdiv (di - ai * qi) denominator
    let P' ← PQ.1.set i p
    let Q' ← PQ.2.set i q
    ok (P', Q')) (n - 1) (P, Q)

/-- `tridiag_solver`, `Utilities/numeric_tools.cpp:136-164`. The backward loop `for (i = n-2; i >= 0; i--)` is counted by
`k` with `i = n - 2 - k`. An empty right-hand side accesses `P(0)` of an empty vector: undefined behaviour. -/
def tridiagSolver (a b c d : Vec ℝ) : Outcome (Vec ℝ) := do
  let n := d.n
  let PQ ← tridiagForward a b c d n
  let ql ← PQ.2.get (n - 1)
  let r ← (Vec.const n 0).set (n - 1) ql
  loop (fun k (r : Vec ℝ) => do
    let i := n - 2 - k
    let p ← PQ.1.get i
    let x ← r.get (i + 1)
    let q ← PQ.2.get i
    r.set i (p * x + q)) (n - 1) r

end

end Verif.Numeric
