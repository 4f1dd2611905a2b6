import Mathlib.Data.Real.Basic
import Mathlib.Algebra.Order.Group.Abs

/-!
# Floating-point values with the special values of IEEE 754

Used where the behaviour of not-a-number or infinite values matters. Finite values are exact reals (no rounding).
This file models no particular file of `/repo`.
-/

namespace Verif

/-- A `double`: not-a-number, a finite value, or an infinity (`inf true` is the negative one). -/
inductive Fl
  | nan
  | fin (x : ℝ)
  | inf (neg : Bool)

namespace Fl

noncomputable section

/-- Subtraction: `inf - inf` of equal sign is not a number. -/
def sub : Fl → Fl → Fl
  | nan, _ => nan
  | _, nan => nan
  | fin x, fin y => fin (x - y)
  | inf a, inf b => if a = b then nan else inf a
  | inf a, fin _ => inf a
  | fin _, inf b => inf (!b)

/-- Addition: `inf - inf` is not a number. -/
def add : Fl → Fl → Fl
  | nan, _ => nan
  | _, nan => nan
  | fin x, fin y => fin (x + y)
  | inf a, inf b => if a = b then inf a else nan
  | inf a, fin _ => inf a
  | fin _, inf b => inf b

/-- Multiplication: `0 * inf` is not a number. -/
def mul : Fl → Fl → Fl
  | nan, _ => nan
  | _, nan => nan
  | fin x, fin y => fin (x * y)
  | inf a, inf b => inf (a != b)
  | inf a, fin y => if y = 0 then nan else inf (a != decide (y < 0))
  | fin x, inf b => if x = 0 then nan else inf (b != decide (x < 0))

/-- Division: `0 / 0` and `inf / inf` are not numbers, `x / 0` is infinite. The sign of a zero is not modelled: a zero counts as
positive. -/
def div : Fl → Fl → Fl
  | nan, _ => nan
  | _, nan => nan
  | fin x, fin y => if y = 0 then (if x = 0 then nan else inf (decide (x < 0))) else fin (x / y)
  | inf _, inf _ => nan
  | inf a, fin y => inf (a != decide (y < 0))
  | fin _, inf _ => fin 0

/-- Sum of `f 0, …, f (n-1)`. -/
def sumTo (f : Nat → Fl) : Nat → Fl
  | 0 => fin 0
  | n + 1 => add (sumTo f n) (f n)

/-- `fabs`. -/
def abs : Fl → Fl
  | nan => nan
  | fin x => fin |x|
  | inf _ => inf false

/-- `a < b`: false as soon as one side is not a number. -/
def lt : Fl → Fl → Prop
  | fin x, fin y => x < y
  | fin _, inf b => b = false
  | inf a, fin _ => a = true
  | inf a, inf b => a = true ∧ b = false
  | _, _ => False

/-- `a <= b`: false as soon as one side is not a number. -/
def le : Fl → Fl → Prop
  | fin x, fin y => x ≤ y
  | fin _, inf b => b = false
  | inf a, fin _ => a = true
  | inf a, inf b => a = true ∨ b = false
  | _, _ => False

/-- A finite value. -/
def IsFin (a : Fl) : Prop := ∃ x, a = fin x

end

end Fl

end Verif
