import Mathlib.Data.Real.Basic

/-!
# Solid uranium, without reference to the model

Temperatures are in °C. The crystals of uranium change at 942 K and 1049 K, and it melts at 1405 K.
-/

namespace Verif.Library

noncomputable section

/-- The temperature in kelvin. -/
def kelvin (T : ℝ) : ℝ := T + 273.15

/-- The width of the gap that the comparisons of the program leave on each side of a temperature: ten times the distance from one to the next double. -/
def gap : ℝ := 10 / 2 ^ 52

/-- The temperature lies between `a` and `b` (in K) and not within the gap of either. -/
def Within (T a b : ℝ) : Prop := a + gap < kelvin T ∧ kelvin T < b - gap

/-- Solid uranium above 273 K, and not just at a change of its crystals. -/
def Solid (T : ℝ) : Prop := Within T 273 942 ∨ Within T 942 1049 ∨ Within T 1049 1405

/-- Just at the temperature `a` (in K). -/
def At (T a : ℝ) : Prop := a - gap ≤ kelvin T ∧ kelvin T ≤ a + gap

end

end Verif.Library
