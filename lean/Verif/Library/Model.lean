import Verif.Numeric.Model

/-!
# Model of the material library, `Backbone/Library/Uranium.cpp`

`double` is replaced by the exact reals. The single instance of the class and `whatAmI` (`/repo/Backbone/Library/Uranium.cpp:7-20`) hold no data and are left out.
-/

namespace Verif.Library

open Verif Numeric

noncomputable section

open scoped Classical

/-- `Uranium::density`, `/repo/Backbone/Library/Uranium.cpp:27-51`. -/
def density (T : ℝ) : ℝ :=
  let Tc := T + 273.15
  if isLower Tc 273.0 then 0
  else if isGreater Tc 273.0 ∧ isLower Tc 942.0 then 19.36 * 1000 - 1.03347 * Tc
  else if isGreater Tc 942.0 ∧ isLower Tc 1049.0 then 19.092 * 1000 - 0.9807 * Tc
  else if isGreater Tc 1049.0 ∧ isLower Tc 1405.0 then 18.447 * 1000 - 0.5166 * Tc
  else 0

/-- `Uranium::heatCapacity`, `/repo/Backbone/Library/Uranium.cpp:58-82`. -/
def heatCapacity (T : ℝ) : ℝ :=
  let Tc := T + 273.15
  if isLower Tc 273.0 then 0
  else if isGreater Tc 273.0 ∧ isLower Tc 942.0 then 104.82 + 5.3686 * 0.001 * Tc + 10.1823 * 0.00001 * Tc ^ 2
  else if isGreater Tc 942.0 ∧ isLower Tc 1049.0 then 176.4
  else if isGreater Tc 1049.0 ∧ isLower Tc 1405.0 then 156.8
  else 0

/-- `Uranium::thermalConductivity`, `/repo/Backbone/Library/Uranium.cpp:88-103`. -/
def thermalConductivity (T : ℝ) : ℝ :=
  let Tc := T + 273.15
  if isLower Tc 273.0 then 0
  else if isGreater Tc 273.0 ∧ isLower Tc 1405.0 then 22.0 + 0.023 * (Tc - 273.0)
  else 0

end

end Verif.Library
