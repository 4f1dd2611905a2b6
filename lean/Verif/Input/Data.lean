import Verif.Calc.Data

/-!
# Text, the library functions and the results of reading an input file (shared by the model and the specification)
-/

namespace Verif.Input

open Verif

/-- A `std::string`. Simplification: a character is a Unicode character; the reader treats characters outside ASCII as undefined behaviour
(`storeLine`). -/
abbrev Text := List Char

/-- `PlotKind`, `/repo/Backbone/IO/PlotKind.h`. -/
inductive Plot
  | neutronFlux | adjointFlux | totalFlux | temperature | powerDensity
  deriving DecidableEq

/-- The library functions the reader uses: `stod` is `std::stod` (it may throw; a word for infinity or not-a-number has the outcome `nonfinite`);
`blank` is what `front()` of an empty string gives. By the C++ standard that is undefined behaviour (`ub`), common implementations give the
character 0 (`ok '\0'`). -/
structure Lib where
  stod : Text → Outcome ℝ
  blank : Outcome Char

/-- The members of `Input` (`/repo/Backbone/IO/Input.h:66-76`): the stored lines, the solvers, the reactor, the name of the material of each cell,
the names of all materials, and the plots. `m_cells` and `m_energies` are copies of numbers of the mesh. -/
structure Reader where
  lines : List Text
  solvers : List Calc.Settings
  plant : Calc.Plant
  map : List Text
  mats : List Text
  plots : List Plot

end Verif.Input
