import Verif.Input.Data

/-!
# The generator of cross sections: results of a run, Serpent outputs and the Python libraries (shared by the model and the specification)

The generator (`/repo/scripts/SerpToALMOST.py`, `/repo/scripts/xs_gen.py`) is a Python program. Its runs end in other ways than those of the C++ code, so
they have their own type.
-/

namespace Verif.Gen

open Verif Input

/-- The Python exceptions of the modelled code: `IndexError`, `KeyError`, `AttributeError`, `TypeError`, `ValueError`. -/
inductive Err
  | index | key | attribute | type | value
  deriving DecidableEq

/-- The three messages before `sys.exit()`, `/repo/scripts/xs_gen.py:171,175,178`. -/
inductive Missing
  | first | second | third
  deriving DecidableEq

/-- How a run of the Python code ends: with a result; with a message and `sys.exit()`; with an exception; or with a division by zero, after which `numpy` carries on
with numbers that are infinite or not a number (the model stops there, as its numbers are real). -/
inductive Run (α : Type) where
  | done (a : α)
  | leaves (m : Missing)
  | fails (e : Err)
  | nonfinite

/-- The solvers offered, `/repo/scripts/SerpToALMOST.py:158`. -/
inductive Solver
  | diffusion | transport
  deriving DecidableEq

/-- The tables of group constants, the keys of `CrossSectionSet.xs`, `/repo/scripts/xs_gen.py:290-298`. -/
inductive Key
  | total | ni | chi | fission | absorption | diffCoeff
  deriving DecidableEq

/-- One set of group constants of a Serpent output, as `serpentTools` returns it (`/repo/scripts/xs_gen.py:223-245`): a table for each key, the scattering
cross sections of order zero and one, and the vector of the scattering matrix. -/
structure Consts where
  xs : Key → Vec ℝ
  scatt0 : Vec ℝ
  scatt1 : Vec ℝ
  s0 : Vec ℝ

/-- A universe of a Serpent output: its name and its group constants without (`inf`) and with (`b1`) leakage correction, `/repo/scripts/xs_gen.py:205-245`. -/
structure Universe where
  name : Text
  inf : Consts
  b1 : Consts

/-- The settings of the window: leakage correction, transport correction and solver, `/repo/scripts/SerpToALMOST.py:63-64`. -/
structure Options where
  leakage : Bool
  transport : Bool
  solver : Solver

/-- The library functions used: `scipy.interpolate.lagrange` followed by `Polynomial(…).coef` (coefficients from the highest power down), `numpy`'s `polyfit` of degree
two (from the lowest power up), `np.format_float_scientific` with `precision=5`, and `float` of a string (`none`: it raises `ValueError`). -/
structure Py where
  lagrange : List ℝ → List ℝ → List ℝ
  polyfit : List ℝ → List ℝ → List ℝ
  fmt : ℝ → Text
  float : Text → Option ℝ

/-- The files: those that exist, with the universes `serpentTools.read` finds in them. -/
abbrev Disk := Text → Option (List Universe)

/-- A row of the window: the text and the unit of the temperature, and the file chosen (`none`: `None`, none yet), `/repo/scripts/SerpToALMOST.py:15-22`. -/
structure Row where
  temp : Text
  unit : Text
  file : Option Text

/-- A polynomial as it is kept: a single number without dimension (for one Serpent file) or an array of coefficients, `/repo/scripts/xs_gen.py:62,92,130`. -/
inductive Coefs
  | scalar (x : ℝ)
  | array (l : List ℝ)

/-- The coefficients, from the lowest power up. -/
def Coefs.list : Coefs → List ℝ
  | .scalar x => [x]
  | .array l => l

end Verif.Gen
