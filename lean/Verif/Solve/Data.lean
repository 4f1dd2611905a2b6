import Verif.Core.Fl
import Verif.Core.Outcome

/-!
# Options, results and external numerics of the criticality solvers, shared by the model and the specification
-/

namespace Verif.Solve

/-- `DirectionKind`, `/repo/Backbone/Datamodel/DirectionKind.h:6`. -/
inductive Direction
  | undefined | forward | adjoint
  deriving DecidableEq

/-- `EigenmodesKind`, `/repo/Backbone/Datamodel/EigenmodesKind.h:6`. -/
inductive ModesKind
  | undefined | fundamental | all
  deriving DecidableEq

/-- The options of a solver that the criticality solvers read (`/repo/Backbone/Datamodel/SolverData.h`): direction, eigenmodes, maximum
number of iterations, accuracy. -/
structure Options where
  direction : Direction
  modes : ModesKind
  maxIter : Int
  acc : ℝ

/-- The library functions: `qr M` solves systems with the matrix `M`; `evals M F` and `evecs M F` are what the generalized eigenvalue
solver returns (real and imaginary part of the inverted eigenvalues, real parts of the eigenvectors); `sort` is `std::sort`. -/
structure Numerics where
  qr : Mat Fl → List Fl → Nat → Fl
  evals : Mat Fl → Mat Fl → List (Fl × Fl)
  evecs : Mat Fl → Mat Fl → Nat → Nat → ℝ
  sort : List (Fl × Vec Fl) → List (Fl × Vec Fl)

/-- What is stored for one direction: the eigenvalues (`/repo/Backbone/Datamodel/Reactor.h`), the number of modes and the fluxes
(`/repo/Backbone/Datamodel/Mesh.cpp:345-370,389-415`), `flux j i n` being group `j`, cell `i`, mode `n`. -/
structure Stored where
  k : List Fl
  modes : Nat
  flux : Nat → Nat → Nat → Fl

/-- The part of the reactor the criticality solvers write, and `m_oldPowerDensities` of the solver
(`/repo/Diffusion/DiffusionSolver.cpp:13`, `/repo/CPM/SpectrumSolver.cpp:10`). -/
structure State where
  forward : Stored
  adjoint : Stored
  heat : Vec ℝ
  oldHeat : Vec ℝ

end Verif.Solve
