import Verif.Mesh.Data
import Verif.Solve.Data
import Verif.Core.Outcome

/-!
# The reactor, the solver settings and the interface of a solver, shared by the model and the specification
-/

namespace Verif.Calc

open Verif

/-- `SolverKind`, `/repo/Backbone/Datamodel/SolverKind.h:6`. -/
inductive Kind
  | undefined | coupled | transport | kinetics | heat | diffusion | ads
  deriving DecidableEq

/-- `SolverData`, `/repo/Backbone/Datamodel/SolverData.h:11-56`: kind, accuracy, limit of iterations, relaxation parameter, albedos, heat
boundary numbers, number of groups, direction and eigenmodes. -/
structure Settings where
  kind : Kind
  acc : ℝ
  maxIter : Int
  relax : ℝ
  albedo : Vec ℝ
  bc : Vec ℝ
  energies : Nat
  direction : Solve.Direction
  modes : Solve.ModesKind

/-- `KineticsSet`, `/repo/Backbone/Datamodel/KineticsSet.h:6-34`. -/
structure KineticsSet where
  lam : Vec ℝ
  beta : Vec ℝ
  alpha : ℝ
  power : ℝ
  rhos : Vec ℝ
  times : Vec ℝ

/-- `Reactor`, `/repo/Backbone/Datamodel/Reactor.h:12-57`: mesh, thermal power, forward and adjoint eigenvalues, kinetics data, and the
external source (strength, number of the cell, number of the group, both from one on). -/
structure Plant where
  grid : Mesh.Grid
  power : ℝ
  kForward : List Fl
  kAdjoint : List Fl
  kinetics : KineticsSet
  source : ℝ × Nat × Nat

/-- The main parameter of a solver, `std::variant<double, VectorXd, MatrixXd>` (`/repo/Backbone/Datamodel/AbstractSolver.h:24-25`). -/
inductive Param
  | num (x : Fl)
  | vec (x : Vec Fl)
  | mat (x : Mat Fl)

/-- A solver as the coupled calculation uses it, `/repo/Backbone/Datamodel/AbstractSolver.h:20-25`: `solve` changes the reactor `R` and leaves
something in the memory `M` of the solver, `main` is the main parameter, `relax` blends the results with what the solver remembers. -/
structure Part (R M : Type) where
  solve : R → Outcome (R × M)
  main : R → Outcome Param
  relax : ℝ → R → M → Outcome R

/-- The library functions: those of the criticality solvers, `lin T b` the solution of the linear system with matrix `T` and right-hand side
`b`, `big` the function `maxCoeff`, `roots` the polynomial root finder, and the special functions of the transport code. -/
structure Tools where
  num : Solve.Numerics
  lin : Mat ℝ → List ℝ → Nat → ℝ
  big : List Fl → Fl
  roots : Vec ℝ → Vec ℝ
  e3 : ℝ → ℝ
  ki3 : ℝ → ℝ

end Verif.Calc
