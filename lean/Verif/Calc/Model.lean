import Verif.Calc.Data
import Verif.Mesh.Model
import Verif.Heat.Model
import Verif.Solve.Model
import Verif.Kinetics.Model

/-!
# Model of the calculations: single, coupled and source-driven

`/repo/Backbone/Datamodel/BaseCalculation.cpp`, `SingleCalculation.cpp`, `DoubleCalculation.cpp`, `ADSCalculation.cpp`, `Problem.cpp`,
`AbstractSolver.cpp`, `/repo/Heat/HeatSolver.cpp`. Printing and plotting: `Verif.Output`.
-/

namespace Verif.Calc

open Verif Outcome

noncomputable section

open scoped Classical

/-! ### solvers working on the reactor -/

/-- The end of an iteration that did not converge, `/repo/Heat/HeatSolver.cpp:49-54`, `/repo/Backbone/Datamodel/DoubleCalculation.cpp:54-59`:
the counter is the limit, and adding one to the largest `int` is undefined. -/
def notConverged {α : Type} (maxIter : Int) : Outcome α := if maxIter = 2147483647 then ub else exit

/-- Largest difference of two fields, `/repo/Heat/HeatSolver.cpp:34-39`. -/
def maxDiff (new old : Vec ℝ) : Outcome ℝ :=
  loop (fun i m => do
    let a ← new.get i
    let b ← old.get i
    ok (if m < |a - b| then |a - b| else m)) new.n 0

/-- The iteration of `HeatSolver::solve`, `/repo/Heat/HeatSolver.cpp:21-45`, with `fuel` passes left and `old` the temperatures compared with;
`BaseHeatCode::solveSystem` (`/repo/Heat/BaseHeatCode.cpp:44-49`) stores the solution of the system. Simplification: the tables of
the mesh are read in every pass, the code reads those that do not change only once. -/
def heatLoop (lin : Mat ℝ → List ℝ → Nat → ℝ) (bc : Vec ℝ) (acc : ℝ) (maxIter : Int) : Nat → Vec ℝ → Mesh.Grid → Outcome Mesh.Grid
  | 0, _, _ => notConverged maxIter
  | fuel + 1, old, g => do
    let d ← Mesh.heatData g bc
    let s ← Heat.system d
    let g ← Mesh.setTemperatures ⟨s.1.c, lin s.1 s.2.toList⟩ g
    let new ← Mesh.temperatures g "C"
    let m ← maxDiff new old
    if m < acc then ok g else heatLoop lin bc acc maxIter fuel new g

/-- `HeatSolver::solve`, `/repo/Heat/HeatSolver.cpp:10-55`: the reactor, and the temperatures before the calculation, which the solver
remembers. -/
def heatSolve (t : Tools) (o : Settings) (p : Plant) : Outcome (Plant × Vec ℝ) := do
  let old ← Mesh.temperatures p.grid "C"
  let g ← heatLoop t.lin o.bc o.acc o.maxIter o.maxIter.toNat (Vec.const p.grid.cells 1) p.grid
  ok ({ p with grid := g }, old)

/-- `HeatSolver::relaxResults`, `/repo/Heat/HeatSolver.cpp:57-68`. -/
def heatRelax (w : ℝ) (p : Plant) (old : Vec ℝ) : Outcome Plant := do
  let new ← Mesh.temperatures p.grid "C"
  let x ← Heat.relax w new old
  let g ← Mesh.setTemperatures x p.grid
  ok { p with grid := g }

/-- The heat solver, `/repo/Heat/HeatSolver.h:6-29`. -/
def heatPart (t : Tools) (o : Settings) : Part Plant (Vec ℝ) where
  solve := heatSolve t o
  main p := do
    let x ← Mesh.temperatures p.grid "C"
    ok (.vec ⟨x.n, fun i => .fin (x.v i)⟩)
  relax := heatRelax

/-- No results yet. -/
def noModes : Solve.Stored := ⟨[], 0, fun _ _ _ => .fin 0⟩

/-- What `setNewHeatSource` writes into mesh and reactor, `/repo/Diffusion/BaseDiffusionCode.cpp:39-41,47` =
`/repo/CPM/BaseSpectrumCode.cpp:180-182,188`. -/
def writeForward (s : Solve.State) (energies : Nat) (p : Plant) : Outcome Plant := do
  let g ← Mesh.setFluxes ⟨energies, p.grid.cells, s.forward.modes, s.forward.flux⟩ p.grid
  let g ← Mesh.setHeatSources s.heat { g with nForward := s.forward.modes }
  ok { p with grid := g, kForward := s.forward.k }

/-- What `setAdjointModes` writes into mesh and reactor, `/repo/Diffusion/BaseDiffusionCode.cpp:61-63`. -/
def writeAdjoint (s : Solve.State) (energies : Nat) (p : Plant) : Outcome Plant := do
  let g ← Mesh.setAdjoints ⟨energies, p.grid.cells, s.adjoint.modes, s.adjoint.flux⟩ p.grid
  ok { p with grid := { g with nAdjoint := s.adjoint.modes }, kAdjoint := s.adjoint.k }

/-- The options of `Verif.Solve`. -/
def Settings.options (o : Settings) : Solve.Options := ⟨o.direction, o.modes, o.maxIter, o.acc⟩

/-- `DiffusionSolver::solve` on the reactor, `/repo/Diffusion/DiffusionSolver.cpp:11-43`; it remembers the heat sources before the calculation
(line 13). -/
def diffusionSolve (t : Tools) (o : Settings) (p : Plant) : Outcome (Plant × Vec ℝ) := do
  let old ← Mesh.heatSources p.grid
  let d ← Mesh.diffusionData p.grid o.energies o.albedo
  let vol ← Mesh.volumes p.grid "m"
  let s ← Solve.diffusion t.num o.options d p.power vol ⟨noModes, noModes, old, old⟩
  let p ← match o.direction with
    | .adjoint => writeAdjoint s o.energies p
    | _ => writeForward s o.energies p
  ok (p, old)

/-- `SpectrumSolver::solve` on the reactor, `/repo/CPM/SpectrumSolver.cpp:8-34`. -/
def transportSolve (t : Tools) (o : Settings) (p : Plant) : Outcome (Plant × Vec ℝ) := do
  let old ← Mesh.heatSources p.grid
  let d ← Mesh.transportData p.grid o.energies o.albedo
  let vol ← Mesh.volumes p.grid "m"
  let s ← Solve.transport t.num o.options d t.e3 t.ki3 p.grid.geom p.power vol ⟨noModes, noModes, old, old⟩
  let p ← writeForward s o.energies p
  ok (p, old)

/-- `relaxResults`, `/repo/Diffusion/DiffusionSolver.cpp:45-56` = `/repo/CPM/SpectrumSolver.cpp:36-47`. -/
def powerRelax (w : ℝ) (p : Plant) (old : Vec ℝ) : Outcome Plant := do
  let new ← Mesh.heatSources p.grid
  let x ← Heat.relax w new old
  let g ← Mesh.setHeatSources x p.grid
  ok { p with grid := g }

/-- `Reactor::getKFactor`, `/repo/Backbone/Datamodel/Reactor.h:26`, the main parameter of both criticality solvers
(`/repo/Diffusion/DiffusionSolver.h:17-18`, `/repo/CPM/SpectrumSolver.h:16-17`). -/
def kMain (p : Plant) : Outcome Param := do
  let k ← Eigen.kFactor p.kForward
  ok (.num k)

/-- The diffusion solver, `/repo/Diffusion/DiffusionSolver.h:6-30`. -/
def diffusionPart (t : Tools) (o : Settings) : Part Plant (Vec ℝ) := ⟨diffusionSolve t o, kMain, powerRelax⟩

/-- The transport solver, `/repo/CPM/SpectrumSolver.h:6-31`. -/
def transportPart (t : Tools) (o : Settings) : Part Plant (Vec ℝ) := ⟨transportSolve t o, kMain, powerRelax⟩

/-- The kinetics solver, `/repo/CORE/KineticsSolver.h:6-29` and `KineticsSolver.cpp:5-21`: the powers are printed, the reactor stays as it is. -/
def kineticsPart (t : Tools) : Part Plant (Vec ℝ) where
  solve p := do
    let s ← Kinetics.init p.kinetics.lam p.kinetics.beta p.kinetics.alpha p.kinetics.power
    let _ ← Kinetics.history t.roots s p.kinetics.rhos p.kinetics.times
    ok (p, Vec.const 0 0)
  main _ := ok (.num (.fin (-1)))
  relax _ p _ := ok p

/-- `ADSSolver` and `CoupledSolver`, `/repo/Backbone/Datamodel/ADSSolver.h:6-29`, `CoupledSolver.h:6-29`: nothing is done. -/
def idlePart : Part Plant (Vec ℝ) := ⟨fun p => ok (p, Vec.const 0 0), fun _ => ok (.num (.fin 0)), fun _ p _ => ok p⟩

/-- `AbstractSolver::getSolver`, `/repo/Backbone/Datamodel/AbstractSolver.cpp:12-43`; for an undefined kind it is a null pointer. -/
def solver (t : Tools) (o : Settings) : Outcome (Part Plant (Vec ℝ)) :=
  match o.kind with
  | .coupled => ok idlePart
  | .transport => ok (transportPart t o)
  | .kinetics => ok (kineticsPart t)
  | .heat => ok (heatPart t o)
  | .diffusion => ok (diffusionPart t o)
  | .ads => ok idlePart
  | .undefined => ub

/-! ### coupled calculation -/

/-- All entries of a matrix. -/
def entries (x : Mat Fl) : List Fl := (List.range x.r).flatMap (fun i => (List.range x.c).map (x.m i))

/-- `BaseCalculation::getDifference`, `/repo/Backbone/Datamodel/BaseCalculation.cpp:38-58`. The quotients computed in lines 49 and 55 are not
used. Vectors of different sizes, and the largest entry of an empty vector, are undefined behaviour (assertions in debug builds);
parameters of different kinds throw `std::bad_variant_access`. -/
def difference (big : List Fl → Fl) : Param → Param → Outcome Fl
  | .num new, .num old => ok ((new.sub old).div new).abs
  | .vec new, .vec old =>
    if new.n = old.n ∧ 0 < new.n then
      ok (big ((⟨new.n, fun i => ((new.v i).sub (old.v i)).abs⟩ : Vec Fl).toList)) else ub
  | .mat new, .mat old =>
    if new.r = old.r ∧ new.c = old.c ∧ 0 < new.r ∧ 0 < new.c then
      ok (big (entries ⟨new.r, new.c, fun i j => ((new.m i j).sub (old.m i j)).abs⟩)) else ub
  | _, _ => throws .badVariant

variable {R M N : Type}

/-- The relaxation of all passes but the first, `/repo/Backbone/Datamodel/DoubleCalculation.cpp:34,39`. -/
def relaxPart (a : Part R M) (w : ℝ) (iter : Nat) (r : R) (m : M) : Outcome R := if iter ≠ 0 then a.relax w r m else ok r

/-- One solver in one pass, `/repo/Backbone/Datamodel/DoubleCalculation.cpp:31-34` = `36-39`: the main parameter is taken before the
relaxation. -/
def partPass (a : Part R M) (w : ℝ) (iter : Nat) (r : R) : Outcome (R × Param) := do
  let s ← a.solve r
  let x ← a.main s.1
  let r ← relaxPart a w iter s.1 s.2
  ok (r, x)

/-- The two differences of a pass, `/repo/Backbone/Datamodel/DoubleCalculation.cpp:20-21,41-45`: one and one in the first pass. -/
def differences (big : List Fl → Fl) (iter : Nat) (x y x' y' : Param) : Outcome (Fl × Fl) :=
  if iter ≠ 0 then do
    let a ← difference big x x'
    let b ← difference big y y'
    ok (a, b)
  else ok (.fin 1, .fin 1)

/-- The loop of `DoubleCalculation::solve`, `/repo/Backbone/Datamodel/DoubleCalculation.cpp:26-59`, with `fuel` passes left, pass `iter` next and
the main parameters `x'`, `y'` of the pass before: the reactor and the number of the last pass. -/
def coupledLoop (big : List Fl → Fl) (a : Part R M) (b : Part R N) (w acc : ℝ) (maxIter : Int) :
    Nat → Nat → Param → Param → R → Outcome (R × Nat)
  | 0, _, _, _, _ => notConverged maxIter
  | fuel + 1, iter, x', y', r => do
    let p ← partPass a w iter r
    let q ← partPass b w iter p.1
    let e ← differences big iter p.2 q.2 x' y'
    if e.1.le (.fin acc) ∧ e.2.le (.fin acc) then ok (q.1, iter)
    else coupledLoop big a b w acc maxIter fuel (iter + 1) p.2 q.2 q.1

/-- `DoubleCalculation::solve` for two solvers, `/repo/Backbone/Datamodel/DoubleCalculation.cpp:7-59`; a default variant is the number zero. -/
def coupled (big : List Fl → Fl) (a : Part R M) (b : Part R N) (w acc : ℝ) (maxIter : Int) (r : R) : Outcome (R × Nat) :=
  coupledLoop big a b w acc maxIter maxIter.toNat 0 (.num (.fin 0)) (.num (.fin 0)) r

/-- `DoubleCalculation::getCoupledSolver`, `/repo/Backbone/Datamodel/DoubleCalculation.cpp:69-85`. -/
def coupledSettings (l : List Settings) : Outcome Settings :=
  match l.find? (fun s => s.kind = .coupled) with
  | some s => ok s
  | none => exit

/-- `DoubleCalculation::solve`, `/repo/Backbone/Datamodel/DoubleCalculation.cpp:7-67`; a null pointer is used in the first pass only. -/
def double (t : Tools) (l : List Settings) (o1 o2 : Settings) (p : Plant) : Outcome Plant := do
  let c ← coupledSettings l
  if 0 < c.maxIter then do
    let a ← solver t o1
    let b ← solver t o2
    let r ← coupled t.big a b c.relax c.acc c.maxIter p
    ok r.1
  else exit

/-! ### source-driven calculation -/

/-- Conversion of a `double` to `unsigned`, `/repo/Backbone/Datamodel/ADSCalculation.cpp:34`: the fraction is cut off, values that do not fit are
undefined behaviour. -/
def toUnsigned (x : ℝ) : Outcome Nat := if -1 < x ∧ x < 4294967296 then ok ⌊x⌋₊ else ub

/-- `n - 1` for an `unsigned`, `/repo/Backbone/Datamodel/ADSCalculation.cpp:35-36`. -/
def decrement (n : Nat) : Nat := if n = 0 then 4294967295 else n - 1

/-- `adjoint_q`, `/repo/Backbone/Datamodel/ADSCalculation.cpp:33-45`: `chip` out of range is undefined behaviour. -/
def adjointSource (strength : Nat) (pos energy : Nat) (vol : Vec ℝ) (adj : Mesh.Box Fl) : Outcome (Vec Fl) :=
  if energy < adj.a ∧ pos < adj.b then do
    let v ← vol.get pos
    ok ⟨adj.c, fun n => (Fl.fin (strength * v)).mul (adj.v energy pos n)⟩
  else ub

/-- `adjoint_P_forward`, `/repo/Backbone/Datamodel/ADSCalculation.cpp:52-60`; the vector has one entry per adjoint mode. -/
def adjointProduction (P : Mat ℝ) (vol : Vec ℝ) (adj fwd : Mesh.Box Fl) : Outcome (Vec Fl) :=
  loop (fun n => loop (fun m => loop (fun e (x : Vec Fl) => do
    let a ← adj.get e m n
    let p ← P.get e m
    let f ← fwd.get e m n
    let v ← vol.get m
    let y ← x.get n
    x.set n (y.add (((a.mul (.fin p)).mul f).mul (.fin v)))) fwd.a) fwd.b) fwd.c (Vec.const adj.c (.fin 0))

/-- `adjoint_q.cwiseQuotient(adjoint_P_forward)`, `/repo/Backbone/Datamodel/ADSCalculation.cpp:66`. -/
def quotients (x y : Vec Fl) : Outcome (Vec Fl) := if x.n = y.n then ok ⟨x.n, fun n => (x.v n).div (y.v n)⟩ else ub

/-- Entry `n` of a list, `v[n]`; out of bounds is undefined behaviour. -/
def at? (l : List Fl) (n : Nat) : Outcome Fl :=
  match l[n]? with
  | some x => ok x
  | none => ub

/-- The sum over the modes, `/repo/Backbone/Datamodel/ADSCalculation.cpp:72-80`. -/
def totalFluxes (k : List Fl) (ratio : Vec Fl) (fwd : Mesh.Box Fl) : Outcome (Mat Fl) :=
  loop (fun e => loop (fun m => loop (fun n (x : Mat Fl) => do
    let kn ← at? k n
    let r ← ratio.get n
    let f ← fwd.get e m n
    let y ← x.get e m
    x.set e m (y.add (((kn.div ((Fl.fin 1).sub kn)).mul r).mul f))) fwd.c) fwd.b) fwd.a ⟨fwd.a, fwd.b, fun _ _ => .fin 0⟩

/-- `ADSCalculation::solve` after the two criticality calculations, `/repo/Backbone/Datamodel/ADSCalculation.cpp:32-83`. -/
def driven (p : Plant) : Outcome Plant := do
  let s ← toUnsigned p.source.1
  let vol ← Mesh.volumes p.grid "cm"
  let adj ← Mesh.adjoints p.grid
  let q ← adjointSource s (decrement p.source.2.1) (decrement p.source.2.2) vol adj
  let fwd ← Mesh.fluxes p.grid
  let P ← Mesh.production p.grid
  let x ← adjointProduction P vol adj fwd
  let ratio ← quotients q x
  let t ← totalFluxes p.kForward ratio fwd
  let g ← Mesh.setTotals t p.grid
  ok { p with grid := g }

/-- `ADSCalculation::solve`, `/repo/Backbone/Datamodel/ADSCalculation.cpp:10-87`. -/
def ads (t : Tools) (o : Settings) (p : Plant) : Outcome Plant := do
  let f ← diffusionSolve t { o with kind := .diffusion, direction := .forward, modes := .all } p
  let a ← diffusionSolve t { o with kind := .diffusion, direction := .adjoint, modes := .all } f.1
  driven a.1

/-! ### the choice of the calculation -/

/-- `SingleCalculation::solve`, `/repo/Backbone/Datamodel/SingleCalculation.cpp:4-12`. -/
def single (t : Tools) (o : Settings) (p : Plant) : Outcome Plant := do
  let a ← solver t o
  let r ← a.solve p
  ok r.1

/-- `Problem::solve`, `/repo/Backbone/Datamodel/Problem.cpp:6-10`, with `BaseCalculation::setCalculation`
(`/repo/Backbone/Datamodel/BaseCalculation.cpp:10-36`). -/
def problem (t : Tools) (p : Plant) : List Settings → Outcome Plant
  | [o] => if o.kind = .ads then ads t o p else single t o p
  | [o1, o2, o3] => double t [o1, o2, o3] o1 o2 p
  | _ => exit

end

end Verif.Calc
