import Verif.Heat.Data
import Verif.Core.Fl

/-!
# Model of `Heat/BaseHeatCode.cpp`, `Heat/HeatSolver.cpp` and `Backbone/Datamodel/SolverData.cpp`

`double` is replaced by `ℝ` in the assembly of the system, and by `Fl` (with not-a-number) in the iteration. Printing is not
modelled.
-/

namespace Verif.Heat

open Verif Outcome

noncomputable section

open scoped Classical

/-- `getHeatBoundaryConditions`, `Backbone/Datamodel/SolverData.cpp:16-47`: left and right triples. -/
def heatBoundaries (bc : Vec ℝ) : Outcome (Vec ℝ × Vec ℝ) :=
  if bc.n = 3 then do
    let a ← bc.get 0
    let b ← bc.get 1
    let c ← bc.get 2
    ok (Vec.ofList [0, 1, 0], Vec.ofList [a, b, c])
  else if bc.n = 6 then do
    let a ← bc.get 0
    let b ← bc.get 1
    let c ← bc.get 2
    let a' ← bc.get 3
    let b' ← bc.get 4
    let c' ← bc.get 5
    ok (Vec.ofList [a, b, c], Vec.ofList [a', b', c'])
  else exit

/-- `getInterfaceCellSizes`, `Heat/BaseHeatCode.cpp:7-18`. -/
def interSizes (d : Data) : Outcome (Vec ℝ) :=
  loopFrom 1 (fun i (x : Vec ℝ) => do
    let h1 ← d.size.get i
    let h0 ← d.size.get (i - 1)
    x.set i (1 / 2 * (h1 + h0))) (d.cells - 2) d.size

/-- `getInterfaceThermalConductivities`, `Heat/BaseHeatCode.cpp:21-42`: conductivity times surface of the left face of each cell. -/
def interLambda (d : Data) : Outcome (Vec ℝ) := do
  let k0 ← d.k.get 0
  let s0 ← d.surf.get 0
  let L ← d.k.set 0 (k0 * s0)
  let L ← loopFrom 1 (fun i (L : Vec ℝ) => do
    let hm ← d.size.get (i - 1)
    let h ← d.size.get i
    let f ← fdiv hm (h + hm)
    let km ← d.k.get (i - 1)
    let a ← fdiv (1 - f) km
    let ki ← d.k.get i
    let b ← fdiv f ki
    let x ← fdiv 1 (a + b)
    let L ← L.set i x
    let y ← L.get i
    let s ← d.surf.get i
    L.set i (y * s)) (d.cells - 2) L
  let l ← predIdx d.cells
  let y ← L.get l
  let s ← d.surf.get l
  L.set l (y * s)

/-- One pass of the loop of `setupSystem`, `Heat/BaseHeatCode.cpp:61-78`. -/
def setupRow (d : Data) (lam size : Vec ℝ) (i : Nat) (T : Mat ℝ) : Outcome (Mat ℝ) :=
  if i = 0 then do
    let l ← lam.get (i + 1)
    let h ← size.get (i + 1)
    let g ← fdiv l h
    let T ← T.set i i g
    T.set i (i + 1) (-g)
  else if i = d.cells - 1 then do
    let l ← lam.get i
    let h ← size.get (i - 1)
    let g ← fdiv l h
    let T ← T.set i i g
    T.set i (i - 1) (-g)
  else do
    let l ← lam.get i
    let h ← size.get i
    let g ← fdiv l h
    let l1 ← lam.get (i + 1)
    let h1 ← size.get (i + 1)
    let g1 ← fdiv l1 h1
    let T ← T.set i i (g + g1)
    let T ← T.set i (i - 1) (-g)
    T.set i (i + 1) (-g1)

/-- `setupSystem`, `Heat/BaseHeatCode.cpp:51-85`. -/
def setup (d : Data) : Outcome (Mat ℝ) := do
  let lam ← interLambda d
  let size ← interSizes d
  loop (fun i T => setupRow d lam size i T) d.cells (Mat.zero d.cells d.cells)

/-- `applyBoundaryConditions`, `Heat/BaseHeatCode.cpp:87-144`: the final matrix and right-hand side. -/
def applyBC (d : Data) (T : Mat ℝ) : Outcome (Mat ℝ × Vec ℝ) := do
  let bcs ← heatBoundaries d.bc
  let lam ← interLambda d
  let src ← loop (fun i (x : Vec ℝ) => do
    let y ← x.get i
    let v ← d.vol.get i
    x.set i (y * v)) d.cells d.q
  let (T, src) ←
    (if d.geom = .slab then do
      let r1 ← d.radii.get 1
      let r0 ← d.radii.get 0
      let A ← bcs.1.get 0
      let B ← bcs.1.get 1
      let C ← bcs.1.get 2
      let l0 ← lam.get 0
      let w ← fdiv (r1 - r0) (2 * l0)
      let den := w * A + B
      let alpha ← fdiv A den
      let beta ← fdiv (-C) den
      let t ← T.get 0 0
      let T ← T.set 0 0 (t + alpha)
      let s ← src.get 0
      let src ← src.set 0 (s - beta)
      ok (T, src)
    else ok (T, src) : Outcome (Mat ℝ × Vec ℝ))
  let l ← predIdx d.cells
  let rr ← d.radii.get d.cells
  let rl ← d.radii.get l
  let A ← bcs.2.get 0
  let B ← bcs.2.get 1
  let C ← bcs.2.get 2
  let sc ← d.surf.get d.cells
  let ll ← lam.get l
  let sl ← d.surf.get l
  let z ← fdiv (2 * sc * ll) sl
  let w ← fdiv (rr - rl) z
  let w' ← fdiv B sc
  let den := w * A + w'
  let alpha ← fdiv A den
  let beta ← fdiv (-C) den
  let t ← T.get l l
  let T ← T.set l l (t + alpha)
  let s ← src.get l
  let src ← src.set l (s - beta)
  ok (T, src)

/-- The system handed to the linear solver in one pass of `HeatSolver::solve`, `Heat/HeatSolver.cpp:23-24`. -/
def system (d : Data) : Outcome (Mat ℝ × Vec ℝ) := do
  let T ← setup d
  applyBC d T

/-- Largest difference of two fields, `Heat/HeatSolver.cpp:34-39`. -/
def maxDiff (new old : Vec Fl) : Outcome Fl :=
  loop (fun i m => do
    let a ← new.get i
    let b ← old.get i
    let diff := (a.sub b).abs
    ok (if m.lt diff then diff else m)) new.n (.fin 0)

/-- The iteration of `HeatSolver::solve`, `Heat/HeatSolver.cpp:21-54`, with `fuel` passes left, pass number `i` next and `old` the
previous temperatures. `field i old` is the temperature field the linear solver produces in pass `i`; it is arbitrary. The
result is the accepted field together with the number of the last pass. -/
def heatLoop (field : Nat → Vec Fl → Vec Fl) (acc : ℝ) : Nat → Nat → Vec Fl → Outcome (Vec Fl × Nat)
  | 0, _, _ => exit
  | fuel + 1, i, old => do
    let new := field i old
    let m ← maxDiff new old
    if m.lt (.fin acc) then ok (new, i) else heatLoop field acc fuel (i + 1) new

/-- `HeatSolver::solve`, `Heat/HeatSolver.cpp:10-55`. A non-positive iteration limit is `0` here: the loop does not run and the program
terminates. The first comparison is made with a field of ones. -/
def heatSolve (field : Nat → Vec Fl → Vec Fl) (cells : Nat) (acc : ℝ) (maxIter : Nat) : Outcome (Vec Fl × Nat) :=
  heatLoop field acc maxIter 0 (Vec.const cells (.fin 1))

/-- `HeatSolver::relaxResults`, `Heat/HeatSolver.cpp:57-68`; Eigen's sum of vectors of different size is undefined behaviour. -/
def relax (param : ℝ) (new old : Vec ℝ) : Outcome (Vec ℝ) :=
  if new.n = old.n then ok ⟨new.n, fun i => new.v i * param + old.v i * (1 - param)⟩ else ub

end

end Verif.Heat
