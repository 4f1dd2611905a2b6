import Verif.Solve.Data
import Verif.Eigen.Model
import Verif.CPM.Model

/-!
# Model of `DiffusionSolver::solve` and `SpectrumSolver::solve`

`/repo/Diffusion/DiffusionSolver.cpp:11-56`, `/repo/Diffusion/DiffusionCodeFactory.cpp:5-19`,
`/repo/Diffusion/BaseDiffusionCode.cpp:28-64`, `/repo/CPM/SpectrumSolver.cpp:8-47`. The matrices are assembled in exact reals and handed
to the eigenvalue solvers as doubles without overflow. Printing is not modelled.
-/

namespace Verif.Solve

open Verif Outcome

noncomputable section

open scoped Classical

/-- The matrices as doubles. -/
def lift (A : Mat ℝ) : Mat Fl := ⟨A.r, A.c, fun i j => .fin (A.m i j)⟩

/-- The choice of the eigenvalue solver, `/repo/Diffusion/DiffusionSolver.cpp:21-31` = `/repo/CPM/SpectrumSolver.cpp:21-31`; with undefined
option the result object stays default-constructed (`/repo/Utilities/eigenmodesResults.h:17-19`) and has no modes. -/
def eigenmodes (lib : Numerics) (o : Options) (M F : Mat Fl) : Outcome (List (Fl × Vec Fl)) :=
  match o.modes with
  | .fundamental => do
    let r ← Eigen.fundamental (lib.qr M) M F o.maxIter o.acc
    ok r.modes
  | .all => do
    let r ← Eigen.generalizedEigenSolver lib.sort M.r (lib.evals M F) (lib.evecs M F)
    ok r.modes
  | .undefined => ok []

/-- The loops that copy the modes into the mesh, `/repo/Diffusion/BaseDiffusionCode.cpp:30-41` = `52-63` =
`/repo/CPM/BaseSpectrumCode.cpp`: entry `i + j * cells` of every mode is read for all cells `i` and groups `j`, so a mode that is too
short is read out of bounds. -/
def store (cells energies : Nat) (modes : List (Fl × Vec Fl)) : Outcome Stored :=
  if ∀ m ∈ modes, cells * energies ≤ m.2.n then
    ok ⟨modes.map Prod.fst, modes.length, fun j i n =>
      match modes[n]? with
      | some m => m.2.v (i + j * cells)
      | none => .fin 0⟩
  else ub

/-- The value of a finite double. -/
def value : Fl → ℝ
  | .fin x => x
  | _ => 0

/-- The flux of a mode as numbers; the heat sources become not-a-number if an entry is not finite. -/
def finite (x : Vec Fl) : Outcome (Vec ℝ) :=
  if ∀ i, i < x.n → x.v i ≠ .nan ∧ (∀ b, x.v i ≠ .inf b) then ok ⟨x.n, fun i => value (x.v i)⟩ else nonfinite

/-- The modes as read by `getFundamentalNeutronFluxes` (`/repo/Backbone/Datamodel/Mesh.cpp:372-387`): the first only. -/
def heatModes : List (Fl × Vec Fl) → Outcome (List (Vec ℝ))
  | [] => ok []
  | m :: _ => do
    let x ← finite m.2
    ok [x]

/-- `setNewHeatSource`, `/repo/Diffusion/BaseDiffusionCode.cpp:28-48`: eigenvalues, fluxes and heat sources of the forward problem. -/
def setForward (cells energies : Nat) (heat : List (Vec ℝ) → Outcome (Vec ℝ)) (modes : List (Fl × Vec Fl)) (s : State) :
    Outcome State := do
  let st ← store cells energies modes
  let x ← heatModes modes
  let q ← heat x
  ok { s with forward := st, heat := q }

/-- `setAdjointModes`, `/repo/Diffusion/BaseDiffusionCode.cpp:50-64`. -/
def setAdjoint (cells energies : Nat) (modes : List (Fl × Vec Fl)) (s : State) : Outcome State := do
  let st ← store cells energies modes
  ok { s with adjoint := st }

/-- `DiffusionSolver::solve`, `/repo/Diffusion/DiffusionSolver.cpp:11-43`. For an undefined direction
`DiffusionCodeFactory::setDiffusionCode` (`/repo/Diffusion/DiffusionCodeFactory.cpp:5-19`) returns a null pointer, whose use in line 16
is undefined. `volM` are the volumes in m³. -/
def diffusion (lib : Numerics) (o : Options) (d : Diffusion.Data) (power : ℝ) (volM : Vec ℝ) (s : State) : Outcome State :=
  match o.direction with
  | .undefined => ub
  | .forward => do
    let A ← Diffusion.assemble d .forward
    let ms ← eigenmodes lib o (lift A.1) (lift A.2)
    setForward d.cells d.energies (Diffusion.newHeatSource d power volM) ms { s with oldHeat := s.heat }
  | .adjoint => do
    let A ← Diffusion.assemble d .adjoint
    let ms ← eigenmodes lib o (lift A.1) (lift A.2)
    setAdjoint d.cells d.energies ms { s with oldHeat := s.heat }

/-- `SpectrumSolver::solve`, `/repo/CPM/SpectrumSolver.cpp:8-34`; the direction is not looked at. -/
def transport (lib : Numerics) (o : Options) (d : CPM.Data) (e3 ki3 : ℝ → ℝ) (g : Diffusion.Geom) (power : ℝ) (volM : Vec ℝ)
    (s : State) : Outcome State := do
  let P ← CPM.vacuumCPs d e3 ki3 g
  let A ← CPM.assemble d P
  let ms ← eigenmodes lib o (lift A.1) (lift A.2)
  setForward d.cells d.energies (CPM.newHeatSource d power volM) ms { s with oldHeat := s.heat }

/-- `relaxResults`, `/repo/Diffusion/DiffusionSolver.cpp:45-56` = `/repo/CPM/SpectrumSolver.cpp:36-47`; vectors of different
length are undefined behaviour. -/
def relax (par : ℝ) (s : State) : Outcome State :=
  if s.heat.n = s.oldHeat.n then ok { s with heat := ⟨s.heat.n, fun i => s.heat.v i * par + s.oldHeat.v i * (1 - par)⟩ } else ub

end

end Verif.Solve
