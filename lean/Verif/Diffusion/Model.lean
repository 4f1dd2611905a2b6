import Verif.Numeric.Model
import Verif.Diffusion.Data

/-!
# Model of `Diffusion/BaseDiffusionCode.cpp`, `ForwardDiffusionCode.cpp` and `AdjointDiffusionCode.cpp`

`double` is replaced by `ℝ`. Matrices are assembled entry by entry in the order of the code, with checked access.
Printing is not modelled.
-/

namespace Verif.Diffusion

open Verif Outcome Numeric

noncomputable section

open scoped Classical

/-- Access to the scattering tensor (`Eigen::Tensor`, `Mesh.cpp:324-343`), of dimensions `energies × energies × cells`. -/
def Data.scattGet (d : Data) (g h i : Nat) : Outcome ℝ :=
  if g < d.energies ∧ h < d.energies ∧ i < d.cells then ok (d.scatt g h i) else ub

/-- `getInterfaceDiffcoefficients`, `Diffusion/BaseDiffusionCode.cpp:66-84`. -/
def interfaceD (d : Data) : Outcome (Mat ℝ) :=
  loop (fun e DI =>
    loop (fun m DI => do
      let D0 ← d.D.get e m
      let D1 ← d.D.get e (m + 1)
      let s ← d.surf.get (m + 1)
      let h0 ← d.size.get m
      let h1 ← d.size.get (m + 1)
      let x ← fdiv (D0 * D1 * s) (h1 * D0 + h0 * D1)
      DI.set e m x) (d.cells - 1) DI) d.energies (Mat.zero d.energies d.cells)

/-- `calcDiffOperatorMatrix`, `Diffusion/BaseDiffusionCode.cpp:86-107`: the rows of the inner cells. -/
def diffOperator (d : Data) : Outcome (Mat ℝ) := do
  let DI ← interfaceD d
  loop (fun e M =>
    loopFrom 1 (fun m M => do
      let dl ← DI.get e (m - 1)
      let dr ← DI.get e m
      let t ← d.tot.get e m
      let v ← d.vol.get m
      let M ← M.set (m + e * d.cells) (m - 1 + e * d.cells) (-2 * dl)
      let M ← M.set (m + e * d.cells) (m + 1 + e * d.cells) (-2 * dr)
      M.set (m + e * d.cells) (m + e * d.cells) (2 * (dr + dl + 1 / 2 * t * v))) (d.cells - 2) M)
    d.energies (Mat.zero (d.cells * d.energies) (d.cells * d.energies))

/-- The two albedos, `Diffusion/BaseDiffusionCode.cpp:117-128`. -/
def albedos (d : Data) : Outcome (ℝ × ℝ) :=
  if d.geom = .slab then do
    let l ← d.albedo.get 0
    let r ← d.albedo.get 1
    ok (l, r)
  else do
    let r ← d.albedo.get 0
    ok (1, r)

/-- One pass of the loop for albedo boundary conditions, `Diffusion/BaseDiffusionCode.cpp:138-147` (group `e`, last cell `l`). -/
def albedoRow (d : Data) (DI : Mat ℝ) (aL aR : ℝ) (e : Nat) (M : Mat ℝ) : Outcome (Mat ℝ) := do
  let c := d.cells
  let l := c - 1
  let D0 ← d.D.get e 0
  let s0 ← d.surf.get 0
  let h0 ← d.size.get 0
  let B ← fdiv (D0 * (1 - aL) * s0) (4 * D0 * (1 + aL) + h0 * (1 - aL))
  let di0 ← DI.get e 0
  let M ← M.set (e * c) (1 + e * c) (-2 * di0)
  let t0 ← d.tot.get e 0
  let v0 ← d.vol.get 0
  let M ← M.set (e * c) (e * c) (2 * (di0 + B + 1 / 2 * t0 * v0))
  let Dl ← d.D.get e l
  let sl ← d.surf.get (l + 1)
  let hl ← d.size.get l
  let B ← fdiv (Dl * (1 - aR) * sl) (4 * Dl * (1 + aR) + hl * (1 - aR))
  let l1 ← predIdx l
  let dil ← DI.get e l1
  let M ← M.set (l + e * c) (l1 + e * c) (-2 * dil)
  let tl ← d.tot.get e l
  let vl ← d.vol.get l
  M.set (l + e * c) (l + e * c) (2 * (B + dil + 1 / 2 * tl * vl))

/-- One pass of the loop for periodic boundary conditions, `Diffusion/BaseDiffusionCode.cpp:152-163`. -/
def periodicRow (d : Data) (DI : Mat ℝ) (e : Nat) (M : Mat ℝ) : Outcome (Mat ℝ) := do
  let c := d.cells
  let l := c - 1
  let di0 ← DI.get e 0
  let M ← M.set (e * c) (1 + e * c) (-2 * di0)
  let l1 ← predIdx l
  let dil ← DI.get e l1
  let t0 ← d.tot.get e 0
  let v0 ← d.vol.get 0
  let M ← M.set (e * c) (e * c) (2 * (di0 + dil + 1 / 2 * t0 * v0))
  let M ← M.set (l + e * c) (l1 + e * c) (-2 * dil)
  let tl ← d.tot.get e l
  let vl ← d.vol.get l
  let M ← M.set (l + e * c) (l + e * c) (2 * (di0 + dil + 1 / 2 * tl * vl))
  let x ← M.get (l1 + e * c) (l + e * c)
  let M ← M.set (e * c) (l + e * c) x
  let y ← M.get (e * c) (1 + e * c)
  M.set (l + e * c) (e * c) y

/-- `applyBoundaryConditions`, `Diffusion/BaseDiffusionCode.cpp:109-170`. -/
def boundary (d : Data) (M : Mat ℝ) : Outcome (Mat ℝ) := do
  let DI ← interfaceD d
  let a ← albedos d
  if isEqual a.1 2 ∧ isEqual a.2 2 then
    loop (fun e M => periodicRow d DI e M) d.energies M
  else
    loop (fun e M => albedoRow d DI a.1 a.2 e M) d.energies M

/-- Eigen's `A - B` for matrices; different sizes are undefined behaviour. -/
def msub (A B : Mat ℝ) : Outcome (Mat ℝ) :=
  if A.r = B.r ∧ A.c = B.c then ok ⟨A.r, A.c, fun i j => A.m i j - B.m i j⟩ else ub

/-- `ForwardDiffusionCode::calcMMatrix`, `Diffusion/ForwardDiffusionCode.cpp:7-33`. -/
def forwardM (d : Data) (diff : Mat ℝ) : Outcome (Mat ℝ) := do
  let S ← loop (fun i S =>
    loop (fun j S =>
      loop (fun k (S : Mat ℝ) => do
        let s ← d.scattGet (j % d.energies) ((i + j) % d.energies) k
        let v ← d.vol.get k
        S.set (k + (i + j) % d.energies * d.cells) (k + j * d.cells) (s * v)) d.cells S) d.energies S)
    d.energies (Mat.zero (d.cells * d.energies) (d.cells * d.energies))
  msub diff S

/-- `AdjointDiffusionCode::calcMMatrix`, `Diffusion/AdjointDiffusionCode.cpp:7-33`. -/
def adjointM (d : Data) (diff : Mat ℝ) : Outcome (Mat ℝ) := do
  let S ← loop (fun i S =>
    loop (fun j S =>
      loop (fun k (S : Mat ℝ) => do
        let s ← d.scattGet ((i + j) % d.energies) (j % d.energies) k
        let v ← d.vol.get k
        S.set (k + (i + j) % d.energies * d.cells) (k + j * d.cells) (s * v)) d.cells S) d.energies S)
    d.energies (Mat.zero (d.cells * d.energies) (d.cells * d.energies))
  msub diff S

/-- First loop of both `calcFMatrix`, `Diffusion/ForwardDiffusionCode.cpp:46-53` = `AdjointDiffusionCode.cpp:46-53`: diagonal of the
fission matrix and the vector of fission spectra. -/
def fissionDiag (d : Data) : Outcome (Mat ℝ × Vec ℝ) :=
  loop (fun j FC =>
    loop (fun i (FC : Mat ℝ × Vec ℝ) => do
      let f ← d.fiss.get j i
      let n ← d.nu.get j i
      let v ← d.vol.get i
      let F ← FC.1.set (i + j * d.cells) (i + j * d.cells) (f * n * v)
      let x ← d.chi.get j i
      let C ← FC.2.set (i + j * d.cells) x
      ok (F, C)) d.cells FC)
    d.energies (Mat.zero (d.cells * d.energies) (d.cells * d.energies), Vec.const (d.cells * d.energies) 0)

/-- `ForwardDiffusionCode::calcFMatrix`, `Diffusion/ForwardDiffusionCode.cpp:35-81`. The row index `i + (n - k) * cells` of the second
loop is written `(i - k * cells) + n * cells`, which is the same number since `i` runs from `k * cells`. -/
def forwardF (d : Data) : Outcome (Mat ℝ) := do
  let FC ← fissionDiag d
  let F ← loop (fun n F =>
    loop (fun k F =>
      loopFrom (k * d.cells) (fun i F =>
        loopFrom (n * d.cells) (fun j (F : Mat ℝ) => do
          let x ← F.get (i - k * d.cells + n * d.cells) j
          F.set i j x) d.cells F) d.cells F) d.energies F) d.energies FC.1
  loop (fun i F =>
    loop (fun j (F : Mat ℝ) => do
      let x ← F.get i j
      let c ← FC.2.get i
      F.set i j (x * c)) (d.cells * d.energies) F) (d.cells * d.energies) F

/-- `AdjointDiffusionCode::calcFMatrix`, `Diffusion/AdjointDiffusionCode.cpp:35-81`; the column index `j + (k - n) * cells` is written
`(j - n * cells) + k * cells`. -/
def adjointF (d : Data) : Outcome (Mat ℝ) := do
  let FC ← fissionDiag d
  let F ← loop (fun n F =>
    loop (fun k F =>
      loopFrom (k * d.cells) (fun i F =>
        loopFrom (n * d.cells) (fun j (F : Mat ℝ) => do
          let x ← F.get i (j - n * d.cells + k * d.cells)
          F.set i j x) d.cells F) d.cells F) d.energies F) d.energies FC.1
  loop (fun i F =>
    loop (fun j (F : Mat ℝ) => do
      let x ← F.get i j
      let c ← FC.2.get j
      F.set i j (x * c)) (d.cells * d.energies) F) (d.cells * d.energies) F

/-- The direction of a calculation, `Backbone/Datamodel/DirectionKind.h`. -/
inductive Direction
  | forward | adjoint

/-- Assembly in `DiffusionSolver::solve`, `Diffusion/DiffusionSolver.cpp:16-19`: loss and fission matrices. -/
def assemble (d : Data) (dir : Direction) : Outcome (Mat ℝ × Mat ℝ) := do
  let D1 ← diffOperator d
  let D2 ← boundary d D1
  match dir with
  | .forward => do
    let M ← forwardM d D2
    let F ← forwardF d
    ok (M, F)
  | .adjoint => do
    let M ← adjointM d D2
    let F ← adjointF d
    ok (M, F)

/-- The fluxes written by `setNewHeatSource`, `Diffusion/BaseDiffusionCode.cpp:30-37`: `flux(j, i, n)` is entry `i + j * cells` of mode
`n`; only mode 0 is read back by `getFundamentalNeutronFluxes` (`Backbone/Datamodel/Mesh.cpp:372-387`), as column 0 of the
per-cell flux matrices, which does not exist without modes. -/
def fundamentalFlux (d : Data) (modes : List (Vec ℝ)) : Outcome (Mat ℝ) :=
  match modes with
  | [] => if d.energies = 0 ∨ d.cells = 0 then ok (Mat.zero d.energies d.cells) else ub
  | mode :: _ =>
    loop (fun i φ =>
      loop (fun j (φ : Mat ℝ) => do
        let x ← mode.get (i + j * d.cells)
        φ.set j i x) d.energies φ) d.cells (Mat.zero d.energies d.cells)

/-- `calcFissionPowerDistribution`, `Diffusion/BaseDiffusionCode.cpp:7-26`. `cwiseProduct` of matrices of different size is undefined
behaviour. -/
def powerDistribution (d : Data) (power : ℝ) (flux : Mat ℝ) : Outcome (Vec ℝ) := do
  let powers ← loop (fun i (p : Vec ℝ) => do
    let s ← loop (fun e t => do
      let f ← flux.get e i
      let x ← d.fiss.get e i
      ok (t + f * x)) d.energies 0
    let v ← d.vol.get i
    p.set i (s * v)) d.cells (Vec.const d.cells 0)
  let total ← loop (fun i t => do
    let p ← powers.get i
    ok (t + p)) powers.n 0
  loop (fun i (r : Vec ℝ) => do
    let p ← powers.get i
    let x ← fdiv (power * p) total
    r.set i x) d.cells (Vec.const d.cells 0)

/-- The heat sources computed by `setNewHeatSource`, `Diffusion/BaseDiffusionCode.cpp:28-48`: power distribution divided by the
volumes in m³. -/
def newHeatSource (d : Data) (power : ℝ) (volM : Vec ℝ) (modes : List (Vec ℝ)) : Outcome (Vec ℝ) := do
  let flux ← fundamentalFlux d modes
  let p ← powerDistribution d power flux
  loop (fun i (q : Vec ℝ) => do
    let x ← p.get i
    let v ← volM.get i
    let y ← fdiv x v
    q.set i y) p.n (Vec.const p.n 0)

end

end Verif.Diffusion
