import Verif.Mesh.Data
import Verif.Numeric.Model
import Verif.CPM.Data
import Verif.Heat.Data
import Mathlib.Analysis.SpecialFunctions.Trigonometric.Basic

/-!
# Model of the mesh, its materials and the geometries, and of the data the solvers take from them

`/repo/Backbone/Datamodel/Mesh.cpp`, `Material.cpp`, `Slab.cpp`, `Cylinder.cpp`, `Sphere.cpp`, `AbstractGeometry.cpp`.
-/

namespace Verif.Mesh

open Verif Outcome

noncomputable section

namespace Box

variable {K : Type}

/-- `t(i, j, k)` for reading; out of bounds is undefined behaviour. -/
def get (x : Box K) (i j k : Nat) : Outcome K := if i < x.a ∧ j < x.b ∧ k < x.c then ok (x.v i j k) else ub

/-- `t(i, j, k) = y`; out of bounds is undefined behaviour. -/
def set (x : Box K) (i j k : Nat) (y : K) : Outcome (Box K) :=
  if i < x.a ∧ j < x.b ∧ k < x.c then
    ok ⟨x.a, x.b, x.c, fun p q r => if p = i ∧ q = j ∧ r = k then y else x.v p q r⟩ else ub

end Box

/-! ### geometries -/

/-- The choice of the unit at the end of `volumes`, `surfaces`, `getBoundaries` and `getCellSizes`, e.g.
`/repo/Backbone/Datamodel/Sphere.cpp:17-22`: unchanged for "m", times `f` for "cm", times -1 for anything else. -/
def unit (dim : String) (f : ℝ) (x : Vec ℝ) : Vec ℝ :=
  if dim = "m" then x else if dim = "cm" then ⟨x.n, fun i => x.v i * f⟩ else ⟨x.n, fun i => x.v i * -1⟩

/-- The loop filling the volumes, `/repo/Backbone/Datamodel/Slab.cpp:9-12` (the same in `Cylinder.cpp:12-15`, `Sphere.cpp:12-15`); `f` is
the volume between two boundaries. Without boundaries a vector of size -1 is requested (undefined behaviour). -/
def volumeLoop (f : ℝ → ℝ → ℝ) (b : Vec ℝ) : Outcome (Vec ℝ) := do
  let n ← predIdx b.n
  loopFrom 1 (fun i x => do
    let y ← b.get i
    let z ← b.get (i - 1)
    x.set (i - 1) (f y z)) n (Vec.const n 0)

/-- `Mesh::getVolumes`, `/repo/Backbone/Datamodel/Mesh.cpp:36-48`, with `Slab::volumes` (`Slab.cpp:7-20`), `Cylinder::volumes`
(`Cylinder.cpp:10-23`) and `Sphere::volumes` (`Sphere.cpp:10-23`). -/
def volumes (M : Grid) (dim : String) : Outcome (Vec ℝ) :=
  match M.geom with
  | .undefined => ok (Vec.const 1 0)
  | .slab => do
    let x ← volumeLoop (fun y z => y - z) M.bounds
    ok (unit dim 100 x)
  | .cylinder => do
    let x ← volumeLoop (fun y z => Real.pi * (y ^ 2 - z ^ 2)) M.bounds
    ok (unit dim 10000 x)
  | .sphere => do
    let x ← volumeLoop (fun y z => 4 / 3 * Real.pi * (y ^ 3 - z ^ 3)) M.bounds
    ok (unit dim 1000000 x)

/-- `Sphere::surfaces`, the loop of `/repo/Backbone/Datamodel/Sphere.cpp:27-30`. -/
def sphereSurfaces (b : Vec ℝ) : Outcome (Vec ℝ) :=
  loop (fun i x => do
    let y ← b.get i
    x.set i (4 * Real.pi * y ^ 2)) b.n (Vec.const b.n 0)

/-- `Mesh::getSurfaces`, `/repo/Backbone/Datamodel/Mesh.cpp:50-62`, with `Slab::surfaces` (`Slab.cpp:22-26`, whatever the unit),
`Cylinder::surfaces` (`Cylinder.cpp:25-37`) and `Sphere::surfaces` (`Sphere.cpp:25-38`). -/
def surfaces (M : Grid) (dim : String) : Outcome (Vec ℝ) :=
  match M.geom with
  | .undefined => ok (Vec.const 1 0)
  | .slab => ok (Vec.const M.bounds.n 1)
  | .cylinder => ok (unit dim 100 ⟨M.bounds.n, fun i => 2 * Real.pi * M.bounds.v i⟩)
  | .sphere => do
    let x ← sphereSurfaces M.bounds
    ok (unit dim 10000 x)

/-- `s(Eigen::last)`, e.g. `/repo/Backbone/Datamodel/Slab.cpp:31`. -/
def last (x : Vec ℝ) : Outcome ℝ := do
  let n ← predIdx x.n
  x.get n

/-- `Sphere::externalSurface`, `/repo/Backbone/Datamodel/Sphere.cpp:40-50`: the unit is applied to the last surface once more. -/
def sphereExternal (dim : String) (s : Vec ℝ) : Outcome ℝ := do
  let y ← last s
  ok (if dim = "m" then y else if dim = "cm" then y * 10000 else y * -1)

/-- `Mesh::getExternalSurface`, `/repo/Backbone/Datamodel/Mesh.cpp:64-74`, with `Slab.cpp:28-32`, `Cylinder.cpp:39-43` and
`Sphere.cpp:40-50`. -/
def externalSurface (M : Grid) (dim : String) : Outcome ℝ :=
  match M.geom with
  | .undefined => ok 0
  | .sphere => do
    let s ← surfaces M dim
    sphereExternal dim s
  | _ => do
    let s ← surfaces M dim
    last s

/-- `Mesh::getBoundaries`, `/repo/Backbone/Datamodel/Mesh.cpp:143-151`. -/
def boundaries (M : Grid) (dim : String) : Vec ℝ := unit dim 100 M.bounds

/-- `Mesh::getCellSizes`, `/repo/Backbone/Datamodel/Mesh.cpp:199-214`. -/
def cellSizes (M : Grid) (dim : String) : Outcome (Vec ℝ) := do
  let x ← loop (fun i x => do
    let y ← M.bounds.get (i + 1)
    let z ← M.bounds.get i
    x.set i (y - z)) M.cells (Vec.const M.cells 0)
  ok (unit dim 100 x)

/-- `Mesh::getMeshMiddlePoints`, `/repo/Backbone/Datamodel/Mesh.cpp:153-161`. -/
def middlePoints (M : Grid) : Outcome (Vec ℝ) := do
  let n ← predIdx M.bounds.n
  loop (fun i x => do
    let y ← M.bounds.get i
    let z ← M.bounds.get (i + 1)
    x.set i ((y + z) / 2)) n (Vec.const n 0)

/-! ### building a mesh -/

/-- `Mesh::setBoundaries(VectorXd&)`, `/repo/Backbone/Datamodel/Mesh.cpp:17-21`; the number of cells is unsigned. -/
def setBounds (b : Vec ℝ) (M : Grid) : Grid :=
  { M with bounds := b, cells := if b.n = 0 then 2 ^ 32 - 1 else b.n - 1 }

/-- `Mesh::setBoundaries(double, unsigned)`, `/repo/Backbone/Datamodel/Mesh.cpp:24-34`; for no cells `side / 0` is taken. -/
def setUniform (side : ℝ) (n : Nat) (M : Grid) : Outcome Grid := do
  let b ← loop (fun i x => do
    let h ← fdiv side (n : ℝ)
    x.set i (i * h)) (n + 1) (Vec.const (n + 1) 0)
  ok { M with bounds := b, cells := n }

/-- A new material, `/repo/Backbone/Datamodel/Material.h:14-15`. -/
def newMaterial (name : String) : Material :=
  ⟨name, 0, 0, 0, none, [], [], [], [], [], [], ⟨0, 0, fun _ _ => .fin 0⟩, ⟨0, 0, fun _ _ => .fin 0⟩, ⟨0, fun _ => .fin 0⟩⟩

/-- `Mesh::createMaterials`, `/repo/Backbone/Datamodel/Mesh.cpp:163-171`. -/
def createMaterials (names : Vec String) (M : Grid) : Outcome Grid := do
  let x ← loop (fun i x => do
    let s ← names.get i
    x.set i (newMaterial s)) M.cells (Vec.const M.cells (newMaterial ""))
  ok { M with mats := x }

/-- Change of the material of cell `i` through `m_materials[i]->`. -/
def change (f : Material → Material) (i : Nat) (M : Grid) : Outcome Grid := do
  let m ← M.mats.get i
  let x ← M.mats.set i (f m)
  ok { M with mats := x }

/-- `Mesh::setEnergyGroupsNumber`, `/repo/Backbone/Datamodel/Mesh.cpp:173-180`. -/
def setGroups (n : Nat) (M : Grid) : Outcome Grid :=
  loop (fun i => change (fun m => { m with energies := n }) i) M.cells { M with energies := n }

/-! ### fields -/

/-- `Mesh::setTemperatures`, `/repo/Backbone/Datamodel/Mesh.cpp:76-90` (both versions). -/
def setTemperatures (t : Vec ℝ) (M : Grid) : Outcome Grid :=
  loop (fun i M => do
    let y ← t.get i
    change (fun m => { m with T := y }) i M) t.n M

/-- `Mesh::getTemperatures`, `/repo/Backbone/Datamodel/Mesh.cpp:92-113`; the sum with a number is `/repo/Utilities/numeric_tools.h:188-193`. -/
def temperatures (M : Grid) (dim : String) : Outcome (Vec ℝ) := do
  let x ← loop (fun i x => do
    let m ← M.mats.get i
    x.set i m.T) M.cells (Vec.const M.cells 0)
  ok (if dim = "C" then x else if dim = "K" then ⟨x.n, fun i => x.v i + 273.15⟩ else ⟨x.n, fun i => x.v i * -1⟩)

/-- `Mesh::setHeatSources`, `/repo/Backbone/Datamodel/Mesh.cpp:115-129` (both versions). -/
def setHeatSources (t : Vec ℝ) (M : Grid) : Outcome Grid :=
  loop (fun i M => do
    let y ← t.get i
    change (fun m => { m with q := y }) i M) t.n M

/-- `Mesh::getHeatSources`, `/repo/Backbone/Datamodel/Mesh.cpp:131-141`. -/
def heatSources (M : Grid) : Outcome (Vec ℝ) :=
  loop (fun i x => do
    let m ← M.mats.get i
    x.set i m.q) M.cells (Vec.const M.cells 0)

/-! ### material data -/

/-- `Material::getThermalConductivity`, `/repo/Backbone/Datamodel/Material.cpp:18-21`; a null pointer is used if there is no law. -/
def conductivity (m : Material) : Outcome ℝ :=
  match m.kLaw with
  | none => ub
  | some c => Numeric.polyCalc c m.T

/-- `laws[i]->calc(m_temperature)`, e.g. `/repo/Backbone/Datamodel/Material.cpp:108`; out of bounds is undefined behaviour. -/
def lawAt (laws : List (Vec ℝ)) (i : Nat) (T : ℝ) : Outcome ℝ :=
  match laws[i]? with
  | none => ub
  | some c => Numeric.polyCalc c T

/-- The loop of `getTotalXS`, `getFissionXS`, `getDiffusionConstants`, `/repo/Backbone/Datamodel/Material.cpp:103-131`. -/
def evalLaws (laws : List (Vec ℝ)) (m : Material) : Outcome (Vec ℝ) :=
  loop (fun i x => do
    let y ← lawAt laws i m.T
    x.set i y) m.energies (Vec.const m.energies 0)

/-- `getNi` and `getChi`, `/repo/Backbone/Datamodel/Material.cpp:77-101`: zeros if there are no laws at all. -/
def evalLaws0 (laws : List (Vec ℝ)) (m : Material) : Outcome (Vec ℝ) :=
  if 0 < laws.length then evalLaws laws m else ok (Vec.const m.energies 0)

/-- `Material::getScattMatrix`, `/repo/Backbone/Datamodel/Material.cpp:133-142`. -/
def scattMatrix (m : Material) : Outcome (Mat ℝ) :=
  loop (fun i => loop (fun j x => do
    let y ← lawAt m.scatt (j + i * m.energies) m.T
    x.set i j y) m.energies) m.energies (Mat.zero m.energies m.energies)

/-- `Mesh::getThermalConductivities`, `/repo/Backbone/Datamodel/Mesh.cpp:187-197`. -/
def conductivities (M : Grid) : Outcome (Vec ℝ) :=
  loop (fun i x => do
    let m ← M.mats.get i
    let y ← conductivity m
    x.set i y) M.cells (Vec.const M.cells 0)

/-- The double loop of `getNis`, `getChis`, `getTotalXSs`, `getDiffusionConstants`, `getFissionXSs`,
`/repo/Backbone/Datamodel/Mesh.cpp:216-304`; `read` is the getter of the material. -/
def table (read : Material → Outcome (Vec ℝ)) (M : Grid) : Outcome (Mat ℝ) :=
  loop (fun m x => do
    let mat ← M.mats.get m
    let y ← read mat
    loop (fun i x => do
      let z ← y.get i
      x.set i m z) M.energies x) M.cells (Mat.zero M.energies M.cells)

/-- `Mesh::getNis`, `/repo/Backbone/Datamodel/Mesh.cpp:216-232`. -/
def nus (M : Grid) : Outcome (Mat ℝ) := table (fun m => evalLaws0 m.nu m) M

/-- `Mesh::getChis`, `/repo/Backbone/Datamodel/Mesh.cpp:234-250`. -/
def chis (M : Grid) : Outcome (Mat ℝ) := table (fun m => evalLaws0 m.chi m) M

/-- `Mesh::getTotalXSs`, `/repo/Backbone/Datamodel/Mesh.cpp:252-268`. -/
def tots (M : Grid) : Outcome (Mat ℝ) := table (fun m => evalLaws m.tot m) M

/-- `Mesh::getDiffusionConstants`, `/repo/Backbone/Datamodel/Mesh.cpp:270-286`. -/
def diffs (M : Grid) : Outcome (Mat ℝ) := table (fun m => evalLaws m.diff m) M

/-- `Mesh::getFissionXSs`, `/repo/Backbone/Datamodel/Mesh.cpp:288-304`. -/
def fissions (M : Grid) : Outcome (Mat ℝ) := table (fun m => evalLaws m.fiss m) M

/-- `Mesh::getScattMatrices`, `/repo/Backbone/Datamodel/Mesh.cpp:324-343`. Simplification: the tensor starts with zeros instead of
indeterminate values; all of them are overwritten. -/
def scatts (M : Grid) : Outcome (Box ℝ) :=
  loop (fun m x => do
    let mat ← M.mats.get m
    let y ← scattMatrix mat
    loop (fun i => loop (fun j x => do
      let z ← y.get i j
      x.set i j m z) M.energies) M.energies x) M.cells ⟨M.energies, M.energies, M.cells, fun _ _ _ => 0⟩

/-- `Mesh::getRemovalXSs`, `/repo/Backbone/Datamodel/Mesh.cpp:306-322`. -/
def removals (M : Grid) : Outcome (Mat ℝ) := do
  let t ← tots M
  let s ← scatts M
  loop (fun m => loop (fun i x => do
    let y ← t.get i m
    let z ← s.get i i m
    x.set i m (y - z)) M.energies) M.cells (Mat.zero M.energies M.cells)

/-- The sum `totalFission` of `/repo/Backbone/Datamodel/Mesh.cpp:446-448`. -/
def fissionSum (n : Nat) (nu fiss : Vec ℝ) : Outcome ℝ :=
  loop (fun e s => do
    let y ← nu.get e
    let z ← fiss.get e
    ok (s + y * z)) n 0

/-- `Mesh::getProductionOperator`, `/repo/Backbone/Datamodel/Mesh.cpp:433-455`. -/
def production (M : Grid) : Outcome (Mat ℝ) :=
  loop (fun m x => do
    let mat ← M.mats.get m
    let nu ← evalLaws0 mat.nu mat
    let chi ← evalLaws0 mat.chi mat
    let fiss ← evalLaws mat.fiss mat
    let s ← fissionSum M.energies nu fiss
    loop (fun e x => do
      let y ← chi.get e
      x.set e m (y * s)) M.energies x) M.cells (Mat.zero M.energies M.cells)

/-! ### fluxes -/

/-- `fromTensor2dToMatrixXd(t.chip(m, 1))`, `/repo/Utilities/numeric_tools.cpp:333-342`, `/repo/Backbone/Datamodel/Mesh.cpp:349`. -/
def chip (t : Box Fl) (m : Nat) : Outcome (Mat Fl) :=
  loop (fun i => loop (fun j x => do
    let y ← t.get i m j
    x.set i j y) t.c) t.a ⟨t.a, t.c, fun _ _ => .fin 0⟩

/-- `Mesh::setNeutronFluxes`, `/repo/Backbone/Datamodel/Mesh.cpp:345-352`. -/
def setFluxes (t : Box Fl) (M : Grid) : Outcome Grid :=
  loop (fun m M => do
    let x ← chip t m
    change (fun mat => { mat with flux := x }) m M) t.b M

/-- `Mesh::setAdjointFluxes`, `/repo/Backbone/Datamodel/Mesh.cpp:389-396`. -/
def setAdjoints (t : Box Fl) (M : Grid) : Outcome Grid :=
  loop (fun m M => do
    let x ← chip t m
    change (fun mat => { mat with adj := x }) m M) t.b M

/-- The loops of `getNeutronFluxes` and `getAdjointFluxes`, `/repo/Backbone/Datamodel/Mesh.cpp:354-370,398-414`. Simplification: the
tensor starts with zeros instead of indeterminate values; all of them are overwritten. -/
def modeBox (read : Material → Mat Fl) (n : Nat) (M : Grid) : Outcome (Box Fl) :=
  loop (fun m x => do
    let mat ← M.mats.get m
    loop (fun k => loop (fun i x => do
      let y ← (read mat).get i k
      x.set i m k y) M.energies) n x) M.cells ⟨M.energies, M.cells, n, fun _ _ _ => .fin 0⟩

/-- `Mesh::getNeutronFluxes`, `/repo/Backbone/Datamodel/Mesh.cpp:354-370`. -/
def fluxes (M : Grid) : Outcome (Box Fl) := modeBox (fun m => m.flux) M.nForward M

/-- `Mesh::getAdjointFluxes`, `/repo/Backbone/Datamodel/Mesh.cpp:398-414`. -/
def adjoints (M : Grid) : Outcome (Box Fl) := modeBox (fun m => m.adj) M.nAdjoint M

/-- The loops of `getFundamentalNeutronFluxes` and `getFundamentalAdjointFluxes`, `/repo/Backbone/Datamodel/Mesh.cpp:372-387,416-431`. -/
def firstModes (read : Material → Mat Fl) (M : Grid) : Outcome (Mat Fl) :=
  loop (fun m x => do
    let mat ← M.mats.get m
    loop (fun i x => do
      let y ← (read mat).get i 0
      x.set i m y) M.energies x) M.cells ⟨M.energies, M.cells, fun _ _ => .fin 0⟩

/-- `Mesh::getFundamentalNeutronFluxes`, `/repo/Backbone/Datamodel/Mesh.cpp:372-387`. -/
def fundamentals (M : Grid) : Outcome (Mat Fl) := firstModes (fun m => m.flux) M

/-- `Mesh::getFundamentalAdjointFluxes`, `/repo/Backbone/Datamodel/Mesh.cpp:416-431`. -/
def fundamentalAdjoints (M : Grid) : Outcome (Mat Fl) := firstModes (fun m => m.adj) M

/-- `totalFluxes.col(m)`, `/repo/Backbone/Datamodel/Mesh.cpp:461`. -/
def column (x : Mat Fl) (m : Nat) : Outcome (Vec Fl) := if m < x.c then ok ⟨x.r, fun i => x.m i m⟩ else ub

/-- `Mesh::setTotalFluxes`, `/repo/Backbone/Datamodel/Mesh.cpp:457-463`. -/
def setTotals (t : Mat Fl) (M : Grid) : Outcome Grid :=
  loop (fun m M => do
    let x ← column t m
    change (fun mat => { mat with total := x }) m M) M.cells M

/-- Copy of one stored total flux, `/repo/Backbone/Datamodel/Mesh.cpp:474-476`; an empty one is skipped. -/
def copyTotal (n m : Nat) (y : Vec Fl) (x : Mat Fl) : Outcome (Mat Fl) :=
  if y.n ≠ 0 then
    loop (fun i x => do
      let z ← y.get i
      x.set i m z) n x
  else ok x

/-- `Mesh::getTotalFluxes`, `/repo/Backbone/Datamodel/Mesh.cpp:465-480`. -/
def totals (M : Grid) : Outcome (Mat Fl) :=
  loop (fun m x => do
    let mat ← M.mats.get m
    copyTotal M.energies m mat.total x) M.cells ⟨M.energies, M.cells, fun _ _ => .fin 0⟩

/-! ### what the solvers read -/

/-- The data of the transport code: `/repo/CPM/BaseSpectrumCode.h:15-23`, `/repo/CPM/SlabSpectrumCode.h:13-20` (the same in
`CylSpectrumCode.h`, `SphSpectrumCode.h`), `/repo/CPM/BaseSpectrumCode.cpp:68,101-103`; `energies` and `albedo` are those of the
solver. -/
def transportData (M : Grid) (energies : Nat) (albedo : Vec ℝ) : Outcome CPM.Data := do
  let vol ← volumes M "cm"
  let tot ← tots M
  let s ← externalSurface M "cm"
  let scatt ← scatts M
  let fiss ← fissions M
  let chi ← chis M
  let nu ← nus M
  ok { cells := M.cells, energies := energies, albedo := albedo, radii := boundaries M "cm", vol := vol, surface := s, tot := tot,
       fiss := fiss, nu := nu, chi := chi, scatt := scatt.v }

/-- The data of the diffusion code: `/repo/Diffusion/BaseDiffusionCode.h:14-19`, `/repo/Diffusion/BaseDiffusionCode.cpp:87-120`,
`/repo/Diffusion/ForwardDiffusionCode.cpp:11,39-41`; `energies` and `albedo` are those of the solver. -/
def diffusionData (M : Grid) (energies : Nat) (albedo : Vec ℝ) : Outcome Diffusion.Data := do
  let vol ← volumes M "cm"
  let surf ← surfaces M "cm"
  let size ← cellSizes M "cm"
  let D ← diffs M
  let tot ← tots M
  let scatt ← scatts M
  let fiss ← fissions M
  let chi ← chis M
  let nu ← nus M
  ok { cells := M.cells, energies := energies, geom := M.geom, albedo := albedo, D := D, tot := tot, fiss := fiss, nu := nu,
       chi := chi, scatt := scatt.v, vol := vol, surf := surf, size := size }

/-- The data of the heat code: `/repo/Heat/BaseHeatCode.h:14-19`, `/repo/Heat/BaseHeatCode.cpp:9-10,23-25,55,91`; `bc` are the numbers
given for the boundaries. -/
def heatData (M : Grid) (bc : Vec ℝ) : Outcome Heat.Data := do
  let vol ← volumes M "m"
  let surf ← surfaces M "m"
  let size ← cellSizes M "m"
  let k ← conductivities M
  let q ← heatSources M
  ok { cells := M.cells, geom := M.geom, radii := boundaries M "m", size := size, vol := vol, surf := surf, k := k, q := q,
       bc := bc }

end

end Verif.Mesh
