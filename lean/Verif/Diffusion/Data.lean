import Verif.Core.Outcome
import Mathlib.Data.Real.Basic

/-!
# Input data of the diffusion code (shared by the model and the specification)
-/

namespace Verif.Diffusion

open Verif

/-- `GeomKind`, `Backbone/Datamodel/GeomKind.h:6`. -/
inductive Geom
  | undefined | slab | cylinder | sphere
  deriving DecidableEq

/-- What the diffusion code reads: number of cells and groups (`Diffusion/BaseDiffusionCode.h:18-21`), cross sections from the mesh
(`Backbone/Datamodel/Mesh.cpp:216-343`, rows are groups, columns are cells), volumes, surfaces and cell sizes in cm
(`Mesh.cpp:36-62,199-214`), geometry and albedos. `scatt g h i` is the scattering cross section from group `g` to
group `h` in cell `i`. Simplification: the getters are taken as given values here; they are modelled in `Verif.Mesh`. -/
structure Data where
  cells : Nat
  energies : Nat
  geom : Geom
  albedo : Vec ℝ
  D : Mat ℝ
  tot : Mat ℝ
  fiss : Mat ℝ
  nu : Mat ℝ
  chi : Mat ℝ
  scatt : Nat → Nat → Nat → ℝ
  vol : Vec ℝ
  surf : Vec ℝ
  size : Vec ℝ

end Verif.Diffusion
