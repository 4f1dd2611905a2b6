import Verif.Diffusion.Data
import Verif.Core.Fl

/-!
# The mesh and its materials (shared by the model and the specification)
-/

namespace Verif.Mesh

open Verif

/-- A table with three indices, `Numerics::Tensor3d` of dimensions `a × b × c`. -/
structure Box (K : Type) where
  a : Nat
  b : Nat
  c : Nat
  v : Nat → Nat → Nat → K

/-- `Material`, `/repo/Backbone/Datamodel/Material.h:11-69`: name, number of groups, temperature in °C, heat source in W/m³, thermal
conductivity law (`none` is the null pointer of line 62), lists of laws for the nuclear data (one list of polynomial coefficients per
law, `/repo/Utilities/PolynomialFunction.h:12-21`), stored forward and adjoint modes (groups × modes) and the stored total flux.
Simplification: temperatures, heat sources and coefficients are real numbers. -/
structure Material where
  name : String
  energies : Nat
  T : ℝ
  q : ℝ
  kLaw : Option (Vec ℝ)
  tot : List (Vec ℝ)
  fiss : List (Vec ℝ)
  diff : List (Vec ℝ)
  scatt : List (Vec ℝ)
  nu : List (Vec ℝ)
  chi : List (Vec ℝ)
  flux : Mat Fl
  adj : Mat Fl
  total : Vec Fl

/-- `Mesh`, `/repo/Backbone/Datamodel/Mesh.h`: geometry (`undefined` is the null pointer `pm_abGeom`), boundaries in m, number of cells
`m_meshNumber`, number of groups, numbers of forward and adjoint modes, and one material per cell. -/
structure Grid where
  geom : Diffusion.Geom
  bounds : Vec ℝ
  cells : Nat
  energies : Nat
  nForward : Nat
  nAdjoint : Nat
  mats : Vec Material

end Verif.Mesh
