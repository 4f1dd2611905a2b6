import Verif.Diffusion.Data
import Verif.Core.Arr

/-!
# Input data of the transport (collision probability) code, shared by the model and the specification
-/

namespace Verif.CPM

open Verif

/-- Three-index tensor, `Numerics::Tensor3d`. -/
abbrev Ten3 := Arr (ℕ × ℕ × ℕ) ℝ

/-- Four-index tensor, `Numerics::Tensor4d`. -/
abbrev Ten4 := Arr (ℕ × ℕ × ℕ × ℕ) ℝ

/-- What the transport code reads (`CPM/BaseSpectrumCode.h:15-23`, `CPM/SlabSpectrumCode.h:13-21` and the same constructors of the
cylinder and the sphere): numbers of cells and groups, boundaries (`radii`), volumes and external surface in cm, cm³, cm², cross
sections (rows are groups, columns are cells), albedo. `scatt g h i` is the scattering cross section from group `g` to group `h`
in cell `i`. Simplification: the getters of `Mesh` are taken as given values here; they are modelled in `Verif.Mesh`. -/
structure Data where
  cells : Nat
  energies : Nat
  albedo : Vec ℝ
  radii : Vec ℝ
  vol : Vec ℝ
  surface : ℝ
  tot : Mat ℝ
  fiss : Mat ℝ
  nu : Mat ℝ
  chi : Mat ℝ
  scatt : Nat → Nat → Nat → ℝ

end Verif.CPM
