import Verif.Diffusion.Data
import Mathlib.Algebra.BigOperators.Group.Finset.Basic
import Mathlib.Data.Real.Basic

/-!
# Specification vocabulary for multigroup diffusion (no model definitions)
-/

namespace Verif.Diffusion

open Finset

/-- All tables have the sizes announced by the numbers of cells and groups. -/
structure WellFormed (d : Data) : Prop where
  D_r : d.D.r = d.energies
  D_c : d.D.c = d.cells
  tot_r : d.tot.r = d.energies
  tot_c : d.tot.c = d.cells
  fiss_r : d.fiss.r = d.energies
  fiss_c : d.fiss.c = d.cells
  nu_r : d.nu.r = d.energies
  nu_c : d.nu.c = d.cells
  chi_r : d.chi.r = d.energies
  chi_c : d.chi.c = d.cells
  vol_n : d.vol.n = d.cells
  surf_n : d.surf.n = d.cells + 1
  size_n : d.size.n = d.cells

/-- Diffusion coefficients and cell sizes are positive. -/
structure Positive (d : Data) : Prop where
  D_pos : ∀ e, e < d.energies → ∀ i, i < d.cells → 0 < d.D.m e i
  size_pos : ∀ i, i < d.cells → 0 < d.size.v i

/-- The albedos at the left and right boundary: for a slab the two numbers given, otherwise a reflecting centre and the one
number given. -/
def HasAlbedos (d : Data) (aL aR : ℝ) : Prop :=
  (d.geom = .slab ∧ 2 ≤ d.albedo.n ∧ aL = d.albedo.v 0 ∧ aR = d.albedo.v 1) ∨
  (d.geom ≠ .slab ∧ 1 ≤ d.albedo.n ∧ aL = 1 ∧ aR = d.albedo.v 0)

/-- `J` is the net current (left to right) through a face of area `S` between two cells of widths `h1`, `h2`, diffusion
coefficients `D1`, `D2` and mean fluxes `f1`, `f2`: with some flux `fs` on the face, Fick's law in both half cells gives the
same current. -/
def FaceCurrent (D1 h1 D2 h2 S f1 f2 J : ℝ) : Prop :=
  ∃ fs, J = S * (D1 * (f1 - fs) / (h1 / 2)) ∧ J = S * (D2 * (fs - f2) / (h2 / 2))

/-- `J` is the outward net current through a boundary face of area `S` with albedo `a`: Fick's law in the half cell next to the face,
and the ingoing partial current `fs/4 - J/(2S)` is `a` times the outgoing one `fs/4 + J/(2S)`. -/
def AlbedoCurrent (D h a S f J : ℝ) : Prop :=
  ∃ fs, J = S * (D * (f - fs) / (h / 2)) ∧ S * fs / 4 - J / 2 = a * (S * fs / 4 + J / 2)

/-- Usable boundary conditions: albedos between -1 and 1, or periodic ("albedo 2" on both sides of a slab). -/
def Boundaries (d : Data) : Prop :=
  (∃ aL aR, HasAlbedos d aL aR ∧ (-1 ≤ aL ∧ aL ≤ 1) ∧ (-1 ≤ aR ∧ aR ≤ 1)) ∨ HasAlbedos d 2 2

/-- The last two cells look like the first two in group `e`: same diffusion coefficient, size and surfaces throughout. -/
structure SameEnds (d : Data) (e : Nat) : Prop where
  D1 : d.D.m e 1 = d.D.m e 0
  Dl : d.D.m e (d.cells - 1) = d.D.m e 0
  Dl1 : d.D.m e (d.cells - 2) = d.D.m e 0
  h1 : d.size.v 1 = d.size.v 0
  hl : d.size.v (d.cells - 1) = d.size.v 0
  hl1 : d.size.v (d.cells - 2) = d.size.v 0
  S1 : d.surf.v (d.cells - 1) = d.surf.v 1

/-- Physical cross sections: volumes positive, surfaces and scattering non-negative, and in each group the total exceeds
what is scattered out to all groups together (some absorption). -/
structure Absorbing (d : Data) : Prop where
  vol_pos : ∀ i, i < d.cells → 0 < d.vol.v i
  surf_nonneg : ∀ i, i ≤ d.cells → 0 ≤ d.surf.v i
  scatt_nonneg : ∀ g h i, g < d.energies → h < d.energies → i < d.cells → 0 ≤ d.scatt g h i
  absorbs : ∀ g i, g < d.energies → i < d.cells → ∑ h ∈ range d.energies, d.scatt g h i < d.tot.m g i

end Verif.Diffusion
