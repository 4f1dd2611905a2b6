import Verif.CPM.Spec

/-!
# Specification vocabulary for the rays of the transport solver in cylinders and spheres (no model definitions)
-/

namespace Verif.CPM

open Finset

noncomputable section

/-- The eight places of the quadrature in a ring, see `rayAt`. -/
def places : Nat → ℝ := fun k => [0.0446339553, 0.1443662570, 0.2868247571, 0.4548133152, 0.6280678354, 0.7856915206, 0.9086763921, 0.9822200849].getD k 0

/-- Their shares of the width of the ring; they add up to one half. -/
def shares : Nat → ℝ := fun k => [0.0032951914, 0.0178429027, 0.0454393195, 0.0791995995, 0.1060473594, 0.1125057995, 0.0911190236, 0.0445508044].getD k 0

/-- Distance from the centre of ray `k` in the ring `m`. -/
def rayAt (d : Data) (m k : Nat) : ℝ := d.radii.v (m + 1) - (d.radii.v (m + 1) - d.radii.v m) * places k ^ 2

/-- The length of ray `k` of ring `m` within one half of ring `i`. -/
def rayLength (d : Data) (i m k : Nat) : ℝ := halfChord (d.radii.v (i + 1)) (rayAt d m k) - halfChord (d.radii.v i) (rayAt d m k)

/-- The volume of ring `i` of a cylinder (per unit of height) as the rays see it: the sum over the rays of their lengths in it times their shares. -/
def seenCylinder (d : Data) (i : Nat) : ℝ :=
  8 * ∑ m ∈ range (i + 1), ∑ k ∈ range 8, shares k * (d.radii.v (m + 1) - d.radii.v m) * rayLength d i m k

/-- The same in a sphere. -/
def seenSphere (d : Data) (i : Nat) : ℝ :=
  8 * Real.pi * ∑ m ∈ range (i + 1), ∑ k ∈ range 8, shares k * (d.radii.v (m + 1) - d.radii.v m) * rayAt d m k * rayLength d i m k

/-- Ring `i` is thick enough in group `h` for the rays of the code: it is opaque, or the volume the rays see exceeds the true one by a part smaller than the optical length of the
average ray in it (about an eighth of the mean chord). -/
def Resolved (d : Data) (g : Diffusion.Geom) (h i : Nat) : Prop :=
  match g with
  | .slab => True
  | .cylinder => Real.pi * d.radii.v (i + 1) ≤ d.vol.v i * d.tot.m h i ∨
      seenCylinder d i < d.vol.v i * (1 + d.tot.m h i * seenCylinder d i / (8 * d.radii.v (i + 1)))
  | .sphere => 2 * Real.pi * d.radii.v (i + 1) ^ 2 * (1 + 1 / 10 ^ 9) ≤ d.vol.v i * d.tot.m h i ∨
      seenSphere d i < d.vol.v i * (1 + d.tot.m h i * seenSphere d i / (4 * Real.pi * d.radii.v (i + 1) ^ 2 * (1 + 1 / 10 ^ 9)))
  | .undefined => False

end

end Verif.CPM
