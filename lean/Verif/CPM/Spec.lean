import Verif.CPM.Data
import Verif.Diffusion.Data
import Mathlib.Algebra.BigOperators.Group.Finset.Basic
import Mathlib.Algebra.Order.Interval.Finset.SuccPred
import Mathlib.Analysis.SpecialFunctions.Exp
import Mathlib.Analysis.SpecialFunctions.Trigonometric.Basic
import Mathlib.MeasureTheory.Integral.IntervalIntegral.Basic
import Mathlib.Analysis.Real.Sqrt

/-!
# Specification vocabulary for the transport solver (no model definitions)
-/

namespace Verif.CPM

open Finset

noncomputable section

/-- All tables have the sizes announced by the numbers of cells and groups, and there is an albedo. -/
structure WellFormed (d : Data) : Prop where
  albedo_n : 0 < d.albedo.n
  radii_n : d.radii.n = d.cells + 1
  vol_n : d.vol.n = d.cells
  tot_r : d.tot.r = d.energies
  tot_c : d.tot.c = d.cells
  fiss_r : d.fiss.r = d.energies
  fiss_c : d.fiss.c = d.cells
  nu_r : d.nu.r = d.energies
  nu_c : d.nu.c = d.cells
  chi_r : d.chi.r = d.energies
  chi_c : d.chi.c = d.cells

/-- Total cross sections, volumes and the external surface are positive. -/
structure Positive (d : Data) : Prop where
  tot_pos : ∀ h, h < d.energies → ∀ i, i < d.cells → 0 < d.tot.m h i
  vol_pos : ∀ i, i < d.cells → 0 < d.vol.v i
  surface_pos : 0 < d.surface

/-- The boundaries increase and, per unit of area, the volume of a cell is its width. -/
structure SlabMesh (d : Data) : Prop where
  incr : ∀ i, i < d.cells → d.radii.v i < d.radii.v (i + 1)
  vol_eq : ∀ i, i < d.cells → d.vol.v i = d.radii.v (i + 1) - d.radii.v i

/-- The radii start at zero or more and increase. -/
structure RoundMesh (d : Data) : Prop where
  first : 0 ≤ d.radii.v 0
  incr : ∀ i, i < d.cells → d.radii.v i < d.radii.v (i + 1)

/-- The mesh fits the geometry. -/
def MeshFor (d : Data) : Diffusion.Geom → Prop
  | .slab => SlabMesh d
  | .cylinder => RoundMesh d
  | .sphere => RoundMesh d
  | .undefined => False

/-- The exponential integral of order 3. -/
def E3 (x : ℝ) : ℝ := ∫ μ in (0 : ℝ)..1, μ * Real.exp (-x / μ)

/-- The Bickley function of order 3. -/
def Ki3 (x : ℝ) : ℝ := ∫ t in (0 : ℝ)..(Real.pi / 2), Real.exp (-x / Real.sin t) * Real.sin t * Real.sin t

/-- What the transmission functions have in common: bounded by their value at zero, decreasing, and with non-negative second
differences. -/
structure Transmission (K : ℝ → ℝ) : Prop where
  nonneg : ∀ x, 0 ≤ x → 0 ≤ K x
  decr : ∀ a s, 0 ≤ a → 0 ≤ s → K (a + s) ≤ K a
  conv : ∀ a s t, 0 ≤ a → 0 ≤ s → 0 ≤ t → 0 ≤ K a - K (a + s) - K (a + t) + K (a + s + t)

/-! ### flights in a slab -/

/-- Optical thickness of cell `k` in group `h`. -/
def thick (d : Data) (h k : Nat) : ℝ := (d.radii.v (k + 1) - d.radii.v k) * d.tot.m h k

/-- Optical distance from the point `x` of cell `i` to the left face of cell `j`, to the right of cell `i`. -/
def toRight (d : Data) (h i : Nat) (x : ℝ) (j : Nat) : ℝ :=
  d.tot.m h i * (d.radii.v (i + 1) - x) + ∑ k ∈ Ico (i + 1) j, thick d h k

/-- Optical distance from the point `x` of cell `i` to the left face of cell `j ≤ i`. -/
def toLeft (d : Data) (h i : Nat) (x : ℝ) (j : Nat) : ℝ :=
  d.tot.m h i * (x - d.radii.v i) + ∑ k ∈ Ico j i, thick d h k

/-- Half the average over the points of cell `i` of `p μ x`, integrated over the direction cosines between 0 and 1: the probability
of an event that has probability `p μ x` for a neutron starting at `x` with direction cosine `±μ`, when neutrons start uniformly in
cell `i`, isotropically, and the event needs the sign of the direction to be the one considered. -/
def oneSided (d : Data) (i : Nat) (p : ℝ → ℝ → ℝ) : ℝ :=
  1 / 2 * ∫ μ in (0 : ℝ)..1, 1 / (d.radii.v (i + 1) - d.radii.v i) * ∫ x in (d.radii.v i)..(d.radii.v (i + 1)), p μ x

/-- Probability that a neutron born uniformly and isotropically in cell `i` has its first collision in cell `j` of the slab
(vacuum outside): it must survive up to the near face of cell `j` and not up to the far face. -/
def slabProb (d : Data) (h i j : Nat) : ℝ :=
  if i < j then
    oneSided d i (fun μ x => Real.exp (-toRight d h i x j / μ) - Real.exp (-toRight d h i x (j + 1) / μ))
  else if i = j then
    oneSided d i (fun μ x => 1 - Real.exp (-toRight d h i x (i + 1) / μ)) +
      oneSided d i (fun μ x => 1 - Real.exp (-toLeft d h i x i / μ))
  else
    oneSided d i (fun μ x => Real.exp (-toLeft d h i x (j + 1) / μ) - Real.exp (-toLeft d h i x j / μ))

/-- Probability that such a neutron leaves the slab through either face without a collision. -/
def slabEscape (d : Data) (h i : Nat) : ℝ :=
  oneSided d i (fun μ x => Real.exp (-toRight d h i x d.cells / μ)) +
    oneSided d i (fun μ x => Real.exp (-toLeft d h i x 0 / μ))

/-! ### flights along the chords of a cylinder or a sphere

A chord at distance `z` from the centre is divided by the boundaries of the cells. Measured in optical length from its middle, cell
`i` occupies the segments from `halfPath i` to `halfPath (i + 1)` and from `-halfPath (i + 1)` to `-halfPath i`. -/

/-- Half the length cut out of a line at distance `z` from the centre by the circle (sphere) of radius `R`. -/
def halfChord (R z : ℝ) : ℝ := if z < R then Real.sqrt (R ^ 2 - z ^ 2) else 0

/-- Optical length of the half chord up to boundary `a`. -/
def halfPath (d : Data) (h : Nat) (z : ℝ) (a : Nat) : ℝ :=
  ∑ l ∈ range a, (halfChord (d.radii.v (l + 1)) z - halfChord (d.radii.v l) z) * d.tot.m h l

/-- Flights from the segment `(s, e)` of a chord to the later segment `(s', e')`, `K` being the twice integrated transmission. -/
def hop (K : ℝ → ℝ) (s e s' e' : ℝ) : ℝ := K (s' - e) - K (s' - s) - K (e' - e) + K (e' - s)

/-- Flights from the segment `(s, e)` of a chord past the later point `t`. -/
def leave (K : ℝ → ℝ) (s e t : ℝ) : ℝ := K (t - e) - K (t - s)

/-- Flights from the near and the far segment of cell `i` to the segment of an outer cell `j`. -/
def rayHit (d : Data) (K : ℝ → ℝ) (h : Nat) (z : ℝ) (i j : Nat) : ℝ :=
  hop K (halfPath d h z i) (halfPath d h z (i + 1)) (halfPath d h z j) (halfPath d h z (j + 1)) +
  hop K (-halfPath d h z (i + 1)) (-halfPath d h z i) (halfPath d h z j) (halfPath d h z (j + 1))

/-- Flights out of cell `i` that do not end in cell `i`: those leaving either segment, less those from the far to the near segment. -/
def rayOut (d : Data) (K : ℝ → ℝ) (h : Nat) (z : ℝ) (i : Nat) : ℝ :=
  2 * leave K (halfPath d h z i) (halfPath d h z (i + 1)) (halfPath d h z (i + 1)) -
  hop K (-halfPath d h z (i + 1)) (-halfPath d h z i) (halfPath d h z i) (halfPath d h z (i + 1))

/-- Flights from the near and the far segment of cell `i` out of the body. -/
def rayEscape (d : Data) (K : ℝ → ℝ) (h : Nat) (z : ℝ) (i : Nat) : ℝ :=
  leave K (halfPath d h z i) (halfPath d h z (i + 1)) (halfPath d h z d.cells) +
  leave K (-halfPath d h z (i + 1)) (-halfPath d h z i) (halfPath d h z d.cells)

/-- A set of chords, `n` in each ring `m`, at distances `z m k` within the ring, with non-negative weights `w m k`. -/
structure Chords (d : Data) (n : Nat) (z w : Nat → Nat → ℝ) : Prop where
  inside : ∀ m, m < d.cells → ∀ k, k < n → d.radii.v m ≤ z m k ∧ z m k ≤ d.radii.v (m + 1)
  weight : ∀ m, m < d.cells → ∀ k, k < n → 0 ≤ w m k

/-- The chord sum of `f z` over the rings up to `i`. -/
def chordSum (n : Nat) (z w : Nat → Nat → ℝ) (i : Nat) (f : ℝ → ℝ) : ℝ :=
  ∑ m ∈ range (i + 1), ∑ k ∈ range n, w m k * f (z m k)

/-- The collision probability from `i` to `j` by summation over chords, `c` being a geometric constant. -/
def roundProb (d : Data) (K : ℝ → ℝ) (c : ℝ) (n : Nat) (z w : Nat → Nat → ℝ) (h i j : Nat) : ℝ :=
  if i < j then c / (d.vol.v i * d.tot.m h i) * chordSum n z w i (fun z => rayHit d K h z i j)
  else if i = j then 1 - c / (d.vol.v i * d.tot.m h i) * chordSum n z w i (fun z => rayOut d K h z i)
  else c / (d.vol.v i * d.tot.m h i) * chordSum n z w j (fun z => rayHit d K h z j i)

/-! ### boundary conditions -/

/-- Escape probability left over by the collision probabilities `P`. -/
def escape (d : Data) (P : ℕ × ℕ × ℕ → ℝ) (h i : Nat) : ℝ := 1 - ∑ j ∈ range d.cells, P (i, j, h)

/-- Probability that a neutron entering isotropically through a surface of area `S` crosses the body without collision, given the
escape probabilities `e` (by reciprocity between surface and volume). -/
def crossing (d : Data) (S : ℝ) (e : Nat → ℝ) (h : Nat) : ℝ :=
  1 - ∑ i ∈ range d.cells, 4 * d.vol.v i * d.tot.m h i * e i / S

/-- Losses exceed scattering everywhere, and nothing scatters a negative number of neutrons. -/
structure Absorbing (d : Data) : Prop where
  scatt_nonneg : ∀ g h i, g < d.energies → h < d.energies → i < d.cells → 0 ≤ d.scatt g h i
  absorbs : ∀ g i, g < d.energies → i < d.cells → ∑ h ∈ range d.energies, d.scatt g h i < d.tot.m g i

/-- Reciprocity of collision probabilities. -/
def Reciprocal (d : Data) (P : ℕ × ℕ × ℕ → ℝ) : Prop :=
  ∀ h i j, h < d.energies → i < d.cells → j < d.cells →
    d.tot.m h i * d.vol.v i * P (i, j, h) = d.tot.m h j * d.vol.v j * P (j, i, h)

/-! ### the multigroup transport equation -/

/-- Emission density in group `g`, cell `j`: scattering from all groups and fission divided by `k`. Unknown `j + g * cells` of `φ` is the
flux of group `g` in cell `j`. -/
def emission (d : Data) (φ : Nat → ℝ) (k : ℝ) (g j : Nat) : ℝ :=
  (∑ h ∈ range d.energies, d.scatt h g j * φ (j + h * d.cells)) +
    (1 / k) * (d.chi.m g j * ∑ h ∈ range d.energies, d.nu.m h j * d.fiss.m h j * φ (j + h * d.cells))

end

end Verif.CPM
