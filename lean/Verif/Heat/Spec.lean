import Verif.Heat.Data
import Verif.Core.Fl
import Mathlib.Algebra.BigOperators.Group.Finset.Basic

/-! # What the heat calculation should satisfy (no definition of the model is used here) -/

namespace Verif.Heat

open Verif Finset

/-- Sizes and signs of a meaningful problem with at least two cells. In a slab every surface is one square metre. -/
structure Physical (d : Data) : Prop where
  two : 2 ≤ d.cells
  radii_n : d.radii.n = d.cells + 1
  size_n : d.size.n = d.cells
  vol_n : d.vol.n = d.cells
  surf_n : d.surf.n = d.cells + 1
  k_n : d.k.n = d.cells
  q_n : d.q.n = d.cells
  size_eq : ∀ i < d.cells, d.size.v i = d.radii.v (i + 1) - d.radii.v i
  size_pos : ∀ i < d.cells, 0 < d.size.v i
  surf_pos : ∀ i < d.cells, 0 < d.surf.v (i + 1)
  slab : d.geom = .slab → d.surf.v 0 = 1
  k_pos : ∀ i < d.cells, 0 < d.k.v i
  vol_pos : ∀ i < d.cells, 0 < d.vol.v i

/-- The numbers the user gives for the boundaries: three numbers describe the right one, the left one being insulated,
six numbers describe both. -/
def Boundaries (bc : Vec ℝ) (AL BL CL AR BR CR : ℝ) : Prop :=
  (bc.toList = [AR, BR, CR] ∧ AL = 0 ∧ BL = 1 ∧ CL = 0) ∨ bc.toList = [AL, BL, CL, AR, BR, CR]

/-- `J` is the heat flowing out of a boundary cell of temperature `t`, conductivity `k` and size `h` through its outer face of
surface `S`, when the temperature `ts` of that face and the heat flux satisfy `A * ts - B * (J / S) = C`. Prescribed
temperature is `B = 0`, an insulated face is `A = 0, C = 0`, convection to a fluid is `A * (ts - C / A) = J / S` with `B = 1`. -/
def OutFlow (A B C k h S t J : ℝ) : Prop :=
  ∃ ts, J = S * (k * ((t - ts) / (h / 2))) ∧ A * ts - B * (J / S) = C

/-- `J` is the heat flowing from a cell of temperature `t1` to its right neighbour of temperature `t2` through their common face
of surface `S`: Fourier's law holds in both half cells with one temperature `ts` of the face. -/
def Fourier (k1 h1 k2 h2 S t1 t2 J : ℝ) : Prop :=
  ∃ ts, J = S * (k1 * ((t1 - ts) / (h1 / 2))) ∧ J = S * (k2 * ((ts - t2) / (h2 / 2)))

/-- Steady heat conduction in `n` cells of the sizes `h`, conductivities `k` and surfaces `S` in which the heat `Q` is produced: the heat `J i` through
face `i` obeys Fourier's law in the half cells at both sides, the outer faces obey the boundary conditions, only a slab has a face on the
left, and every cell loses what it produces. -/
def Steady (geom : Diffusion.Geom) (n : Nat) (h k S Q : Nat → ℝ) (AL BL CL AR BR CR : ℝ) (t : Nat → ℝ) : Prop :=
  ∃ J : Nat → ℝ, (if geom = .slab then OutFlow AL BL CL (k 0) (h 0) 1 (t 0) (-J 0) else J 0 = 0) ∧
    OutFlow AR BR CR (k (n - 1)) (h (n - 1)) (S n) (t (n - 1)) (J n) ∧
    (∀ i, 1 ≤ i → i < n → Fourier (k (i - 1)) (h (i - 1)) (k i) (h i) (S i) (t (i - 1)) (t i) (J i)) ∧
    ∀ i, i < n → J (i + 1) - J i = Q i

/-- What the program takes for it. At an inner face the thicknesses of the two half cells are exchanged. At the last inner face the
conductivity of the last cell is used on both sides, and the heat that enters the last cell there is not the heat `J (n - 1)` that leaves
the cell before it, over the size of the last cell, but the heat `I` over the mean size of the two cells before the last one. -/
def Conducted (geom : Diffusion.Geom) (n : Nat) (h k S Q : Nat → ℝ) (AL BL CL AR BR CR : ℝ) (t : Nat → ℝ) : Prop :=
  ∃ (J : Nat → ℝ) (I : ℝ), (if geom = .slab then OutFlow AL BL CL (k 0) (h 0) 1 (t 0) (-J 0) else J 0 = 0) ∧
    OutFlow AR BR CR (k (n - 1)) (h (n - 1)) (S n) (t (n - 1)) (J n) ∧
    (∀ i, 1 ≤ i → i + 1 < n → Fourier (k (i - 1)) (h i) (k i) (h (i - 1)) (S i) (t (i - 1)) (t i) (J i)) ∧
    Fourier (k (n - 1)) (h (n - 1)) (k (n - 1)) (h (n - 1)) (S (n - 1)) (t (n - 2)) (t (n - 1)) (J (n - 1)) ∧
    Fourier (k (n - 1)) (h (n - 2)) (k (n - 1)) (if 2 < n then h (n - 3) else h (n - 2)) (S (n - 1)) (t (n - 2)) (t (n - 1)) I ∧
    (∀ i, i + 1 < n → J (i + 1) - J i = Q i) ∧ J n - I = Q (n - 1)

/-- The errors do no harm: at every inner face but the last one, both cells have the same size or the same conductivity; the
last two cells have the same conductivity, and the last three cells (two, if there are no more) the same size. -/
structure Harmless (n : Nat) (h k : Nat → ℝ) : Prop where
  inner : ∀ i, 1 ≤ i → i + 1 < n → h (i - 1) = h i ∨ k (i - 1) = k i
  last : k (n - 2) = k (n - 1) ∧ h (n - 2) = h (n - 1)
  third : 2 < n → h (n - 3) = h (n - 2)

/-- `t` solves the linear system. -/
def Solves (T : Mat ℝ) (rhs : Vec ℝ) (n : Nat) (t : Nat → ℝ) : Prop :=
  ∀ i < n, ∑ j ∈ range n, T.m i j * t j = rhs.v i

/-- Steady heat balance of the whole body: the heat produced equals the heat leaving through the outer faces. Only a slab
has a face on the left. -/
def Balance (d : Data) (AL BL CL AR BR CR : ℝ) (t : Nat → ℝ) : Prop :=
  ∃ JL JR, (if d.geom = .slab then OutFlow AL BL CL (d.k.v 0) (d.size.v 0) 1 (t 0) JL else JL = 0) ∧
    OutFlow AR BR CR (d.k.v (d.cells - 1)) (d.size.v (d.cells - 1)) (d.surf.v d.cells) (t (d.cells - 1)) JR ∧
    ∑ i ∈ range d.cells, d.q.v i * d.vol.v i = JL + JR

/-- The boundary conditions determine the heat flow out of the boundary cells. -/
structure Determined (d : Data) (AL BL AR BR : ℝ) : Prop where
  left : d.geom = .slab → d.size.v 0 / (2 * d.k.v 0) * AL + BL ≠ 0
  right : d.size.v (d.cells - 1) / (2 * d.k.v (d.cells - 1)) * AR + BR ≠ 0

/-- Physically meaningful boundary numbers: non-negative coefficients, each condition is not void, and the temperature is tied to
the surroundings at one face at least. -/
structure Admissible (d : Data) (AL BL AR BR : ℝ) : Prop where
  AL_nonneg : 0 ≤ AL
  BL_nonneg : 0 ≤ BL
  AR_nonneg : 0 ≤ AR
  BR_nonneg : 0 ≤ BR
  left : d.geom = .slab → 0 < AL + BL
  right : 0 < AR + BR
  tied : 0 < AR ∨ (d.geom = .slab ∧ 0 < AL)

/-- The conductivity `l` of two layers of thickness `a` and `b` crossed one after the other. -/
def InSeries (a b k1 k2 l : ℝ) : Prop := (a + b) / l = a / k1 + b / k2

/-- The fields of an iteration that starts with `init`: pass `i` turns the previous field into the next one by `field i`. -/
def fields (field : Nat → Vec Fl → Vec Fl) (init : Vec Fl) : Nat → Vec Fl
  | 0 => init
  | i + 1 => field i (fields field init i)

/-- All entries are finite numbers. -/
def AllFin (x : Vec Fl) : Prop := ∀ i < x.n, (x.v i).IsFin

/-- All entries of two fields differ by less than `acc`. -/
def Agree (x y : Vec Fl) (acc : ℝ) : Prop :=
  ∀ i < x.n, ∃ a b, x.v i = .fin a ∧ y.v i = .fin b ∧ |a - b| < acc

end Verif.Heat
