import Verif.Solve.Data
import Verif.Diffusion.Spec
import Verif.CPM.RaySpec
import Verif.Eigen.Spec
import Mathlib.Logic.Relation
import Mathlib.Topology.Instances.Real.Lemmas

/-!
# Specification vocabulary for the criticality solvers (no model definitions)

Unknown `i + g * cells` of a flux is the flux of group `g` in cell `i`.
-/

namespace Verif.Solve

open Finset Filter Topology

noncomputable section

/-- Scattering into group `g` of cell `i`. -/
def scatterIn (d : Diffusion.Data) (φ : Nat → ℝ) (g i : Nat) : ℝ :=
  ∑ h ∈ range d.energies, d.scatt h g i * φ (i + h * d.cells)

/-- Neutrons produced by fission per volume of cell `i`. -/
def production (d : Diffusion.Data) (φ : Nat → ℝ) (i : Nat) : ℝ :=
  ∑ h ∈ range d.energies, d.nu.m h i * d.fiss.m h i * φ (i + h * d.cells)

/-- Neutrons absorbed per volume of cell `i`: collisions less scattering to any group. -/
def absorption (d : Diffusion.Data) (φ : Nat → ℝ) (i : Nat) : ℝ :=
  ∑ g ∈ range d.energies, (d.tot.m g i - ∑ h ∈ range d.energies, d.scatt g h i) * φ (i + g * d.cells)

/-- The currents `J g m` (group `g`, face `m`, positive to the right) of the flux `φ`: Fick's law in the half cells on both sides of an inner
face, Fick's law and the albedo condition at the two boundaries. -/
structure Currents (d : Diffusion.Data) (aL aR : ℝ) (φ : Nat → ℝ) (J : Nat → Nat → ℝ) : Prop where
  inner : ∀ g i, g < d.energies → i + 1 < d.cells →
    Diffusion.FaceCurrent (d.D.m g i) (d.size.v i) (d.D.m g (i + 1)) (d.size.v (i + 1)) (d.surf.v (i + 1))
      (φ (i + g * d.cells)) (φ (i + 1 + g * d.cells)) (J g (i + 1))
  left : ∀ g, g < d.energies → Diffusion.AlbedoCurrent (d.D.m g 0) (d.size.v 0) aL (d.surf.v 0) (φ (0 + g * d.cells)) (-(J g 0))
  right : ∀ g, g < d.energies → Diffusion.AlbedoCurrent (d.D.m g (d.cells - 1)) (d.size.v (d.cells - 1)) aR (d.surf.v d.cells)
    (φ (d.cells - 1 + g * d.cells)) (J g d.cells)

/-- The multigroup diffusion equation on the mesh with multiplication factor `k`: in each cell and group, collisions plus the net
outflow are scattering in plus the fission neutrons of the group divided by `k`. -/
def DiffusionEq (d : Diffusion.Data) (aL aR k : ℝ) (φ : Nat → ℝ) : Prop :=
  ∃ J, Currents d aL aR φ J ∧ ∀ g i, g < d.energies → i < d.cells →
    d.tot.m g i * d.vol.v i * φ (i + g * d.cells) + J g (i + 1) - J g i =
      d.vol.v i * (scatterIn d φ g i + d.chi.m g i * production d φ i / k)

/-- The adjoint equation: scattering and fission with the roles of the groups exchanged. -/
def AdjointEq (d : Diffusion.Data) (aL aR k : ℝ) (φ : Nat → ℝ) : Prop :=
  ∃ J, Currents d aL aR φ J ∧ ∀ g i, g < d.energies → i < d.cells →
    d.tot.m g i * d.vol.v i * φ (i + g * d.cells) + J g (i + 1) - J g i =
      d.vol.v i * ((∑ h ∈ range d.energies, d.scatt g h i * φ (i + h * d.cells)) +
        d.nu.m g i * d.fiss.m g i * (∑ h ∈ range d.energies, d.chi.m h i * φ (i + h * d.cells)) / k)

/-- A flux that is nowhere negative and not zero everywhere. -/
def Physical (cells energies : Nat) (φ : Nat → ℝ) : Prop :=
  (∀ i, i < cells * energies → 0 ≤ φ i) ∧ ∃ i, i < cells * energies ∧ φ i ≠ 0

/-- Fission data: nothing negative, some cell where neutrons are produced, and where they are produced some group to emit them into. -/
structure Multiplying (d : Diffusion.Data) : Prop where
  chi_nonneg : ∀ g i, g < d.energies → i < d.cells → 0 ≤ d.chi.m g i
  prod_nonneg : ∀ g i, g < d.energies → i < d.cells → 0 ≤ d.nu.m g i * d.fiss.m g i
  emitted : ∀ i g, i < d.cells → g < d.energies → 0 < d.nu.m g i * d.fiss.m g i → ∃ h, h < d.energies ∧ 0 < d.chi.m h i
  somewhere : ∃ i g, i < d.cells ∧ g < d.energies ∧ 0 < d.nu.m g i * d.fiss.m g i

/-- One flight or collision: from (cell, group) to a neighbouring cell in the same group through a face of positive area, or to another
group of the same cell by scattering. -/
def Step (d : Diffusion.Data) (p q : Nat × Nat) : Prop :=
  p.1 < d.cells ∧ q.1 < d.cells ∧ p.2 < d.energies ∧ q.2 < d.energies ∧
  ((p.2 = q.2 ∧ p.1 + 1 = q.1 ∧ 0 < d.surf.v q.1) ∨ (p.2 = q.2 ∧ q.1 + 1 = p.1 ∧ 0 < d.surf.v p.1) ∨
    (p.1 = q.1 ∧ 0 < d.scatt p.2 q.2 p.1))

/-- From any cell with fission to any other: some fission neutron of the first can, by flights and collisions, cause fission in the second. -/
def Linked (d : Diffusion.Data) : Prop :=
  ∀ a b, a < d.cells → b < d.cells → (∃ g, g < d.energies ∧ 0 < d.nu.m g a * d.fiss.m g a) →
    (∃ g, g < d.energies ∧ 0 < d.nu.m g b * d.fiss.m g b) →
    ∃ g h, g < d.energies ∧ h < d.energies ∧ 0 < d.chi.m g a ∧ 0 < d.nu.m h b * d.fiss.m h b ∧
      Relation.ReflTransGen (Step d) (a, g) (b, h)

/-- Consistent tables, at least two cells, positive diffusion data, albedos between -1 and 1. -/
structure Sound (d : Diffusion.Data) (aL aR : ℝ) : Prop where
  wf : Diffusion.WellFormed d
  pos : Diffusion.Positive d
  cells : 2 ≤ d.cells
  albedos : Diffusion.HasAlbedos d aL aR
  left : -1 ≤ aL ∧ aL ≤ 1
  right : -1 ≤ aR ∧ aR ≤ 1

/-- Nothing negative in the fission data. -/
structure NonnegFission (d : Diffusion.Data) : Prop where
  chi : ∀ g i, g < d.energies → i < d.cells → 0 ≤ d.chi.m g i
  prod : ∀ g i, g < d.energies → i < d.cells → 0 ≤ d.nu.m g i * d.fiss.m g i
  fiss : ∀ g i, g < d.energies → i < d.cells → 0 ≤ d.fiss.m g i

/-- Fissions in cell `i`. -/
def fissions (d : Diffusion.Data) (φ : Nat → ℝ) (i : Nat) : ℝ :=
  ∑ e ∈ range d.energies, φ (i + e * d.cells) * d.fiss.m e i * d.vol.v i

/-- One positive volume per cell. -/
def Volumes (cells : Nat) (vol : Vec ℝ) : Prop := vol.n = cells ∧ ∀ i, i < cells → 0 < vol.v i

/-- `k` and `φ` satisfy `M φ = F φ / k`. -/
def Balances (n : Nat) (M F : Mat ℝ) (k : ℝ) (φ : Nat → ℝ) : Prop :=
  ∀ p, p < n → ∑ q ∈ range n, M.m p q * φ q = (∑ q ∈ range n, F.m p q * φ q) / k

/-- A criticality problem on which the solver can be relied on: consistent tables, at least two cells, positive diffusion data,
albedos between -1 and 1, some absorption everywhere, multiplication, and no decoupled fissile regions. -/
structure Regular (d : Diffusion.Data) (aL aR : ℝ) : Prop where
  wf : Diffusion.WellFormed d
  pos : Diffusion.Positive d
  cells : 2 ≤ d.cells
  albedos : Diffusion.HasAlbedos d aL aR
  left : -1 ≤ aL ∧ aL ≤ 1
  right : -1 ≤ aR ∧ aR ≤ 1
  absorbing : Diffusion.Absorbing d
  multiplying : Multiplying d
  linked : Linked d

/-- The multigroup equations of an infinite homogeneous medium with total cross sections `tot`, scattering `scatt g h` from `g` to `h`,
fission spectrum `chi` and production cross sections `prod`, for the spectrum `s` and multiplication factor `k`. -/
def InfiniteMedium (energies : Nat) (tot : Nat → ℝ) (scatt : Nat → Nat → ℝ) (chi prod : Nat → ℝ) (k : ℝ) (s : Nat → ℝ) : Prop :=
  ∀ g, g < energies → tot g * s g = (∑ h ∈ range energies, scatt h g * s h) + chi g * (∑ h ∈ range energies, prod h * s h) / k

/-- Exactly one mode is stored, with k-factor `k` and fluxes `φ`. -/
def Reports (st : Stored) (cells energies : Nat) (k : ℝ) (φ : Nat → ℝ) : Prop :=
  st.k = [.fin k] ∧ st.modes = 1 ∧ ∀ g i, g < energies → i < cells → st.flux g i 0 = .fin (φ (i + g * cells))

/-- The heat sources `q` (per m³) add up to the power over the volumes in m³ and are distributed like `rate`. -/
def Heats (cells : Nat) (power : ℝ) (volM : Vec ℝ) (rate : Nat → ℝ) (q : Vec ℝ) : Prop :=
  q.n = cells ∧ ∑ i ∈ range cells, q.v i * volM.v i = power ∧
    ∀ i, i < cells → q.v i * volM.v i * ∑ j ∈ range cells, rate j = power * rate i

/-- Generations of neutrons. The flux `x 0` and the k-factor `κ 0` are one. The first flux answers a source of one in each cell and group, every
further one the fission source of the one before over its k-factor. Each k-factor is the one before times the factor by which the fission source
has grown (that is, the square of the new source over its scalar product with the old one). The flux `y j` is `x j` over the sum of its absolute
values. -/
def Generations (cells energies : Nat) (source : (Nat → ℝ) → Nat → Nat → ℝ) (Answers : (Nat → Nat → ℝ) → (Nat → ℝ) → Prop) (κ : Nat → ℝ)
    (y : Nat → Nat → ℝ) : Prop :=
  ∃ x : Nat → Nat → ℝ, κ 0 = 1 ∧ (∀ p, p < cells * energies → x 0 p = 1) ∧ Answers (fun _ _ => 1) (x 1) ∧
    (∀ j, Answers (fun g i => source (x (j + 1)) g i / κ (j + 1)) (x (j + 2))) ∧
    (∀ j, κ (j + 1) = κ j * ((∑ g ∈ range energies, ∑ i ∈ range cells, source (x (j + 1)) g i * source (x (j + 1)) g i) /
      ∑ g ∈ range energies, ∑ i ∈ range cells, source (x j) g i * source (x (j + 1)) g i)) ∧
    ∀ j p, p < cells * energies → y j p = x j p / ∑ q ∈ range (cells * energies), |x j q|

/-- Generations in diffusion: the fission source of a group in a cell, answered by the flux that balances collisions and net outflow with
scattering and this source. -/
def DiffusionGenerations (d : Diffusion.Data) (aL aR : ℝ) : (Nat → ℝ) → (Nat → Nat → ℝ) → Prop :=
  Generations d.cells d.energies (fun φ g i => d.vol.v i * (d.chi.m g i * production d φ i)) fun q φ =>
    ∃ J, Currents d aL aR φ J ∧ ∀ g i, g < d.energies → i < d.cells →
      d.tot.m g i * d.vol.v i * φ (i + g * d.cells) + J g (i + 1) - J g i = d.vol.v i * scatterIn d φ g i + q g i

/-- The same for the adjoint equation. -/
def AdjointGenerations (d : Diffusion.Data) (aL aR : ℝ) : (Nat → ℝ) → (Nat → Nat → ℝ) → Prop :=
  Generations d.cells d.energies
    (fun φ g i => d.vol.v i * (d.nu.m g i * d.fiss.m g i * ∑ h ∈ range d.energies, d.chi.m h i * φ (i + h * d.cells))) fun q φ =>
    ∃ J, Currents d aL aR φ J ∧ ∀ g i, g < d.energies → i < d.cells →
      d.tot.m g i * d.vol.v i * φ (i + g * d.cells) + J g (i + 1) - J g i =
        d.vol.v i * (∑ h ∈ range d.energies, d.scatt g h i * φ (i + h * d.cells)) + q g i

/-- The calculation `run` (with an iteration limit and an accuracy) converges to the k-factor `k` and the flux `φ`: there are two
sequences with these limits and the property `generations` such that every run that returns stores the members of one and the same number, the first whose k-factor
differs from the one before by less than the accuracy; it returns whenever the limit and the largest `int` allow it to get there; and for each
accuracy a large enough limit does. -/
def Converges (run : Int → ℝ → Outcome State) (pick : State → Stored) (cells energies : Nat)
    (generations : (Nat → ℝ) → (Nat → Nat → ℝ) → Prop) (k : ℝ) (φ : Nat → ℝ) : Prop :=
  ∃ (κ : Nat → ℝ) (y : Nat → Nat → ℝ), generations κ y ∧ Tendsto κ atTop (𝓝 k) ∧
    (∀ p, p < cells * energies → Tendsto (fun j => y j p) atTop (𝓝 (φ p))) ∧
    (∀ maxIter acc s', run maxIter acc = .ok s' → ∃ n : Nat, (n : Int) + 1 ≤ maxIter ∧ Eigen.change κ n < acc ∧
      (∀ j, j < n → acc ≤ Eigen.change κ j) ∧ Reports (pick s') cells energies (κ (n + 1)) (y (n + 1))) ∧
    (∀ (maxIter : Int) (acc : ℝ) (n : Nat), (n : Int) + 1 ≤ maxIter → maxIter ≤ 2147483647 → Eigen.change κ n < acc → ∃ s', run maxIter acc = .ok s') ∧
    ∀ acc : ℝ, 0 < acc → ∃ n0 : Int, ∀ maxIter : Int, n0 ≤ maxIter → maxIter ≤ 2147483647 → ∃ s', run maxIter acc = .ok s'

/-- The QR solver of the library returns a solution for every finite right-hand side of a system that has exactly one. -/
def SolvesRegular (lib : Numerics) : Prop :=
  ∀ (n : Nat) (X : Mat Fl) (A : Nat → Nat → ℝ), X.r = n → X.c = n → (∀ i j, i < n → j < n → X.m i j = .fin (A i j)) →
    (∀ b : Nat → ℝ, ∃ x : Nat → ℝ, ∀ i, i < n → ∑ j ∈ range n, A i j * x j = b i) →
    ∀ b : Nat → ℝ, ∃ x : Nat → ℝ, (∀ i, i < n → lib.qr X ((List.range n).map (fun i => Fl.fin (b i))) i = .fin (x i)) ∧
      ∀ i, i < n → ∑ j ∈ range n, A i j * x j = b i

/-- The generalized eigenvalue solver of the library does its work on the matrices `M` and `F` of size `n`: all eigenvalues are real, those
above the tolerance come with an eigenvector in the column of the same number, and none is missing. -/
structure FindsModes (lib : Numerics) (n : Nat) (M F : Mat ℝ) : Prop where
  real : ∀ X Y : Mat Fl, Eigen.Square n X Y → Eigen.Entries n M.m X → Eigen.Entries n F.m Y → ∀ z ∈ lib.evals X Y, z.2 = .fin 0
  sound : ∀ X Y : Mat Fl, Eigen.Square n X Y → Eigen.Entries n M.m X → Eigen.Entries n F.m Y → ∀ i z, (lib.evals X Y)[i]? = some z →
    Eigen.Above z.1 → ∃ k, z.1 = .fin k ∧ Eigen.Eigenpair n M.m F.m k (fun p => lib.evecs X Y p i)
  complete : ∀ X Y : Mat Fl, Eigen.Square n X Y → Eigen.Entries n M.m X → Eigen.Entries n F.m Y → ∀ k ψ,
    Eigen.Eigenpair n M.m F.m k ψ → ∃ z ∈ lib.evals X Y, z.1 = .fin k

/-- Mode number `m` is stored with k-factor `k` and fluxes `φ`. -/
def HasMode (st : Stored) (cells energies m : Nat) (k : ℝ) (φ : Nat → ℝ) : Prop :=
  m < st.modes ∧ st.k[m]? = some (.fin k) ∧ ∀ g i, g < energies → i < cells → st.flux g i m = .fin (φ (i + g * cells))

/-- All modes are stored, the physical one with the k-factor `k` and the flux `φ` first: as many k-factors as modes, in non-increasing
order, and each mode with a positive k-factor not above `k` and a flux that is not zero and solves `equation`. -/
def ListsModes (st : Stored) (cells energies : Nat) (equation : ℝ → (Nat → ℝ) → Prop) (k : ℝ) (φ : Nat → ℝ) : Prop :=
  st.k.length = st.modes ∧ HasMode st cells energies 0 k φ ∧
  (∀ m, m < st.modes → ∃ km φm, HasMode st cells energies m km φm ∧ 0 < km ∧ km ≤ k ∧
    (∃ p, p < cells * energies ∧ φm p ≠ 0) ∧ equation km φm) ∧
  ∀ (m m' : Nat) (a b : ℝ), m < m' → st.k[m]? = some (Fl.fin a) → st.k[m']? = some (Fl.fin b) → b ≤ a

/-- The second problem has the same mesh and diffusion coefficients as the first, no lower total cross sections, no more scattering, no
more fission emission, and no higher albedos. -/
structure LessReactive (d d' : Diffusion.Data) (aL aR aL' aR' : ℝ) : Prop where
  cells : d'.cells = d.cells
  energies : d'.energies = d.energies
  vol : ∀ i, i < d.cells → d'.vol.v i = d.vol.v i
  surf : ∀ i, i ≤ d.cells → d'.surf.v i = d.surf.v i
  size : ∀ i, i < d.cells → d'.size.v i = d.size.v i
  D : ∀ g i, g < d.energies → i < d.cells → d'.D.m g i = d.D.m g i
  tot : ∀ g i, g < d.energies → i < d.cells → d.tot.m g i ≤ d'.tot.m g i
  scatt : ∀ g h i, g < d.energies → h < d.energies → i < d.cells → d'.scatt g h i ≤ d.scatt g h i
  emission : ∀ g h i, g < d.energies → h < d.energies → i < d.cells →
    d'.chi.m g i * (d'.nu.m h i * d'.fiss.m h i) ≤ d.chi.m g i * (d.nu.m h i * d.fiss.m h i)
  left : aL' ≤ aL
  right : aR' ≤ aR

/-! ### transport -/

/-- The reaction data of a transport problem (diffusion data are not used). -/
def reactions (d : CPM.Data) : Diffusion.Data :=
  { cells := d.cells, energies := d.energies, geom := .undefined, albedo := d.albedo, D := Mat.zero d.energies d.cells,
    tot := d.tot, fiss := d.fiss, nu := d.nu, chi := d.chi, scatt := d.scatt, vol := d.vol, surf := d.radii, size := d.vol }

/-- Flux in cell `i` if cell `j` emits one neutron per unit volume, from the first-flight collision probabilities `P` of the body in
vacuum: first flights from `j`, and flights that left through the surface and were sent back with the albedo `a`, any number of times. -/
def response (d : CPM.Data) (P : ℕ × ℕ × ℕ → ℝ) (g i j : Nat) : ℝ :=
  P (i, j, g) / d.tot.m g j + CPM.escape d P g i * (4 * d.vol.v j / d.surface * CPM.escape d P g j) *
    (d.albedo.v 0 / (1 - CPM.crossing d d.surface (CPM.escape d P g) g * d.albedo.v 0))

/-- The multigroup integral transport equation with multiplication factor `k`: the flux in each cell and group is the response to what all
cells emit, by scattering and by fission divided by `k`. -/
def TransportEq (d : CPM.Data) (P : ℕ × ℕ × ℕ → ℝ) (k : ℝ) (φ : Nat → ℝ) : Prop :=
  ∀ g i, g < d.energies → i < d.cells → φ (i + g * d.cells) =
    ∑ j ∈ range d.cells, response d P g i j *
      (scatterIn (reactions d) φ g j + d.chi.m g j * production (reactions d) φ j / k)

/-- Generations in transport: the source is the flux of the fission neutrons before their first scattering, answered by the flux that is this and
the response to its own scattering. -/
def TransportGenerations (d : CPM.Data) (P : ℕ × ℕ × ℕ → ℝ) : (Nat → ℝ) → (Nat → Nat → ℝ) → Prop :=
  Generations d.cells d.energies
    (fun φ g i => ∑ j ∈ range d.cells, response d P g i j * (d.chi.m g j * production (reactions d) φ j)) fun q φ =>
    ∀ g i, g < d.energies → i < d.cells →
      φ (i + g * d.cells) = ∑ j ∈ range d.cells, response d P g i j * scatterIn (reactions d) φ g j + q g i

/-- Consistent tables on a proper mesh with at least one cell, positive total cross sections and volumes, an albedo between 0 and 1, and
some absorption everywhere. -/
structure Body (d : CPM.Data) (geom : Diffusion.Geom) : Prop where
  wf : CPM.WellFormed d
  pos : CPM.Positive d
  mesh : CPM.MeshFor d geom
  cells : 0 < d.cells
  albedo : 0 ≤ d.albedo.v 0 ∧ d.albedo.v 0 ≤ 1
  absorbing : CPM.Absorbing d

/-- Scattering from group `g` to group `h` in some cell. -/
def GroupStep (d : CPM.Data) (g h : Nat) : Prop :=
  g < d.energies ∧ h < d.energies ∧ ∃ i, i < d.cells ∧ 0 < d.scatt g h i

/-- From any cell with fission to any other: some group of the fission neutrons of the first leads, by scattering somewhere, to a group that
causes fission in the second. -/
def GroupsLinked (d : CPM.Data) : Prop :=
  ∀ a b, a < d.cells → b < d.cells → (∃ g, g < d.energies ∧ 0 < d.nu.m g a * d.fiss.m g a) →
    (∃ g, g < d.energies ∧ 0 < d.nu.m g b * d.fiss.m g b) →
    ∃ g h, g < d.energies ∧ h < d.energies ∧ 0 < d.chi.m g a ∧ 0 < d.nu.m h b * d.fiss.m h b ∧ Relation.ReflTransGen (GroupStep d) g h

/-- Optical thickness that keeps the quadrature of the code from giving a cell a negative probability of a collision in itself: none is
needed in a slab; in a cylinder or sphere each ring must be opaque or the volume its rays see must not exceed the true one by too much. -/
def Thick (d : CPM.Data) (geom : Diffusion.Geom) : Prop :=
  ∀ h i, h < d.energies → i < d.cells → CPM.Resolved d geom h i

/-- The second problem has the same mesh and total cross sections as the first, no more scattering, no more fission emission and no higher
albedo. -/
structure LessMultiplying (d d' : CPM.Data) : Prop where
  cells : d'.cells = d.cells
  energies : d'.energies = d.energies
  radii : d'.radii = d.radii
  vol : d'.vol = d.vol
  surface : d'.surface = d.surface
  tot : d'.tot = d.tot
  scatt : ∀ g h i, g < d.energies → h < d.energies → i < d.cells → d'.scatt g h i ≤ d.scatt g h i
  emission : ∀ g h i, g < d.energies → h < d.energies → i < d.cells →
    d'.chi.m g i * (d'.nu.m h i * d'.fiss.m h i) ≤ d.chi.m g i * (d.nu.m h i * d.fiss.m h i)
  albedo : d'.albedo.v 0 ≤ d.albedo.v 0

end

end Verif.Solve
