import Verif.Input.Spec
import Verif.Calc.Spec

/-!
# Criticality as an input file describes it, without reference to the model
-/

namespace Verif.Input

open Verif Finset

noncomputable section

/-- The value at the temperature `x` of the law with the coefficients `v`. -/
def valueAt (v : Vec ℝ) (x : ℝ) : ℝ := Numeric.polyValue v.n v.v x

/-- The material of cell `i`. -/
def matAt (rs : List Region) (i : Nat) : Text := (cellNames rs).getD i []

/-- The nuclear data of materials, group by group: neutrons per fission, fission spectrum, fission and total cross sections, scattering from the first group to the second,
diffusion coefficients. Each is the list of the coefficients of a polynomial in the temperature. -/
structure Tables where
  nu : Nat → Text → Vec ℝ
  chi : Nat → Text → Vec ℝ
  fiss : Nat → Text → Vec ℝ
  tot : Nat → Text → Vec ℝ
  scatt : Nat → Nat → Text → Vec ℝ
  diff : Nat → Text → Vec ℝ

/-- The file gives the data `T` for the materials of the regions `rs` and `E` groups. -/
structure TableFile (lib : Lib) (lines : List Text) (rs : List Region) (E : Nat) (T : Tables) : Prop where
  nu : ∀ q ∈ rs, ∀ e, e < E → Law lib lines q.mat (groupKey "ni" e) 1 (T.nu e q.mat)
  chi : ∀ q ∈ rs, ∀ e, e < E → Law lib lines q.mat (groupKey "chi" e) 1 (T.chi e q.mat)
  fiss : ∀ q ∈ rs, ∀ e, e < E → Law lib lines q.mat (groupKey "fission" e) 1 (T.fiss e q.mat)
  tot : ∀ q ∈ rs, ∀ e, e < E → Law lib lines q.mat (groupKey "total" e) 1 (T.tot e q.mat)
  scatt : ∀ q ∈ rs, ∀ e f, e < E → f < E → Law lib lines q.mat (scattKey e f) 2 (T.scatt e f q.mat)

/-- The diffusion coefficients of the same file. -/
def DiffFile (lib : Lib) (lines : List Text) (rs : List Region) (E : Nat) (T : Tables) : Prop :=
  ∀ q ∈ rs, ∀ e, e < E → Law lib lines q.mat (groupKey "diffCoeff" e) 1 (T.diff e q.mat)

/-- The file asks the solver `k` for the fundamental mode, with the albedos `alb`, the accuracy `acc` and at most `n` passes; a diffusion solver is asked for the direction
`dir`. -/
structure CriticalAsks (lib : Lib) (lines : List Text) (k : Calc.Kind) (dir : String) (alb : Vec ℝ) (acc : ℝ) (n : Nat) : Prop where
  accuracy : ∃ v, Setting lines k "accuracy" [v] ∧ lib.stod v = .ok acc
  limit : ∃ v, Setting lines k "max_iteration_number" [v] ∧ Numeral v n ∧ n ≤ 2147483647
  albedo : ∃ ws, Setting lines k "albedo" ws ∧ Reads lib ws alb.toList
  direction : k = .diffusion → Setting lines k "direction" [dir.toList]
  modes : Setting lines k "eigenmodes" ["fundamental".toList]

/-- The file asks for the fundamental mode of the body of geometry `g` with the regions `rs`, `E` groups and the data `T`, from the solver `k` alone. -/
structure CriticalFile (lib : Lib) (lines : List Text) (k : Calc.Kind) (dir : String) (g : Diffusion.Geom) (rs : List Region) (E : Nat) (T : Tables) (alb : Vec ℝ) (acc : ℝ)
    (n : Nat) : Prop extends CriticalAsks lib lines k dir alb acc n where
  full : Full lib lines [k] g rs E
  data : TableFile lib lines rs E T
  diff : k = .diffusion → DiffFile lib lines rs E T

/-- The file asks for a source-driven calculation of the body of geometry `g` with the regions `rs`, `E` groups and the data `T`, with the albedos `alb` and a source of the
strength `s` in cell `pos` and group `e` (both counted from one in the file and from zero here). -/
structure DrivenFile (lib : Lib) (lines : List Text) (g : Diffusion.Geom) (rs : List Region) (E : Nat) (T : Tables) (alb : Vec ℝ) (s : ℝ) (pos e : Nat) : Prop where
  full : Full lib lines [.ads] g rs E
  data : TableFile lib lines rs E T
  diff : DiffFile lib lines rs E T
  albedo : ∃ ws, Setting lines .ads "albedo" ws ∧ Reads lib ws alb.toList
  source : ∃ u v w, Setting lines .ads "ext_source" [u, v, w] ∧ lib.stod u = .ok s ∧ Numeral v (pos + 1) ∧ Numeral w (e + 1)

/-- Neutrons of group `e` can become neutrons of group `f` by collisions in the body, at all temperatures of `X`. -/
def Reaches (rs : List Region) (E : Nat) (T : Tables) (X : Set ℝ) : Nat → Nat → Prop :=
  Relation.ReflTransGen (fun e f => e < E ∧ f < E ∧ ∃ q ∈ rs, ∀ x ∈ X, 0 < valueAt (T.scatt e f q.mat) x)

/-- The material produces neutrons in fissions, at some temperature of `X`. -/
def Fissile (E : Nat) (T : Tables) (X : Set ℝ) (mat : Text) : Prop := ∃ e, e < E ∧ ∃ x ∈ X, 0 < valueAt (T.nu e mat) x * valueAt (T.fiss e mat) x

/-- The case makes sense at the temperatures of `X`: regions of positive width; no negative data, and all groups lose more neutrons than they scatter; some region always produces
neutrons, every region that does at some temperature emits them in some group at all of them, and by collisions the neutrons of each such region can come to cause fissions in
each other. -/
structure CriticalCase (rs : List Region) (E : Nat) (T : Tables) (X : Set ℝ) : Prop where
  widths : ∀ q ∈ rs, 0 < q.width
  nu : ∀ q ∈ rs, ∀ e, e < E → ∀ x ∈ X, 0 ≤ valueAt (T.nu e q.mat) x
  chi : ∀ q ∈ rs, ∀ e, e < E → ∀ x ∈ X, 0 ≤ valueAt (T.chi e q.mat) x
  fiss : ∀ q ∈ rs, ∀ e, e < E → ∀ x ∈ X, 0 ≤ valueAt (T.fiss e q.mat) x
  scatt : ∀ q ∈ rs, ∀ e f, e < E → f < E → ∀ x ∈ X, 0 ≤ valueAt (T.scatt e f q.mat) x
  absorbs : ∀ q ∈ rs, ∀ e, e < E → ∀ x ∈ X, ∑ f ∈ range E, valueAt (T.scatt e f q.mat) x < valueAt (T.tot e q.mat) x
  somewhere : ∃ q ∈ rs, ∃ e, e < E ∧ ∀ x ∈ X, 0 < valueAt (T.nu e q.mat) x * valueAt (T.fiss e q.mat) x
  emitted : ∀ q ∈ rs, Fissile E T X q.mat → ∃ e, e < E ∧ ∀ x ∈ X, 0 < valueAt (T.chi e q.mat) x
  linked : ∀ a ∈ rs, ∀ b ∈ rs, Fissile E T X a.mat → Fissile E T X b.mat →
    ∃ e f, e < E ∧ f < E ∧ (∀ x ∈ X, 0 < valueAt (T.chi e a.mat) x) ∧ (∀ x ∈ X, 0 < valueAt (T.nu f b.mat) x * valueAt (T.fiss f b.mat) x) ∧ Reaches rs E T X e f

/-- At the temperature `x` the materials of the data `T'` have the same diffusion coefficients as those of `T`, no lower total cross sections, no more scattering and no more
emission by fissions. -/
structure Poorer (rs : List Region) (E : Nat) (T T' : Tables) (x : ℝ) : Prop where
  diff : ∀ q ∈ rs, ∀ e, e < E → valueAt (T'.diff e q.mat) x = valueAt (T.diff e q.mat) x
  tot : ∀ q ∈ rs, ∀ e, e < E → valueAt (T.tot e q.mat) x ≤ valueAt (T'.tot e q.mat) x
  scatt : ∀ q ∈ rs, ∀ e f, e < E → f < E → valueAt (T'.scatt e f q.mat) x ≤ valueAt (T.scatt e f q.mat) x
  emission : ∀ q ∈ rs, ∀ e f, e < E → f < E →
    valueAt (T'.chi e q.mat) x * (valueAt (T'.nu f q.mat) x * valueAt (T'.fiss f q.mat) x) ≤ valueAt (T.chi e q.mat) x * (valueAt (T.nu f q.mat) x * valueAt (T.fiss f q.mat) x)

/-- `d` is the diffusion problem of the body with the faces `b` (in m; the problem is in cm), when the laws are taken at the temperatures `x` of the cells. -/
structure DiffusionOf (g : Diffusion.Geom) (rs : List Region) (E : Nat) (T : Tables) (alb : Vec ℝ) (x : Nat → ℝ) (b : Vec ℝ) (d : Diffusion.Data) : Prop where
  faces : Spread (rs.map (fun r => (r.cells, r.width))) b
  wf : Diffusion.WellFormed d
  cells : d.cells = (cellNames rs).length
  energies : d.energies = E
  geom : d.geom = g
  albedo : d.albedo.toList = alb.toList
  size : ∀ i, i < d.cells → d.size.v i = 100 * b.v (i + 1) - 100 * b.v i
  vol : ∀ i, i < d.cells → d.vol.v i = ∫ r in (100 * b.v i)..(100 * b.v (i + 1)), Mesh.area g r
  surf : ∀ i, i ≤ d.cells → d.surf.v i = Mesh.area g (100 * b.v i)
  D : ∀ e i, e < E → i < d.cells → d.D.m e i = valueAt (T.diff e (matAt rs i)) (x i)
  tot : ∀ e i, e < E → i < d.cells → d.tot.m e i = valueAt (T.tot e (matAt rs i)) (x i)
  fiss : ∀ e i, e < E → i < d.cells → d.fiss.m e i = valueAt (T.fiss e (matAt rs i)) (x i)
  nu : ∀ e i, e < E → i < d.cells → d.nu.m e i = valueAt (T.nu e (matAt rs i)) (x i)
  chi : ∀ e i, e < E → i < d.cells → d.chi.m e i = valueAt (T.chi e (matAt rs i)) (x i)
  scatt : ∀ e f i, e < E → f < E → i < d.cells → d.scatt e f i = valueAt (T.scatt e f (matAt rs i)) (x i)

/-- `d` is the transport problem of the body with the faces `b` (in m; the problem is in cm), when the laws are taken at the temperatures `x` of the cells. About the external surface of a
sphere nothing is said. -/
structure TransportOf (g : Diffusion.Geom) (rs : List Region) (E : Nat) (T : Tables) (alb : Vec ℝ) (x : Nat → ℝ) (b : Vec ℝ) (d : CPM.Data) : Prop where
  faces : Spread (rs.map (fun r => (r.cells, r.width))) b
  wf : CPM.WellFormed d
  cells : d.cells = (cellNames rs).length
  energies : d.energies = E
  albedo : d.albedo.toList = alb.toList
  radii : ∀ i, i ≤ d.cells → d.radii.v i = 100 * b.v i
  vol : ∀ i, i < d.cells → d.vol.v i = ∫ r in (100 * b.v i)..(100 * b.v (i + 1)), Mesh.area g r
  surface_pos : 0 < d.surface
  surface : g ≠ .sphere → d.surface = Mesh.area g (100 * b.v d.cells)
  tot : ∀ e i, e < E → i < d.cells → d.tot.m e i = valueAt (T.tot e (matAt rs i)) (x i)
  fiss : ∀ e i, e < E → i < d.cells → d.fiss.m e i = valueAt (T.fiss e (matAt rs i)) (x i)
  nu : ∀ e i, e < E → i < d.cells → d.nu.m e i = valueAt (T.nu e (matAt rs i)) (x i)
  chi : ∀ e i, e < E → i < d.cells → d.chi.m e i = valueAt (T.chi e (matAt rs i)) (x i)
  scatt : ∀ e f i, e < E → f < E → i < d.cells → d.scatt e f i = valueAt (T.scatt e f (matAt rs i)) (x i)

/-- The reactor has the single forward k-factor `k` with the flux `φ` (unknown `i + e * N` is group `e` of cell `i`). -/
def Found (p : Calc.Plant) (N E : Nat) (k : ℝ) (φ : Nat → ℝ) : Prop :=
  p.kForward = [.fin k] ∧ p.grid.nForward = 1 ∧ ∀ e i, e < E → i < N → (p.grid.mats.v i).flux.m e 0 = .fin (φ (i + e * N))

/-- The same for the adjoint results. -/
def FoundAdjoint (p : Calc.Plant) (N E : Nat) (k : ℝ) (φ : Nat → ℝ) : Prop :=
  p.kAdjoint = [.fin k] ∧ p.grid.nAdjoint = 1 ∧ ∀ e i, e < E → i < N → (p.grid.mats.v i).adj.m e 0 = .fin (φ (i + e * N))

/-- The reactor after a criticality calculation: the body of the file at temperature zero, the k-factor and the flux (nowhere negative, of sum one), and the power `power`
distributed over the cells as the fissions `rate`. -/
structure Critical (g : Diffusion.Geom) (rs : List Region) (E : Nat) (power : ℝ) (rate : Nat → ℝ) (p : Calc.Plant) (k : ℝ) (φ : Nat → ℝ) : Prop where
  geom : p.grid.geom = g
  mesh : Meshed rs p.grid
  groups : p.grid.energies = E
  cold : ∀ i, i < (cellNames rs).length → Calc.temp p i = 0
  found : Found p (cellNames rs).length E k φ
  sign : ∀ x, x < (cellNames rs).length * E → 0 ≤ φ x
  unit : ∑ x ∈ range ((cellNames rs).length * E), φ x = 1
  rates : (∀ i, i < (cellNames rs).length → 0 ≤ rate i) ∧ 0 < ∑ i ∈ range (cellNames rs).length, rate i
  total : Calc.totalHeat p = power
  share : ∀ i, i < (cellNames rs).length → Calc.heat p i * Calc.volume p.grid i * ∑ j ∈ range (cellNames rs).length, rate j = power * rate i

/-- The reactor after an adjoint calculation: the body of the file at temperature zero and without heat sources, and the results. -/
structure CriticalAdjoint (g : Diffusion.Geom) (rs : List Region) (E : Nat) (p : Calc.Plant) (k : ℝ) (φ : Nat → ℝ) : Prop where
  geom : p.grid.geom = g
  mesh : Meshed rs p.grid
  groups : p.grid.energies = E
  cold : ∀ i, i < (cellNames rs).length → Calc.temp p i = 0
  idle : ∀ i, i < (cellNames rs).length → Calc.heat p i = 0
  found : FoundAdjoint p (cellNames rs).length E k φ

/-- A run with the accuracy `acc` and the limit `n` that follows the iterates `κ`, `y`: it ends with the first k-factor that differs from the one before by less than the
accuracy (relatively), and the flux of the same pass, if the limit allows it to get there, and with a message if not. (For the largest `int` as limit the second is not
claimed: the counter overflows.) -/
def Settles (run : Outcome Calc.Plant) (R : Calc.Plant → ℝ → (Nat → ℝ) → Prop) (n : Nat) (acc : ℝ) (κ : Nat → ℝ) (y : Nat → Nat → ℝ) : Prop :=
  (∀ m, m + 1 ≤ n → (∀ j, j < m → acc ≤ Eigen.change κ j) → Eigen.change κ m < acc → ∃ p', run = .ok p' ∧ R p' (κ (m + 1)) (y (m + 1))) ∧
  (n < 2147483647 → (∀ m, m + 1 ≤ n → acc ≤ Eigen.change κ m) → run = .exit)

end

end Verif.Input
