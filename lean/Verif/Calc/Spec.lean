import Verif.Calc.Data
import Verif.Mesh.Spec
import Verif.Heat.Spec
import Verif.Solve.Spec

/-! # What single, coupled and source-driven calculations should satisfy (no definition of the model is used here) -/

namespace Verif.Calc

open Verif Outcome Finset

noncomputable section

/-! ### coupled calculations -/

variable {R M N : Type}

/-- One solver in pass `i` of a coupled calculation with relaxation parameter `w`: it turns the reactor `r` into `r'`, and `x` is its main
parameter. From the second pass on its results are relaxed, after the main parameter was taken. -/
def Half (a : Part R M) (w : ℝ) (i : Nat) (r r' : R) (x : Param) : Prop :=
  ∃ s m, a.solve r = ok (s, m) ∧ a.main s = ok x ∧ (i = 0 → r' = s) ∧ (i ≠ 0 → a.relax w s m = ok r')

/-- `n` passes of a coupled calculation: pass `i` applies both solvers to the reactor `r i` and gives `r (i + 1)`, with the main parameters
`x i` and `y i`. -/
def History (a : Part R M) (b : Part R N) (w : ℝ) (n : Nat) (r : Nat → R) (x y : Nat → Param) : Prop :=
  ∀ i, i < n → ∃ s, Half a w i (r i) s (x i) ∧ Half b w i s (r (i + 1)) (y i)

/-- Two values of a main parameter agree: numbers relative to the new one, which must not be zero; vectors and matrices entry by entry,
in absolute terms. -/
def Near (acc : ℝ) : Param → Param → Prop
  | .num new, .num old => ∃ u v, new = .fin u ∧ old = .fin v ∧ u ≠ 0 ∧ |u - v| ≤ acc * |u|
  | .vec new, .vec old => ∀ i, i < new.n → ∃ u v, new.v i = .fin u ∧ old.v i = .fin v ∧ |u - v| ≤ acc
  | .mat new, .mat old => ∀ i j, i < new.r → j < new.c → ∃ u v, new.m i j = .fin u ∧ old.m i j = .fin v ∧ |u - v| ≤ acc
  | _, _ => False

/-- The stopping criterion in pass `i`: in the first pass there is nothing to compare with, and the deviation counts as one. -/
def Settled (acc : ℝ) (x y : Nat → Param) : Nat → Prop
  | 0 => 1 ≤ acc
  | i + 1 => Near acc (x (i + 1)) (x i) ∧ Near acc (y (i + 1)) (y i)

/-- What a main parameter is: a number (finite or not), or a field of `n` finite values, or a table of finite values. -/
inductive Shape
  | num
  | field (n : Nat)
  | table (r c : Nat)

/-- The parameter has the given shape; fields and tables are not empty. -/
def Has : Shape → Param → Prop
  | .num, x => ∃ z, x = .num z
  | .field n, x => 0 < n ∧ ∃ v, x = .vec v ∧ v.n = n ∧ ∀ i, i < n → (v.v i).IsFin
  | .table r c, x => 0 < r ∧ 0 < c ∧ ∃ v, x = .mat v ∧ v.r = r ∧ v.c = c ∧ ∀ i j, i < r → j < c → (v.m i j).IsFin

/-- `big` finds the largest number of a list of finite numbers. -/
def Largest (big : List Fl → Fl) : Prop :=
  ∀ l : List ℝ, l ≠ [] → ∃ m, m ∈ l ∧ (∀ x ∈ l, x ≤ m) ∧ big (l.map Fl.fin) = .fin m

/-! ### fields of the reactor -/

/-- Temperature of cell `i` in °C. -/
def temp (p : Plant) (i : Nat) : ℝ := (p.grid.mats.v i).T

/-- Heat source of cell `i` in W/m³. -/
def heat (p : Plant) (i : Nat) : ℝ := (p.grid.mats.v i).q

/-- Volume of cell `i` in m³ (per m² of a slab, per m of a cylinder). -/
def volume (g : Mesh.Grid) (i : Nat) : ℝ := ∫ r in (g.bounds.v i)..(g.bounds.v (i + 1)), Mesh.area g.geom r

/-- The heat produced in all cells together, in W. -/
def totalHeat (p : Plant) : ℝ := ∑ i ∈ range p.grid.cells, heat p i * volume p.grid i

/-- Two materials with the same name and the same laws. -/
structure SameMaterial (m m' : Mesh.Material) : Prop where
  name : m'.name = m.name
  energies : m'.energies = m.energies
  kLaw : m'.kLaw = m.kLaw
  tot : m'.tot = m.tot
  fiss : m'.fiss = m.fiss
  diff : m'.diff = m.diff
  scatt : m'.scatt = m.scatt
  nu : m'.nu = m.nu
  chi : m'.chi = m.chi

/-- Two meshes with the same cells and the same material laws; temperatures, heat sources and fluxes may differ. -/
structure SameBody (g g' : Mesh.Grid) : Prop where
  geom : g'.geom = g.geom
  bounds : g'.bounds = g.bounds
  cells : g'.cells = g.cells
  energies : g'.energies = g.energies
  mats_n : g'.mats.n = g.mats.n
  mats : ∀ i, i < g.cells → SameMaterial (g.mats.v i) (g'.mats.v i)

/-- What no calculation may change: the body, the power, the kinetics data and the external source. -/
structure Kept (p p' : Plant) : Prop where
  body : SameBody p.grid p'.grid
  power : p'.power = p.power
  kinetics : p'.kinetics = p.kinetics
  source : p'.source = p.source

/-! ### heat conduction on the mesh -/

/-- `d` is the heat problem of the mesh `g` with boundary numbers `bc` when the conductivities, given by the laws `c`, are taken at the
temperatures `s`. -/
structure HeatOn (g : Mesh.Grid) (c : Nat → Vec ℝ) (bc : Vec ℝ) (s : Nat → ℝ) (d : Heat.Data) : Prop where
  physical : Heat.Physical d
  cells : d.cells = g.cells
  geom : d.geom = g.geom
  bc : d.bc = bc
  radii : d.radii = g.bounds
  vol : ∀ i, i < g.cells → d.vol.v i = volume g i
  surf : ∀ i, i ≤ g.cells → d.surf.v i = Mesh.area g.geom (g.bounds.v i)
  k : ∀ i, i < g.cells → d.k.v i = Numeric.polyValue (c i).n (c i).v (s i)
  q : ∀ i, i < g.cells → d.q.v i = (g.mats.v i).q

/-- A sensible heat problem on at least two cells: a conductivity law for each cell, positive for temperatures of `m` or more, and
physically meaningful boundary numbers (see `Heat.Admissible`) that do not let the temperature fall below `m`. -/
structure Conducting (g : Mesh.Grid) (c : Nat → Vec ℝ) (bc : Vec ℝ) (AL BL CL AR BR CR m : ℝ) : Prop where
  shaped : Mesh.Shaped g
  mats_n : g.mats.n = g.cells
  two : 2 ≤ g.cells
  laws : ∀ i, i < g.cells → (g.mats.v i).kLaw = some (c i)
  pos : ∀ i, i < g.cells → ∀ T, m ≤ T → 0 < Numeric.polyValue (c i).n (c i).v T
  boundaries : Heat.Boundaries bc AL BL CL AR BR CR
  AL_nonneg : 0 ≤ AL
  BL_nonneg : 0 ≤ BL
  AR_nonneg : 0 ≤ AR
  BR_nonneg : 0 ≤ BR
  left : g.geom = .slab → 0 < AL + BL
  right : 0 < AR + BR
  tied : 0 < AR ∨ (g.geom = .slab ∧ 0 < AL)
  lowLeft : g.geom = .slab → AL * m ≤ CL
  lowRight : AR * m ≤ CR

/-- The heat problem `d` with the temperatures `t`, as the program understands it (see `Heat.Conducted`). -/
def Conducted (d : Heat.Data) (AL BL CL AR BR CR : ℝ) (t : Nat → ℝ) : Prop :=
  Heat.Conducted d.geom d.cells d.size.v d.k.v d.surf.v (fun i => d.q.v i * d.vol.v i) AL BL CL AR BR CR t

/-- Steady heat conduction in the heat problem `d`. -/
def Steady (d : Heat.Data) (AL BL CL AR BR CR : ℝ) (t : Nat → ℝ) : Prop :=
  Heat.Steady d.geom d.cells d.size.v d.k.v d.surf.v (fun i => d.q.v i * d.vol.v i) AL BL CL AR BR CR t

/-- The linear solver of the library returns the solution of a system that has exactly one. -/
def LinSolves (lin : Mat ℝ → List ℝ → Nat → ℝ) : Prop :=
  ∀ (n : Nat) (T : Mat ℝ) (b : Vec ℝ), T.r = n → T.c = n → b.n = n →
    (∃ t, Heat.Solves T b n t ∧ ∀ t', Heat.Solves T b n t' → ∀ i < n, t' i = t i) → Heat.Solves T b n (lin T b.toList)

/-- The stopping criterion of the heat iteration in pass `j`, `t j` being the temperatures before it: all temperatures changed by less
than `acc`. In the first pass they are compared with one degree instead. -/
def Calm (cells : Nat) (acc : ℝ) (t : Nat → Nat → ℝ) : Nat → Prop
  | 0 => ∀ i, i < cells → |t 1 i - 1| < acc
  | j + 1 => ∀ i, i < cells → |t (j + 2) i - t (j + 1) i| < acc

/-- The mesh `g'` is `g` with the temperatures `t`. -/
structure Heated (g : Mesh.Grid) (t : Nat → ℝ) (g' : Mesh.Grid) : Prop where
  geom : g'.geom = g.geom
  bounds : g'.bounds = g.bounds
  cells : g'.cells = g.cells
  energies : g'.energies = g.energies
  nForward : g'.nForward = g.nForward
  nAdjoint : g'.nAdjoint = g.nAdjoint
  mats_n : g'.mats.n = g.mats.n
  mats : ∀ i, i < g.cells → g'.mats.v i = { g.mats.v i with T := t i }

/-- The mesh `g'` is `g` with the heat sources `q`. -/
structure Powered (g : Mesh.Grid) (q : Nat → ℝ) (g' : Mesh.Grid) : Prop where
  geom : g'.geom = g.geom
  bounds : g'.bounds = g.bounds
  cells : g'.cells = g.cells
  energies : g'.energies = g.energies
  nForward : g'.nForward = g.nForward
  nAdjoint : g'.nAdjoint = g.nAdjoint
  mats_n : g'.mats.n = g.mats.n
  mats : ∀ i, i < g.cells → g'.mats.v i = { g.mats.v i with q := q i }

/-! ### neutronics on the mesh -/

/-- `d` is the diffusion problem of the mesh `g` with the albedos `alb` when the laws of the materials are taken at the temperatures `s`
(lengths in cm). -/
structure DiffusionOn (g : Mesh.Grid) (alb : Vec ℝ) (s : Nat → ℝ) (d : Diffusion.Data) : Prop where
  wf : Diffusion.WellFormed d
  cells : d.cells = g.cells
  energies : d.energies = g.energies
  geom : d.geom = g.geom
  albedo : d.albedo = alb
  size : ∀ i, i < g.cells → d.size.v i = 100 * g.bounds.v (i + 1) - 100 * g.bounds.v i
  vol : ∀ i, i < g.cells → d.vol.v i = ∫ r in (100 * g.bounds.v i)..(100 * g.bounds.v (i + 1)), Mesh.area g.geom r
  surf : ∀ i, i ≤ g.cells → d.surf.v i = Mesh.area g.geom (100 * g.bounds.v i)
  D : ∀ e i, e < g.energies → i < g.cells → d.D.m e i = Mesh.law (g.mats.v i).diff (s i) e
  tot : ∀ e i, e < g.energies → i < g.cells → d.tot.m e i = Mesh.law (g.mats.v i).tot (s i) e
  fiss : ∀ e i, e < g.energies → i < g.cells → d.fiss.m e i = Mesh.law (g.mats.v i).fiss (s i) e
  nu : ∀ e i, e < g.energies → i < g.cells → d.nu.m e i = Mesh.law (g.mats.v i).nu (s i) e
  chi : ∀ e i, e < g.energies → i < g.cells → d.chi.m e i = Mesh.law (g.mats.v i).chi (s i) e
  scatt : ∀ e f i, e < g.energies → f < g.energies → i < g.cells →
    d.scatt e f i = Mesh.law (g.mats.v i).scatt (s i) (f + e * g.energies)

/-- `d` is the transport problem of the mesh `g` with the albedos `alb` when the laws of the materials are taken at the temperatures `s`
(lengths in cm). About the external surface of a sphere nothing is said. -/
structure TransportOn (g : Mesh.Grid) (alb : Vec ℝ) (s : Nat → ℝ) (d : CPM.Data) : Prop where
  wf : CPM.WellFormed d
  cells : d.cells = g.cells
  energies : d.energies = g.energies
  albedo : d.albedo = alb
  radii : ∀ i, d.radii.v i = 100 * g.bounds.v i
  vol : ∀ i, i < g.cells → d.vol.v i = ∫ r in (d.radii.v i)..(d.radii.v (i + 1)), Mesh.area g.geom r
  surface_pos : 0 < d.surface
  surface : g.geom ≠ .sphere → d.surface = Mesh.area g.geom (d.radii.v d.cells)
  tot : ∀ e i, e < g.energies → i < g.cells → d.tot.m e i = Mesh.law (g.mats.v i).tot (s i) e
  fiss : ∀ e i, e < g.energies → i < g.cells → d.fiss.m e i = Mesh.law (g.mats.v i).fiss (s i) e
  nu : ∀ e i, e < g.energies → i < g.cells → d.nu.m e i = Mesh.law (g.mats.v i).nu (s i) e
  chi : ∀ e i, e < g.energies → i < g.cells → d.chi.m e i = Mesh.law (g.mats.v i).chi (s i) e
  scatt : ∀ e f i, e < g.energies → f < g.energies → i < g.cells →
    d.scatt e f i = Mesh.law (g.mats.v i).scatt (s i) (f + e * g.energies)

/-- Sensible nuclear data in every cell, whatever its temperature from `m` on: all laws are there, nothing is negative, and every group loses
more neutrons by collisions than it scatters. -/
structure Nuclear (g : Mesh.Grid) (m : ℝ) : Prop where
  complete : ∀ i, i < g.cells → Mesh.Complete (g.mats.v i) g.energies
  scatt : ∀ n i, n < g.energies * g.energies → i < g.cells → ∀ T, m ≤ T → 0 ≤ Mesh.law (g.mats.v i).scatt T n
  absorbs : ∀ e i, e < g.energies → i < g.cells → ∀ T, m ≤ T →
    ∑ f ∈ range g.energies, Mesh.law (g.mats.v i).scatt T (f + e * g.energies) < Mesh.law (g.mats.v i).tot T e
  chi : ∀ e i, e < g.energies → i < g.cells → ∀ T, m ≤ T → 0 ≤ Mesh.law (g.mats.v i).chi T e
  nu : ∀ e i, e < g.energies → i < g.cells → ∀ T, m ≤ T → 0 ≤ Mesh.law (g.mats.v i).nu T e
  fiss : ∀ e i, e < g.energies → i < g.cells → ∀ T, m ≤ T → 0 ≤ Mesh.law (g.mats.v i).fiss T e

/-- Positive diffusion coefficients from the temperature `m` on. -/
structure Diffusive (g : Mesh.Grid) (m : ℝ) : Prop where
  laws : ∀ i, i < g.cells → g.energies ≤ (g.mats.v i).diff.length
  pos : ∀ e i, e < g.energies → i < g.cells → ∀ T, m ≤ T → 0 < Mesh.law (g.mats.v i).diff T e

/-- Albedos between -1 and 1 for a diffusion calculation: two for a slab, otherwise one. -/
def GoodAlbedos (geom : Diffusion.Geom) (alb : Vec ℝ) : Prop :=
  (geom = .slab → 2 ≤ alb.n ∧ -1 ≤ alb.v 1 ∧ alb.v 1 ≤ 1) ∧ 1 ≤ alb.n ∧ -1 ≤ alb.v 0 ∧ alb.v 0 ≤ 1

/-- What a criticality calculation on the reactor `p` with fluxes `φ` (unknown `i + e * cells` is group `e` of cell `i`), fission rates `rate`
and k-factor `k` stores in `p'`: k-factor and fluxes, and heat sources distributed like the fissions that add up to the power. Body, power, temperatures,
kinetics data, source and adjoint results stay. -/
structure Burned (p : Plant) (k : ℝ) (φ : Nat → ℝ) (rate : Nat → ℝ) (p' : Plant) : Prop where
  kept : Kept p p'
  temps : ∀ i, i < p.grid.cells → temp p' i = temp p i
  adjoint : p'.kAdjoint = p.kAdjoint ∧ p'.grid.nAdjoint = p.grid.nAdjoint ∧ ∀ i, i < p.grid.cells → (p'.grid.mats.v i).adj = (p.grid.mats.v i).adj
  k : p'.kForward = [.fin k]
  modes : p'.grid.nForward = 1
  flux : ∀ e i, e < p.grid.energies → i < p.grid.cells → (p'.grid.mats.v i).flux.m e 0 = .fin (φ (i + e * p.grid.cells))
  total : totalHeat p' = p.power
  share : ∀ i, i < p.grid.cells → heat p' i * volume p.grid i * ∑ j ∈ range p.grid.cells, rate j = p.power * rate i

/-- A diffusion calculation of the fundamental forward mode that the reactor is prepared for, at temperatures from `m` on. -/
structure DiffusionReady (o : Settings) (g : Mesh.Grid) (m : ℝ) : Prop where
  direction : o.direction = .forward
  modes : o.modes = .fundamental
  energies : o.energies = g.energies
  shaped : Mesh.Shaped g
  furnished : Mesh.Furnished g
  two : 2 ≤ g.cells
  nuclear : Nuclear g m
  diffusive : Diffusive g m
  albedos : GoodAlbedos g.geom o.albedo

/-- A transport calculation of the fundamental mode that the reactor is prepared for, at temperatures from `m` on; the special functions of
the library are exact. -/
structure TransportReady (tl : Tools) (o : Settings) (g : Mesh.Grid) (m : ℝ) : Prop where
  e3 : tl.e3 = CPM.E3
  ki3 : tl.ki3 = CPM.Ki3
  modes : o.modes = .fundamental
  energies : o.energies = g.energies
  shaped : Mesh.Shaped g
  furnished : Mesh.Furnished g
  some : 0 < g.cells
  nuclear : Nuclear g m
  albedo : 0 < o.albedo.n ∧ 0 ≤ o.albedo.v 0 ∧ o.albedo.v 0 ≤ 1

/-- After a calculation with neutronics the reactor `p'` is in order: body, power and the other data of `p` are kept, no temperature is below
`m`, no heat source is negative, the heat sources add up to the power, and there is exactly one k-factor, a positive number. -/
structure InOrder (p : Plant) (m : ℝ) (p' : Plant) : Prop where
  kept : Kept p p'
  temps : ∀ i, i < p.grid.cells → m ≤ temp p' i
  heat : ∀ i, i < p.grid.cells → 0 ≤ heat p' i
  total : totalHeat p' = p.power
  k : ∃ k, 0 < k ∧ p'.kForward = [.fin k]

/-- The results of the solver `o` in the reactors `p` (old) and `p'` (new) agree within the accuracy: temperatures in degrees, k-factors
relative to the new one. A kinetics calculation leaves no results. -/
def Agree (acc : ℝ) (o : Settings) (p p' : Plant) : Prop :=
  match o.kind with
  | .heat => p'.grid.cells = p.grid.cells ∧ ∀ i, i < p.grid.cells → |temp p' i - temp p i| ≤ acc
  | .transport | .diffusion => ∃ k k', p.kForward.head? = some (.fin k) ∧ p'.kForward.head? = some (.fin k') ∧ k' ≠ 0 ∧ |k' - k| ≤ acc * |k'|
  | _ => True

/-! ### source-driven calculations -/

/-- The total fluxes stored in the reactor are the numbers `f` (group, cell). -/
def FluxIs (p : Plant) (f : Nat → Nat → ℝ) : Prop :=
  ∀ i, i < p.grid.cells → (p.grid.mats.v i).total.n = p.grid.energies ∧ ∀ e, e < p.grid.energies → (p.grid.mats.v i).total.v e = .fin (f e i)

/-- The reactors `p` and `p'` differ in the stored total fluxes and the external source only. -/
structure SameModes (p p' : Plant) : Prop where
  power : p'.power = p.power
  kForward : p'.kForward = p.kForward
  kAdjoint : p'.kAdjoint = p.kAdjoint
  kinetics : p'.kinetics = p.kinetics
  geom : p'.grid.geom = p.grid.geom
  bounds : p'.grid.bounds = p.grid.bounds
  cells : p'.grid.cells = p.grid.cells
  energies : p'.grid.energies = p.grid.energies
  nForward : p'.grid.nForward = p.grid.nForward
  nAdjoint : p'.grid.nAdjoint = p.grid.nAdjoint
  mats_n : p'.grid.mats.n = p.grid.mats.n
  mats : ∀ i, i < p.grid.cells → ∃ x, p'.grid.mats.v i = { p.grid.mats.v i with total := x }

/-- The reactor holds `N` forward and `N` adjoint modes, all numbers: mode `n` has the k-factor `k n`, the flux `φ n` and the adjoint flux
`ψ n` (unknown `i + e * cells` is group `e` of cell `i`). -/
structure Modal (p : Plant) (N : Nat) (k : Nat → ℝ) (φ ψ : Nat → Nat → ℝ) : Prop where
  forward : p.grid.nForward = N
  adjoint : p.grid.nAdjoint = N
  k : ∀ n, n < N → p.kForward[n]? = some (.fin (k n))
  flux : ∀ i, i < p.grid.cells → p.grid.energies ≤ (p.grid.mats.v i).flux.r ∧ N ≤ (p.grid.mats.v i).flux.c ∧
    ∀ e n, e < p.grid.energies → n < N → (p.grid.mats.v i).flux.m e n = .fin (φ n (i + e * p.grid.cells))
  adj : ∀ i, i < p.grid.cells → p.grid.energies ≤ (p.grid.mats.v i).adj.r ∧ N ≤ (p.grid.mats.v i).adj.c ∧
    ∀ e n, e < p.grid.energies → n < N → (p.grid.mats.v i).adj.m e n = .fin (ψ n (i + e * p.grid.cells))

/-- The multigroup diffusion equation on the mesh with an external source: in each cell and group, collisions plus the net outflow are
scattering in plus the fission neutrons of the group plus what the source emits there. -/
def SourceEq (d : Diffusion.Data) (aL aR : ℝ) (src : Nat → Nat → ℝ) (φ : Nat → ℝ) : Prop :=
  ∃ J, Solve.Currents d aL aR φ J ∧ ∀ g i, g < d.energies → i < d.cells →
    d.tot.m g i * d.vol.v i * φ (i + g * d.cells) + J g (i + 1) - J g i =
      d.vol.v i * (Solve.scatterIn d φ g i + d.chi.m g i * Solve.production d φ i) + src g i

/-- A source of `s` neutrons per cm³ and second in group `e` of cell `i` and nowhere else. -/
def pointSource (d : Diffusion.Data) (s : ℝ) (e i : Nat) : Nat → Nat → ℝ := fun g j => if g = e ∧ j = i then s * d.vol.v i else 0

/-- The weight of a mode in the code: adjoint flux, group spectrum, production of all groups with equal weight, flux, volume. -/
def weight (d : Diffusion.Data) (φ ψ : Nat → ℝ) : ℝ :=
  ∑ i ∈ range d.cells, ∑ e ∈ range d.energies, ψ (i + e * d.cells) *
    (d.chi.m e i * ∑ h ∈ range d.energies, d.nu.m h i * d.fiss.m h i) * φ (i + e * d.cells) * d.vol.v i

end

end Verif.Calc
