import Verif.Input.Spec
import Verif.Calc.Spec

/-!
# Heat conduction as an input file describes it, without reference to the model
-/

namespace Verif.Input

open Verif

noncomputable section

/-- The file asks for a heat calculation of the body of geometry `g` with the regions `rs`, conductivities `law`, temperatures `t` to start with, heat sources `q`, boundary
numbers `bc`, accuracy `acc` and at most `n` passes. -/
structure HeatFile (lib : Lib) (lines : List Text) (g : Diffusion.Geom) (rs : List Region) (law : Text → Vec ℝ) (t q bc : Vec ℝ) (acc : ℝ) (n : Nat) : Prop where
  solvers : ∃ c, Card lines "solvers" [c, "heat".toList]
  header : ∃ c w, CardIn lines "solver heat".toList 0 4294967295 [c, w]
  accuracy : ∃ v, Setting lines .heat "accuracy" [v] ∧ lib.stod v = .ok acc
  limit : ∃ v, Setting lines .heat "max_iteration_number" [v] ∧ Numeral v n ∧ n ≤ 2147483647
  boundary : ∃ ws, Setting lines .heat "heat_boundary_conditions" ws ∧ Reads lib ws bc.toList ∧ ws.length = if g = .slab then 6 else 3
  body : BodyFile lib lines g rs
  laws : ∀ r ∈ rs, Law lib lines r.mat "thermal_conductivity".toList 1 (law r.mat) ∧ 1 ≤ (law r.mat).n ∧ (law r.mat).n ≤ 3
  temperatures : ListFile lib lines "temperatures" t ∧ t.n = (cellNames rs).length
  sources : ListFile lib lines "heat_sources" q ∧ q.n = (cellNames rs).length
  plots : Silent lines "plots".toList 0 4294967295 ∨ ∃ c ws, ws ≠ [] ∧ Card lines "plots" (c :: ws)

/-- The case makes sense: at least two cells, with the faces `f`; conductivities that are positive from `m` on; sources that are not negative; temperatures of at least `m`
to start with, and boundaries with the coefficients `AL`, `BL`, `CL` on the left and `AR`, `BR`, `CR` on the right that do not let the temperature fall below `m`. -/
structure HeatCase (g : Diffusion.Geom) (rs : List Region) (law : Text → Vec ℝ) (t q bc : Vec ℝ) (f : Nat → ℝ) (m AL BL CL AR BR CR : ℝ) : Prop where
  wide : ∀ r ∈ rs, 0 < r.width
  faces : Spread (rs.map (fun r => (r.cells, r.width))) ⟨(cellNames rs).length + 1, f⟩
  two : 2 ≤ (cellNames rs).length
  positive : ∀ r ∈ rs, ∀ x, m ≤ x → 0 < Numeric.polyValue (law r.mat).n (law r.mat).v x
  temperatures : ∀ i, i < (cellNames rs).length → m ≤ t.v i
  sources : ∀ i, i < (cellNames rs).length → 0 ≤ q.v i
  boundaries : Heat.Boundaries bc AL BL CL AR BR CR
  AL_nonneg : 0 ≤ AL
  BL_nonneg : 0 ≤ BL
  AR_nonneg : 0 ≤ AR
  BR_nonneg : 0 ≤ BR
  left : g = .slab → 0 < AL + BL
  right : 0 < AR + BR
  tied : 0 < AR ∨ (g = .slab ∧ 0 < AL)
  lowLeft : g = .slab → AL * m ≤ CL
  lowRight : AR * m ≤ CR

/-- The conductivity of cell `i` at the temperature `x`. -/
def conductivityAt (rs : List Region) (law : Text → Vec ℝ) (i : Nat) (x : ℝ) : ℝ :=
  Numeric.polyValue (law ((cellNames rs).getD i [])).n (law ((cellNames rs).getD i [])).v x

/-- The temperatures `t` of `n` cells with the faces `f` are those of steady heat conduction with the conductivities `k` and the sources `q`. -/
def SteadyHeat (g : Diffusion.Geom) (n : Nat) (f k q : Nat → ℝ) (AL BL CL AR BR CR : ℝ) (t : Nat → ℝ) : Prop :=
  Heat.Steady g n (fun i => f (i + 1) - f i) k (fun i => Mesh.area g (f i)) (fun i => q i * ∫ r in (f i)..(f (i + 1)), Mesh.area g r) AL BL CL AR BR CR t

/-- What the program takes for it, see `Heat.Conducted`. -/
def ConductedHeat (g : Diffusion.Geom) (n : Nat) (f k q : Nat → ℝ) (AL BL CL AR BR CR : ℝ) (t : Nat → ℝ) : Prop :=
  Heat.Conducted g n (fun i => f (i + 1) - f i) k (fun i => Mesh.area g (f i)) (fun i => q i * ∫ r in (f i)..(f (i + 1)), Mesh.area g r) AL BL CL AR BR CR t

end

end Verif.Input
