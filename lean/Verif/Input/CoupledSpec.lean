import Verif.Input.CriticalSpec
import Verif.Input.RunSpec

/-!
# Neutronics coupled with heat conduction as an input file describes it, without reference to the model
-/

namespace Verif.Input

open Verif Finset Filter Topology

noncomputable section

/-- The file gives heat conduction in the body of geometry `g` with the regions `rs` the conductivities `law`, the temperatures `t` to start with, the boundary numbers `bc`,
the accuracy `acc` and at most `n` passes. -/
structure HeatAsks (lib : Lib) (lines : List Text) (g : Diffusion.Geom) (rs : List Region) (law : Text → Vec ℝ) (t bc : Vec ℝ) (acc : ℝ) (n : Nat) : Prop where
  accuracy : ∃ v, Setting lines .heat "accuracy" [v] ∧ lib.stod v = .ok acc
  limit : ∃ v, Setting lines .heat "max_iteration_number" [v] ∧ Numeral v n
  boundary : ∃ ws, Setting lines .heat "heat_boundary_conditions" ws ∧ Reads lib ws bc.toList ∧ ws.length = if g = .slab then 6 else 3
  laws : ∀ r ∈ rs, Law lib lines r.mat "thermal_conductivity".toList 1 (law r.mat)
  temperatures : ListFile lib lines "temperatures" t ∧ t.n = (cellNames rs).length

/-- The file asks for the solver `k` coupled with heat conduction (neutronics comes first in every pass if `first`), at the thermal power `P`, with the accuracy `acc`, at most
`n` passes and the relaxation parameter `w`. -/
structure CoupledAsks (lib : Lib) (lines : List Text) (first : Bool) (k : Calc.Kind) (g : Diffusion.Geom) (rs : List Region) (E : Nat) (P acc : ℝ) (n : Nat) (w : ℝ) : Prop where
  full : Full lib lines (if first then [k, .heat] else [.heat, k]) g rs E
  accuracy : ∃ v, Setting lines .coupled "accuracy" [v] ∧ lib.stod v = .ok acc
  limit : ∃ v, Setting lines .coupled "max_iteration_number" [v] ∧ Numeral v n
  relaxation : ∃ v, Setting lines .coupled "relaxation_parameter" [v] ∧ lib.stod v = .ok w
  power : NumberFile lib lines "thermal_power" P

/-- `k` and `φ` are the first k-factor of the generations `κ` that differs from the one before by less than `acc` (relatively), found within `n` generations, and the flux of
the same generation. -/
def FirstClose (n : Nat) (acc : ℝ) (κ : Nat → ℝ) (y : Nat → Nat → ℝ) (k : ℝ) (φ : Nat → ℝ) : Prop :=
  ∃ j, j + 1 ≤ n ∧ Eigen.change κ j < acc ∧ (∀ i, i < j → acc ≤ Eigen.change κ i) ∧ k = κ (j + 1) ∧ φ = y (j + 1)

/-- How a coupled calculation ends. Before the last pass there were the k-factor `k0`, the temperatures `T0` and the heat sources `Q0`. In the last pass neutronics used the
temperatures `s` and found the k-factor `k`, the flux `φ` and the fissions `rate`, which share the power as the heat sources `F`; heat conduction used the heat sources `Q` and
found the temperatures `t`, with the conductivities taken at the temperatures `u`. -/
structure Together (first : Bool) (g : Diffusion.Geom) (rs : List Region) (E : Nat) (law : Text → Vec ℝ) (f : Nat → ℝ) (m AL BL CL AR BR CR accH acc w P : ℝ) (p : Calc.Plant)
    (k0 : ℝ) (T0 Q0 s : Nat → ℝ) (k : ℝ) (φ rate F Q t u : Nat → ℝ) : Prop where
  geom : p.grid.geom = g
  mesh : Meshed rs p.grid
  groups : p.grid.energies = E
  power : p.power = P
  found : Found p (cellNames rs).length E k φ
  sign : ∀ x, x < (cellNames rs).length * E → 0 ≤ φ x
  unit : ∑ x ∈ range ((cellNames rs).length * E), φ x = 1
  rates : (∀ i, i < (cellNames rs).length → 0 ≤ rate i) ∧ 0 < ∑ i ∈ range (cellNames rs).length, rate i
  share : ∀ i, i < (cellNames rs).length → F i * Calc.volume p.grid i * ∑ j ∈ range (cellNames rs).length, rate j = P * rate i
  conduction : ConductedHeat g (cellNames rs).length f (fun i => conductivityAt rs law i (u i)) Q AL BL CL AR BR CR t
  conductivities : (∀ i, i < (cellNames rs).length → |t i - u i| < accH) ∨ ∀ i, i < (cellNames rs).length → |t i - 1| < accH
  heat : ∀ i, i < (cellNames rs).length → Calc.heat p i = w * F i + (1 - w) * Q0 i
  temp : ∀ i, i < (cellNames rs).length → Calc.temp p i = w * t i + (1 - w) * T0 i
  forNeutrons : ∀ i, i < (cellNames rs).length → s i = if first then T0 i else Calc.temp p i
  forHeat : ∀ i, i < (cellNames rs).length → Q i = if first then Calc.heat p i else Q0 i
  warm : ∀ i, i < (cellNames rs).length → m ≤ T0 i ∧ m ≤ t i ∧ m ≤ Calc.temp p i
  sources : (∀ i, i < (cellNames rs).length → 0 ≤ Q0 i) ∧ ∑ i ∈ range (cellNames rs).length, Q0 i * Calc.volume p.grid i = P
  total : Calc.totalHeat p = P
  closeK : |k - k0| ≤ acc * |k|
  closeT : ∃ t' T' : Nat → ℝ, ∀ i, i < (cellNames rs).length → |t i - t' i| ≤ acc ∧ m ≤ t' i ∧ m ≤ T' i ∧ T0 i = w * t' i + (1 - w) * T' i

end

end Verif.Input
