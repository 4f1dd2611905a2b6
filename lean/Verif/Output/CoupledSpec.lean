import Verif.Output.CriticalSpec
import Verif.Input.CoupledSpec

/-!
# What a coupled calculation has to leave, without reference to the model
-/

namespace Verif.Output

open Verif Input

noncomputable section

/-- The program came to its end after `j` passes; its log shows this number, the k-factor `k`, the flux `φ` and the power densities `q` (unless all of them are zero), and the
temperatures `t`, neutronics first if `first`; and there are figures of what the file asks for, over the middles of its cells: flux, temperatures and power densities (the last two unless
the least value is zero). -/
structure ShowsBoth (e : Env) (a : Level) (output : Text) (names : List Text) (talk : List Message) (base : Text) (want : List Plot) (first : Bool) (rs : List Region) (E j : Nat)
    (run : World × Outcome Calc.Plant) (p : Calc.Plant) (k : ℝ) (φ q t : Nat → ℝ) : Prop where
  result : run.2 = .ok p
  mesh : Meshed rs p.grid
  log : run.1.disk output = some (opening e ++ names ++ shown a talk ++ (("\nNumber of coupled iteration: ".toList ++ (toString j).toList ++ " \n".toList) ::
    if first then resultLog e.fmt "Fundamental Neutron Flux [1/(cm2*s)]:" (cellNames rs).length E k φ ++ powerLog e.fmt (cellNames rs).length q ++
      block "Final temperatures [C]:" (cellTexts e.fmt (cellNames rs).length t)
    else block "Final temperatures [C]:" (cellTexts e.fmt (cellNames rs).length t) ++ resultLog e.fmt "Fundamental Neutron Flux [1/(cm2*s)]:" (cellNames rs).length E k φ ++
      powerLog e.fmt (cellNames rs).length q) ++ closing e)
  flux : .neutronFlux ∈ want → ∀ g, g < E → resultFigure base "neutronflux" "Neutron Flux [1/cm2/s]" p.grid (cellNames rs).length φ g ∈ run.1.drawn
  warmth : .temperature ∈ want → ¬ Vanishing (cellNames rs).length t → ⟨base ++ "_temperature.pdf".toList, "Temperature [C]".toList, middles p.grid,
    [([], (List.range (cellNames rs).length).map fun i => .fin (t i))]⟩ ∈ run.1.drawn
  power : .powerDensity ∈ want → ¬ Vanishing (cellNames rs).length q → ⟨base ++ "_powerdensity.pdf".toList, "Thermal Power Density [W/m3]".toList, middles p.grid,
    [([], (List.range (cellNames rs).length).map fun i => .fin (q i))]⟩ ∈ run.1.drawn

end

end Verif.Output
