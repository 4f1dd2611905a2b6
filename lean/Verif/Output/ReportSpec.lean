import Verif.Output.Spec
import Verif.Mesh.Spec
import Verif.Input.Spec

/-!
# What reports and figures have to show, without reference to the model
-/

namespace Verif.Output

open Verif

noncomputable section

/-- A block of the log: a title, lines, and a blank. -/
def block (title : String) (ls : List Text) : List Text := title.toList :: (ls ++ [" ".toList])

/-- The texts of a quantity in all cells. -/
def cellTexts (fmt : Fl → Text) (n : Nat) (y : Nat → ℝ) : List Text := (List.range n).map fun i => fmt (.fin (y i))

/-- The texts of a quantity in all cells of all groups, group by group. -/
def groupTexts (fmt : Fl → Text) (groups cells : Nat) (y : Nat → Nat → Fl) : List Text :=
  (List.range groups).flatMap fun g => (List.range cells).map fun i => fmt (y g i)

/-- The mesh has a boundary more than cells, and a material for every cell. -/
structure Whole (g : Mesh.Grid) : Prop where
  bounds : g.bounds.n = g.cells + 1
  mats : g.mats.n = g.cells

/-- The fluxes stored in the cells have at least as many groups and modes as the mesh says. -/
structure Stocked (g : Mesh.Grid) : Prop where
  forward : g.nForward = 0 ∨ ∀ i, i < g.cells → g.energies ≤ (g.mats.v i).flux.r ∧ g.nForward ≤ (g.mats.v i).flux.c
  adjoint : g.nAdjoint = 0 ∨ ∀ i, i < g.cells → g.energies ≤ (g.mats.v i).adj.r ∧ g.nAdjoint ≤ (g.mats.v i).adj.c

/-- The middle of each cell. -/
def middles (g : Mesh.Grid) : List ℝ := (List.range g.cells).map fun i => (g.bounds.v i + g.bounds.v (i + 1)) / 2

/-- The figure of a quantity `y` in all cells, saved under the name of the case. -/
def cellFigure (base : Text) (name axis : String) (g : Mesh.Grid) (y : Nat → ℝ) : Figure :=
  ⟨base ++ "_".toList ++ name.toList ++ ".pdf".toList, axis.toList, middles g, [([], (List.range g.cells).map fun i => .fin (y i))]⟩

/-- The figure of group `e` (counted from zero) with the given curves. -/
def groupFigure (base : Text) (name axis : String) (g : Mesh.Grid) (e : Nat) (curves : List (Text × List Fl)) : Figure :=
  ⟨base ++ "_".toList ++ name.toList ++ "_".toList ++ (toString (e + 1)).toList ++ ".pdf".toList, axis.toList, middles g, curves⟩

/-- The curves of at most five modes, with their labels. -/
def modeCurves (g : Mesh.Grid) (modes : Nat) (y : Nat → Nat → Fl) : List (Text × List Fl) :=
  (List.range (min 5 modes)).map fun n =>
    (if n = 0 then "fundamental".toList else (toString (n + 1)).toList, (List.range g.cells).map fun i => y i n)

/-- The least value is zero, up to a tolerance of ten times the distance of floating-point numbers at one. -/
def Vanishing (n : Nat) (y : Nat → ℝ) : Prop := ∃ i, i < n ∧ |y i| < 10 / 2 ^ 52 ∧ ∀ j, j < n → y i ≤ y j

/-- The lines about mode `n` (counted from zero): its factor and its flux. -/
def modeLog (fmt : Fl → Text) (title unit : String) (groups cells : Nat) (k : Fl) (n : Nat) (y : Nat → Nat → Fl) : List Text :=
  ("\nEigenvalue ".toList ++ (toString (n + 1)).toList ++ ": ".toList ++ fmt k ++ " \n".toList) ::
    (title.toList ++ " ".toList ++ (toString (n + 1)).toList ++ "  ".toList ++ unit.toList) :: (groupTexts fmt groups cells y ++ [" ".toList])

/-- The lines about the factors `k` and fluxes `y` of all modes. -/
def modesLog (fmt : Fl → Text) (title unit : String) (groups cells : Nat) (k : List Fl) (y : Nat → Nat → Nat → Fl) : List Text :=
  (List.range k.length).flatMap fun n => modeLog fmt title unit groups cells (k.getD n (.fin 0)) n fun g i => y g i n

/-- The lines about the power densities: only if one of them is positive. -/
def powerLog (fmt : Fl → Text) (n : Nat) (y : Nat → ℝ) : List Text :=
  open Classical in if ∃ i, i < n ∧ 10 / 2 ^ 52 < y i then block "Thermal power density [W/m3]:" (cellTexts fmt n y) else []

/-- The line with the multiplication factor. -/
def factorLog (fmt : Fl → Text) (k : Fl) : Text := "Fundamental K-factor: ".toList ++ fmt k ++ " \n".toList

/-- The lines about the fundamental mode of the neutron flux. -/
def fluxLog (fmt : Fl → Text) (g : Mesh.Grid) (k : List Fl) : List Text :=
  factorLog fmt (k.getD 0 (.fin 0)) :: block "Fundamental Neutron Flux [1/(cm2*s)]:" (groupTexts fmt g.energies g.cells fun e i => (g.mats.v i).flux.m e 0) ++
    powerLog fmt g.cells fun i => (g.mats.v i).q

/-- The lines about the fundamental mode of the adjoint flux. -/
def importanceLog (fmt : Fl → Text) (g : Mesh.Grid) (k : List Fl) : List Text :=
  factorLog fmt (k.getD 0 (.fin 0)) :: block "Fundamental Adjoint Flux [arbitrary]:" (groupTexts fmt g.energies g.cells fun e i => (g.mats.v i).adj.m e 0) ++
    powerLog fmt g.cells fun i => (g.mats.v i).q

/-- The lines about the modes of the neutron flux, if there are several. -/
def forwardModes (fmt : Fl → Text) (g : Mesh.Grid) (k : List Fl) : List Text :=
  if 1 < k.length then modesLog fmt "Neutron Flux" "[1/(cm2*s)]:" g.energies g.cells k fun e i n => (g.mats.v i).flux.m e n else []

/-- The lines about the modes of the adjoint flux, if there are several. -/
def adjointModes (fmt : Fl → Text) (g : Mesh.Grid) (k : List Fl) : List Text :=
  if 1 < k.length then modesLog fmt "Adjoint Flux" "[arbitrary]:" g.energies g.cells k fun e i n => (g.mats.v i).adj.m e n else []

/-- The log of a calculation of the neutron flux with the factors `k`. -/
def forwardLog (fmt : Fl → Text) (g : Mesh.Grid) (k : List Fl) : List Text := forwardModes fmt g k ++ fluxLog fmt g k

/-- The log of a calculation of the adjoint flux with the factors `k`. -/
def adjointLog (fmt : Fl → Text) (g : Mesh.Grid) (k : List Fl) : List Text := adjointModes fmt g k ++ importanceLog fmt g k

/-- The log of a heat calculation. -/
def heatLog (fmt : Fl → Text) (g : Mesh.Grid) : List Text := block "Final temperatures [C]:" (cellTexts fmt g.cells fun i => (g.mats.v i).T)

/-- The figures of the temperatures: none if the least one vanishes. -/
def temperatureFigures (base : Text) (g : Mesh.Grid) : List Figure :=
  open Classical in if Vanishing g.cells (fun i => (g.mats.v i).T) then []
  else [cellFigure base "temperature" "Temperature [C]" g fun i => (g.mats.v i).T]

/-- The figures of the power densities: none if the least one vanishes. -/
def powerFigures (base : Text) (g : Mesh.Grid) : List Figure :=
  open Classical in if Vanishing g.cells (fun i => (g.mats.v i).q) then []
  else [cellFigure base "powerdensity" "Thermal Power Density [W/m3]" g fun i => (g.mats.v i).q]

/-- The figures of the fluxes: one per group with at most five modes. -/
def fluxFigures (base : Text) (name axis : String) (g : Mesh.Grid) (modes : Nat) (y : Nat → Nat → Nat → Fl) : List Figure :=
  if modes = 0 then [] else (List.range g.energies).map fun e => groupFigure base name axis g e (modeCurves g modes fun i n => y e i n)

/-- All figures of a kind. -/
def figuresFor (base : Text) (g : Mesh.Grid) : Input.Plot → List Figure
  | .temperature => temperatureFigures base g
  | .powerDensity => powerFigures base g
  | .totalFlux => []
  | .neutronFlux => fluxFigures base "neutronflux" "Neutron Flux [1/cm2/s]" g g.nForward fun e i n => (g.mats.v i).flux.m e n
  | .adjointFlux => fluxFigures base "adjointflux" "Adjoint Flux [arbitrary]" g g.nAdjoint fun e i n => (g.mats.v i).adj.m e n

/-- The figures of the kinds in `want`, in the order in which they are drawn. -/
def allFigures (base : Text) (g : Mesh.Grid) (want : List Input.Plot) : List Figure :=
  [Input.Plot.temperature, .powerDensity, .totalFlux, .neutronFlux, .adjointFlux].flatMap fun k => if k ∈ want then figuresFor base g k else []

/-! ### logs of whole calculations -/

/-- A reactor without results. -/
structure Blank (p : Calc.Plant) : Prop where
  nForward : p.grid.nForward = 0
  nAdjoint : p.grid.nAdjoint = 0
  kForward : p.kForward = []
  kAdjoint : p.kAdjoint = []

/-- The least entry of a matrix of zeros is zero. -/
def LeastZero (small : List Fl → Fl) : Prop := ∀ l, l ≠ [] → (∀ x ∈ l, x = Fl.fin 0) → small l = .fin 0

/-- The solver `k` is to calculate the adjoint flux. -/
def Backward (lines : List Text) (k : Calc.Kind) : Prop := k = .diffusion ∧ Input.Setting lines .diffusion "direction" ["adjoint".toList]

/-- The log of a calculation with the solver `k` alone, transport or diffusion, for the reactor at its end. -/
def criticalLog (fmt : Fl → Text) (lines : List Text) (k : Calc.Kind) (p : Calc.Plant) : List Text :=
  open Classical in if Backward lines k then adjointLog fmt p.grid p.kAdjoint else forwardLog fmt p.grid p.kForward

/-- The lines about the solver `k` at the end of a coupled calculation. -/
def partLog (fmt : Fl → Text) (lines : List Text) (k : Calc.Kind) (p : Calc.Plant) : List Text :=
  open Classical in if k = .heat then heatLog fmt p.grid
  else if Backward lines k then importanceLog fmt p.grid p.kAdjoint else fluxLog fmt p.grid p.kForward

/-- The log of a calculation with the solvers `k1` and `k2` after `n` passes. -/
def coupledLog (fmt : Fl → Text) (lines : List Text) (k1 k2 : Calc.Kind) (n : Nat) (p : Calc.Plant) : List Text :=
  ("\nNumber of coupled iteration: ".toList ++ (toString n).toList ++ " \n".toList) :: (partLog fmt lines k1 p ++ partLog fmt lines k2 p)

/-- The log of a source-driven calculation: the modes, three lists with one entry per mode, and the total fluxes. -/
def DrivenLog (fmt : Fl → Text) (p : Calc.Plant) (ls : List Text) : Prop :=
  ∃ x y z : List Text, x.length = p.grid.nAdjoint ∧ y.length = p.grid.nAdjoint ∧ z.length = p.grid.nAdjoint ∧
    ls = forwardModes fmt p.grid p.kForward ++ adjointModes fmt p.grid p.kAdjoint ++ block "adjoint_q:" x ++ block "adjoint_P_forward:" y ++ block "ratio:" z ++
      block "Total Flux:" (groupTexts fmt p.grid.energies p.grid.cells fun e i => (p.grid.mats.v i).total.v e)

/-- The plots an input file asks for. -/
def Wanted (lines : List Text) (want : List Input.Plot) : Prop :=
  (∃ c ws, Input.Card lines "plots" (c :: ws) ∧ ws ≠ [] ∧ Input.Plotted ws want) ∨
    ((Input.Card lines "plots" [] ∨ Input.Silent lines "plots".toList 0 4294967295) ∧ want = [])

/-- The names on the command line: a directory and a name with an extension for the input, a directory and a name for the output, which can be written. `names` are the lines
about them in the log, and `base` is what the names of figures begin with. -/
structure Started (e : Env) (disk : Text → Option (List Text)) (input output : Text) (names : List Text) (base : Text) : Prop where
  free : Free e disk output
  apart : input ≠ output
  named : ∃ dir name outDir outName, Path input dir name ∧ Extended name base ∧ Path output outDir outName ∧
    names = ["Input file: ".toList ++ dir ++ "/".toList ++ name, "Output file: ".toList ++ outName ++ " \n".toList]

/-- The program came to its end with the reactor `p`, the results `ls` in the log and the figures `figs`. -/
structure Logged (e : Env) (a : Level) (output : Text) (names : List Text) (talk : List Message) (p : Calc.Plant) (ls : List Text) (figs : List Figure)
    (r : World × Outcome Calc.Plant) : Prop where
  result : r.2 = .ok p
  log : r.1.disk output = some (opening e ++ names ++ shown a talk ++ ls ++ closing e)
  drawn : r.1.drawn = figs

end

end Verif.Output
