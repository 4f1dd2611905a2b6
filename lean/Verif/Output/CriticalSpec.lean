import Verif.Output.ReportSpec
import Verif.Input.CriticalSpec

/-!
# What a criticality calculation has to leave, without reference to the model
-/

namespace Verif.Output

open Verif Input

noncomputable section

/-- The lines about the k-factor `k` and the flux `φ` of `N` cells and `E` groups (unknown `i + e * N` is group `e` of cell `i`). -/
def resultLog (fmt : Fl → Text) (title : String) (N E : Nat) (k : ℝ) (φ : Nat → ℝ) : List Text :=
  factorLog fmt (.fin k) :: block title (groupTexts fmt E N fun e i => .fin (φ (i + e * N)))

/-- The figure of group `e` of the flux `φ` of `N` cells. -/
def resultFigure (base : Text) (name axis : String) (g : Mesh.Grid) (N : Nat) (φ : Nat → ℝ) (e : Nat) : Figure :=
  groupFigure base name axis g e [("fundamental".toList, (List.range N).map fun i => .fin (φ (i + e * N)))]

/-- The program came to its end; its log shows the k-factor `k` and the flux `φ`, and nothing else but what the file said; and if the file asks for figures of this flux there is
one of each group, over the middles of the cells of the file. -/
structure Shows (e : Env) (a : Level) (output : Text) (names : List Text) (talk : List Message) (base : Text) (title name axis : String) (asked : Prop) (rs : List Region) (E : Nat)
    (run : World × Outcome Calc.Plant) (p : Calc.Plant) (k : ℝ) (φ : Nat → ℝ) : Prop where
  result : run.2 = .ok p
  mesh : Meshed rs p.grid
  log : run.1.disk output = some (opening e ++ names ++ shown a talk ++ resultLog e.fmt title (cellNames rs).length E k φ ++ closing e)
  drawn : asked → ∀ g, g < E → resultFigure base name axis p.grid (cellNames rs).length φ g ∈ run.1.drawn

end

end Verif.Output
