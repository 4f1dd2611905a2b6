import Verif.Echo.Data
import Verif.Input.Spec

/-!
# What the log has to say about an input file, without reference to the model
-/

namespace Verif.Echo

open Verif Input

noncomputable section

/-- The functions of the library do not end the program. -/
def Returns (lib : Lib) : Prop := (∀ w, lib.stod w ≠ .exit) ∧ lib.blank ≠ .exit

/-- The file names the solvers `ks`. -/
def Calls (lines : List Text) (ks : List Calc.Kind) : Prop := ∃ c ws, Card lines "solvers" (c :: ws) ∧ Names ws ks

/-- The mesh of the file has the word `w` for a material. -/
def Uses (lines : List Text) (w : Text) : Prop := ∃ c ws, Card lines "mesh" (c :: ws) ∧ w ∈ ws

/-- The name of a solver in messages. -/
def kindName : Calc.Kind → Text
  | .undefined => "UNDEFINED".toList
  | .coupled => "COUPLED".toList
  | .transport => "TRANSPORT".toList
  | .kinetics => "KINETICS".toList
  | .heat => "HEAT".toList
  | .diffusion => "DIFFUSION".toList
  | .ads => "ADS".toList

/-- The settings of a solver, with the one that is needed for some of the coupled ones only. -/
def allSettings (k : Calc.Kind) : List String := settingsOf k ++ if k = .coupled then ["relaxation_parameter"] else []

/-- The kinetics data of a file. -/
def kineticsKeys : List String := ["generation_time", "initial_power", "delayed_constants", "delayed_fractions", "times", "reactivities"]

/-- A file that names the solvers `ks` needs a line about `key` among those from `a` to `b`. -/
inductive Needs (lines : List Text) (ks : List Calc.Kind) : Text → Nat → Nat → Prop
  | shape {key : String} (h : key ∈ ["geometry", "mesh"]) {k : Calc.Kind} (hk : k ∈ ks) (hn : k ≠ .kinetics) : Needs lines ks key.toList 0 4294967295
  | kinetics {key : String} (h : key ∈ kineticsKeys) (hk : .kinetics ∈ ks) : Needs lines ks key.toList 0 4294967295
  | temperatures (hk : .heat ∈ ks) : Needs lines ks "temperatures".toList 0 4294967295
  | power (hk : .heat ∈ ks) (hn : .transport ∈ ks ∨ .diffusion ∈ ks) : Needs lines ks "thermal_power".toList 0 4294967295
  | sources (hk : .heat ∈ ks) (hn : .transport ∉ ks ∧ .diffusion ∉ ks) : Needs lines ks "heat_sources".toList 0 4294967295
  | solver {k : Calc.Kind} (hk : k ∈ everyone ks) : Needs lines ks ("solver ".toList ++ blockName k) 0 4294967295
  | setting {k : Calc.Kind} (hk : k ∈ everyone ks) {key : String} (h : key ∈ allSettings k) {a b : Nat} (hb : Block lines "solver".toList (blockName k) a b) :
      Needs lines ks key.toList a b
  | material {w : Text} (hw : Uses lines w) {k : Calc.Kind} (hk : k ∈ ks) (hn : k ≠ .kinetics) : Needs lines ks ("material ".toList ++ w) 0 4294967295
  | table {w : Text} (hw : Uses lines w) {k : Calc.Kind} (hk : k ∈ ks) (hn : k ∈ neutronics) {name : String} (h : name ∈ tables k) (e : Nat) {a b : Nat}
      (hb : Block lines "material".toList w a b) : Needs lines ks (groupKey name e) a b
  | scattering {w : Text} (hw : Uses lines w) {k : Calc.Kind} (hk : k ∈ ks) (hn : k ∈ neutronics) (e f : Nat) {a b : Nat}
      (hb : Block lines "material".toList w a b) : Needs lines ks (scattKey e f) a b
  | conductivity {w : Text} (hw : Uses lines w) (hk : .heat ∈ ks) {a b : Nat} (hb : Block lines "material".toList w a b) : Needs lines ks "thermal_conductivity".toList a b

/-- The reasons to stop: the message, and the fact about the file it tells. -/
inductive Complaint (v : Voice) (lib : Lib) (lines : List Text) : Text → Prop
  | noSolvers (h : Silent lines "solvers".toList 0 4294967295) : Complaint v lib lines "solvers is missing from the input!".toList
  | noWords {key : String} (hk : key ∈ ["solvers", "plots"]) {w : Text} (h : Card lines key [w]) : Complaint v lib lines (w ++ " is missing its parameters!".toList)
  | unknown {c w : Text} {ws : List Text} (h : Card lines "solvers" (c :: ws)) (hw : w ∈ ws) (hn : ∀ k, (w, k) ∉ solverNames) :
      Complaint v lib lines (w ++ " solver kind not recognized!".toList)
  | unsaid (h : Card lines "solvers" []) : Complaint v lib lines " solver kind not recognized!".toList
  | missing {ks : List Calc.Kind} (hk : Calls lines ks) {key : Text} {a b : Nat} (hn : Needs lines ks key a b) (h : Silent lines key a b) :
      Complaint v lib lines (small key ++ " is missing from the input!".toList)
  | bare {ks : List Calc.Kind} (hk : Calls lines ks) {key w : Text} {a b : Nat} (hn : Needs lines ks key a b) (h : CardIn lines key a b [w]) :
      Complaint v lib lines (w ++ " is missing its parameters!".toList)
  | many {ks : List Calc.Kind} (hk : Calls lines ks) {key w : Text} {ws : List Text} {a b : Nat} (hn : Needs lines ks key a b) (h : CardIn lines key a b (w :: ws))
      (h2 : 2 ≤ ws.length) : Complaint v lib lines (w ++ "  has too many parameters!".toList)
  | shape {c w : Text} (h : Card lines "geometry" [c, w]) (hn : ∀ g, (w, g) ∉ geometries) : Complaint v lib lines ("Geometry: ".toList ++ w ++ " not recognized!".toList)
  | exceeded {ks : List Calc.Kind} (hk : Calls lines ks) {key w : Text} {ws : List Text} {a b : Nat} (hn : Needs lines ks key a b) (h : CardIn lines key a b (w :: ws))
      (h2 : ws.length ≠ 1 ∧ ws.length ≠ 2 ∧ ws.length ≠ 3) : Complaint v lib lines (w ++ " number of parameters exceeded!".toList)
  | none {ks : List Calc.Kind} (hk : Calls lines ks) {key w : Text} {a b : Nat} (hn : Needs lines ks key a b) (h : CardIn lines key a b [w]) :
      Complaint v lib lines (w ++ " has no parameters!".toList)
  | unfit {ks : List Calc.Kind} (hk : Calls lines ks) {k : Calc.Kind} (hm : k ∈ everyone ks) {key : String} (hs : key ∈ allSettings k) {w : Text} {ws : List Text} {a b : Nat}
      (hb : Block lines "solver".toList (blockName k) a b) (h : CardIn lines key.toList a b (w :: ws))
      (hf : Proper lines → w = key.toList ∧ ∃ (c u : Text) (g : Diffusion.Geom), Card lines "geometry" [c, u] ∧ (u, g) ∈ geometries ∧ ∀ E, ¬ Fits lib g E k key ws) :
      Complaint v lib lines ("Error setting ".toList ++ w ++ " for ".toList ++ kindName k ++ " solver!".toList)
  | sizes {ks : List Calc.Kind} (hk : Calls lines ks) (hm : .kinetics ∈ ks) {c c' : Text} {ws ws' : List Text} {x y : Vec ℝ} (h : Card lines "times" (c :: ws)) (hx : Lists lib ws x)
      (h' : Card lines "reactivities" (c' :: ws')) (hy : Lists lib ws' y) (hn : x.n ≠ y.n) :
      Complaint v lib lines ("times: ".toList ++ (toString x.n).toList ++ " reactivities: ".toList ++ v.count y.n)

end

end Verif.Echo
