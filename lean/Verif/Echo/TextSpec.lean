import Verif.Echo.Spec
import Mathlib.Analysis.SpecialFunctions.Trigonometric.Basic

/-!
# What the log has to show of an input file that is read, without reference to the model
-/

namespace Verif.Echo

open Verif Input

noncomputable section

/-- The text has one part for each entry of the list, in its order. -/
def Parts {α : Type} (R : α → List Text → Prop) (xs : List α) (t : List Text) : Prop := ∃ ts, List.Forall₂ R xs ts ∧ t = ts.flatten

/-- How a word of the file is shown: as it is if it starts with a letter, and otherwise as the number it stands for. -/
inductive Shown (v : Voice) (lib : Lib) : Text → Text → Prop
  | word {c : Char} {w : Text} (h : c.isAlpha = true) : Shown v lib (c :: w) (c :: w)
  | number {w : Text} {x : ℝ} (h : ∀ c u, w = c :: u → c.isAlpha = false) (hx : lib.stod w = .ok x) : Shown v lib w (v.fmt x)

/-- Words shown in one line, with a blank behind each. -/
def Row (v : Voice) (lib : Lib) (ws : List Text) (t : Text) : Prop := ∃ ts, List.Forall₂ (Shown v lib) ws ts ∧ t = ts.flatMap (· ++ " ".toList)

/-- A title and numbers below each other, and a blank. -/
def column (v : Voice) (title : Text) (x : Vec ℝ) : List Text := title :: (List.range x.n).map (fun i => v.fmt (x.v i)) ++ [" ".toList]

/-! ### geometry and mesh -/

/-- The geometry in the log. -/
def shapeName : Diffusion.Geom → Text
  | .slab => "Cartesian".toList
  | .cylinder => "Cylindrical".toList
  | .sphere => "Spherical".toList
  | .undefined => []

/-- The volume between two boundaries: of a slab for an area of one, of a cylinder for a height of one. -/
def layer : Diffusion.Geom → ℝ → ℝ → ℝ
  | .slab, y, z => z - y
  | .cylinder, y, z => Real.pi * (z ^ 2 - y ^ 2)
  | .sphere, y, z => 4 / 3 * Real.pi * (z ^ 3 - y ^ 3)
  | .undefined, _, _ => 0

/-- Geometry, boundaries, volumes, materials and middle points of the cells of the mesh. -/
def ShapeText (v : Voice) (lib : Lib) (lines : List Text) (g : Mesh.Grid) (t : List Text) : Prop :=
  ∃ c w vol mid row, Card lines "geometry" [c, w] ∧ (w, g.geom) ∈ geometries ∧ g.bounds.n = g.cells + 1 ∧
    vol.n = g.cells ∧ (∀ i, i < g.cells → vol.v i = layer g.geom (g.bounds.v i) (g.bounds.v (i + 1))) ∧
    mid.n = g.cells ∧ (∀ i, i < g.cells → mid.v i = (g.bounds.v i + g.bounds.v (i + 1)) / 2) ∧
    Row v lib ((List.range g.cells).map fun i => (g.mats.v i).name.toList) row ∧
    t = ["Geometry: ".toList ++ shapeName g.geom ++ " \n".toList] ++ column v "Input boundaries [m]:".toList g.bounds ++ column v "Input volumes [m3]:".toList vol ++
      ["Input meshes:".toList, row] ++ column v "\nMesh middle points [m]:".toList mid

/-! ### settings -/

/-- The order in which settings are shown: accuracies and limits of all solvers, then what each kind of solver needs. -/
def settingOrder (ks : List Calc.Kind) : List (Calc.Kind × String) :=
  (everyone ks).map (fun k => (k, "accuracy")) ++ (everyone ks).map (fun k => (k, "max_iteration_number")) ++
  [(Calc.Kind.transport, "albedo"), (.diffusion, "albedo"), (.ads, "albedo"), (.heat, "heat_boundary_conditions"), (.transport, "energies"), (.diffusion, "energies"), (.ads, "energies"),
    (.diffusion, "direction"), (.transport, "eigenmodes"), (.diffusion, "eigenmodes"), (.ads, "ext_source")].flatMap (fun x => (ks.filter (· = x.1)).map fun _ => x) ++
  if (Calc.Kind.transport ∈ ks ∨ Calc.Kind.diffusion ∈ ks) ∧ Calc.Kind.heat ∈ ks then [(Calc.Kind.coupled, "relaxation_parameter")] else []

/-- The line about a setting: the words of the line of the file, with the name of the solver. -/
def SettingText (lines : List Text) (x : Calc.Kind × String) (t : List Text) : Prop :=
  ∃ a b w ws, Block lines "solver".toList (blockName x.1) a b ∧ CardIn lines x.2.toList a b (w :: ws) ∧
    t = [kindName x.1 ++ " solver ".toList ++ w ++ ":".toList ++ ws.flatMap (" ".toList ++ ·)]

/-! ### data -/

/-- The cells of material `w`. -/
def cellsOf (g : Mesh.Grid) (w : Text) : List Nat := (List.range g.cells).filter fun i => (g.mats.v i).name.toList = w

/-- The line about data of material `w`: what is behind the keyword, which is made of `n` words. -/
def LawText (v : Voice) (lib : Lib) (lines : List Text) (w key : Text) (n : Nat) (t : List Text) : Prop :=
  ∃ a b ws s, Block lines "material".toList w a b ∧ CardIn lines key a b ws ∧ n ≤ ws.length ∧ Row v lib (ws.drop n) s ∧ t = [s]

/-- A table for each cell, material by material. -/
def CellsText (g : Mesh.Grid) (mats : List Text) (R : Text → List Text → Prop) (title : Text) (t : List Text) : Prop :=
  ∃ s, Parts (fun w => Parts (fun _ => R w) (cellsOf g w)) mats s ∧ t = title :: s

/-- A table of data for the groups. -/
def GroupsText (v : Voice) (lib : Lib) (lines : List Text) (E : Nat) (name : String) (w : Text) (t : List Text) : Prop :=
  ∃ s, Parts (fun e => LawText v lib lines w (groupKey name e) 1) (List.range E) s ∧ t = s ++ [" ".toList]

/-- The scattering matrix. -/
def MatrixText (v : Voice) (lib : Lib) (lines : List Text) (E : Nat) (w : Text) (t : List Text) : Prop :=
  Parts (fun e t => ∃ s, Parts (fun f => LawText v lib lines w (scattKey e f) 2) (List.range E) s ∧ t = s ++ [" ".toList]) (List.range E) t

/-- The nuclear data. -/
def NuclearText (v : Voice) (lib : Lib) (lines : List Text) (g : Mesh.Grid) (mats : List Text) (diffusion : Prop) (t : List Text) : Prop :=
  ∃ t1 t2 t3 t4 t5 t6, CellsText g mats (GroupsText v lib lines g.energies "ni") "\nInput ni:".toList t1 ∧
    CellsText g mats (GroupsText v lib lines g.energies "chi") "\nInput chi:".toList t2 ∧
    CellsText g mats (GroupsText v lib lines g.energies "fission") "\nInput fission XS [1/cm]:".toList t3 ∧
    CellsText g mats (GroupsText v lib lines g.energies "total") "\nInput total XS [1/cm]:".toList t4 ∧
    (diffusion → CellsText g mats (GroupsText v lib lines g.energies "diffCoeff") "\nInput diffusion coefficients [cm]:".toList t5) ∧ (¬ diffusion → t5 = []) ∧
    CellsText g mats (MatrixText v lib lines g.energies) "\nInput scattering matrix [1/cm]:".toList t6 ∧ t = t1 ++ t2 ++ t3 ++ t4 ++ t5 ++ t6

/-- A list of values of the file, all of them. -/
def ValuesText (v : Voice) (lib : Lib) (lines : List Text) (key : String) (title : Text) (t : List Text) : Prop :=
  ∃ c ws x, Card lines key (c :: ws) ∧ Lists lib ws x ∧ t = column v ("\n".toList ++ title ++ ":".toList) x

/-- What heats the body. -/
def LoadText (v : Voice) (lib : Lib) (lines : List Text) (ks : List Calc.Kind) (t : List Text) : Prop :=
  ((Calc.Kind.transport ∈ ks ∨ Calc.Kind.diffusion ∈ ks) → ∃ c w s, Card lines "thermal_power" [c, w] ∧ Shown v lib w s ∧ t = ["\nInput thermal power [W]: ".toList ++ s ++ " \n".toList]) ∧
  (¬ (Calc.Kind.transport ∈ ks ∨ Calc.Kind.diffusion ∈ ks) → ValuesText v lib lines "heat_sources" "Input heat_source densities [W/m3]".toList t)

/-- The data of heat conduction. -/
def HeatText (v : Voice) (lib : Lib) (lines : List Text) (g : Mesh.Grid) (mats : List Text) (ks : List Calc.Kind) (t : List Text) : Prop :=
  ∃ t1 t2 t3, LoadText v lib lines ks t1 ∧ CellsText g mats (fun w => LawText v lib lines w "thermal_conductivity".toList 1) "Input thermal conductivity [W/(m*K)]:".toList t2 ∧
    ValuesText v lib lines "temperatures" "Input temperatures [C]".toList t3 ∧ t = t1 ++ t2 ++ t3

/-- The data of point kinetics. The number behind "Initial power" is not the initial power but the generation time. -/
def kineticsText (v : Voice) (k : Calc.KineticsSet) : List Text :=
  ["Mean generation time of the reactor [s]: ".toList ++ v.fmt k.alpha ++ " \n".toList, "Initial power [W]: ".toList ++ v.fmt k.alpha ++ " \n".toList] ++
  column v "\nInput delayed neutrons group decay constants [1/s]:".toList k.lam ++ column v "\nInput delayed neutrons group fractions:".toList k.beta ++
  column v "\nInput times [s]:".toList k.times ++ column v "\nInput reactivities:".toList k.rhos

/-- The data of a solver. -/
def DataText (v : Voice) (lib : Lib) (lines : List Text) (p : Calc.Plant) (mats : List Text) (ks : List Calc.Kind) (k : Calc.Kind) (t : List Text) : Prop :=
  match k with
  | .transport => NuclearText v lib lines p.grid mats False t
  | .diffusion => NuclearText v lib lines p.grid mats True t
  | .ads => NuclearText v lib lines p.grid mats True t
  | .heat => HeatText v lib lines p.grid mats ks t
  | .kinetics => t = kineticsText v p.kinetics
  | _ => False

/-- The list of values under a keyword has one of the forms of the manual. -/
def Clear (lib : Lib) (lines : List Text) (key : String) : Prop := ∀ c ws, Card lines key (c :: ws) → ∃ x, Valued lib ws x

/-- What is shown of a file with the lines `lines` from which the reactor `p` was built. -/
def FileText (v : Voice) (lib : Lib) (lines : List Text) (p : Calc.Plant) (t : List Text) : Prop :=
  ∃ c ws ks mats t1 t2 t3, Card lines "solvers" (c :: ws) ∧ Names ws ks ∧
    mats.Pairwise (· < ·) ∧ (∀ w ∈ mats, Uses lines w) ∧ ((∃ k ∈ ks, k ≠ .kinetics) → ∀ i, i < p.grid.cells → (p.grid.mats.v i).name.toList ∈ mats) ∧
    ((∃ k ∈ ks, k ≠ .kinetics) → ShapeText v lib lines p.grid t1) ∧ ((∀ k ∈ ks, k = .kinetics) → t1 = []) ∧
    Parts (SettingText lines) (settingOrder ks) t2 ∧ Parts (DataText v lib lines p mats ks) ks t3 ∧
    t = ["Solvers: ".toList ++ ws.flatMap (· ++ " ".toList) ++ "\n".toList] ++ t1 ++ t2 ++ t3

end

end Verif.Echo
