import Verif.Echo.Data
import Verif.Input.Model

/-!
# Model of the messages of the input reader

`/repo/Backbone/IO/Input.cpp`, `/repo/Backbone/IO/Output.cpp:131-490`, `/repo/Utilities/additionalPrintFuncs.cpp`. The functions are those of `Verif.Input` with what they print; all
messages of the reader have the level `CRITICAL`. Simplification: `snprintf` into a buffer of 32 characters never cuts a number in the format `7.6e`.
-/

namespace Verif.Echo

open Verif Outcome Input

noncomputable section

namespace Tell

variable {α β : Type}

/-- Sequencing: the second part takes place if the first one ended normally. -/
def bind (m : Tell α) (f : α → Tell β) : Tell β :=
  match m.res with
  | ok a => ⟨m.said ++ (f a).said, (f a).res⟩
  | exit => ⟨m.said, exit⟩
  | throws e => ⟨m.said, throws e⟩
  | ub => ⟨m.said, ub⟩
  | nonfinite => ⟨m.said, nonfinite⟩

instance : Monad Tell where
  pure a := ⟨[], ok a⟩
  bind := bind

/-- A part that prints nothing. -/
def lift (x : Outcome α) : Tell α := ⟨[], x⟩

/-- Printing lines. -/
def say (ls : List Text) : Tell Unit := ⟨ls, ok ()⟩

/-- A message and the call of `exit`. -/
def quit (t : Text) : Tell α := ⟨[t], exit⟩

/-- A part that prints a message if it ends with a call of `exit`. -/
def orSay (x : Outcome α) (t : Text) : Tell α :=
  match x with
  | exit => quit t
  | x => lift x

/-- A loop of `n` passes. -/
def loop (body : Nat → α → Tell α) : Nat → α → Tell α
  | 0, a => pure a
  | n + 1, a => do
    let b ← loop body n a
    body n b

end Tell

open Tell

/-! ### formats -/

/-- `printVector` for numbers, `/repo/Utilities/additionalPrintFuncs.cpp:151-177,200-216,285-323`: one line per entry, and a blank at the end. -/
def numbers (v : Voice) (x : Vec ℝ) : List Text := x.toList.map v.fmt ++ [" ".toList]

/-- `stringFormat` for a string, `/repo/Utilities/additionalPrintFuncs.cpp:338-348`: a word that starts with a letter is printed as it is. -/
def formatWord (v : Voice) (lib : Lib) (w : Text) : Outcome Text :=
  if isString w then ok w
  else do
    let x ← lib.stod w
    ok (v.fmt x)

/-- `printVector` for strings in one line, `/repo/Utilities/additionalPrintFuncs.cpp:244-253`. -/
def formatLine (v : Voice) (lib : Lib) : List Text → Outcome Text
  | [] => ok []
  | w :: ws => do
    let x ← formatWord v lib w
    let y ← formatLine v lib ws
    ok (x ++ " ".toList ++ y)

/-! ### keywords -/

/-- The keyword as the message of `Input::findKeyword` gives it, `/repo/Backbone/IO/Input.cpp:200-221`: it is changed to lower case at the first line that is no comment. -/
def sought (lib : Lib) (key : Text) : List Text → Text
  | [] => key
  | l :: ls =>
    match comment lib l with
    | ok true => sought lib key ls
    | _ => lower key

/-- `Input::findKeyword`, `/repo/Backbone/IO/Input.cpp:192-224`. -/
def findKeyword (lib : Lib) (lines : List Text) (key : Text) (low : Nat := 0) (top : Nat := maxU) (optional : Bool := false) : Tell Text :=
  orSay (Input.findKeyword lib lines key low top optional) (sought lib key lines ++ " is missing from the input!".toList)

/-- `Input::readOneParameter`, `/repo/Backbone/IO/Input.cpp:580-601`. -/
def readOne (lib : Lib) (lines : List Text) (key : Text) : Tell Text := do
  let l ← findKeyword lib lines key
  match splitLine l with
  | [] => lift ub
  | [w] => quit (w ++ " is missing its parameters!".toList)
  | [_, w] => pure w
  | w :: _ => quit (w ++ "  has too many parameters!".toList)

/-- `Input::readManyParameters`, `/repo/Backbone/IO/Input.cpp:603-624`. -/
def readMany (lib : Lib) (lines : List Text) (key : Text) (optional : Bool := false) : Tell (List Text) := do
  let l ← findKeyword lib lines key 0 maxU optional
  match splitLine l with
  | [] => pure [[]]
  | [w] => quit (w ++ " is missing its parameters!".toList)
  | _ :: ws => pure ws

/-- `Input::setManyParameters`, `/repo/Backbone/IO/Input.cpp:656-751`, with the title. -/
def readValues (v : Voice) (lib : Lib) (lines : List Text) (key : Text) (title : String) : Tell (Vec ℝ) := do
  let ws ← readMany lib lines key
  let x ← lift (values lib ws)
  say (("\n".toList ++ title.toList ++ ":".toList) :: numbers v x)
  pure x

/-! ### solvers, geometry and mesh -/

/-- The loop of `Input::setSolvers`, `/repo/Backbone/IO/Input.cpp:248-286`: the solvers, and the words for the message. -/
def solverList : List Text → Tell (List Calc.Settings × Text)
  | [] => pure ([], [])
  | w :: ws => do
    let k ← orSay (kindOf w) (w ++ " solver kind not recognized!".toList)
    let x ← solverList ws
    pure (newSolver k :: x.1, w ++ " ".toList ++ x.2)

/-- `Input::setSolvers`, `/repo/Backbone/IO/Input.cpp:242-298`. -/
def setSolvers (lib : Lib) (r : Reader) : Tell Reader := do
  let ws ← readMany lib r.lines "solvers".toList
  let x ← solverList ws
  say ["Solvers: ".toList ++ x.2 ++ "\n".toList]
  pure { r with solvers := if 2 ≤ x.1.length then x.1 ++ [newSolver .coupled] else x.1 }

/-- The message about the geometry, `/repo/Backbone/IO/Input.cpp:307,312,317`. -/
def geomText : Diffusion.Geom → Text
  | .cylinder => "Geometry: Cylindrical \n".toList
  | .sphere => "Geometry: Spherical \n".toList
  | .slab => "Geometry: Cartesian \n".toList
  | .undefined => []

/-- `Input::setGeometryKind`, `/repo/Backbone/IO/Input.cpp:300-324`. -/
def setGeometry (lib : Lib) (r : Reader) : Tell Reader := do
  let w ← readOne lib r.lines "geometry".toList
  let g ← orSay (geomOf w) ("Geometry: ".toList ++ w ++ " not recognized!".toList)
  say [geomText g]
  pure { r with plant := { r.plant with grid := { r.plant.grid with geom := g } } }

/-- `Input::setMesh`, `/repo/Backbone/IO/Input.cpp:334-406`. -/
def setMesh (v : Voice) (lib : Lib) (r : Reader) : Tell Reader := do
  let ws ← readMany lib r.lines "mesh".toList
  let c ← lift (regions lib ws)
  let b ← lift (meshBounds c.1 c.2.1)
  say ("Input boundaries [m]:".toList :: numbers v b)
  let g := Mesh.setBounds b r.plant.grid
  let x ← lift (Mesh.volumes g "m")
  say ("Input volumes [m3]:".toList :: numbers v x)
  let m ← lift (mapLoop (Vec.ofList c.2.2) 0 c.1 [])
  let g ← lift (Mesh.createMaterials (Vec.ofList (m.map String.ofList)) g)
  say ["Input meshes:".toList]
  let t ← lift (formatLine v lib m)
  say [t, "\nMesh middle points [m]:".toList]
  let y ← lift (Mesh.middlePoints g)
  say (numbers v y)
  pure { r with
    plant := { r.plant with grid := g }
    map := r.map ++ m
    mats := uniqueText (sortText c.2.2) }

/-! ### settings of the solvers -/

/-- Words with a blank before each. -/
def spaced : List Text → Text
  | [] => []
  | w :: ws => " ".toList ++ w ++ spaced ws

/-- The words of the line of a setting, `/repo/Backbone/IO/Input.cpp:779-958`: they are printed before they are used. -/
def assign (lib : Lib) (ws : List Text) (input : Calc.Kind) (s : Calc.Settings) (p : Calc.Plant) : Tell (Calc.Settings × Calc.Plant) :=
  match ws with
  | [] => lift ub
  | k :: vs =>
    if vs.length = 1 ∨ vs.length = 2 ∨ vs.length = 3 ∨ vs.length = 6 then do
      say [solverName s.kind ++ " solver ".toList ++ k ++ ":".toList ++ spaced vs]
      orSay (Input.assign lib (k :: vs) input s p) ("Error setting ".toList ++ k ++ " for ".toList ++ solverName s.kind ++ " solver!".toList)
    else quit (k ++ " number of parameters exceeded!".toList)

/-- One solver of `Input::setSolverProperties`, `/repo/Backbone/IO/Input.cpp:771-958`. -/
def property (lib : Lib) (lines : List Text) (key : Text) (input : Calc.Kind) (s : Calc.Settings) (p : Calc.Plant) : Tell (Calc.Settings × Calc.Plant) :=
  if input ≠ .undefined ∧ s.kind ≠ input then pure (s, p)
  else do
    let _ ← readOne lib lines ("solver ".toList ++ solverName s.kind)
    let b ← lift (findBlock lib lines "solver".toList (solverName s.kind))
    let l ← findKeyword lib lines key b.1 b.2
    assign lib (splitLine l) input s p

/-- The loop of `Input::setSolverProperties`, `/repo/Backbone/IO/Input.cpp:769-959`. -/
def properties (lib : Lib) (lines : List Text) (key : Text) (input : Calc.Kind) :
    List Calc.Settings → Calc.Plant → Tell (List Calc.Settings × Calc.Plant)
  | [], p => pure ([], p)
  | s :: ss, p => do
    let x ← property lib lines key input s p
    let y ← properties lib lines key input ss x.2
    pure (x.1 :: y.1, y.2)

/-- `Input::setSolverProperties`, `/repo/Backbone/IO/Input.cpp:767-960`. -/
def setProperty (lib : Lib) (key : String) (input : Calc.Kind) (r : Reader) : Tell Reader := do
  let x ← properties lib r.lines key.toList input r.solvers r.plant
  pure { r with
    solvers := x.1
    plant := x.2 }

/-! ### materials -/

/-- One line of nuclear data for cell `m`, `/repo/Backbone/IO/Input.cpp:512-535` and `558-565`, printed after it is stored. -/
def readLaw (v : Voice) (lib : Lib) (lines : List Text) (b : Nat × Nat) (key : Text) (n : Nat) (put : Mesh.Material → Vec ℝ → Mesh.Material) (m : Nat) (g : Mesh.Grid) :
    Tell Mesh.Grid := do
  let l ← findKeyword lib lines key b.1 b.2
  let ws ← lift (skip n (splitLine l))
  let g ← lift (addLaw lib put ws m g)
  let t ← lift (formatLine v lib ws)
  say [t]
  pure g

/-- What the three loops over materials have in common, `/repo/Backbone/IO/Input.cpp:449-472`, `499-541`, `548-577`. -/
def eachMaterial (lib : Lib) (lines map : List Text) (body : Nat × Nat → Nat → Mesh.Grid → Tell Mesh.Grid) : List Text → Mesh.Grid → Tell Mesh.Grid
  | [], g => pure g
  | w :: ws, g => do
    let _ ← readOne lib lines ("material ".toList ++ w)
    let b ← lift (findBlock lib lines "material".toList w)
    let g ← Tell.loop (fun m g => do
      let x ← lift ((Vec.ofList map).get m)
      if x = w then body b m g else pure g) g.cells g
    eachMaterial lib lines map body ws g

/-- `Input::setXS`, `/repo/Backbone/IO/Input.cpp:495-542`. -/
def setXS (v : Voice) (lib : Lib) (name title : String) (put : Mesh.Material → Vec ℝ → Mesh.Material) (r : Reader) : Tell Reader := do
  say [title.toList]
  let e := r.plant.grid.energies
  let g ← eachMaterial lib r.lines r.map (fun b m g => do
    let g ← Tell.loop (fun i g => readLaw v lib r.lines b (name.toList ++ "(".toList ++ number (i + 1) ++ ")".toList) 1 put m g) e g
    say [" ".toList]
    pure g) r.mats r.plant.grid
  pure { r with plant := { r.plant with grid := g } }

/-- `Input::setMatrixXS` for the scattering matrix, `/repo/Backbone/IO/Input.cpp:544-578`. -/
def setScattering (v : Voice) (lib : Lib) (r : Reader) : Tell Reader := do
  say ["\nInput scattering matrix [1/cm]:".toList]
  let e := r.plant.grid.energies
  let g ← eachMaterial lib r.lines r.map (fun b m g =>
    Tell.loop (fun i g => do
      let g ← Tell.loop (fun j g =>
        readLaw v lib r.lines b ("scattMatrix(".toList ++ number (i + 1) ++ ", ".toList ++ number (j + 1) ++ ")".toList) 2
          (fun x v => { x with scatt := x.scatt ++ [v] }) m g) e g
      say [" ".toList]
      pure g) e g) r.mats r.plant.grid
  pure { r with plant := { r.plant with grid := g } }

/-- `Input::setThermalConductivity`, `/repo/Backbone/IO/Input.cpp:475-493`. -/
def conductivityLaw (v : Voice) (lib : Lib) (ws : List Text) (m : Nat) (g : Mesh.Grid) : Tell Mesh.Grid :=
  match ws with
  | [] => lift ub
  | [w] => quit (w ++ " has no parameters!".toList)
  | w :: vs =>
    if vs.length ≤ 3 then do
      let xs ← lift (stods lib vs)
      let g ← lift (Mesh.change (fun x => { x with kLaw := some (Vec.ofList xs) }) m g)
      let t ← lift (formatLine v lib vs)
      say [t]
      pure g
    else quit (w ++ " number of parameters exceeded!".toList)

/-- `Input::setMaterialProperties` for the thermal conductivity, `/repo/Backbone/IO/Input.cpp:437-473`. -/
def setConductivity (v : Voice) (lib : Lib) (r : Reader) : Tell Reader := do
  say ["Input thermal conductivity [W/(m*K)]:".toList]
  let g ← eachMaterial lib r.lines r.map (fun b m g => do
    let l ← findKeyword lib r.lines "thermal_conductivity".toList b.1 b.2
    conductivityLaw v lib (splitLine l) m g) r.mats r.plant.grid
  pure { r with plant := { r.plant with grid := g } }

/-- The diffusion coefficients, `/repo/Backbone/IO/Input.cpp:427`. -/
def setDiffusion (v : Voice) (lib : Lib) (diffusion : Bool) (r : Reader) : Tell Reader :=
  if diffusion then setXS v lib "diffCoeff" "\nInput diffusion coefficients [cm]:" (fun x v => { x with diff := x.diff ++ [v] }) r else pure r

/-- The nuclear data of transport and diffusion, `/repo/Backbone/IO/Input.cpp:413-431`. -/
def setNuclear (v : Voice) (lib : Lib) (diffusion : Bool) (r : Reader) : Tell Reader := do
  let r ← setXS v lib "ni" "\nInput ni:" (fun x v => { x with nu := x.nu ++ [v] }) r
  let r ← setXS v lib "chi" "\nInput chi:" (fun x v => { x with chi := x.chi ++ [v] }) r
  let r ← setXS v lib "fission" "\nInput fission XS [1/cm]:" (fun x v => { x with fiss := x.fiss ++ [v] }) r
  let r ← setXS v lib "total" "\nInput total XS [1/cm]:" (fun x v => { x with tot := x.tot ++ [v] }) r
  let r ← setDiffusion v lib diffusion r
  setScattering v lib r

/-! ### the whole input -/

/-- `Input::setKineticsParameters`, `/repo/Backbone/IO/Input.cpp:626-654`; the message about the initial power has the generation time (line 632). -/
def setKinetics (v : Voice) (lib : Lib) (r : Reader) : Tell Reader := do
  let a ← readOne lib r.lines "generation_time".toList
  let alpha ← lift (lib.stod a)
  say ["Mean generation time of the reactor [s]: ".toList ++ v.fmt alpha ++ " \n".toList]
  let w ← readOne lib r.lines "initial_power".toList
  let power ← lift (lib.stod w)
  say ["Initial power [W]: ".toList ++ v.fmt alpha ++ " \n".toList]
  let lam ← readValues v lib r.lines "delayed_constants".toList "Input delayed neutrons group decay constants [1/s]"
  let beta ← readValues v lib r.lines "delayed_fractions".toList "Input delayed neutrons group fractions"
  let times ← readValues v lib r.lines "times".toList "Input times [s]"
  let rhos ← readValues v lib r.lines "reactivities".toList "Input reactivities"
  if times.n = rhos.n then pure { r with plant := { r.plant with kinetics := ⟨lam, beta, alpha, power, rhos, times⟩ } }
  else do
    say ["times and reactivities must have equal sizes!".toList]
    quit ("times: ".toList ++ number times.n ++ " reactivities: ".toList ++ v.count rhos.n)

/-- `Input::setThermalPower`, `/repo/Backbone/IO/Input.cpp:326-332`. -/
def setPower (v : Voice) (lib : Lib) (r : Reader) : Tell Reader := do
  let w ← readOne lib r.lines "thermal_power".toList
  let x ← lift (lib.stod w)
  let t ← lift (formatWord v lib w)
  say ["\nInput thermal power [W]: ".toList ++ t ++ " \n".toList]
  pure { r with plant := { r.plant with power := x } }

/-- `Input::setHeatSources`, `/repo/Backbone/IO/Input.cpp:760-765`. -/
def setSources (v : Voice) (lib : Lib) (r : Reader) : Tell Reader := do
  let q ← readValues v lib r.lines "heat_sources".toList "Input heat_source densities [W/m3]"
  let g ← lift (Mesh.setHeatSources q r.plant.grid)
  pure { r with plant := { r.plant with grid := g } }

/-- `Input::setTemperatures`, `/repo/Backbone/IO/Input.cpp:753-758`. -/
def setTemps (v : Voice) (lib : Lib) (r : Reader) : Tell Reader := do
  let t ← readValues v lib r.lines "temperatures".toList "Input temperatures [C]"
  let g ← lift (Mesh.setTemperatures t r.plant.grid)
  pure { r with plant := { r.plant with grid := g } }

/-- What heats the cells, `/repo/Backbone/IO/Input.cpp:130-137`. -/
def setLoad (v : Voice) (lib : Lib) (r : Reader) : Tell Reader :=
  if isHere r.solvers .transport || isHere r.solvers .diffusion then setPower v lib r else setSources v lib r

/-- The data of the heat solver, `/repo/Backbone/IO/Input.cpp:128-141`. -/
def setHeat (v : Voice) (lib : Lib) (r : Reader) : Tell Reader := do
  let r ← setLoad v lib r
  let r ← setConductivity v lib r
  setTemps v lib r

/-- The data of one solver, `/repo/Backbone/IO/Input.cpp:119-146`. -/
def setData (v : Voice) (lib : Lib) (k : Calc.Kind) (r : Reader) : Tell Reader :=
  match k with
  | .transport => setNuclear v lib false r
  | .diffusion => setNuclear v lib true r
  | .ads => setNuclear v lib true r
  | .kinetics => setKinetics v lib r
  | .heat => setHeat v lib r
  | _ => pure r

/-- The loop over the solvers, `/repo/Backbone/IO/Input.cpp:117-147`. -/
def setAll (v : Voice) (lib : Lib) : List Calc.Settings → Reader → Tell Reader
  | [], r => pure r
  | s :: ss, r => do
    let r ← setData v lib s.kind r
    setAll v lib ss r

/-- `Input::setPlots`, `/repo/Backbone/IO/Input.cpp:962-983`. -/
def setPlots (lib : Lib) (r : Reader) : Tell Reader := do
  let ws ← readMany lib r.lines "plots".toList true
  pure { r with plots := r.plots ++ ws.filterMap plotOf }

/-- Geometry and mesh, `/repo/Backbone/IO/Input.cpp:84-94`. -/
def setShape (v : Voice) (lib : Lib) (r : Reader) : Tell Reader :=
  if isHere r.solvers .transport || isHere r.solvers .diffusion || isHere r.solvers .ads || isHere r.solvers .heat then do
    let r ← setGeometry lib r
    setMesh v lib r
  else pure r

/-- The relaxation parameter, `/repo/Backbone/IO/Input.cpp:110-115`. -/
def setRelaxation (lib : Lib) (r : Reader) : Tell Reader :=
  if (isHere r.solvers .transport || isHere r.solvers .diffusion) && isHere r.solvers .heat && isHere r.solvers .coupled then
    setProperty lib "relaxation_parameter" .coupled r
  else pure r

/-- The settings of the solvers, `/repo/Backbone/IO/Input.cpp:96-115`. -/
def setSettings (lib : Lib) (r : Reader) : Tell Reader := do
  let r ← setProperty lib "accuracy" .undefined r
  let r ← setProperty lib "max_iteration_number" .undefined r
  let r ← setProperty lib "albedo" .transport r
  let r ← setProperty lib "albedo" .diffusion r
  let r ← setProperty lib "albedo" .ads r
  let r ← setProperty lib "heat_boundary_conditions" .heat r
  let r ← setProperty lib "energies" .transport r
  let r ← setProperty lib "energies" .diffusion r
  let r ← setProperty lib "energies" .ads r
  let r ← setProperty lib "direction" .diffusion r
  let r ← setProperty lib "eigenmodes" .transport r
  let r ← setProperty lib "eigenmodes" .diffusion r
  let r ← setProperty lib "ext_source" .ads r
  setRelaxation lib r

/-- `Input::readData`, `/repo/Backbone/IO/Input.cpp:54-150`, with what it prints. -/
def readData (v : Voice) (lib : Lib) (file : Option (List Text)) (p : Calc.Plant) : Tell Reader := do
  let ls ← orSay (storeInput file) ("Unable to open file: ".toList ++ v.path)
  let r ← setSolvers lib ⟨ls, [], p, [], [], []⟩
  let r ← setShape v lib r
  let r ← setSettings lib r
  let r ← setAll v lib r.solvers r
  setPlots lib r

end

end Verif.Echo
