import Verif.Output.Data
import Verif.Input.Model

/-!
# Model of the output: arguments, paths, logger, reports and figures

`/repo/Backbone/IO/Output.cpp`, `/repo/Backbone/IO/Input.cpp:22-52`, `/repo/Utilities/additionalPrintFuncs.cpp`, `/repo/Utilities/plot.cpp`,
`/repo/app/main.cpp`, and the printing and plotting of the solvers and calculations.
-/

namespace Verif.Output

open Verif Outcome

noncomputable section

open scoped Classical

/-- An action of the program: what it did up to its end remains, however it ends. -/
structure Act (α : Type) where
  run : World → World × Outcome α

namespace Act

variable {α β : Type}

/-- Sequencing: the second action takes place if the first one ended normally. -/
def bind (m : Act α) (f : α → Act β) : Act β := ⟨fun w =>
  match m.run w with
  | (w', ok a) => (f a).run w'
  | (w', exit) => (w', exit)
  | (w', throws e) => (w', throws e)
  | (w', ub) => (w', ub)
  | (w', nonfinite) => (w', nonfinite)⟩

instance : Monad Act where
  pure a := ⟨fun w => (w, ok a)⟩
  bind := bind

/-- A calculation that changes nothing but its result. -/
def lift (x : Outcome α) : Act α := ⟨fun w => (w, x)⟩

/-- A change of the surroundings. -/
def change (f : World → World) : Act Unit := ⟨fun w => (f w, ok ())⟩

/-- A look at the surroundings. -/
def look (f : World → α) : Act α := ⟨fun w => (w, ok (f w))⟩

end Act

/-! ### logger -/

/-- The text of a line, `/repo/Backbone/IO/Output.cpp:14,17,22`. -/
def line (e : Env) (p : Pattern) (s : Severity) (t : Text) : Text := if p = .plain then t else e.stamp p s t

/-- One line more in a file. -/
def append (disk : Text → Option (List Text)) (file t : Text) : Text → Option (List Text) :=
  Function.update disk file (some ((disk file).getD [] ++ [t]))

/-- The methods `critical`, `error`, … of the logger reached through `getLogger`, `/repo/Backbone/IO/Output.cpp:68-74`: a message below the threshold is not
written; without a logger a null pointer is used. -/
def log (e : Env) (s : Severity) (t : Text) : Act Unit := ⟨fun w =>
  match w.logger with
  | none => ({ w with console := w.console ++ ["getLogger() nullprt!!".toList] }, ub)
  | some l => (if l.threshold.rank ≤ s.rank then { w with disk := append w.disk l.file (line e l.pattern s t) } else w, ok ())⟩

/-- The method of the logger for a level, `/repo/Backbone/IO/Output.cpp:131-146` and the same in all versions of `print`. -/
def severity : Level → Severity
  | .critical => .critical
  | .err => .err
  | .warn => .warn
  | .info => .info
  | .debug => .debug
  | .trace => .trace

/-- `Output::print`, `/repo/Backbone/IO/Output.cpp:131-490`, and the loops of `/repo/Utilities/additionalPrintFuncs.cpp` around it. -/
def print (e : Env) (m : Message) : Act Unit := log e (severity m.1) m.2

/-- Several messages. -/
def say (e : Env) : List Message → Act Unit
  | [] => pure ()
  | m :: ms => do
    print e m
    say e ms

/-- `set_pattern`, `/repo/Backbone/IO/Output.cpp:14,17,22`. -/
def setPattern (p : Pattern) : Act Unit := ⟨fun w =>
  match w.logger with
  | none => ({ w with console := w.console ++ ["getLogger() nullprt!!".toList] }, ub)
  | some l => ({ w with logger := some { l with pattern := p } }, ok ())⟩

/-- `Output::printStart`, `/repo/Backbone/IO/Output.cpp:12-18`. -/
def printStart (e : Env) : Act Unit := do
  setPattern .stamped
  log e .critical "Start simulation".toList
  log e .critical ("ALMOST Version: ".toList ++ e.version ++ " \n".toList)
  setPattern .plain

/-- `Output::printEnd`, `/repo/Backbone/IO/Output.cpp:20-24`. -/
def printEnd (e : Env) : Act Unit := do
  setPattern .stamped
  log e .critical "End simulation".toList

/-- One branch of `Output::setLevel`, `/repo/Backbone/IO/Output.cpp:28-57`. -/
def setThreshold (s : Severity) (l : Level) : Act Unit := ⟨fun w =>
  match w.logger with
  | none => (w, ub)
  | some g => ({ w with logger := some { g with threshold := s }, level := some l }, ok ())⟩

/-- `Output::setLevel`, `/repo/Backbone/IO/Output.cpp:26-66`. -/
def setLevel (e : Env) (t : Text) : Act Unit :=
  if t = "CRITICAL".toList then setThreshold .critical .critical
  else if t = "ERR".toList then setThreshold .err .err
  else if t = "WARN".toList then setThreshold .warn .warn
  else if t = "INFO".toList then setThreshold .info .info
  else if t = "DEBUG".toList then setThreshold .debug .debug
  else if t = "TRACE".toList then setThreshold .trace .trace
  else do
    print e (.critical, "Trace Level not recognized".toList)
    print e (.critical, "Please use capital letters: CRITICAL, ERR, WARN, INFO, DEBUG or TRACE".toList)
    print e (.critical, "Trace Level defaulted to CRITICAL \n".toList)
    setThreshold .critical .critical

/-- `Output::createLogger`, `/repo/Backbone/IO/Output.cpp:102-106`: the library opens the file for appending and throws if it cannot; the threshold of a new logger
is `info`. -/
def createLogger (e : Env) : Act Unit := ⟨fun w =>
  if e.writable w.fullName then
    ({ w with disk := Function.update w.disk w.fullName (some ((w.disk w.fullName).getD [])), logger := some ⟨.info, .standard, w.fullName⟩ }, ok ())
  else (w, throws .ioError)⟩

/-! ### paths -/

/-- `find_last_of`: the position of the last character with the property. -/
def findLast (p : Char → Bool) : Text → Option Nat
  | [] => none
  | c :: s =>
    match findLast p s with
    | some i => some (i + 1)
    | none => if p c then some 0 else none

/-- One of the characters `/` and `\`, `/repo/Backbone/IO/Output.cpp:78,89`. -/
def slash (c : Char) : Bool := c = '/' || c = '\\'

/-- One of the characters `.` and `\`, `/repo/Backbone/IO/Output.cpp:121`. -/
def dot (c : Char) : Bool := c = '.' || c = '\\'

/-- `Output::setInputPath`, `/repo/Backbone/IO/Output.cpp:76-85`. -/
def setInputPath (path : Text) : Act Unit := Act.change fun w =>
  match findLast slash path with
  | some i => { w with inputPath := path.take i, inputName := path.drop (i + 1) }
  | none => w

/-- `Output::removeOldOutputFile`, `/repo/Backbone/IO/Output.cpp:108-114`; the result of `std::remove` is not used. -/
def removeOld (e : Env) : Act Unit := Act.change fun w =>
  if (w.disk w.fullName).isSome && e.removable w.fullName then { w with disk := Function.update w.disk w.fullName none } else w

/-- `Output::setOutputPath`, `/repo/Backbone/IO/Output.cpp:87-100`. -/
def setOutputPath (e : Env) (path : Text) : Act Unit := do
  Act.change fun w =>
    match findLast slash path with
    | some i => { w with outputPath := path.take i, outputName := path.drop (i + 1) }
    | none => w
  Act.change fun w => { w with fullName := path }
  removeOld e

/-- `Output::getInputNameNoExt`, `/repo/Backbone/IO/Output.cpp:116-129`. -/
def baseName (name : Text) : Text :=
  match findLast dot name with
  | some i => name.take i
  | none => []

/-! ### arguments -/

/-- A line on the console. -/
def cout (t : Text) : Act Unit := Act.change fun w => { w with console := w.console ++ [t] }

/-- `Input::getArguments`, `/repo/Backbone/IO/Input.cpp:22-46`; the result is the path of the input file (`m_inputPath`). `m_reactor.setLogLevel` has no effect: the level is
never read. -/
def getArguments (e : Env) (argv : List Text) : Act Text :=
  if argv.length < 3 then do
    cout "Missing input arguments!".toList
    Act.lift exit
  else
    match argv with
    | [_, input, output, level] => do
      setInputPath input
      setOutputPath e output
      createLogger e
      setLevel e level
      pure input
    | _ => do
      cout "Too many input arguments!".toList
      Act.lift exit

/-- `Input::printData`, `/repo/Backbone/IO/Input.cpp:48-52`. -/
def printData (e : Env) : Act Unit := do
  let dir ← Act.look World.inputPath
  let name ← Act.look World.inputName
  print e (.critical, "Input file: ".toList ++ dir ++ "/".toList ++ name)
  let out ← Act.look World.outputName
  print e (.critical, "Output file: ".toList ++ out ++ " \n".toList)

/-! ### results -/

/-- The text of a whole number. -/
def digits (n : Nat) : Text := (toString n).toList

/-- `printVector`, `/repo/Utilities/additionalPrintFuncs.cpp:151-177,200-216,285-323`: one line per entry, and a blank at the end. -/
def vectorLines (fmt : Fl → Text) (x : List Fl) : List Text := x.map fmt ++ [" ".toList]

/-- `printMatrix` with `asVector`, `/repo/Utilities/additionalPrintFuncs.cpp:77-108,136-149`: one line per entry, row by row, and a blank at the end. -/
def matrixLines (fmt : Fl → Text) (x : Mat Fl) : List Text :=
  (List.range x.r).flatMap (fun i => (List.range x.c).map (fun j => fmt (x.m i j))) ++ [" ".toList]

/-- A vector of real numbers as a list of values. -/
def reals (x : Vec ℝ) : List Fl := x.toList.map Fl.fin

/-- `maxCoeff`, `/repo/Diffusion/DiffusionSolver.cpp:76`, `/repo/CPM/SpectrumSolver.cpp:57`: undefined behaviour for an empty vector. -/
def greatest (x : Vec ℝ) : Outcome ℝ := do
  let a ← x.get 0
  loop (fun i m => do
    let y ← x.get i
    ok (max m y)) x.n a

/-- `minCoeff`, `/repo/Utilities/plot.cpp:30`: undefined behaviour for an empty vector. -/
def least (x : Vec ℝ) : Outcome ℝ := do
  let a ← x.get 0
  loop (fun i m => do
    let y ← x.get i
    ok (min m y)) x.n a

/-- The power densities, printed if there is a power, `/repo/Diffusion/DiffusionSolver.cpp:74-80` = `/repo/CPM/SpectrumSolver.cpp:55-61`. -/
def powerLines (fmt : Fl → Text) (p : Calc.Plant) : Outcome (List Text) := do
  let q ← Mesh.heatSources p.grid
  let m ← greatest q
  ok (if Numeric.isGreater m 0 then "Thermal power density [W/m3]:".toList :: vectorLines fmt (reals q) else [])

/-- The line with the multiplication factor, `/repo/Diffusion/DiffusionSolver.cpp:62,68`, `/repo/CPM/SpectrumSolver.cpp:51`. -/
def kLine (fmt : Fl → Text) (k : Fl) : Text := "Fundamental K-factor: ".toList ++ fmt k ++ " \n".toList

/-- The fundamental mode in `DiffusionSolver::printResults`, `/repo/Diffusion/DiffusionSolver.cpp:60-72`. -/
def fundamentalLines (fmt : Fl → Text) (d : Solve.Direction) (p : Calc.Plant) : Outcome (List Text) :=
  match d with
  | .forward => do
    let k ← Eigen.kFactor p.kForward
    let f ← Mesh.fundamentals p.grid
    ok ([kLine fmt k, "Fundamental Neutron Flux [1/(cm2*s)]:".toList] ++ matrixLines fmt f)
  | .adjoint => do
    let k ← Eigen.kFactor p.kAdjoint
    let f ← Mesh.fundamentalAdjoints p.grid
    ok ([kLine fmt k, "Fundamental Adjoint Flux [arbitrary]:".toList] ++ matrixLines fmt f)
  | .undefined => ok []

/-- `printResults` of the solvers: `/repo/Diffusion/DiffusionSolver.cpp:58-81`, `/repo/CPM/SpectrumSolver.cpp:49-62`, `/repo/Heat/HeatSolver.cpp:70-74`; those of
`/repo/CORE/KineticsSolver.h:21`, `/repo/Backbone/Datamodel/ADSSolver.h` and `CoupledSolver.h` print nothing. -/
def resultLines (fmt : Fl → Text) (o : Calc.Settings) (p : Calc.Plant) : Outcome (List Text) :=
  match o.kind with
  | .diffusion => do
    let x ← fundamentalLines fmt o.direction p
    let y ← powerLines fmt p
    ok (x ++ y)
  | .transport => do
    let x ← fundamentalLines fmt .forward p
    let y ← powerLines fmt p
    ok (x ++ y)
  | .heat => do
    let t ← Mesh.temperatures p.grid "C"
    ok ("Final temperatures [C]:".toList :: vectorLines fmt (reals t))
  | _ => ok []

/-- One mode in `printEigenmodesResults`, `/repo/Diffusion/DiffusionSolver.cpp:104-118`, `/repo/CPM/SpectrumSolver.cpp:76-82`. -/
def modeLines (fmt : Fl → Text) (title unit : Text) (k : List Fl) (x : Mesh.Box Fl) (n : Nat) : Outcome (List Text) := do
  let kn ← Calc.at? k n
  ok (["\nEigenvalue ".toList ++ digits (n + 1) ++ ": ".toList ++ fmt kn ++ " \n".toList, title ++ digits (n + 1) ++ " ".toList ++ unit] ++
    matrixLines fmt ⟨x.a, x.b, fun e m => x.v e m n⟩)

/-- All modes, `/repo/Diffusion/DiffusionSolver.cpp:102-119`, `/repo/CPM/SpectrumSolver.cpp:74-83`. -/
def allModes (fmt : Fl → Text) (title unit : Text) (k : List Fl) (x : Mesh.Box Fl) : Outcome (List Text) :=
  loop (fun n l => do
    let y ← modeLines fmt title unit k x n
    ok (l ++ y)) x.c []

/-- `DiffusionSolver::printEigenmodesResults`, `/repo/Diffusion/DiffusionSolver.cpp:83-121`. -/
def diffusionModes (fmt : Fl → Text) (d : Solve.Direction) (p : Calc.Plant) : Outcome (List Text) :=
  match d with
  | .forward => do
    let x ← Mesh.fluxes p.grid
    if 1 < p.kForward.length then allModes fmt "Neutron Flux ".toList " [1/(cm2*s)]:".toList p.kForward x else ok []
  | .adjoint => do
    let x ← Mesh.adjoints p.grid
    if 1 < p.kAdjoint.length then allModes fmt "Adjoint Flux ".toList " [arbitrary]:".toList p.kAdjoint x else ok []
  | .undefined => ok []

/-- `printEigenmodesResults` of the solvers: `/repo/Diffusion/DiffusionSolver.cpp:83-121`, `/repo/CPM/SpectrumSolver.cpp:64-84`; that of the others prints nothing
(`/repo/Backbone/Datamodel/AbstractSolver.h:29`). -/
def eigenLines (fmt : Fl → Text) (o : Calc.Settings) (p : Calc.Plant) : Outcome (List Text) :=
  match o.kind with
  | .diffusion => diffusionModes fmt o.direction p
  | .transport => do
    let x ← Mesh.fluxes p.grid
    if x.c ≤ 1 then ok [] else allModes fmt "Neutron Flux ".toList " [1/(cm2*s)]:".toList p.kForward x
  | _ => ok []

/-- The powers of a kinetics calculation, printed by the solver itself, `/repo/CORE/Kinetics.cpp:101-102`. -/
def powerHistory (fmt : Fl → Text) (t : Calc.Tools) (o : Calc.Settings) (p : Calc.Plant) : Outcome (List Text) :=
  match o.kind with
  | .kinetics => do
    let s ← Kinetics.init p.kinetics.lam p.kinetics.beta p.kinetics.alpha p.kinetics.power
    let x ← Kinetics.history t.roots s p.kinetics.rhos p.kinetics.times
    ok ("Output power [W]: ".toList :: vectorLines fmt (reals x.2))
  | _ => ok []

/-! ### figures -/

/-- The name of a plot, `/repo/Backbone/IO/PlotKind.h:24-36`. -/
def plotName : Input.Plot → Text
  | .neutronFlux => "neutronflux".toList
  | .adjointFlux => "adjointflux".toList
  | .totalFlux => "totalflux".toList
  | .temperature => "temperature".toList
  | .powerDensity => "powerdensity".toList

/-- The vertical axis, `/repo/Utilities/plot.cpp:42-47,77,109-114`. -/
def plotAxis : Input.Plot → Text
  | .neutronFlux => "Neutron Flux [1/cm2/s]".toList
  | .adjointFlux => "Adjoint Flux [arbitrary]".toList
  | .totalFlux => "Total Flux [1/cm2/s]".toList
  | .temperature => "Temperature [C]".toList
  | .powerDensity => "Thermal Power Density [W/m3]".toList

/-- `plotEigenVectorXd`, `/repo/Utilities/plot.cpp:27-55`. -/
def plotVector (base : Text) (x y : Vec ℝ) (k : Input.Plot) : Outcome (List Figure) := do
  let m ← least y
  if Numeric.isEqual m 0 then ok []
  else ok [⟨base ++ "_".toList ++ plotName k ++ ".pdf".toList, plotAxis k, x.toList, [([], reals y)]⟩]

/-- The file of the figure of group `e`, `/repo/Utilities/plot.cpp:84,128`. -/
def groupFile (base : Text) (k : Input.Plot) (e : Nat) : Text := base ++ "_".toList ++ plotName k ++ "_".toList ++ digits (e + 1) ++ ".pdf".toList

/-- `is_equal(x, 0.0)` for a `double` that may be infinite or not a number, `/repo/Utilities/numeric_tools.h:47-51`. -/
def isZero (x : Fl) : Prop := (x.abs).lt (.fin Numeric.tol)

/-- `plotEigenMatrixXd`, `/repo/Utilities/plot.cpp:57-87`; `minCoeff` of an empty matrix is undefined behaviour. -/
def plotMatrix (small : List Fl → Fl) (base : Text) (x : Vec ℝ) (y : Mat Fl) (k : Input.Plot) : Outcome (List Figure) :=
  if 0 < y.r ∧ 0 < y.c then
    if isZero (small (Calc.entries y)) then ok []
    else ok ((List.range y.r).map fun e => ⟨groupFile base k e, plotAxis k, x.toList, [([], (List.range y.c).map (y.m e))]⟩)
  else ub

/-- The label of a curve, `/repo/Utilities/plot.cpp:124`. -/
def modeLabel (n : Nat) : Text := if n = 0 then "fundamental".toList else digits (n + 1)

/-- `plot3DEigenTensor` for at most five modes, `/repo/Utilities/plot.cpp:89-131`. -/
def plotModes (base : Text) (x : Vec ℝ) (y : Mesh.Box Fl) (k : Input.Plot) : Outcome (List Figure) :=
  if y.c = 0 then ok []
  else ok ((List.range y.a).map fun e =>
    ⟨groupFile base k e, plotAxis k, x.toList, (List.range (min 5 y.c)).map fun n => (modeLabel n, (List.range y.b).map fun m => y.v e m n)⟩)

/-- The plot of one kind in `AbstractSolver::plots`, `/repo/Backbone/Datamodel/AbstractSolver.cpp:45-81`. -/
def plot (small : List Fl → Fl) (base : Text) (g : Mesh.Grid) (k : Input.Plot) : Outcome (List Figure) := do
  let x ← Mesh.middlePoints g
  match k with
  | .temperature => do
    let y ← Mesh.temperatures g "C"
    plotVector base x y k
  | .powerDensity => do
    let y ← Mesh.heatSources g
    plotVector base x y k
  | .totalFlux => do
    let y ← Mesh.totals g
    plotMatrix small base x y k
  | .neutronFlux => do
    let y ← Mesh.fluxes g
    plotModes base x y k
  | .adjointFlux => do
    let y ← Mesh.adjoints g
    plotModes base x y k

/-- The plot of one kind if it is asked for, `/repo/Utilities/plot.cpp:133-139`, `/repo/Backbone/Datamodel/AbstractSolver.cpp:47,54,61,68,75`. -/
def plotIf (small : List Fl → Fl) (base : Text) (g : Mesh.Grid) (want : List Input.Plot) (k : Input.Plot) : Outcome (List Figure) :=
  if k ∈ want then plot small base g k else ok []

/-- `AbstractSolver::plots`, `/repo/Backbone/Datamodel/AbstractSolver.cpp:45-81`. -/
def plots (small : List Fl → Fl) (base : Text) (g : Mesh.Grid) (want : List Input.Plot) : Outcome (List Figure) := do
  let a ← plotIf small base g want .temperature
  let b ← plotIf small base g want .powerDensity
  let c ← plotIf small base g want .totalFlux
  let d ← plotIf small base g want .neutronFlux
  let f ← plotIf small base g want .adjointFlux
  ok (a ++ b ++ c ++ d ++ f)

/-! ### calculations with their output -/

/-- The reactor after a calculation, the lines printed with level `CRITICAL`, and the figures. -/
structure Report where
  plant : Calc.Plant
  lines : List Text
  figures : List Figure

/-- `SingleCalculation::solve`, `/repo/Backbone/Datamodel/SingleCalculation.cpp:4-12`. -/
def single (e : Env) (base : Text) (want : List Input.Plot) (o : Calc.Settings) (p : Calc.Plant) : Outcome Report := do
  let a ← Calc.solver e.tools o
  let r ← a.solve p
  let x ← powerHistory e.fmt e.tools o p
  let y ← eigenLines e.fmt o r.1
  let z ← resultLines e.fmt o r.1
  let f ← plots e.small base r.1.grid want
  ok ⟨r.1, x ++ y ++ z, f⟩

/-- `DoubleCalculation::solve`, `/repo/Backbone/Datamodel/DoubleCalculation.cpp:7-67`; the kinetics solver would print its powers in each pass, which is left out. -/
def double (e : Env) (base : Text) (want : List Input.Plot) (l : List Calc.Settings) (o1 o2 : Calc.Settings) (p : Calc.Plant) : Outcome Report := do
  let c ← Calc.coupledSettings l
  if 0 < c.maxIter then do
    let a ← Calc.solver e.tools o1
    let b ← Calc.solver e.tools o2
    let r ← Calc.coupled e.tools.big a b c.relax c.acc c.maxIter p
    let x ← resultLines e.fmt o1 r.1
    let y ← resultLines e.fmt o2 r.1
    let f ← plots e.small base r.1.grid want
    let g ← plots e.small base r.1.grid want
    ok ⟨r.1, ["\nNumber of coupled iteration: ".toList ++ digits (r.2 + 1) ++ " \n".toList] ++ x ++ y, f ++ g⟩
  else exit

/-- The lines of `ADSCalculation::solve` after the two criticality calculations, `/repo/Backbone/Datamodel/ADSCalculation.cpp:46-47,62-63,68-69,85-86`, for the reactor before
the total fluxes are stored. -/
def drivenLines (fmt : Fl → Text) (p : Calc.Plant) : Outcome (List Text) := do
  let s ← Calc.toUnsigned p.source.1
  let vol ← Mesh.volumes p.grid "cm"
  let adj ← Mesh.adjoints p.grid
  let q ← Calc.adjointSource s (Calc.decrement p.source.2.1) (Calc.decrement p.source.2.2) vol adj
  let fwd ← Mesh.fluxes p.grid
  let P ← Mesh.production p.grid
  let x ← Calc.adjointProduction P vol adj fwd
  let ratio ← Calc.quotients q x
  let t ← Calc.totalFluxes p.kForward ratio fwd
  ok ("adjoint_q:".toList :: vectorLines fmt q.toList ++ "adjoint_P_forward:".toList :: vectorLines fmt x.toList ++
    "ratio:".toList :: vectorLines fmt ratio.toList ++ "Total Flux:".toList :: matrixLines fmt t)

/-- `ADSCalculation::solve`, `/repo/Backbone/Datamodel/ADSCalculation.cpp:10-87`: nothing is plotted. -/
def ads (e : Env) (o : Calc.Settings) (p : Calc.Plant) : Outcome Report := do
  let f ← Calc.diffusionSolve e.tools { o with kind := .diffusion, direction := .forward, modes := .all } p
  let x ← diffusionModes e.fmt .forward f.1
  let a ← Calc.diffusionSolve e.tools { o with kind := .diffusion, direction := .adjoint, modes := .all } f.1
  let y ← diffusionModes e.fmt .adjoint a.1
  let z ← drivenLines e.fmt a.1
  let r ← Calc.driven a.1
  ok ⟨r, x ++ y ++ z, []⟩

/-- `Problem::solve`, `/repo/Backbone/Datamodel/Problem.cpp:6-10`, with `BaseCalculation::setCalculation` (`/repo/Backbone/Datamodel/BaseCalculation.cpp:10-36`). -/
def calculate (e : Env) (base : Text) (want : List Input.Plot) (p : Calc.Plant) : List Calc.Settings → Outcome Report
  | [o] => if o.kind = .ads then ads e o p else single e base want o p
  | [o1, o2, o3] => double e base want [o1, o2, o3] o1 o2 p
  | _ => exit

/-! ### the program -/

/-- The program, `/repo/app/main.cpp:8-22`, with its arguments. -/
def main (e : Env) (argv : List Text) : Act Calc.Plant := do
  let path ← getArguments e argv
  printStart e
  printData e
  let file ← Act.look (fun w => w.disk path)
  say e (e.talk file)
  let r ← Act.lift (Input.readData e.lib file e.plant)
  let name ← Act.look World.inputName
  let x ← Act.lift (calculate e (baseName name) r.plots r.plant r.solvers)
  say e (x.lines.map fun t => (.critical, t))
  Act.change fun w => { w with drawn := w.drawn ++ x.figures }
  printEnd e
  pure x.plant

/-! ### vectors as C++ source -/

/-- State of the loop of `createCppVector`: the rows, the row being written and the counter. -/
structure Rows where
  done : List Text
  row : Text
  counter : Nat

/-- One pass of the loop, `/repo/Utilities/additionalPrintFuncs.cpp:428-451`. -/
def rowStep (fmt : Fl → Text) (i : Nat) (x : Fl) (s : Rows) : Rows :=
  let row := (if i = 0 then "std::vector<double> ref {".toList else s.row) ++ fmt x ++ ", ".toList
  if i < 2 then { s with row := row }
  else if i = 2 then { s with done := s.done ++ [row], row := [] }
  else if s.counter % 5 = 0 then ⟨s.done ++ [row], [], s.counter + 1⟩
  else { s with row := row, counter := s.counter + 1 }

/-- `(vec.size() - firstRowValues) % valuesPerRow`, `/repo/Utilities/additionalPrintFuncs.cpp:455`: the difference wraps around modulo `2⁶⁴`. -/
def remaining (n : Nat) : Nat := (if n < 3 then 2 ^ 64 + n - 3 else n - 3) % 5

/-- `std::string::pop_back` of a non-empty string; undefined behaviour for an empty one. -/
def popBack (t : Text) : Outcome Text := if t = [] then ub else ok t.dropLast

/-- `createCppVector`, `/repo/Utilities/additionalPrintFuncs.cpp:417-482`, without the copy on the console. For fewer values than remain the start index
`vec.size() - remainingValues` (line 460) wraps around to an `unsigned` above the size, and the loop does nothing. Simplification: fewer than `2³²` values. -/
def cppVector (fmt : Fl → Text) (x : List Fl) : Outcome (List Text) := do
  let s := (x.zipIdx).foldl (fun s y => rowStep fmt y.2 y.1 s) ⟨[], [], 1⟩
  let k := remaining x.length
  let rows := if 0 < k then s.done ++ [((if k ≤ x.length then x.drop (x.length - k) else []).map (fun y => fmt y ++ ", ".toList)).flatten] else s.done
  match rows.getLast? with
  | none => ub
  | some l => do
    let a ← popBack l
    let b ← popBack a
    ok (rows.dropLast ++ [b ++ "};".toList])

end

end Verif.Output
