import Verif.Input.Data
import Verif.Calc.Model

/-!
# Model of the input reader

`/repo/Backbone/IO/Input.cpp`, `/repo/Utilities/additionalPrintFuncs.cpp` (classification of words), `/repo/Utilities/helper_tools.h`, `/repo/app/main.cpp`.
Printing is modelled only where it can fail (`echo`). Line numbers are natural numbers: files have fewer than 2³² lines.
-/

namespace Verif.Input

open Verif Outcome

noncomputable section

/-! ### characters and words -/

/-- `isspace` in the C locale, `/repo/Backbone/IO/Input.cpp:156`. -/
def isSpace (c : Char) : Bool := c == ' ' || c == '\t' || c == '\n' || c == '\x0b' || c == '\x0c' || c == '\r'

/-- `tolower` in the C locale applied to a string, `/repo/Backbone/IO/Input.cpp:170-172,204-205`. -/
def lower (l : Text) : Text := l.map Char.toLower

/-- The loop of `std::unique_copy`, `/repo/Backbone/IO/Input.cpp:155-156`, with `a` the last character written. -/
def squeezeFrom (a : Char) : Text → Text
  | [] => []
  | b :: l => if isSpace a && isSpace b then squeezeFrom a l else b :: squeezeFrom b l

/-- `Input::removeExtraSpaces`, `/repo/Backbone/IO/Input.cpp:152-158`. -/
def removeExtraSpaces : Text → Text
  | [] => []
  | a :: l => a :: squeezeFrom a l

/-- One line of `Input::storeInput`, `/repo/Backbone/IO/Input.cpp:66-73`: leading blanks are erased. Simplification: `isspace` and `tolower` of a character
outside ASCII are undefined behaviour (`char` is signed); the model says so for every line with such a character. -/
def storeLine (l : Text) : Outcome Text :=
  if l.all (fun c => c.toNat < 128) then ok (removeExtraSpaces (l.dropWhile (fun c => c == ' '))) else ub

/-- The lines of `Input::storeInput`, `/repo/Backbone/IO/Input.cpp:66-74`. -/
def storeLines : List Text → Outcome (List Text)
  | [] => ok []
  | l :: ls => do
    let x ← storeLine l
    let xs ← storeLines ls
    ok (x :: xs)

/-- `Input::storeInput`, `/repo/Backbone/IO/Input.cpp:54-77`; `none` is a file that cannot be opened. -/
def storeInput : Option (List Text) → Outcome (List Text)
  | none => exit
  | some ls => storeLines ls

/-- The test for a comment line, `itemLine.front() == '%'`, `/repo/Backbone/IO/Input.cpp:168,202`. -/
def comment (lib : Lib) : Text → Outcome Bool
  | [] => do
    let c ← lib.blank
    ok (c == '%')
  | c :: _ => ok (c == '%')

/-- `line.find(key) != npos`, `/repo/Backbone/IO/Input.cpp:174-175,180-181,206-208`. -/
def has (key : Text) : Text → Bool
  | [] => key.isEmpty
  | c :: l => key.isPrefixOf (c :: l) || has key l

/-- The largest `unsigned`. -/
def maxU : Nat := 4294967295

/-- The loop of `Input::findKeyword`, `/repo/Backbone/IO/Input.cpp:200-223`, with `n` the counter. -/
def findFrom (lib : Lib) (key : Text) (low top : Nat) (optional : Bool) : Nat → List Text → Outcome Text
  | _, [] => if optional then ok [] else exit
  | n, l :: ls => do
    let c ← comment lib l
    if c then findFrom lib key low top optional n ls
    else if has (lower key) (lower l) && (low ≤ n && n ≤ top) then ok (lower l)
    else findFrom lib key low top optional (n + 1) ls

/-- `Input::findKeyword`, `/repo/Backbone/IO/Input.cpp:192-224`: the line in lower case; the empty line for an optional keyword that is missing. -/
def findKeyword (lib : Lib) (lines : List Text) (key : Text) (low : Nat := 0) (top : Nat := maxU) (optional : Bool := false) : Outcome Text :=
  findFrom lib key low top optional 0 lines

/-- The two assignments of `Input::findBlock` for line `n`, `/repo/Backbone/IO/Input.cpp:174-184`: the new start and end. -/
def blockStep (one two l : Text) (n : Nat) (b : Nat × Nat) : Nat × Nat :=
  (if has (one ++ " ".toList ++ two) l then n else b.1, if has one l then (if b.1 ≠ 0 then n else maxU) else b.2)

/-- The loop of `Input::findBlock`, `/repo/Backbone/IO/Input.cpp:166-187`, with `n` the line number and `b` start and end. -/
def blockFrom (lib : Lib) (one two : Text) : Nat → Nat × Nat → List Text → Outcome (Nat × Nat)
  | _, b, [] => ok b
  | n, b, l :: ls => do
    let c ← comment lib l
    if c then blockFrom lib one two n b ls
    else blockFrom lib one two (n + 1) (blockStep (lower one) (lower two) (lower l) n b) ls

/-- `Input::findBlock`, `/repo/Backbone/IO/Input.cpp:160-190`. -/
def findBlock (lib : Lib) (lines : List Text) (one two : Text) : Outcome (Nat × Nat) := blockFrom lib one two 0 (0, 0) lines

/-- Reading words from a stream (`std::istream_iterator<std::string>`), `/repo/Backbone/IO/Input.cpp:235-237`, with `w` the word being read. -/
def wordsFrom (w : Text) : Text → List Text
  | [] => if w.isEmpty then [] else [w]
  | c :: l => if isSpace c then (if w.isEmpty then wordsFrom [] l else w :: wordsFrom [] l) else wordsFrom (w ++ [c]) l

/-- `Input::splitLine`, `/repo/Backbone/IO/Input.cpp:226-240`: what follows a percent sign is cut off. -/
def splitLine (l : Text) : List Text := wordsFrom [] (l.takeWhile (fun c => c != '%'))

/-- `Input::readOneParameter`, `/repo/Backbone/IO/Input.cpp:580-601`; for no words the message reads `words[0]`, which is undefined behaviour. -/
def readOne (lib : Lib) (lines : List Text) (key : Text) : Outcome Text := do
  let l ← findKeyword lib lines key
  match splitLine l with
  | [] => ub
  | [_, w] => ok w
  | _ => exit

/-- `Input::readManyParameters`, `/repo/Backbone/IO/Input.cpp:603-624`. -/
def readMany (lib : Lib) (lines : List Text) (key : Text) (optional : Bool := false) : Outcome (List Text) := do
  let l ← findKeyword lib lines key 0 maxU optional
  match splitLine l with
  | [] => ok [[]]
  | [_] => exit
  | _ :: ws => ok ws

/-! ### numbers -/

/-- The value of a string of decimal digits. -/
def ofDigits (l : Text) : Nat := l.foldl (fun n c => 10 * n + (c.toNat - 48)) 0

/-- Sign of a number and the rest of the word. -/
def sign : Text → Bool × Text
  | '-' :: l => (true, l)
  | '+' :: l => (false, l)
  | l => (false, l)

/-- `std::stoi`, used at `/repo/Backbone/IO/Input.cpp:347,687,718,792,795,922`: white space, a sign, digits; the rest of the word is ignored. -/
def stoi (w : Text) : Outcome Int :=
  let s := sign (w.dropWhile isSpace)
  let ds := s.2.takeWhile Char.isDigit
  if ds.isEmpty then throws .invalidArgument
  else
    let z : Int := if s.1 then -(ofDigits ds) else ofDigits ds
    if -2147483648 ≤ z ∧ z ≤ 2147483647 then ok z else throws .outOfRange

/-- Conversion of an `int` to `unsigned`. -/
def toUns (z : Int) : Nat := (z % 4294967296).toNat

/-- `std::accumulate(begin, end, 0)` over a vector of `unsigned`, `/repo/Backbone/IO/Input.cpp:358,692,726`: the sum is reduced to an `int`. -/
def total (l : List Nat) : Int := if l.sum % 4294967296 < 2147483648 then (l.sum % 4294967296 : Nat) else (l.sum % 4294967296 : Nat) - 4294967296

/-- The characters accepted beside digits, `/repo/Utilities/additionalPrintFuncs.cpp:364-365` (`isDigitLambda` of `isFloat`). -/
def floatChar (c : Char) : Bool := c.isDigit || c == 'E' || c == 'e' || c == '+' || c == '-'

/-- `PrintFuncs::isFloat`, `/repo/Utilities/additionalPrintFuncs.cpp:350-379`: the part after the dot starts at `dotFound + 2`, past the end
of the string if the dot is its last character. -/
def isFloat (s : Text) : Outcome Bool :=
  match s.dropWhile (fun c => c != '.') with
  | [] => ok false
  | [_] => ub
  | _ :: _ :: r => ok ((s.takeWhile (fun c => c != '.')).all floatChar && r.all floatChar)

/-- `PrintFuncs::isInteger`, `/repo/Utilities/additionalPrintFuncs.cpp:381-397`. -/
def isInteger (s : Text) : Bool := if s.isEmpty then false else s.all Char.isDigit

/-- `PrintFuncs::isString`, `/repo/Utilities/additionalPrintFuncs.cpp:399-415`. -/
def isString : Text → Bool
  | [] => false
  | c :: _ => c.isAlpha

/-- Printing a list of words, `printVector` with `stringFormat`, `/repo/Utilities/additionalPrintFuncs.cpp:218-265,338-348`: words that do not start with a
letter are converted to numbers, which may throw. -/
def echo (lib : Lib) : List Text → Outcome Unit
  | [] => ok ()
  | w :: ws => do
    let _ ← if isString w then ok (0 : ℝ) else lib.stod w
    echo lib ws

/-- `std::transform` with `std::stod`, `/repo/Backbone/IO/Input.cpp:667-668`, `/repo/Backbone/Datamodel/Material.cpp:11-13` and
`/repo/Backbone/Datamodel/SolverData.cpp:10-13`. -/
def stods (lib : Lib) : List Text → Outcome (List ℝ)
  | [] => ok []
  | w :: ws => do
    let x ← lib.stod w
    let xs ← stods lib ws
    ok (x :: xs)

/-- `std::all_of` with `isFloat`, `/repo/Backbone/IO/Input.cpp:664-665`; it stops at the first word that is none. -/
def allFloat : List Text → Outcome Bool
  | [] => ok true
  | w :: ws => do
    let b ← isFloat w
    if b then allFloat ws else ok false

/-- The loop that fills evenly spaced values, `/repo/Backbone/IO/Input.cpp:361-374` = `728-744`: `counts` and `ends` start with a zero entry; the
state is the result, the index of the next entry and the sum of the ends so far. -/
def ramp (counts : Vec Nat) (ends : Vec ℝ) (x : Vec ℝ) : Outcome (Vec ℝ) := do
  let s ← loop (fun k (s : Vec ℝ × Nat × ℝ) => do
    let n ← counts.get (k + 1)
    let s ← loop (fun j (s : Vec ℝ × Nat × ℝ) => do
      let d ← ends.get (k + 1)
      let y ← fdiv (j * d) (n : ℝ)
      let x ← s.1.set s.2.1 (y + s.2.2)
      ok (x, s.2.1 + 1, s.2.2)) (n + if k + 1 = counts.n - 1 then 1 else 0) s
    let d ← ends.get (k + 1)
    ok (s.1, s.2.1, s.2.2 + d)) (counts.n - 1) (x, 0, 0)
  ok s.1

/-- `value count value count …`, `/repo/Backbone/IO/Input.cpp:677-690`. -/
def valueCount (lib : Lib) : List Text → Outcome (List ℝ × List Nat)
  | [] => ok ([], [])
  | [v] => do
    let x ← lib.stod v
    ok ([x], [])
  | v :: c :: l => do
    let x ← lib.stod v
    let n ← stoi c
    let r ← valueCount lib l
    ok (x :: r.1, toUns n :: r.2)

/-- `count end count end …`, `/repo/Backbone/IO/Input.cpp:713-724`. -/
def countEnd (lib : Lib) : List Text → Outcome (List Nat × List ℝ)
  | [] => ok ([], [])
  | [c] => do
    let n ← stoi c
    ok ([toUns n], [])
  | c :: v :: l => do
    let n ← stoi c
    let x ← lib.stod v
    let r ← countEnd lib l
    ok (toUns n :: r.1, x :: r.2)

/-- The loop that repeats values, `/repo/Backbone/IO/Input.cpp:696-705`. -/
def repeatLoop (counts : Vec Nat) (values : Vec ℝ) (x : Vec ℝ) : Outcome (Vec ℝ) := do
  let s ← loop (fun i (s : Vec ℝ × Nat) => do
    let n ← counts.get i
    loop (fun _ (s : Vec ℝ × Nat) => do
      let v ← values.get i
      let x ← s.1.set s.2 v
      ok (x, s.2 + 1)) n s) counts.n (x, 0)
  ok s.1

/-- `result.resize(n)` for a vector of zeros, `/repo/Backbone/IO/Input.cpp:694,728`; a negative size is converted to a huge one, which throws. -/
def resize (n : Int) : Outcome (Vec ℝ) := if n < 0 then throws .lengthError else ok (Vec.const n.toNat 0)

/-- The two compressed forms of `Input::setManyParameters`, `/repo/Backbone/IO/Input.cpp:672-746`; `totSubmeshes + 1` overflows for the largest
`int`. -/
def expand (lib : Lib) (front : Bool) (ws : List Text) : Outcome (Vec ℝ) :=
  if front then do
    let r ← valueCount lib ws
    let x ← resize (total r.2)
    repeatLoop (Vec.ofList r.2) (Vec.ofList r.1) x
  else do
    let r ← countEnd lib ws
    if total (0 :: r.1) = 2147483647 then ub else do
      let x ← resize (total (0 :: r.1) + 1)
      ramp (Vec.ofList (0 :: r.1)) (Vec.ofList (0 :: r.2)) x

/-- The first word of a list that is never empty (`values.front()`, `/repo/Backbone/IO/Input.cpp:675`). -/
def frontWord : List Text → Outcome Text
  | [] => ub
  | w :: _ => ok w

/-- The values of `Input::setManyParameters`, `/repo/Backbone/IO/Input.cpp:660-750`. -/
def values (lib : Lib) (ws : List Text) : Outcome (Vec ℝ) := do
  let b ← allFloat ws
  if b then do
    let xs ← stods lib ws
    ok (Vec.ofList xs)
  else do
    let w ← frontWord ws
    let f ← isFloat w
    expand lib f ws

/-- `Input::setManyParameters`, `/repo/Backbone/IO/Input.cpp:656-751`. -/
def readValues (lib : Lib) (lines : List Text) (key : Text) : Outcome (Vec ℝ) := do
  let ws ← readMany lib lines key
  values lib ws

/-! ### solvers, geometry and mesh -/

/-- `get_solver_name`, `/repo/Backbone/Datamodel/SolverKind.h:23-36`. -/
def solverName : Calc.Kind → Text
  | .undefined => "UNDEFINED".toList
  | .coupled => "COUPLED".toList
  | .transport => "TRANSPORT".toList
  | .kinetics => "KINETICS".toList
  | .heat => "HEAT".toList
  | .diffusion => "DIFFUSION".toList
  | .ads => "ADS".toList

/-- `SolverData(kind)`, `/repo/Backbone/Datamodel/SolverData.h:14-16`. -/
def newSolver (k : Calc.Kind) : Calc.Settings := ⟨k, 0, 0, 0, Vec.ofList [0], Vec.ofList [], 0, .undefined, .undefined⟩

/-- The kind a word of the card names, `/repo/Backbone/IO/Input.cpp:250-285`. -/
def kindOf (w : Text) : Outcome Calc.Kind :=
  if w = "transport".toList then ok .transport
  else if w = "kinetics".toList then ok .kinetics
  else if w = "heat".toList then ok .heat
  else if w = "diffusion".toList then ok .diffusion
  else if w = "ads".toList then ok .ads
  else exit

/-- The loop of `Input::setSolvers`, `/repo/Backbone/IO/Input.cpp:248-286`. -/
def solverList : List Text → Outcome (List Calc.Settings)
  | [] => ok []
  | w :: ws => do
    let k ← kindOf w
    let ss ← solverList ws
    ok (newSolver k :: ss)

/-- `Input::setSolvers`, `/repo/Backbone/IO/Input.cpp:242-298`. -/
def setSolvers (lib : Lib) (r : Reader) : Outcome Reader := do
  let ws ← readMany lib r.lines "solvers".toList
  let ss ← solverList ws
  ok { r with solvers := if 2 ≤ ss.length then ss ++ [newSolver .coupled] else ss }

/-- `isElementHere(m_solvers, kind)`, `/repo/Utilities/helper_tools.h:22-33`. -/
def isHere (ss : List Calc.Settings) (k : Calc.Kind) : Bool := ss.any (fun s => s.kind = k)

/-- The geometry a word names, `/repo/Backbone/IO/Input.cpp:304-323`. -/
def geomOf (w : Text) : Outcome Diffusion.Geom :=
  if w = "cylinder".toList then ok .cylinder
  else if w = "sphere".toList then ok .sphere
  else if w = "slab".toList then ok .slab
  else exit

/-- `Input::setGeometryKind`, `/repo/Backbone/IO/Input.cpp:300-324`, with `Mesh::setMeshKind` (`/repo/Backbone/Datamodel/Mesh.cpp:10-14`). -/
def setGeometry (lib : Lib) (r : Reader) : Outcome Reader := do
  let w ← readOne lib r.lines "geometry".toList
  let g ← geomOf w
  ok { r with plant := { r.plant with grid := { r.plant.grid with geom := g } } }

/-- The regions of the mesh card, `/repo/Backbone/IO/Input.cpp:342-356`: numbers of cells, thicknesses and names. -/
def regions (lib : Lib) : List Text → Outcome (List Nat × List ℝ × List Text)
  | [] => ok ([], [], [])
  | [n] => do
    let n ← stoi n
    ok ([toUns n], [], [])
  | [n, d] => do
    let n ← stoi n
    let d ← lib.stod d
    ok ([toUns n], [d], [])
  | n :: d :: m :: l => do
    let n ← stoi n
    let d ← lib.stod d
    let r ← regions lib l
    ok (toUns n :: r.1, d :: r.2.1, m :: r.2.2)

/-- The names of the materials of the cells, `/repo/Backbone/IO/Input.cpp:384-390`; `counts` without the leading zero. -/
def mapLoop (names : Vec Text) : Nat → List Nat → List Text → Outcome (List Text)
  | _, [], l => ok l
  | i, n :: ns, l => do
    let l ← loop (fun _ l => do
      let m ← names.get i
      ok (l ++ [m])) n l
    mapLoop names (i + 1) ns l

/-- Insertion of a string into a sorted list. -/
def insertText (w : Text) : List Text → List Text
  | [] => [w]
  | v :: l => if v < w then v :: insertText w l else w :: v :: l

/-- `std::sort` on strings, `/repo/Backbone/IO/Input.cpp:400`: any sorting algorithm gives this list. -/
def sortText : List Text → List Text
  | [] => []
  | w :: l => insertText w (sortText l)

/-- `std::unique` on strings, `/repo/Backbone/IO/Input.cpp:401-402`. -/
def uniqueText : List Text → List Text
  | [] => []
  | [w] => [w]
  | w :: v :: l => if w = v then uniqueText (v :: l) else w :: uniqueText (v :: l)

/-- The boundaries of `Input::setMesh`, `/repo/Backbone/IO/Input.cpp:358-374`; a negative size of an Eigen vector, and the overflow of
`maxNumberMeshes + 1`, are undefined behaviour. -/
def meshBounds (counts : List Nat) (ds : List ℝ) : Outcome (Vec ℝ) :=
  if total (0 :: counts) < -1 ∨ total (0 :: counts) = 2147483647 then ub
  else ramp (Vec.ofList (0 :: counts)) (Vec.ofList (0 :: ds)) (Vec.const (total (0 :: counts) + 1).toNat 0)

/-- `Input::setMesh`, `/repo/Backbone/IO/Input.cpp:334-406`. The volumes and the middle points are computed for printing only. -/
def setMesh (lib : Lib) (r : Reader) : Outcome Reader := do
  let ws ← readMany lib r.lines "mesh".toList
  let c ← regions lib ws
  let b ← meshBounds c.1 c.2.1
  let g := Mesh.setBounds b r.plant.grid
  let _ ← Mesh.volumes g "m"
  let m ← mapLoop (Vec.ofList c.2.2) 0 c.1 []
  let g ← Mesh.createMaterials (Vec.ofList (m.map String.ofList)) g
  let _ ← echo lib m
  let _ ← Mesh.middlePoints g
  ok { r with
    plant := { r.plant with grid := g }
    map := r.map ++ m
    mats := uniqueText (sortText c.2.2) }

/-! ### settings of the solvers -/

/-- A setting with one value, `/repo/Backbone/IO/Input.cpp:784-878`: the name of the setting, the value, the kind of solver it is read for, the solver and the
reactor. `energies` is an `int` in the settings and an `unsigned` in the mesh; the model keeps the `unsigned`. -/
def oneValue (lib : Lib) (k v : Text) (input : Calc.Kind) (s : Calc.Settings) (p : Calc.Plant) : Outcome (Calc.Settings × Calc.Plant) :=
  if k = "accuracy".toList then do
    let x ← lib.stod v
    ok ({ s with acc := x }, p)
  else if k = "max_iteration_number".toList then do
    let n ← stoi v
    ok ({ s with maxIter := n }, p)
  else if k = "relaxation_parameter".toList then do
    let x ← lib.stod v
    ok ({ s with relax := x }, p)
  else if k = "energies".toList then do
    let n ← stoi v
    let g ← Mesh.setGroups (toUns n) p.grid
    ok ({ s with energies := toUns n }, { p with grid := g })
  else if k = "albedo".toList then
    if input = .transport ∨ ((input = .diffusion ∨ input = .ads) ∧ p.grid.geom ≠ .slab) then do
      let x ← lib.stod v
      ok ({ s with albedo := Vec.ofList [x] }, p)
    else exit
  else if k = "direction".toList then
    if input = .diffusion then
      if v = "forward".toList then ok ({ s with direction := .forward }, p)
      else if v = "adjoint".toList then ok ({ s with direction := .adjoint }, p)
      else exit
    else exit
  else if k = "eigenmodes".toList then
    if input = .diffusion ∨ input = .transport then
      if v = "fundamental".toList then ok ({ s with modes := .fundamental }, p)
      else if v = "all".toList then ok ({ s with modes := .all }, p)
      else exit
    else exit
  else ok (s, p)

/-- A setting with two values, `/repo/Backbone/IO/Input.cpp:880-899`. -/
def twoValues (lib : Lib) (k v w : Text) (input : Calc.Kind) (s : Calc.Settings) (p : Calc.Plant) : Outcome (Calc.Settings × Calc.Plant) :=
  if k = "albedo".toList then
    if (input = .diffusion ∨ input = .ads) ∧ p.grid.geom = .slab then do
      let x ← lib.stod v
      let y ← lib.stod w
      ok ({ s with albedo := Vec.ofList [x, y] }, p)
    else exit
  else ok (s, p)

/-- `SolverData::setHeatBoundaryConditions`, `/repo/Backbone/Datamodel/SolverData.cpp:8-14`. -/
def setBoundary (lib : Lib) (vs : List Text) (s : Calc.Settings) (p : Calc.Plant) : Outcome (Calc.Settings × Calc.Plant) := do
  let xs ← stods lib vs
  ok ({ s with bc := Vec.ofList xs }, p)

/-- A setting with three values, `/repo/Backbone/IO/Input.cpp:900-933`. The order in which the three conversions of the source are made is unspecified in
C++; it only matters for which exception is thrown. -/
def threeValues (lib : Lib) (k u v w : Text) (input : Calc.Kind) (s : Calc.Settings) (p : Calc.Plant) : Outcome (Calc.Settings × Calc.Plant) :=
  if k = "heat_boundary_conditions".toList then
    if input = .heat ∧ p.grid.geom ≠ .slab then setBoundary lib [u, v, w] s p else exit
  else if k = "ext_source".toList then
    if input = .ads then do
      let x ← lib.stod u
      let m ← stoi v
      let n ← stoi w
      ok (s, { p with source := (x, toUns m, toUns n) })
    else exit
  else ok (s, p)

/-- A setting with six values, `/repo/Backbone/IO/Input.cpp:934-953`. -/
def sixValues (lib : Lib) (k : Text) (vs : List Text) (input : Calc.Kind) (s : Calc.Settings) (p : Calc.Plant) : Outcome (Calc.Settings × Calc.Plant) :=
  if k = "heat_boundary_conditions".toList then
    if input = .heat ∧ p.grid.geom = .slab then setBoundary lib vs s p else exit
  else ok (s, p)

/-- The words of the line of a setting, `/repo/Backbone/IO/Input.cpp:779-958`; for no words the message reads `values[0]`, which is undefined behaviour. -/
def assign (lib : Lib) (ws : List Text) (input : Calc.Kind) (s : Calc.Settings) (p : Calc.Plant) : Outcome (Calc.Settings × Calc.Plant) :=
  match ws with
  | [] => ub
  | [k, v] => oneValue lib k v input s p
  | [k, v, w] => twoValues lib k v w input s p
  | [k, u, v, w] => threeValues lib k u v w input s p
  | [k, a, b, c, d, e, f] => sixValues lib k [a, b, c, d, e, f] input s p
  | _ => exit

/-- One solver of `Input::setSolverProperties`, `/repo/Backbone/IO/Input.cpp:771-958`. -/
def property (lib : Lib) (lines : List Text) (key : Text) (input : Calc.Kind) (s : Calc.Settings) (p : Calc.Plant) :
    Outcome (Calc.Settings × Calc.Plant) :=
  if input ≠ .undefined ∧ s.kind ≠ input then ok (s, p)
  else do
    let _ ← readOne lib lines ("solver ".toList ++ solverName s.kind)
    let b ← findBlock lib lines "solver".toList (solverName s.kind)
    let l ← findKeyword lib lines key b.1 b.2
    assign lib (splitLine l) input s p

/-- The loop of `Input::setSolverProperties`, `/repo/Backbone/IO/Input.cpp:769-959`. -/
def properties (lib : Lib) (lines : List Text) (key : Text) (input : Calc.Kind) :
    List Calc.Settings → Calc.Plant → Outcome (List Calc.Settings × Calc.Plant)
  | [], p => ok ([], p)
  | s :: ss, p => do
    let x ← property lib lines key input s p
    let y ← properties lib lines key input ss x.2
    ok (x.1 :: y.1, y.2)

/-- `Input::setSolverProperties`, `/repo/Backbone/IO/Input.cpp:767-960`. -/
def setProperty (lib : Lib) (key : String) (input : Calc.Kind) (r : Reader) : Outcome Reader := do
  let x ← properties lib r.lines key.toList input r.solvers r.plant
  ok { r with
    solvers := x.1
    plant := x.2 }

/-! ### materials -/

/-- A law given by words, stored in the material of cell `m`, `/repo/Backbone/IO/Input.cpp:515-535`, `562-565` and
`/repo/Backbone/Datamodel/Material.cpp:23-75`; a cell without material throws (`at`, `/repo/Backbone/Datamodel/Mesh.h:31`). -/
def addLaw (lib : Lib) (put : Mesh.Material → Vec ℝ → Mesh.Material) (ws : List Text) (m : Nat) (g : Mesh.Grid) : Outcome Mesh.Grid :=
  if m < g.mats.n then do
    let xs ← stods lib ws
    Mesh.change (fun x => put x (Vec.ofList xs)) m g
  else throws .outOfRange

/-- The words of a line without the first `n`, `/repo/Backbone/IO/Input.cpp:514,560`: undefined behaviour if there are fewer. -/
def skip (n : Nat) (ws : List Text) : Outcome (List Text) := if n ≤ ws.length then ok (ws.drop n) else ub

/-- `std::to_string`. -/
def number (n : Nat) : Text := Nat.toDigits 10 n

/-- One line of nuclear data for cell `m`, `/repo/Backbone/IO/Input.cpp:512-535` and `558-565`: `n` words are the keyword. Printing what was read cannot fail
after the conversion to numbers. -/
def readLaw (lib : Lib) (lines : List Text) (b : Nat × Nat) (key : Text) (n : Nat) (put : Mesh.Material → Vec ℝ → Mesh.Material) (m : Nat) (g : Mesh.Grid) :
    Outcome Mesh.Grid := do
  let l ← findKeyword lib lines key b.1 b.2
  let ws ← skip n (splitLine l)
  addLaw lib put ws m g

/-- What the three loops over materials have in common, `/repo/Backbone/IO/Input.cpp:449-472`, `499-541`, `548-577`: header and block of each material, then `body block cell`
for the cells with this material. -/
def eachMaterial (lib : Lib) (lines map : List Text) (body : Nat × Nat → Nat → Mesh.Grid → Outcome Mesh.Grid) : List Text → Mesh.Grid → Outcome Mesh.Grid
  | [], g => ok g
  | w :: ws, g => do
    let _ ← readOne lib lines ("material ".toList ++ w)
    let b ← findBlock lib lines "material".toList w
    let g ← loop (fun m g => do
      let v ← (Vec.ofList map).get m
      if v = w then body b m g else ok g) g.cells g
    eachMaterial lib lines map body ws g

/-- `Input::setXS`, `/repo/Backbone/IO/Input.cpp:495-542`. -/
def setXS (lib : Lib) (name : String) (put : Mesh.Material → Vec ℝ → Mesh.Material) (r : Reader) : Outcome Reader := do
  let e := r.plant.grid.energies
  let g ← eachMaterial lib r.lines r.map (fun b m g =>
    loop (fun i g => readLaw lib r.lines b (name.toList ++ "(".toList ++ number (i + 1) ++ ")".toList) 1 put m g) e g) r.mats r.plant.grid
  ok { r with plant := { r.plant with grid := g } }

/-- `Input::setMatrixXS` for the scattering matrix, `/repo/Backbone/IO/Input.cpp:544-578`; the keyword contains a blank. -/
def setScattering (lib : Lib) (r : Reader) : Outcome Reader := do
  let e := r.plant.grid.energies
  let g ← eachMaterial lib r.lines r.map (fun b m g =>
    loop (fun i g => loop (fun j g =>
      readLaw lib r.lines b ("scattMatrix(".toList ++ number (i + 1) ++ ", ".toList ++ number (j + 1) ++ ")".toList) 2
        (fun x v => { x with scatt := x.scatt ++ [v] }) m g) e g) e g) r.mats r.plant.grid
  ok { r with plant := { r.plant with grid := g } }

/-- `Input::setThermalConductivity`, `/repo/Backbone/IO/Input.cpp:475-493`, with `/repo/Backbone/Datamodel/Mesh.cpp:182-185` and
`/repo/Backbone/Datamodel/Material.cpp:9-16`; for no words the message reads `values[0]`. -/
def conductivityLaw (lib : Lib) (ws : List Text) (m : Nat) (g : Mesh.Grid) : Outcome Mesh.Grid :=
  match ws with
  | [] => ub
  | [_] => exit
  | _ :: vs =>
    if vs.length ≤ 3 then do
      let xs ← stods lib vs
      Mesh.change (fun x => { x with kLaw := some (Vec.ofList xs) }) m g
    else exit

/-- `Input::setMaterialProperties` for the thermal conductivity, `/repo/Backbone/IO/Input.cpp:437-473`. -/
def setConductivity (lib : Lib) (r : Reader) : Outcome Reader := do
  let g ← eachMaterial lib r.lines r.map (fun b m g => do
    let l ← findKeyword lib r.lines "thermal_conductivity".toList b.1 b.2
    conductivityLaw lib (splitLine l) m g) r.mats r.plant.grid
  ok { r with plant := { r.plant with grid := g } }

/-- The diffusion coefficients, which the diffusion and the source-driven solver need, `/repo/Backbone/IO/Input.cpp:427`. -/
def setDiffusion (lib : Lib) (diffusion : Bool) (r : Reader) : Outcome Reader :=
  if diffusion then setXS lib "diffCoeff" (fun x v => { x with diff := x.diff ++ [v] }) r else ok r

/-- The nuclear data of transport and diffusion, `/repo/Backbone/IO/Input.cpp:413-431`: `ni`, `chi`, `fission`, `total`, the diffusion coefficient for diffusion
only, the scattering matrix. -/
def setNuclear (lib : Lib) (diffusion : Bool) (r : Reader) : Outcome Reader := do
  let r ← setXS lib "ni" (fun x v => { x with nu := x.nu ++ [v] }) r
  let r ← setXS lib "chi" (fun x v => { x with chi := x.chi ++ [v] }) r
  let r ← setXS lib "fission" (fun x v => { x with fiss := x.fiss ++ [v] }) r
  let r ← setXS lib "total" (fun x v => { x with tot := x.tot ++ [v] }) r
  let r ← setDiffusion lib diffusion r
  setScattering lib r

/-! ### the whole input -/

/-- `Input::setKineticsParameters`, `/repo/Backbone/IO/Input.cpp:626-654`. -/
def setKinetics (lib : Lib) (r : Reader) : Outcome Reader := do
  let a ← readOne lib r.lines "generation_time".toList
  let alpha ← lib.stod a
  let w ← readOne lib r.lines "initial_power".toList
  let power ← lib.stod w
  let lam ← readValues lib r.lines "delayed_constants".toList
  let beta ← readValues lib r.lines "delayed_fractions".toList
  let times ← readValues lib r.lines "times".toList
  let rhos ← readValues lib r.lines "reactivities".toList
  if times.n = rhos.n then ok { r with plant := { r.plant with kinetics := ⟨lam, beta, alpha, power, rhos, times⟩ } } else exit

/-- `Input::setThermalPower`, `/repo/Backbone/IO/Input.cpp:326-332`. -/
def setPower (lib : Lib) (r : Reader) : Outcome Reader := do
  let w ← readOne lib r.lines "thermal_power".toList
  let x ← lib.stod w
  ok { r with plant := { r.plant with power := x } }

/-- `Input::setHeatSources`, `/repo/Backbone/IO/Input.cpp:760-765`. -/
def setSources (lib : Lib) (r : Reader) : Outcome Reader := do
  let q ← readValues lib r.lines "heat_sources".toList
  let g ← Mesh.setHeatSources q r.plant.grid
  ok { r with plant := { r.plant with grid := g } }

/-- `Input::setTemperatures`, `/repo/Backbone/IO/Input.cpp:753-758`. -/
def setTemps (lib : Lib) (r : Reader) : Outcome Reader := do
  let t ← readValues lib r.lines "temperatures".toList
  let g ← Mesh.setTemperatures t r.plant.grid
  ok { r with plant := { r.plant with grid := g } }

/-- What heats the cells: the thermal power with a neutronic solver, the heat sources otherwise, `/repo/Backbone/IO/Input.cpp:130-137`. -/
def setLoad (lib : Lib) (r : Reader) : Outcome Reader :=
  if isHere r.solvers .transport || isHere r.solvers .diffusion then setPower lib r else setSources lib r

/-- The data of the heat solver, `/repo/Backbone/IO/Input.cpp:128-141`. -/
def setHeat (lib : Lib) (r : Reader) : Outcome Reader := do
  let r ← setLoad lib r
  let r ← setConductivity lib r
  setTemps lib r

/-- The data of one solver, `/repo/Backbone/IO/Input.cpp:119-146`. -/
def setData (lib : Lib) (k : Calc.Kind) (r : Reader) : Outcome Reader :=
  match k with
  | .transport => setNuclear lib false r
  | .diffusion => setNuclear lib true r
  | .ads => setNuclear lib true r
  | .kinetics => setKinetics lib r
  | .heat => setHeat lib r
  | _ => ok r

/-- The loop over the solvers, `/repo/Backbone/IO/Input.cpp:117-147`. -/
def setAll (lib : Lib) : List Calc.Settings → Reader → Outcome Reader
  | [], r => ok r
  | s :: ss, r => do
    let r ← setData lib s.kind r
    setAll lib ss r

/-- The plot a word names, `/repo/Backbone/IO/Input.cpp:970-980`; other words are ignored. -/
def plotOf (w : Text) : Option Plot :=
  if w = "neutronflux".toList then some .neutronFlux
  else if w = "adjointflux".toList then some .adjointFlux
  else if w = "totalflux".toList then some .totalFlux
  else if w = "temperature".toList then some .temperature
  else if w = "powerdensity".toList then some .powerDensity
  else none

/-- `Input::setPlots`, `/repo/Backbone/IO/Input.cpp:962-983`. -/
def setPlots (lib : Lib) (r : Reader) : Outcome Reader := do
  let ws ← readMany lib r.lines "plots".toList true
  ok { r with plots := r.plots ++ ws.filterMap plotOf }

/-- Geometry and mesh, `/repo/Backbone/IO/Input.cpp:84-94`. -/
def setShape (lib : Lib) (r : Reader) : Outcome Reader :=
  if isHere r.solvers .transport || isHere r.solvers .diffusion || isHere r.solvers .ads || isHere r.solvers .heat then do
    let r ← setGeometry lib r
    setMesh lib r
  else ok r

/-- The relaxation parameter, `/repo/Backbone/IO/Input.cpp:110-115`. -/
def setRelaxation (lib : Lib) (r : Reader) : Outcome Reader :=
  if (isHere r.solvers .transport || isHere r.solvers .diffusion) && isHere r.solvers .heat && isHere r.solvers .coupled then
    setProperty lib "relaxation_parameter" .coupled r
  else ok r

/-- The settings of the solvers, `/repo/Backbone/IO/Input.cpp:96-115`. -/
def setSettings (lib : Lib) (r : Reader) : Outcome Reader := do
  let r ← setProperty lib "accuracy" .undefined r
  let r ← setProperty lib "max_iteration_number" .undefined r
  let r ← setProperty lib "albedo" .transport r
  let r ← setProperty lib "albedo" .diffusion r
  let r ← setProperty lib "albedo" .ads r
  let r ← setProperty lib "heat_boundary_conditions" .heat r
  let r ← setProperty lib "energies" .transport r
  let r ← setProperty lib "energies" .diffusion r
  let r ← setProperty lib "energies" .ads r
  let r ← setProperty lib "direction" .diffusion r
  let r ← setProperty lib "eigenmodes" .transport r
  let r ← setProperty lib "eigenmodes" .diffusion r
  let r ← setProperty lib "ext_source" .ads r
  setRelaxation lib r

/-- `Input::readData`, `/repo/Backbone/IO/Input.cpp:79-150`, for a file given by its lines and the reactor `p` before. -/
def readData (lib : Lib) (file : Option (List Text)) (p : Calc.Plant) : Outcome Reader := do
  let ls ← storeInput file
  let r ← setSolvers lib ⟨ls, [], p, [], [], []⟩
  let r ← setShape lib r
  let r ← setSettings lib r
  let r ← setAll lib r.solvers r
  setPlots lib r

/-- `Reactor()`, `/repo/Backbone/Datamodel/Reactor.h:15`, and `Mesh()`, `/repo/Backbone/Datamodel/Mesh.h:14`: the numbers of cells and groups and the kinetics
data are not initialised, so they are arbitrary here. -/
def fresh (cells energies : Nat) (k : Calc.KineticsSet) : Calc.Plant :=
  ⟨⟨.undefined, Vec.ofList [], cells, energies, 0, 0, ⟨0, fun _ => Mesh.newMaterial ""⟩⟩, -1, [], [], k, (0, 0, 0)⟩

/-- The program after its arguments are read, `/repo/app/main.cpp:18-22`: reading and calculating. -/
def program (lib : Lib) (t : Calc.Tools) (file : Option (List Text)) (p : Calc.Plant) : Outcome Calc.Plant := do
  let r ← readData lib file p
  Calc.problem t r.plant r.solvers

end

end Verif.Input
