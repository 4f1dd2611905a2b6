import Verif.Gen.Data
import Verif.Input.Spec

/-!
# Model of the generator of cross sections (`/repo/scripts/SerpToALMOST.py`, `/repo/scripts/xs_gen.py`)

Simplifications: numbers are reals; `serpentTools` is a function from files to universes; the header of the output file (date, settings, names of the Serpent files:
`printHeader`, `xs_gen.py:273-282`) is left out; the window itself (`tkinter`) is the contents of its fields.
-/

namespace Verif.Gen

open Verif Input

noncomputable section

/-- Sequencing of runs: what follows an exception or `sys.exit()` is not run. Models no particular line of `/repo`. -/
def Run.bind {α β : Type} (x : Run α) (f : α → Run β) : Run β :=
  match x with
  | .done a => f a
  | .leaves m => .leaves m
  | .fails e => .fails e
  | .nonfinite => .nonfinite

instance : Monad Run where
  pure := .done
  bind := Run.bind

/-- An entry of a `numpy` array, with the exception of an index out of range. (The indices of the code are never negative.) -/
def entry (v : Vec ℝ) (i : Nat) : Run ℝ := if i < v.n then .done (v.v i) else .fails .index

/-- Assignment to an entry of a `numpy` array. -/
def assign (v : Vec ℝ) (i : Nat) (x : ℝ) : Run (Vec ℝ) := if i < v.n then .done ⟨v.n, Function.update v.v i x⟩ else .fails .index

/-- An entry of a list, with the exception of an index out of range. -/
def item {α : Type} (l : List α) (i : Nat) : Run α :=
  match l[i]? with
  | some a => .done a
  | none => .fails .index

/-- `for i in range(n)` with a state. -/
def repeatFor {σ : Type} (f : Nat → σ → Run σ) : Nat → σ → Run σ
  | 0, s => .done s
  | n + 1, s => do
    let t ← repeatFor f n s
    f n t

/-- `for i in range(n)` that stores one value each time, as in `xsInterValues[e] = …`. -/
def collect {β : Type} (f : Nat → Run β) : Nat → Run (List β)
  | 0 => .done []
  | n + 1 => do
    let l ← collect f n
    let b ← f n
    .done (l ++ [b])

/-- `for a in l` that stores one value for each. -/
def each {α β : Type} (f : α → Run β) : List α → Run (List β)
  | [] => .done []
  | a :: l => do
    let b ← f a
    let m ← each f l
    .done (b :: m)

/-! ### the window -/

/-- `fromStrToFloat`, `/repo/scripts/SerpToALMOST.py:78-83`. -/
def fromStrToFloat (py : Py) (s : Text) : Run ℝ :=
  if s = [] then .done 0 else
    match py.float s with
    | some x => .done x
    | none => .fails .value

/-- The temperature of row `i` (counted from zero), `/repo/scripts/SerpToALMOST.py:47-56`. -/
def rowTemp (py : Py) (i : Nat) (r : Row) : Run ℝ := do
  let x ← fromStrToFloat py r.temp
  let t := if r.unit = "K".toList then x - 273.15 else x
  .done (if t = -273.15 then t + ((i : ℝ) + 1) else t)

/-- `d[k] = v` of a dictionary, which keeps the order in which keys are first set. -/
def setKey {β : Type} (d : List (ℝ × β)) (k : ℝ) (v : β) : List (ℝ × β) :=
  open Classical in
  if k ∈ d.map Prod.fst then d.map (fun q => if q.1 = k then (k, v) else q) else d ++ [(k, v)]

/-- The temperatures of the rows, `/repo/scripts/SerpToALMOST.py:45-56`. -/
def rowTemps (py : Py) : Nat → List Row → Run (List ℝ)
  | _, [] => .done []
  | i, r :: l => do
    let t ← rowTemp py i r
    let ts ← rowTemps py (i + 1) l
    .done (t :: ts)

/-- `generate` up to the call of the generator: the dictionary of temperatures and files it is called with. The dictionary `d` is a member of the window; it is empty when the window
opens and is never cleared, `/repo/scripts/SerpToALMOST.py:28,43-59`. -/
def request (py : Py) (d : List (ℝ × Option Text)) (rows : List Row) : Run (List (ℝ × Option Text)) := do
  let ts ← rowTemps py 0 rows
  .done ((ts.zip rows).foldl (fun d q => setKey d q.1 q.2.file) d)

/-! ### the files -/

/-- `os.path.exists`, with the exception for `None`. -/
def pathExists (disk : Disk) (f : Option Text) : Run Bool :=
  match f with
  | none => .fails .type
  | some f => .done ((disk f).isSome)

/-- The truth value of a file name: neither `None` nor empty. -/
def given (f : Option Text) : Bool :=
  match f with
  | none => false
  | some f => !f.isEmpty

/-- `prepareSerpentFiles`, `/repo/scripts/xs_gen.py:148-179`: the temperatures and files that are used. -/
def prepareSerpentFiles (disk : Disk) (d : List (ℝ × Option Text)) : Run (List (ℝ × Text)) := do
  let q1 ← item d 0
  let q2 ← item d 1
  let q3 ← item d 2
  let e1 ← pathExists disk q1.2
  if e1 && given q1.2 then
    if !given q2.2 then
      .done [(0, q1.2.getD [])]
    else do
      let e2 ← pathExists disk q2.2
      if e2 then
        if given q3.2 then do
          let e3 ← pathExists disk q3.2
          if e3 then .done (setKey (setKey [(q1.1, q1.2.getD [])] q2.1 (q2.2.getD [])) q3.1 (q3.2.getD []))
          else .leaves .third
        else .done (setKey [(q1.1, q1.2.getD [])] q2.1 (q2.2.getD []))
      else .leaves .second
  else .leaves .first

/-! ### reading the outputs -/

/-- `GroupConstants`, `/repo/scripts/xs_gen.py:300-311`: the tables, the scattering matrix with its number of rows and columns, the temperature and the number of groups. -/
structure GroupConstants where
  set : Key → Vec ℝ
  size : Nat
  scattMatrix0 : Nat → Nat → ℝ
  temp : ℝ
  energyGroups : Nat

/-- `Material`, `/repo/scripts/xs_gen.py:314-350`, before its polynomials are made. -/
structure Material where
  matNumber : Text
  groupConstantsList : List GroupConstants

/-- One pass of the loop that corrects the constants of a universe with `G` groups, `/repo/scripts/xs_gen.py:247-258`. -/
def correctGroup (o : Options) (G i : Nat) (c : Consts) : Run Consts :=
  match o.solver with
  | .transport =>
    if o.transport then do
      let t ← entry (c.xs .total) i
      let s ← entry c.scatt1 i
      let tot ← assign (c.xs .total) i (t - s)
      let d ← entry c.s0 (i + i * G)
      let s0 ← assign c.s0 (i + i * G) (d - s)
      .done { c with xs := Function.update c.xs .total tot, s0 := s0 }
    else .done c
  | .diffusion =>
    if !o.transport then do
      let s ← entry c.scatt0 i
      let t ← entry (c.xs .total) i
      if 3.0 * t ^ 2 = 0 then .nonfinite else do
        let D ← assign (c.xs .diffCoeff) i (s / (3.0 * t ^ 2))
        .done { c with xs := Function.update c.xs .diffCoeff D }
    else .done c

/-- The constants of a universe at the temperature `temp`: `readSerpentOutput`, `/repo/scripts/xs_gen.py:208-264`, for one universe. -/
def readUniverse (o : Options) (temp : ℝ) (u : Universe) : Run GroupConstants := do
  let G := (u.inf.xs .total).n
  let c := if o.leakage = false then u.inf else u.b1
  let c ← repeatFor (correctGroup o G) G c
  let m ← collect (fun i => collect (fun j => entry c.s0 (j + i * G)) G) G
  .done ⟨c.xs, G, fun i j => (m.getD i []).getD j 0, temp, (c.xs .total).n⟩

/-- `mesh.getMaterial(name).addGroupConstants(gps)`, `/repo/scripts/xs_gen.py:265,322-338,356-359`: constants of a temperature that is already there are ignored; for
an unknown name `getMaterial` returns `None`, which has no such method. -/
def addGroupConstants (name : Text) (g : GroupConstants) : List Material → Run (List Material)
  | [] => .fails .attribute
  | m :: l =>
    open Classical in
    if m.matNumber = name then
      .done ((if g.temp ∈ m.groupConstantsList.map GroupConstants.temp then m else { m with groupConstantsList := m.groupConstantsList ++ [g] }) :: l)
    else do
      let l ← addGroupConstants name g l
      .done (m :: l)

/-- `readSerpentOutput`, `/repo/scripts/xs_gen.py:205-265`. -/
def readSerpentOutput (o : Options) (temp : ℝ) : List Universe → List Material → Run (List Material)
  | [], ms => .done ms
  | u :: us, ms => do
    let g ← readUniverse o temp u
    let ms ← addGroupConstants u.name g ms
    readSerpentOutput o temp us ms

/-- `createMaterials`, `/repo/scripts/xs_gen.py:268-271,361-378`: a second universe of the same name takes the first entry of an empty list. -/
def createMaterials : List Universe → List Material → Run (List Material)
  | [], ms => .done ms
  | u :: us, ms => if u.name ∈ ms.map Material.matNumber then .fails .index else createMaterials us (ms ++ [⟨u.name, []⟩])

/-- The loop over the outputs, `/repo/scripts/xs_gen.py:33-39`, after the materials have been created. -/
def readAll (o : Options) : List (ℝ × List Universe) → List Material → Run (List Material)
  | [], ms => .done ms
  | q :: l, ms => do
    let ms ← readSerpentOutput o q.1 q.2 ms
    readAll o l ms

/-! ### the polynomials -/

/-- A material with its polynomials: for each key one for each group, and one for each pair of groups (row by row), `/repo/scripts/xs_gen.py:285-298,319-320`. -/
structure Result where
  matNumber : Text
  xs : Key → List Coefs
  scattMatrix0 : List (List Coefs)

/-- The polynomials of one material if all of its tables have the polynomial `f` makes of the values of the files, `/repo/scripts/xs_gen.py:55-146`: `vec` is used for the
tables and `mat` for the scattering matrix. -/
def fitMaterial (vec mat : List ℝ → Coefs) (name : Text) (gs : List GroupConstants) (G : Nat) : Run Result := do
  let table := fun (k : Key) => collect (fun e => do
    let ys ← each (fun g : GroupConstants => entry (g.set k) e) gs
    .done (vec ys)) G
  let total ← table .total
  let ni ← table .ni
  let chi ← table .chi
  let fission ← table .fission
  let absorption ← table .absorption
  let diffCoeff ← table .diffCoeff
  let m ← collect (fun i => collect (fun j => do
    let ys ← each (fun g : GroupConstants => if i < g.size ∧ j < g.size then .done (g.scattMatrix0 i j) else .fails .index) gs
    .done (mat ys)) G) G
  .done ⟨name, fun k => match k with
    | .total => total
    | .ni => ni
    | .chi => chi
    | .fission => fission
    | .absorption => absorption
    | .diffCoeff => diffCoeff, m⟩

/-- `calculateALMOSTCrossSections`, `/repo/scripts/xs_gen.py:47-146`: constants for one file, `lagrange` for two; for three files `polyfit` for the tables and `lagrange` for the
scattering matrix. The number of files and the temperatures are those of the first material. -/
def calculateALMOSTCrossSections (py : Py) (ms : List Material) : Run (List Result) := do
  let m0 ← item ms 0
  let temps := m0.groupConstantsList.map GroupConstants.temp
  let lag := fun ys => Coefs.array (py.lagrange temps ys).reverse
  match m0.groupConstantsList.length with
  | 1 => each (fun m => do
      let g1 ← item m.groupConstantsList 0
      fitMaterial (fun ys => .scalar (ys.headD 0)) (fun ys => .scalar (ys.headD 0)) m.matNumber [g1] g1.energyGroups) ms
  | 2 => each (fun m => do
      let g1 ← item m.groupConstantsList 0
      let g2 ← item m.groupConstantsList 1
      fitMaterial lag lag m.matNumber [g1, g2] g1.energyGroups) ms
  | 3 => each (fun m => do
      let g1 ← item m.groupConstantsList 0
      let g2 ← item m.groupConstantsList 1
      let g3 ← item m.groupConstantsList 2
      fitMaterial (fun ys => .array (py.polyfit temps ys)) lag m.matNumber [g1, g2, g3] g1.energyGroups) ms
  | _ => .done (ms.map (fun m => ⟨m.matNumber, fun _ => [], []⟩))

/-- What the generator makes of the outputs `fs` (with their temperatures), before it is printed, `/repo/scripts/xs_gen.py:33-41`. -/
def crossSections (py : Py) (o : Options) (fs : List (ℝ × List Universe)) : Run (List Result) := do
  let q ← item fs 0
  let ms ← createMaterials q.2 []
  let ms ← readAll o fs ms
  calculateALMOSTCrossSections py ms

/-! ### printing -/

/-- `scientific`, `/repo/scripts/xs_gen.py:384-393`. -/
def scientific (py : Py) : Coefs → Text
  | .scalar x => py.fmt x
  | .array l => l.flatMap (fun x => py.fmt x ++ " ".toList)

/-- A line of a table, `/repo/scripts/xs_gen.py:191-197`: the name, the number of the group, blanks and the coefficients. -/
def tableLine (py : Py) (name pad : String) (i : Nat) (c : Coefs) : Text :=
  name.toList ++ ("(".toList ++ ((toString (i + 1)).toList ++ (")".toList ++ (pad.toList ++ scientific py c))))

/-- A line of the scattering matrix, `/repo/scripts/xs_gen.py:203`. -/
def scattLine (py : Py) (i j : Nat) (c : Coefs) : Text :=
  "scattMatrix(".toList ++ ((toString (i + 1)).toList ++ (", ".toList ++ ((toString (j + 1)).toList ++ (") ".toList ++ scientific py c))))

/-- An entry of a dictionary whose keys are counted from zero, with the exception of a missing one. -/
def lookup {α : Type} (l : List α) (i : Nat) : Run α :=
  match l[i]? with
  | some a => .done a
  | none => .fails .key

/-- The lines of group `i` of a material, `/repo/scripts/xs_gen.py:189-199`. -/
def groupLines (py : Py) (solver : Solver) (r : Result) (i : Nat) : Run (List Text) := do
  let ni ← lookup (r.xs .ni) i
  let chi ← lookup (r.xs .chi) i
  let total ← lookup (r.xs .total) i
  let fission ← lookup (r.xs .fission) i
  let D ← if solver = .diffusion then do
      let D ← lookup (r.xs .diffCoeff) i
      .done [tableLine py "diffCoeff" "  " i D]
    else .done []
  .done ([tableLine py "ni" "         " i ni, tableLine py "chi" "        " i chi, tableLine py "total" "      " i total, tableLine py "fission" "    " i fission] ++ D ++ [[]])

/-- The lines of a material for `E` groups, `/repo/scripts/xs_gen.py:187-203`. -/
def materialLines (py : Py) (solver : Solver) (E : Nat) (r : Result) : Run (List Text) := do
  let gs ← collect (groupLines py solver r) E
  let ss ← collect (fun i => collect (fun j => do
    let row ← lookup r.scattMatrix0 i
    let c ← lookup row j
    .done (scattLine py i j c)) E) E
  .done ([[], "material ".toList ++ r.matNumber, []] ++ gs.flatten ++ ss.flatten)

/-- `printAlmostOutput`, `/repo/scripts/xs_gen.py:181-203`: the number of groups is that of the first material. -/
def printAlmostOutput (py : Py) (solver : Solver) (rs : List Result) : Run (List Text) := do
  let r0 ← item rs 0
  let ls ← each (materialLines py solver (r0.xs .total).length) rs
  .done ls.flatten

/-- `serpentTools.read` of the files, in their order, `/repo/scripts/xs_gen.py:33-34`. (A file that has been found is there; reading is done file by file in the code, before each
is used, which makes no difference as reading has no effect.) -/
def readFiles (disk : Disk) (fs : List (ℝ × Text)) : List (ℝ × List Universe) := fs.map (fun q => (q.1, (disk q.2).getD []))

/-- `Generator`, `/repo/scripts/xs_gen.py:14-42`: the lines printed below the header. -/
def generator (py : Py) (disk : Disk) (o : Options) (d : List (ℝ × Option Text)) : Run (List Text) := do
  let fs ← prepareSerpentFiles disk d
  let rs ← crossSections py o (readFiles disk fs)
  printAlmostOutput py o.solver rs

/-- A click on the button: `generate`, `/repo/scripts/SerpToALMOST.py:43-64`. The dictionary is kept for the next click. -/
def generate (py : Py) (disk : Disk) (o : Options) (d : List (ℝ × Option Text)) (rows : List Row) : Run (List (ℝ × Option Text) × List Text) := do
  let d' ← request py d rows
  let out ← generator py disk o d'
  .done (d', out)

end

end Verif.Gen
