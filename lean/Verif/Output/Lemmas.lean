import Verif.Output.Model
import Verif.Output.Spec

/-!
# Helper lemmas for the output: how the actions follow each other
-/

namespace Verif.Output

open Verif Outcome

noncomputable section

open scoped Classical

variable {α β : Type} {e : Env} {w w' : World} {l : Logger} {c : List Text}

theorem act_ok {m : Act α} {f : α → Act β} {a : α} (h : m.run w = (w', ok a)) : (m >>= f).run w = (f a).run w' := by
  show (Act.bind m f).run w = (f a).run w'
  unfold Act.bind
  dsimp only
  rw [h]

theorem act_exit {m : Act α} {f : α → Act β} (h : m.run w = (w', exit)) : (m >>= f).run w = (w', exit) := by
  show (Act.bind m f).run w = (w', exit)
  unfold Act.bind
  dsimp only
  rw [h]

theorem act_throws {m : Act α} {f : α → Act β} {x : Exn} (h : m.run w = (w', throws x)) : (m >>= f).run w = (w', throws x) := by
  show (Act.bind m f).run w = (w', throws x)
  unfold Act.bind
  dsimp only
  rw [h]

/-- the end of a calculation that failed -/
theorem act_lift (x : Outcome α) (f : α → Act β) :
    (Act.lift x >>= f).run w = match x with
      | ok a => (f a).run w
      | exit => (w, exit)
      | throws e => (w, throws e)
      | ub => (w, ub)
      | nonfinite => (w, nonfinite) := by
  cases x <;> rfl

theorem act_look (g : World → α) (f : α → Act β) : (Act.look g >>= f).run w = (f (g w)).run w := rfl

theorem act_change (g : World → World) (f : Unit → Act β) : (Act.change g >>= f).run w = (f ()).run (g w) := rfl

/-- the lines a list of messages leaves in the log -/
def kept (e : Env) (l : Logger) (ms : List Message) : List Text :=
  (ms.filter fun m => l.threshold.rank ≤ (severity m.1).rank).map fun m => line e l.pattern (severity m.1) m.2

/-- the surroundings with a new content of a file -/
def World.write (w : World) (file : Text) (c : List Text) : World := { w with disk := Function.update w.disk file (some c) }

theorem write_write (w : World) (f : Text) (c c' : List Text) : (w.write f c).write f c' = w.write f c' := by
  unfold World.write
  simp

theorem write_self {f : Text} (h : w.disk f = some c) : w.write f c = w := by
  unfold World.write
  rw [← h, Function.update_eq_self]

theorem log_ok (hl : w.logger = some l) (hc : w.disk l.file = some c) (s : Severity) (t : Text) :
    (log e s t).run w = (w.write l.file (c ++ if l.threshold.rank ≤ s.rank then [line e l.pattern s t] else []), ok ()) := by
  obtain ⟨⟩ := w
  cases hl
  show (if l.threshold.rank ≤ s.rank then _ else _, ok ()) = _
  by_cases h : l.threshold.rank ≤ s.rank
  · simp only [if_pos h, append, World.write]
    simp only at hc
    rw [hc, Option.getD_some]
  · simp only [if_neg h, List.append_nil, write_self hc]

theorem say_ok (ms : List Message) : ∀ {w : World} {c : List Text}, w.logger = some l → w.disk l.file = some c →
    (say e ms).run w = (w.write l.file (c ++ kept e l ms), ok ()) := by
  induction ms with
  | nil =>
    intro w c hl hc
    show (w, ok ()) = _
    rw [show kept e l [] = [] from rfl, List.append_nil, write_self hc]
  | cons m ms ih =>
    intro w c hl hc
    show (log e (severity m.1) m.2 >>= fun _ => say e ms).run w = _
    rw [act_ok (log_ok hl hc _ _), ih (w := w.write l.file _) hl (Function.update_self ..), write_write]
    unfold kept
    by_cases h : l.threshold.rank ≤ (severity m.1).rank
    · rw [if_pos h, List.filter_cons_of_pos (by simpa using h), List.map_cons, List.append_assoc]
      rfl
    · rw [if_neg h, List.filter_cons_of_neg (by simpa using h), List.append_nil]

theorem setPattern_ok (hl : w.logger = some l) (p : Pattern) : (setPattern p).run w = ({ w with logger := some { l with pattern := p } }, ok ()) := by
  unfold setPattern
  dsimp only
  rw [hl]

theorem threshold_le (s : Severity) : s.rank ≤ Severity.critical.rank := by cases s <;> decide

theorem printStart_ok (hl : w.logger = some l) (hc : w.disk l.file = some c) :
    (printStart e).run w = ({ w.write l.file (c ++ opening e) with logger := some { l with pattern := .plain } }, ok ()) := by
  unfold printStart
  refine (act_ok (setPattern_ok hl _)).trans ((act_ok (log_ok (w := { w with logger := some { l with pattern := .stamped } })
    (l := { l with pattern := .stamped }) rfl hc _ _)).trans
    ((act_ok (log_ok (l := { l with pattern := .stamped }) rfl (Function.update_self ..) _ _)).trans
      ((setPattern_ok (l := { l with pattern := .stamped }) rfl _).trans ?_)))
  rw [if_pos (threshold_le _), if_pos (threshold_le _)]
  unfold World.write opening
  simp [line]

theorem printEnd_ok (hl : w.logger = some l) (hc : w.disk l.file = some c) :
    (printEnd e).run w = ({ w.write l.file (c ++ closing e) with logger := some { l with pattern := .stamped } }, ok ()) := by
  unfold printEnd
  refine (act_ok (setPattern_ok hl _)).trans ((log_ok (w := { w with logger := some { l with pattern := .stamped } })
    (l := { l with pattern := .stamped }) rfl hc _ _).trans ?_)
  rw [if_pos (threshold_le _)]
  rfl

theorem printData_ok (hl : w.logger = some l) (hc : w.disk l.file = some c) (hp : l.pattern = .plain) :
    (printData e).run w = (w.write l.file (c ++ ["Input file: ".toList ++ w.inputPath ++ "/".toList ++ w.inputName,
      "Output file: ".toList ++ w.outputName ++ " \n".toList]), ok ()) := by
  unfold printData
  rw [act_look, act_look]
  unfold print
  rw [act_ok (log_ok hl hc _ _), act_look, log_ok (w := w.write l.file _) hl (Function.update_self ..), write_write]
  simp only [severity, if_pos (threshold_le _), line, hp, if_true]
  simp [World.write]

/-! ### levels -/

theorem severity_iff (a : Level) (m : Level) : (severity a).rank ≤ (severity m).rank ↔ m.rank ≤ a.rank := by
  cases a <;> cases m <;> decide

theorem kept_plain (a : Level) (file : Text) (ms : List Message) : kept e ⟨severity a, .plain, file⟩ ms = shown a ms := by
  unfold kept shown
  congr 1
  exact List.filter_congr fun m _ => by simpa using severity_iff a m.1

theorem setLevel_word (a : Level) (hl : w.logger = some l) :
    (setLevel e a.word).run w = ({ w with logger := some { l with threshold := severity a }, level := some a }, ok ()) := by
  have key : ∀ s b, (setThreshold s b).run w = ({ w with logger := some { l with threshold := s }, level := some b }, ok ()) := by
    intro s b
    unfold setThreshold
    dsimp only
    rw [hl]
  unfold setLevel
  cases a
  · rw [if_pos (by decide)]
    exact key _ _
  · rw [if_neg (by decide), if_pos (by decide)]
    exact key _ _
  · rw [if_neg (by decide), if_neg (by decide), if_pos (by decide)]
    exact key _ _
  · rw [if_neg (by decide), if_neg (by decide), if_neg (by decide), if_pos (by decide)]
    exact key _ _
  · rw [if_neg (by decide), if_neg (by decide), if_neg (by decide), if_neg (by decide), if_pos (by decide)]
    exact key _ _
  · rw [if_neg (by decide), if_neg (by decide), if_neg (by decide), if_neg (by decide), if_neg (by decide), if_pos (by decide)]
    exact key _ _

theorem setThreshold_ok (hl : w.logger = some l) (s : Severity) (b : Level) :
    (setThreshold s b).run w = ({ w with logger := some { l with threshold := s }, level := some b }, ok ()) := by
  unfold setThreshold
  dsimp only
  rw [hl]

/-- a message that is always written -/
theorem print_urgent (hl : w.logger = some l) (hc : w.disk l.file = some c) (t : Text) :
    (print e (.critical, t)).run w = (w.write l.file (c ++ [line e l.pattern .critical t]), ok ()) := by
  have := log_ok (e := e) hl hc .critical t
  rw [if_pos (threshold_le _)] at this
  exact this

theorem setLevel_other {t : Text} (h : ∀ a : Level, t ≠ a.word) (hl : w.logger = some l) (hc : w.disk l.file = some c) (hp : l.pattern = .standard) :
    (setLevel e t).run w = ({ w.write l.file (c ++ complaint e) with logger := some { l with threshold := .critical }, level := some .critical }, ok ()) := by
  have h1 : t ≠ "CRITICAL".toList := h .critical
  have h2 : t ≠ "ERR".toList := h .err
  have h3 : t ≠ "WARN".toList := h .warn
  have h4 : t ≠ "INFO".toList := h .info
  have h5 : t ≠ "DEBUG".toList := h .debug
  have h6 : t ≠ "TRACE".toList := h .trace
  unfold setLevel
  rw [if_neg h1, if_neg h2, if_neg h3, if_neg h4, if_neg h5, if_neg h6]
  refine (act_ok (print_urgent hl hc _)).trans ((act_ok (print_urgent (w := w.write l.file _) hl (Function.update_self ..) _)).trans ?_)
  rw [write_write]
  refine (act_ok (print_urgent (w := w.write l.file _) hl (Function.update_self ..) _)).trans ?_
  rw [write_write]
  refine (setThreshold_ok (w := w.write l.file _) hl _ _).trans ?_
  unfold line
  rw [hp, List.append_assoc, List.append_assoc]
  rfl

/-! ### paths -/

theorem findLast_none {p : Char → Bool} : ∀ {s : Text}, (∀ x ∈ s, p x = false) → findLast p s = none
  | [], _ => rfl
  | c :: s, h => by
    unfold findLast
    rw [findLast_none fun x hx => h x (List.mem_cons_of_mem _ hx)]
    simp [h c List.mem_cons_self]

theorem findLast_some {p : Char → Bool} {c : Char} (hc : p c = true) {s : Text} (hs : ∀ x ∈ s, p x = false) : ∀ a : Text, findLast p (a ++ c :: s) = some a.length
  | [] => by
    show findLast p (c :: s) = some 0
    unfold findLast
    rw [findLast_none hs]
    simp [hc]
  | d :: a => by
    show findLast p (d :: (a ++ c :: s)) = _
    unfold findLast
    rw [findLast_some hc hs a]
    simp

theorem slash_iff (c : Char) : slash c = true ↔ Separator c := by simp [slash, Separator]

theorem path_find {path dir name : Text} (h : Path path dir name) : findLast slash path = some dir.length ∧ path.take dir.length = dir ∧ path.drop (dir.length + 1) = name := by
  obtain ⟨c, hc, rfl, hn⟩ := h
  refine ⟨findLast_some ((slash_iff c).2 hc) (fun x hx => ?_) _, by simp, by simp⟩
  rw [← Bool.not_eq_true, slash_iff]
  exact hn x hx

theorem path_none {path : Text} (h : ∀ x ∈ path, ¬ Separator x) : findLast slash path = none :=
  findLast_none fun x hx => by
    rw [← Bool.not_eq_true, slash_iff]
    exact h x hx

theorem baseName_dot {name base : Text} (h : Extended name base) (hn : ∀ x ∈ name, ¬ Separator x) : baseName name = base := by
  obtain ⟨ext, rfl, he⟩ := h
  unfold baseName
  rw [findLast_some (by rfl) fun x hx => ?_]
  · simp
  · have : ¬ Separator x := hn x (by simp [hx])
    have h2 : x ≠ '.' := fun h => he (h ▸ hx)
    simp only [dot, Bool.or_eq_false_iff, decide_eq_false_iff_not]
    exact ⟨h2, fun h => this (Or.inr h)⟩

theorem baseName_none {name : Text} (h : '.' ∉ name) (hn : ∀ x ∈ name, ¬ Separator x) : baseName name = [] := by
  unfold baseName
  rw [findLast_none fun x hx => ?_]
  simp only [dot, Bool.or_eq_false_iff, decide_eq_false_iff_not]
  exact ⟨fun h' => h (h' ▸ hx), fun h' => hn x hx (Or.inr h')⟩

/-! ### the program up to the calculation -/

/-- directory and name of a path, as stored -/
def pathPart (path : Text) : Text :=
  match findLast slash path with
  | some i => path.take i
  | none => []

def namePart (path : Text) : Text :=
  match findLast slash path with
  | some i => path.drop (i + 1)
  | none => []

/-- the surroundings after the arguments are read -/
structure Opened (disk : Text → Option (List Text)) (input output : Text) (s : Severity) (c : List Text) (w : World) : Prop where
  files : w.disk = Function.update disk output (some c)
  silent : w.console = []
  blank : w.drawn = []
  log : w.logger = some ⟨s, .standard, output⟩
  inPath : w.inputPath = pathPart input
  inName : w.inputName = namePart input
  outName : w.outputName = namePart output

theorem parts {path dir name : Text} (h : Path path dir name) : pathPart path = dir ∧ namePart path = name := by
  obtain ⟨h1, h2, h3⟩ := path_find h
  unfold pathPart namePart
  rw [h1]
  exact ⟨h2, h3⟩

theorem parts_bare {path : Text} (h : ∀ x ∈ path, ¬ Separator x) : pathPart path = [] ∧ namePart path = [] := by
  unfold pathPart namePart
  rw [path_none h]
  exact ⟨rfl, rfl⟩

theorem setInputPath_ok (h1 : w.inputPath = []) (h2 : w.inputName = []) (path : Text) :
    (setInputPath path).run w = ({ w with inputPath := pathPart path, inputName := namePart path }, ok ()) := by
  unfold setInputPath Act.change pathPart namePart
  dsimp only
  cases findLast slash path with
  | none =>
    obtain ⟨⟩ := w
    cases h1
    cases h2
    rfl
  | some i => rfl

theorem setOutputPath_ok (h1 : w.outputPath = []) (h2 : w.outputName = []) (hw : w.disk path = none ∨ e.removable path = true) :
    (setOutputPath e path).run w = ({ w with outputPath := pathPart path, outputName := namePart path, fullName := path, disk := Function.update w.disk path none }, ok ()) := by
  unfold setOutputPath
  refine (act_ok (a := ()) (w' := { w with outputPath := pathPart path, outputName := namePart path }) ?_).trans ?_
  · unfold Act.change pathPart namePart
    dsimp only
    cases findLast slash path with
    | none =>
      obtain ⟨⟩ := w
      cases h1
      cases h2
      rfl
    | some i => rfl
  rw [act_change]
  unfold removeOld Act.change
  dsimp only
  rcases hd : w.disk path with _ | c
  · rw [if_neg (by simp), ← hd, Function.update_eq_self]
  · rw [if_pos]
    rcases hw with h | h
    · rw [h] at hd
      cases hd
    · simp [h]

theorem createLogger_ok (hw : e.writable w.fullName = true) (hd : w.disk w.fullName = none) :
    (createLogger e).run w = ({ w with disk := Function.update w.disk w.fullName (some []), logger := some ⟨.info, .standard, w.fullName⟩ }, ok ()) := by
  unfold createLogger
  dsimp only
  rw [if_pos hw, hd]
  rfl

/-- the surroundings once the logger is there -/
theorem opened_logger {disk : Text → Option (List Text)} {output : Text} (input : Text) (hf : Free e disk output) :
    ∃ w, Opened disk input output .info [] w ∧
      ∀ (f : Unit → Act β), (setInputPath input >>= fun _ => setOutputPath e output >>= fun _ => createLogger e >>= f).run (World.start disk) = (f ()).run w := by
  refine ⟨_, ?_, fun f => (act_ok (setInputPath_ok rfl rfl input)).trans ((act_ok (setOutputPath_ok rfl rfl hf.fresh)).trans
    (act_ok (createLogger_ok hf.writable (Function.update_self ..))))⟩
  refine ⟨?_, rfl, rfl, rfl, rfl, rfl, rfl⟩
  show Function.update (Function.update disk output none) output (some []) = _
  simp

theorem getArguments_word {disk : Text → Option (List Text)} {output : Text} (prog input : Text) (hf : Free e disk output) (a : Level) :
    ∃ w, Opened disk input output (severity a) [] w ∧ (getArguments e [prog, input, output, a.word]).run (World.start disk) = (w, ok input) := by
  obtain ⟨w, h, hw⟩ := opened_logger (β := Text) input hf
  refine ⟨{ w with logger := some ⟨severity a, .standard, output⟩, level := some a }, ⟨h.files, h.silent, h.blank, rfl, h.inPath, h.inName, h.outName⟩, (hw _).trans (act_ok (setLevel_word a h.log))⟩

theorem getArguments_other {disk : Text → Option (List Text)} {output : Text} (prog input : Text) (hf : Free e disk output) {t : Text} (ht : ∀ a : Level, t ≠ a.word) :
    ∃ w, Opened disk input output .critical (complaint e) w ∧ (getArguments e [prog, input, output, t]).run (World.start disk) = (w, ok input) := by
  obtain ⟨w, h, hw⟩ := opened_logger (β := Text) input hf
  refine ⟨{ w.write output ([] ++ complaint e) with logger := some ⟨.critical, .standard, output⟩, level := some .critical }, ⟨?_, h.silent, h.blank, rfl, h.inPath, h.inName, h.outName⟩,
    (hw _).trans (act_ok (setLevel_other (c := []) ht h.log (by rw [h.files]; exact Function.update_self ..) rfl))⟩
  show Function.update w.disk output (some ([] ++ complaint e)) = _
  rw [h.files]
  simp

/-- the two lines with the names -/
def nameLines (w : World) : List Text :=
  ["Input file: ".toList ++ w.inputPath ++ "/".toList ++ w.inputName, "Output file: ".toList ++ w.outputName ++ " \n".toList]

/-- the whole program once its arguments are read -/
theorem main_run {disk : Text → Option (List Text)} {argv : List Text} {input output : Text} {a : Level} {w0 w : World}
    (harg : (getArguments e argv).run w0 = (w, ok input)) (ho : Opened disk input output (severity a) c w) (hne : input ≠ output) :
    ∃ (w' : World) (tail : List Text) (res : List Text),
      ((main e argv).run w0).1 = w' ∧
      w'.disk = Function.update disk output (some (c ++ opening e ++ shown a (urgent (nameLines w) ++ e.talk (disk input) ++ urgent res) ++ tail)) ∧
      w'.console = [] ∧ w'.inputName = w.inputName ∧
      ((main e argv).run w0).2 = (do
        let r ← Input.readData e.lib (disk input) e.plant
        let x ← calculate e (baseName w.inputName) r.plots r.plant r.solvers
        ok x.plant) ∧
      ((tail = [] ∧ res = [] ∧ w'.drawn = [] ∧ ∀ p, ((main e argv).run w0).2 ≠ ok p) ∨
        tail = closing e ∧ ∃ r x, Input.readData e.lib (disk input) e.plant = ok r ∧ calculate e (baseName w.inputName) r.plots r.plant r.solvers = ok x ∧
          res = x.lines ∧ w'.drawn = x.figures) := by
  have hc : w.disk output = some c := by
    rw [ho.files]
    exact Function.update_self ..
  let w1 : World := { w.write output (c ++ opening e) with logger := some ⟨severity a, .plain, output⟩ }
  have h1 : (printStart e).run w = (w1, ok ()) := printStart_ok ho.log hc
  have h2 : (printData e).run w1 = (w1.write output (c ++ opening e ++ nameLines w), ok ()) :=
    printData_ok (l := ⟨severity a, .plain, output⟩) rfl (Function.update_self ..) rfl
  have hfile : (w1.write output (c ++ opening e ++ nameLines w)).disk input = disk input := by
    show Function.update (Function.update w.disk output _) output _ input = _
    rw [Function.update_of_ne hne, Function.update_of_ne hne, ho.files, Function.update_of_ne hne]
  let w3 : World := w1.write output (c ++ opening e ++ nameLines w ++ shown a (e.talk (disk input)))
  have h3 : (say e (e.talk (disk input))).run (w1.write output (c ++ opening e ++ nameLines w)) = (w3, ok ()) := by
    rw [say_ok (l := ⟨severity a, .plain, output⟩) _ rfl (Function.update_self ..), kept_plain, write_write]
  have hmain : (main e argv).run w0 = (do
      let r ← Act.lift (Input.readData e.lib (disk input) e.plant)
      let name ← Act.look World.inputName
      let x ← Act.lift (calculate e (baseName name) r.plots r.plant r.solvers)
      say e (x.lines.map fun t => (.critical, t))
      Act.change fun w => { w with drawn := w.drawn ++ x.figures }
      printEnd e
      pure x.plant : Act Calc.Plant).run w3 := by
    unfold main
    rw [act_ok harg, act_ok h1, act_ok h2, act_look, hfile, act_ok h3]
  have hd : ∀ x : List Text, (w1.write output x).disk = Function.update disk output (some x) := by
    intro x
    show Function.update (Function.update w.disk output _) output (some x) = _
    rw [ho.files]
    simp
  have hu : ∀ (x : List Text), shown a (urgent x) = x := by
    intro x
    unfold shown urgent
    rw [List.filter_eq_self.2]
    · simp
    · intro m hm
      obtain ⟨t, -, rfl⟩ := List.mem_map.1 hm
      simp [Level.rank]
  have hs : ∀ x y : List Message, shown a (x ++ y) = shown a x ++ shown a y := by
    intro x y
    simp [shown]
  rw [act_lift] at hmain
  have hfail : ∀ o : Outcome Calc.Plant, (∀ p, o ≠ ok p) → (main e argv).run w0 = (w3, o) →
      (do
        let r ← Input.readData e.lib (disk input) e.plant
        let x ← calculate e (baseName w.inputName) r.plots r.plant r.solvers
        ok x.plant) = o → _ := fun o hno hrun hout =>
    (⟨w3, [], [], by rw [hrun], by rw [hs, hs, hu, hu]; exact (hd _).trans (by simp only [List.append_assoc, List.append_nil]), ho.silent, rfl, by rw [hrun]; exact hout.symm,
      Or.inl ⟨rfl, rfl, ho.blank, by rw [hrun]; exact hno⟩⟩ : ∃ (w' : World) (tail : List Text) (res : List Text),
      ((main e argv).run w0).1 = w' ∧
      w'.disk = Function.update disk output (some (c ++ opening e ++ shown a (urgent (nameLines w) ++ e.talk (disk input) ++ urgent res) ++ tail)) ∧
      w'.console = [] ∧ w'.inputName = w.inputName ∧
      ((main e argv).run w0).2 = (do
        let r ← Input.readData e.lib (disk input) e.plant
        let x ← calculate e (baseName w.inputName) r.plots r.plant r.solvers
        ok x.plant) ∧
      ((tail = [] ∧ res = [] ∧ w'.drawn = [] ∧ ∀ p, ((main e argv).run w0).2 ≠ ok p) ∨
        tail = closing e ∧ ∃ r x, Input.readData e.lib (disk input) e.plant = ok r ∧ calculate e (baseName w.inputName) r.plots r.plant r.solvers = ok x ∧
          res = x.lines ∧ w'.drawn = x.figures))
  rcases hr : Input.readData e.lib (disk input) e.plant with r | _ | ex | _ | _
  · rw [hr] at hmain
    dsimp only at hmain
    rw [act_look, act_lift] at hmain
    have hname : w3.inputName = w.inputName := rfl
    rw [hname] at hmain
    rcases hx : calculate e (baseName w.inputName) r.plots r.plant r.solvers with x | _ | ex | _ | _
    · rw [hx] at hmain
      dsimp only at hmain
      have h4 : (say e (x.lines.map fun t => (Level.critical, t))).run w3 =
          (w1.write output (c ++ opening e ++ nameLines w ++ shown a (e.talk (disk input)) ++ x.lines), ok ()) := by
        rw [say_ok (w := w3) (l := ⟨severity a, .plain, output⟩) _ rfl (Function.update_self ..), kept_plain]
        show (World.write (World.write w1 _ _) _ _, ok ()) = _
        rw [write_write]
        congr 3
        exact hu x.lines
      rw [act_ok h4, act_change] at hmain
      have h5 := printEnd_ok (e := e) (w := { w1.write output (c ++ opening e ++ nameLines w ++ shown a (e.talk (disk input)) ++ x.lines) with drawn := ([] : List Figure) ++ x.figures })
        (l := ⟨severity a, .plain, output⟩) rfl (Function.update_self ..)
      have hb : (w1.write output (c ++ opening e ++ nameLines w ++ shown a (e.talk (disk input)) ++ x.lines)).drawn = [] := ho.blank
      rw [hb, act_ok h5] at hmain
      refine ⟨_, closing e, x.lines, congrArg Prod.fst hmain, ?_, ho.silent, rfl, ?_, Or.inr ⟨rfl, r, x, rfl, hx, rfl, rfl⟩⟩
      · show (World.write (World.write w1 _ _) _ _).disk = _
        rw [write_write, hd, hs, hs, hu, hu]
        simp only [List.append_assoc]
      · rw [hmain, ok_bind, hx]
        rfl
    · rw [hx] at hmain
      exact hr ▸ hfail exit (by simp) hmain (by rw [hr, ok_bind, hx]; rfl)
    · rw [hx] at hmain
      exact hr ▸ hfail (throws ex) (by simp) hmain (by rw [hr, ok_bind, hx]; rfl)
    · rw [hx] at hmain
      exact hr ▸ hfail ub (by simp) hmain (by rw [hr, ok_bind, hx]; rfl)
    · rw [hx] at hmain
      exact hr ▸ hfail nonfinite (by simp) hmain (by rw [hr, ok_bind, hx]; rfl)
  · rw [hr] at hmain
    exact hr ▸ hfail exit (by simp) hmain (by rw [hr]; rfl)
  · rw [hr] at hmain
    exact hr ▸ hfail (throws ex) (by simp) hmain (by rw [hr]; rfl)
  · rw [hr] at hmain
    exact hr ▸ hfail ub (by simp) hmain (by rw [hr]; rfl)
  · rw [hr] at hmain
    exact hr ▸ hfail nonfinite (by simp) hmain (by rw [hr]; rfl)

/-- reading and calculating -/
def work (e : Env) (disk : Text → Option (List Text)) (input : Text) : Outcome Report := do
  let r ← Input.readData e.lib (disk input) e.plant
  calculate e (baseName (namePart input)) r.plots r.plant r.solvers

def linesOf : Outcome Report → List Text
  | ok x => x.lines
  | _ => []

def figuresOf : Outcome Report → List Figure
  | ok x => x.figures
  | _ => []

def endOf (e : Env) : Outcome Report → List Text
  | ok _ => closing e
  | _ => []

def namesOf (input output : Text) : List Text :=
  ["Input file: ".toList ++ pathPart input ++ "/".toList ++ namePart input, "Output file: ".toList ++ namePart output ++ " \n".toList]

/-- the surroundings at the end -/
structure Finished (e : Env) (disk : Text → Option (List Text)) (input output : Text) (a : Level) (c : List Text) (r : World × Outcome Calc.Plant) : Prop where
  files : r.1.disk = Function.update disk output
    (some (c ++ opening e ++ shown a (urgent (namesOf input output) ++ e.talk (disk input) ++ urgent (linesOf (work e disk input))) ++ endOf e (work e disk input)))
  silent : r.1.console = []
  figures : r.1.drawn = figuresOf (work e disk input)
  result : r.2 = work e disk input >>= fun x => ok x.plant

theorem main_finished {disk : Text → Option (List Text)} {argv : List Text} {input output : Text} {a : Level} {w0 w : World}
    (harg : (getArguments e argv).run w0 = (w, ok input)) (ho : Opened disk input output (severity a) c w) (hne : input ≠ output) :
    Finished e disk input output a c ((main e argv).run w0) := by
  obtain ⟨w', tail, res, rfl, hd, hs, -, hout, h⟩ := main_run harg ho hne
  have hn : nameLines w = namesOf input output := by
    unfold nameLines namesOf
    rw [ho.inPath, ho.inName, ho.outName]
  rw [hn] at hd
  rw [ho.inName] at hout h
  have hwork : ((main e argv).run w0).2 = work e disk input >>= fun x => ok x.plant := by
    rw [hout]
    unfold work
    rw [bind_assoc]
  rcases h with ⟨rfl, rfl, h1, h2⟩ | ⟨rfl, r, x, h1, h2, rfl, h3⟩
  · have : ∀ y, work e disk input ≠ ok y := by
      intro y hy
      rw [hy, ok_bind] at hwork
      exact h2 _ hwork
    refine ⟨?_, hs, ?_, hwork⟩
    · rw [hd]
      rcases hy : work e disk input with y | _ | _ | _ | _
      · exact absurd hy (this y)
      all_goals rfl
    · rw [h1]
      rcases hy : work e disk input with y | _ | _ | _ | _
      · exact absurd hy (this y)
      all_goals rfl
  · have hw : work e disk input = ok x := by
      unfold work
      rw [h1, ok_bind, h2]
    refine ⟨?_, hs, ?_, hwork⟩
    · rw [hd, hw]
      rfl
    · rw [h3, hw]
      rfl

theorem main_word {disk : Text → Option (List Text)} {input output : Text} (prog : Text) (hf : Free e disk output) (hne : input ≠ output) (a : Level) :
    Finished e disk input output a [] ((main e [prog, input, output, a.word]).run (World.start disk)) := by
  obtain ⟨w, ho, hw⟩ := getArguments_word prog input hf a
  exact main_finished hw ho hne

theorem main_other {disk : Text → Option (List Text)} {input output : Text} (prog : Text) (hf : Free e disk output) (hne : input ≠ output)
    {t : Text} (ht : ∀ a : Level, t ≠ a.word) :
    Finished e disk input output .critical (complaint e) ((main e [prog, input, output, t]).run (World.start disk)) := by
  obtain ⟨w, ho, hw⟩ := getArguments_other prog input hf ht
  exact main_finished (a := .critical) hw ho hne

end

end Verif.Output
