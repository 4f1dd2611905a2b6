import Verif.Output.Figures
import Verif.Input.RunProps
import Verif.Solve.Examples

/-!
# Properties of the output: levels, names, arguments and files
-/

namespace Verif.Output

open Verif Outcome

noncomputable section

variable {e : Env} {disk : Text → Option (List Text)} {prog input output : Text}

/-! ### a concrete case for the examples -/

/-- A computer with the library functions of the other examples, on which every file can be written. -/
def exEnv : Env where
  lib := Input.vLib
  tools := Calc.exTools Solve.exLib
  fmt := fun _ => "1.0".toList
  stamp := fun _ _ t => "12:00 ".toList ++ t
  version := "1.0".toList
  removable := fun _ => true
  writable := fun _ => true
  talk := fun _ => [(.info, "reading".toList), (.err, "careful".toList), (.trace, "every detail".toList)]
  small := fun _ => .fin 1
  plant := Calc.exPlant (Calc.exBar 1 (Vec.ofList [0, 0]))

/-- The input file of the other examples in a directory, and an old output file. -/
def exDisk : Text → Option (List Text) := fun f =>
  if f = "in/bar.txt".toList then some Input.vFile else if f = "out/bar.log".toList then some ["old".toList] else none

theorem exFree (f : Text) : Free exEnv exDisk f := ⟨rfl, Or.inr rfl⟩

/-! ### C43 -/

/-- **C43.** The level given on the command line selects what is written and nothing else: there are fixed lines (the names of the files, the results, the end) and fixed
figures, and for each level `a` the log consists of the opening lines, those of all messages that are at least as important as `a`, in their order, and the end;
figures and result are the same for all levels. -/
theorem C43 (hf : Free e disk output) (hne : input ≠ output) :
    ∃ (names results tail : List Text) (figures : List Figure) (result : Outcome Calc.Plant), ∀ a : Level,
      ((main e [prog, input, output, a.word]).run (World.start disk)).1.disk output =
        some (opening e ++ shown a (urgent names ++ e.talk (disk input) ++ urgent results) ++ tail) ∧
      ((main e [prog, input, output, a.word]).run (World.start disk)).1.drawn = figures ∧
      ((main e [prog, input, output, a.word]).run (World.start disk)).2 = result := by
  refine ⟨namesOf input output, linesOf (work e disk input), endOf e (work e disk input), figuresOf (work e disk input), work e disk input >>= fun x => ok x.plant, fun a => ?_⟩
  have h := main_word prog hf hne a
  refine ⟨?_, h.figures, h.result⟩
  rw [h.files, Function.update_self]
  rfl

example : ∃ (names results tail : List Text) (figures : List Figure) (result : Outcome Calc.Plant), ∀ a : Level,
    ((main exEnv ["almost".toList, "in/bar.txt".toList, "out/bar.log".toList, a.word]).run (World.start exDisk)).1.disk "out/bar.log".toList =
      some (opening exEnv ++ shown a (urgent names ++ exEnv.talk (exDisk "in/bar.txt".toList) ++ urgent results) ++ tail) ∧
    ((main exEnv ["almost".toList, "in/bar.txt".toList, "out/bar.log".toList, a.word]).run (World.start exDisk)).1.drawn = figures ∧
    ((main exEnv ["almost".toList, "in/bar.txt".toList, "out/bar.log".toList, a.word]).run (World.start exDisk)).2 = result :=
  C43 (exFree _) (by decide)

theorem shown_mono {a b : Level} (h : a.rank ≤ b.rank) (ms : List Message) : (shown a ms).Sublist (shown b ms) := by
  unfold shown
  refine List.Sublist.map _ ?_
  refine List.monotone_filter_right ms fun m hm => ?_
  simp only [decide_eq_true_eq] at hm ⊢
  omega

/-- **C43**, nesting: a finer level only adds lines. -/
theorem C43_nested (hf : Free e disk output) (hne : input ≠ output) {a b : Level} (h : a.rank ≤ b.rank) :
    ∃ la lb, ((main e [prog, input, output, a.word]).run (World.start disk)).1.disk output = some la ∧
      ((main e [prog, input, output, b.word]).run (World.start disk)).1.disk output = some lb ∧ la.Sublist lb := by
  obtain ⟨names, results, tail, _, _, hall⟩ := C43 (prog := prog) hf hne
  exact ⟨_, _, (hall a).1, (hall b).1, ((List.Sublist.refl _).append (shown_mono h _)).append (List.Sublist.refl _)⟩

example : ∃ la lb, ((main exEnv ["almost".toList, "in/bar.txt".toList, "out/bar.log".toList, "ERR".toList]).run (World.start exDisk)).1.disk "out/bar.log".toList = some la ∧
    ((main exEnv ["almost".toList, "in/bar.txt".toList, "out/bar.log".toList, "TRACE".toList]).run (World.start exDisk)).1.disk "out/bar.log".toList = some lb ∧ la.Sublist lb :=
  C43_nested (a := .err) (b := .trace) (exFree _) (by decide) (by decide)

/-- **C43**, other words: a word that is no level is reported, and the rest is as for the level `CRITICAL`. -/
theorem C43_unknown (hf : Free e disk output) (hne : input ≠ output) {t : Text} (ht : ∀ a : Level, t ≠ a.word) :
    ∃ log, ((main e [prog, input, output, "CRITICAL".toList]).run (World.start disk)).1.disk output = some log ∧
      ((main e [prog, input, output, t]).run (World.start disk)).1.disk output = some (complaint e ++ log) ∧
      ((main e [prog, input, output, t]).run (World.start disk)).1.drawn = ((main e [prog, input, output, "CRITICAL".toList]).run (World.start disk)).1.drawn ∧
      ((main e [prog, input, output, t]).run (World.start disk)).2 = ((main e [prog, input, output, "CRITICAL".toList]).run (World.start disk)).2 := by
  have h1 := main_word prog hf hne .critical
  have h2 := main_other prog hf hne ht
  refine ⟨_, by erw [h1.files, Function.update_self], ?_, ?_, ?_⟩
  · rw [h2.files, Function.update_self]
    simp only [List.nil_append, List.append_assoc]
  · exact h2.figures.trans h1.figures.symm
  · exact h2.result.trans h1.result.symm

example : ∃ log, ((main exEnv ["almost".toList, "in/bar.txt".toList, "out/bar.log".toList, "CRITICAL".toList]).run (World.start exDisk)).1.disk "out/bar.log".toList = some log ∧
    ((main exEnv ["almost".toList, "in/bar.txt".toList, "out/bar.log".toList, "debug".toList]).run (World.start exDisk)).1.disk "out/bar.log".toList =
      some (complaint exEnv ++ log) := by
  obtain ⟨log, h1, h2, -⟩ := C43_unknown (e := exEnv) (disk := exDisk) (prog := "almost".toList) (input := "in/bar.txt".toList) (output := "out/bar.log".toList)
    (t := "debug".toList) (exFree _) (by decide) (by intro a; cases a <;> decide)
  exact ⟨log, h1, h2⟩

/-! ### C44 -/

/-- **C44.** For paths with a directory, the log names the input file with its directory and the output file, and all figures are saved under names that begin with the name of the input
file without its extension. -/
theorem C44_partial {dir name outDir outName base : Text} (hi : Path input dir name) (hb : Extended name base) (ho : Path output outDir outName)
    (hf : Free e disk output) (hne : input ≠ output) (a : Level) :
    (∃ tail, ((main e [prog, input, output, a.word]).run (World.start disk)).1.disk output =
      some (opening e ++ ["Input file: ".toList ++ dir ++ "/".toList ++ name, "Output file: ".toList ++ outName ++ " \n".toList] ++ tail)) ∧
    ∀ f ∈ ((main e [prog, input, output, a.word]).run (World.start disk)).1.drawn, base ++ "_".toList <+: f.file := by
  have h := main_word prog hf hne a
  obtain ⟨i1, i2⟩ := parts hi
  obtain ⟨o1, o2⟩ := parts ho
  constructor
  · rw [h.files, Function.update_self]
    have : ∀ x : List Message, shown a (urgent (namesOf input output) ++ x) = namesOf input output ++ shown a x := by
      intro x
      unfold shown urgent
      rw [List.filter_append, List.map_append, List.filter_eq_self.2]
      · simp
      · intro m hm
        obtain ⟨t, -, rfl⟩ := List.mem_map.1 hm
        simp [Level.rank]
    rw [List.append_assoc (urgent _), this]
    unfold namesOf
    rw [i1, i2, o2]
    exact ⟨_, by simp only [List.append_assoc, List.nil_append]; rfl⟩
  · rw [h.figures]
    have := figures_named (e := e) (disk := disk) (input := input)
    rw [i2, baseName_dot hb (by obtain ⟨-, -, -, h⟩ := hi; exact h)] at this
    exact this

example : (∃ tail, ((main exEnv ["almost".toList, "in/bar.txt".toList, "out/bar.log".toList, Level.info.word]).run (World.start exDisk)).1.disk "out/bar.log".toList =
      some (opening exEnv ++ ["Input file: in/bar.txt".toList, "Output file: bar.log \n".toList] ++ tail)) ∧
    ∀ f ∈ ((main exEnv ["almost".toList, "in/bar.txt".toList, "out/bar.log".toList, Level.info.word]).run (World.start exDisk)).1.drawn, "bar_".toList <+: f.file :=
  C44_partial (e := exEnv) (disk := exDisk) (dir := "in".toList) (name := "bar.txt".toList) (base := "bar".toList) (outDir := "out".toList) (outName := "bar.log".toList)
    ⟨'/', Or.inl rfl, by decide, by simp [Separator]⟩ ⟨"txt".toList, by decide, by decide⟩ ⟨'/', Or.inl rfl, by decide, by simp [Separator]⟩ (exFree _) (by decide) .info

/-- **C44** fails for a path without a directory: the log names the input file `/`, and the names of all figures begin with `_`. -/
theorem C44_false (hi : ∀ x ∈ input, ¬ Separator x) (hf : Free e disk output) (hne : input ≠ output) (a : Level) :
    (∃ tail, ((main e [prog, input, output, a.word]).run (World.start disk)).1.disk output = some (opening e ++ ["Input file: /".toList] ++ tail)) ∧
    ∀ f ∈ ((main e [prog, input, output, a.word]).run (World.start disk)).1.drawn, "_".toList <+: f.file := by
  have h := main_word prog hf hne a
  obtain ⟨i1, i2⟩ := parts_bare hi
  constructor
  · rw [h.files, Function.update_self]
    have : ∀ x : List Message, shown a (urgent (namesOf input output) ++ x) = namesOf input output ++ shown a x := by
      intro x
      unfold shown urgent
      rw [List.filter_append, List.map_append, List.filter_eq_self.2]
      · simp
      · intro m hm
        obtain ⟨t, -, rfl⟩ := List.mem_map.1 hm
        simp [Level.rank]
    rw [List.append_assoc (urgent _), this]
    unfold namesOf
    rw [i1, i2]
    exact ⟨_, by simp only [List.append_assoc, List.nil_append]; rfl⟩
  · rw [h.figures]
    have := figures_named (e := e) (disk := disk) (input := input)
    rw [i2] at this
    exact this

example : (∃ tail, ((main exEnv ["almost".toList, "bar.txt".toList, "bar.log".toList, Level.info.word]).run (World.start exDisk)).1.disk "bar.log".toList =
      some (opening exEnv ++ ["Input file: /".toList] ++ tail)) ∧
    ∀ f ∈ ((main exEnv ["almost".toList, "bar.txt".toList, "bar.log".toList, Level.info.word]).run (World.start exDisk)).1.drawn, "_".toList <+: f.file :=
  C44_false (by simp [Separator]) (exFree _) (by decide) .info

/-- **C44** fails for a name without an extension: the names of all figures begin with `_`. -/
theorem C44_extension {dir name : Text} (hi : Path input dir name) (hb : '.' ∉ name) (hf : Free e disk output) (hne : input ≠ output) (a : Level) :
    ∀ f ∈ ((main e [prog, input, output, a.word]).run (World.start disk)).1.drawn, "_".toList <+: f.file := by
  have h := main_word prog hf hne a
  rw [h.figures]
  have := figures_named (e := e) (disk := disk) (input := input)
  rw [(parts hi).2, baseName_none hb (by obtain ⟨-, -, -, h⟩ := hi; exact h)] at this
  exact this

example : ∀ f ∈ ((main exEnv ["almost".toList, "in/bar".toList, "out/bar.log".toList, Level.info.word]).run (World.start exDisk)).1.drawn, "_".toList <+: f.file :=
  C44_extension (dir := "in".toList) (name := "bar".toList) ⟨'/', Or.inl rfl, by decide, by simp [Separator]⟩ (by decide) (exFree _) (by decide) .info

/-! ### C89 -/

/-- **C89.** With any number of arguments other than three after the program name, the program stops, changes no file and draws nothing, and says on the console what is wrong: correctly if there are at most
one or at least four arguments. -/
theorem C89_partial {argv : List Text} (h : argv.length ≠ 4) :
    ((main e argv).run (World.start disk)).2 = exit ∧ ((main e argv).run (World.start disk)).1.disk = disk ∧ ((main e argv).run (World.start disk)).1.drawn = [] ∧
    (argv.length < 3 → ((main e argv).run (World.start disk)).1.console = ["Missing input arguments!".toList]) ∧
    (4 < argv.length → ((main e argv).run (World.start disk)).1.console = ["Too many input arguments!".toList]) := by
  have key : (getArguments e argv).run (World.start disk) =
      ({ World.start disk with console := [if argv.length < 3 then "Missing input arguments!".toList else "Too many input arguments!".toList] }, exit) := by
    unfold getArguments
    by_cases h3 : argv.length < 3
    · rw [if_pos h3, if_pos h3]
      rfl
    · rw [if_neg h3, if_neg h3]
      split
      · exact absurd rfl h
      · rfl
  have hm : (main e argv).run (World.start disk) = _ := act_exit key
  rw [hm]
  refine ⟨rfl, rfl, rfl, fun h' => ?_, fun h' => ?_⟩
  · show [ite _ _ _] = _
    rw [if_pos h']
  · show [ite _ _ _] = _
    rw [if_neg (by omega)]

example : ((main exEnv ["almost".toList, "in/bar.txt".toList]).run (World.start exDisk)).2 = exit ∧
    ((main exEnv ["almost".toList, "in/bar.txt".toList]).run (World.start exDisk)).1.console = ["Missing input arguments!".toList] := by
  have h := C89_partial (e := exEnv) (disk := exDisk) (argv := ["almost".toList, "in/bar.txt".toList]) (by decide)
  exact ⟨h.1, h.2.2.2.1 (by decide)⟩

/-- **C89** fails for two arguments: one is missing, but the program says that there are too many. -/
theorem C89_false (prog input output : Text) :
    ((main e [prog, input, output]).run (World.start disk)).2 = exit ∧
    ((main e [prog, input, output]).run (World.start disk)).1.console = ["Too many input arguments!".toList] := ⟨rfl, rfl⟩

/-- **C89**, the output file: with three arguments the program accepts them and says nothing on the console if the output file can be written; otherwise it ends with an exception, without reading the input. -/
theorem C89_output (input output level : Text) :
    (Free e disk output → input ≠ output → ((main e [prog, input, output, level]).run (World.start disk)).1.console = []) ∧
    (e.writable output = false → ((main e [prog, input, output, level]).run (World.start disk)).2 = throws .ioError) := by
  constructor
  · intro hf hne
    by_cases h : ∃ a : Level, level = a.word
    · obtain ⟨a, rfl⟩ := h
      exact (main_word prog hf hne a).silent
    · exact (main_other prog hf hne fun a ha => h ⟨a, ha⟩).silent
  · intro hw
    have hn : ∀ w : World, w.fullName = output → (createLogger e).run w = (w, throws .ioError) := by
      intro w h
      unfold createLogger
      dsimp only
      rw [h, if_neg (by simp [hw])]
    have hs : ∀ w : World, ∃ w', (setOutputPath e output).run w = (w', ok ()) ∧ w'.fullName = output := by
      intro w
      unfold setOutputPath
      rw [act_change, act_change]
      refine ⟨_, rfl, ?_⟩
      beta_reduce
      split_ifs <;> rfl
    have hi : ∃ w', (setInputPath input).run (World.start disk) = (w', ok ()) := ⟨_, rfl⟩
    obtain ⟨w1, h1⟩ := hi
    obtain ⟨w2, h2, h3⟩ := hs w1
    have : (getArguments e [prog, input, output, level]).run (World.start disk) = (w2, throws .ioError) := by
      show (setInputPath input >>= fun _ => setOutputPath e output >>= fun _ => createLogger e >>= fun _ => setLevel e level >>= fun _ => pure input).run _ = _
      rw [act_ok h1, act_ok h2]
      exact act_throws (hn w2 h3)
    unfold main
    rw [act_throws this]

example : ((main { exEnv with writable := fun _ => false } ["almost".toList, "in/bar.txt".toList, "out/bar.log".toList, "INFO".toList]).run (World.start exDisk)).2 =
    throws .ioError := (C89_output _ _ _).2 rfl

/-! ### C90 -/

/-- **C90.** Whatever the arguments, and however the program ends, it changes no file but the output file named by the third argument. -/
theorem C90_partial {argv : List Text} {f : Text} (h : argv[2]? ≠ some f) : ((main e argv).run (World.start disk)).1.disk f = disk f :=
  (Keeps.main h (World.start disk) fun _ hl => by cases hl).1

example : ((main exEnv ["almost".toList, "in/bar.txt".toList, "out/bar.log".toList, "INFO".toList]).run (World.start exDisk)).1.disk "in/bar.txt".toList = some Input.vFile :=
  (C90_partial (by decide)).trans (if_pos rfl)

/-- **C90**, the old output: nothing of it remains, if it can be removed. -/
theorem C90_replaced {old : Option (List Text)} (hf : Free e disk output) (hr : e.removable output = true) (hne : input ≠ output) (a : Level) :
    ((main e [prog, input, output, a.word]).run (World.start (Function.update disk output old))).1.disk output =
      ((main e [prog, input, output, a.word]).run (World.start disk)).1.disk output := by
  have h1 := main_word prog hf hne a
  have h2 := main_word (disk := Function.update disk output old) prog ⟨hf.writable, Or.inr hr⟩ hne a
  have hw : work e (Function.update disk output old) input = work e disk input := by
    unfold work
    rw [Function.update_of_ne hne]
  rw [h1.files, h2.files, Function.update_self, Function.update_self, hw, Function.update_of_ne hne]

example (old : Option (List Text)) :
    ((main exEnv ["almost".toList, "in/bar.txt".toList, "out/bar.log".toList, Level.info.word]).run (World.start (Function.update exDisk "out/bar.log".toList old))).1.disk "out/bar.log".toList =
      ((main exEnv ["almost".toList, "in/bar.txt".toList, "out/bar.log".toList, Level.info.word]).run (World.start exDisk)).1.disk "out/bar.log".toList :=
  C90_replaced (exFree _) rfl (by decide) .info

/-- **C90** fails if the same path is given twice: the input file is removed before it is read, and the log is left in its place. -/
theorem C90_false (hf : Free e disk input) (a : Level) :
    ∃ tail, ((main e [prog, input, input, a.word]).run (World.start disk)).1.disk input = some (opening e ++ tail) := by
  obtain ⟨w, ho, hw⟩ := getArguments_word prog input hf a
  exact main_grows hw ho

example : ∃ tail, ((main exEnv ["almost".toList, "in/bar.txt".toList, "in/bar.txt".toList, Level.info.word]).run (World.start exDisk)).1.disk "in/bar.txt".toList =
    some (opening exEnv ++ tail) := C90_false (exFree _) .info

end

end Verif.Output
