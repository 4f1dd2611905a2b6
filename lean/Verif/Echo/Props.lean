import Verif.Echo.Loud
import Verif.Output.ReportProps

/-!
# C102: a file that is refused is refused with a reason
-/

namespace Verif.Echo

open Verif Outcome Input Tell

noncomputable section

variable {v : Voice} {lib : Lib} {raw lines : List Text}

/-- **C102**: when the reader ends the program because of the input file, the last line it prints is a complaint, and what the complaint says is true of the file. Missing is the reason for
refusals by an exception: see `C102_false`. -/
theorem C102_partial (hs : Sane lib) (hr : Returns lib) {p : Calc.Plant} (h : (readData v lib (some raw) p).res = exit) :
    ∃ lines pre t, Stored raw lines ∧ (readData v lib (some raw) p).said = pre ++ [t] ∧ Complaint v lib lines t := by
  have key : ∀ lines, storeInput (some raw) = ok lines → Loud (Complaint v lib lines) (readData v lib (some raw) p) := fun lines hl => by
    unfold readData
    refine loud_bind (loud_orSay fun e => ?_) fun ls e => ?_
    · rw [hl] at e
      cases e
    · rw [orSay_res, hl] at e
      cases e
      exact loud_lines hs hr p
  cases hl : storeInput (some raw) with
  | ok lines =>
    obtain ⟨pre, t, h1, h2⟩ := key lines hl h
    exact ⟨lines, pre, t, (C36_tidy raw lines).1 hl, h1, h2⟩
  | exit => exact absurd hl (ne_storeLines raw)
  | throws e => rw [readData_res, Input.readData, hl] at h; cases h
  | ub => rw [readData_res, Input.readData, hl] at h; cases h
  | nonfinite => rw [readData_res, Input.readData, hl] at h; cases h

/-- **C102**, no file: the path is all the program has to say. -/
theorem C102_closed (p : Calc.Plant) : (readData v lib none p).res = exit ∧ (readData v lib none p).said = ["Unable to open file: ".toList ++ v.path] := ⟨rfl, rfl⟩

/-- A library that reads every number but the word `x`. -/
def partLib : Lib := ⟨fun w => if w = "x".toList then throws .invalidArgument else ok (1 / 2), ok ' '⟩

theorem partLib_sane : Sane partLib := fun c e => by
  cases e
  decide

theorem partLib_returns : Returns partLib := by
  refine ⟨fun w => ?_, fun e => by cases e⟩
  show (if w = "x".toList then throws .invalidArgument else ok (1 / 2) : Outcome ℝ) ≠ exit
  split <;> intro e <;> cases e

/-- A voice. -/
def exVoice : Voice := ⟨"in/bar.txt".toList, fun _ => "1.0".toList, fun _ => "2".toList⟩

/-- The file asks for the kinetics solver and gives no accuracy. -/
def bareFile : List Text := ["solvers kinetics".toList, "solver kinetics".toList, "accuracy".toList]

theorem bareSaid (p : Calc.Plant) : readData exVoice partLib (some bareFile) p = ⟨["Solvers: kinetics \n".toList, "accuracy number of parameters exceeded!".toList], exit⟩ := rfl

example (p : Calc.Plant) : ∃ lines pre t, Stored bareFile lines ∧ (readData exVoice partLib (some bareFile) p).said = pre ++ [t] ∧ Complaint exVoice partLib lines t :=
  C102_partial partLib_sane partLib_returns (by rw [bareSaid])

/-- **C102**, the log: the last line of the output file is the complaint. -/
theorem C102_log {e : Output.Env} {disk : Text → Option (List Text)} {prog input output base : Text} {names : List Text} (hs : Sane e.lib) (hr : Returns e.lib)
    (hst : Output.Started e disk input output names base) (hd : disk input = some raw) (ht : e.talk (disk input) = Output.urgent (readData v e.lib (disk input) e.plant).said)
    (h : Input.readData e.lib (some raw) e.plant = exit) (a : Output.Level) :
    ((Output.main e [prog, input, output, a.word]).run (Output.World.start disk)).2 = exit ∧
    ∃ lines pre t, Stored raw lines ∧ Complaint v e.lib lines t ∧
      ((Output.main e [prog, input, output, a.word]).run (Output.World.start disk)).1.disk output = some (Output.opening e ++ names ++ pre ++ [t]) := by
  have hm := Output.main_word prog hst.free hst.apart a
  have hw : Output.work e disk input = exit := by
    unfold Output.work
    rw [hd, h]
    rfl
  refine ⟨by rw [hm.result, hw]; rfl, ?_⟩
  obtain ⟨lines, pre, t, h1, h2, h3⟩ := C102_partial (v := v) (p := e.plant) hs hr (by rw [readData_res, h])
  refine ⟨lines, pre, t, h1, h3, ?_⟩
  rw [hm.files, Function.update_self, hw, (Output.started_names hst).1, ht, hd, h2]
  show some ([] ++ Output.opening e ++ Output.shown a (Output.urgent names ++ Output.urgent (pre ++ [t]) ++ Output.urgent []) ++ []) = _
  rw [Output.shown_append, Output.shown_append, Output.shown_urgent, Output.shown_urgent, Output.shown_urgent]
  simp only [List.append_assoc, List.nil_append, List.append_nil]

/-- **C102**, the log without a file: its last line gives the path. -/
theorem C102_absent {e : Output.Env} {disk : Text → Option (List Text)} {prog input output base : Text} {names : List Text}
    (hst : Output.Started e disk input output names base) (hd : disk input = none) (hv : v.path = input)
    (ht : e.talk (disk input) = Output.urgent (readData v e.lib (disk input) e.plant).said) (a : Output.Level) :
    ((Output.main e [prog, input, output, a.word]).run (Output.World.start disk)).2 = exit ∧
    ((Output.main e [prog, input, output, a.word]).run (Output.World.start disk)).1.disk output =
      some (Output.opening e ++ names ++ ["Unable to open file: ".toList ++ input]) := by
  have hm := Output.main_word prog hst.free hst.apart a
  have hw : Output.work e disk input = exit := by
    unfold Output.work
    rw [hd]
    rfl
  refine ⟨by rw [hm.result, hw]; rfl, ?_⟩
  rw [hm.files, Function.update_self, hw, (Output.started_names hst).1, ht, hd, (C102_closed _).2, hv]
  show some ([] ++ Output.opening e ++ Output.shown a (Output.urgent names ++ Output.urgent ["Unable to open file: ".toList ++ input] ++ Output.urgent []) ++ []) = _
  rw [Output.shown_append, Output.shown_append, Output.shown_urgent, Output.shown_urgent, Output.shown_urgent]
  simp only [List.append_assoc, List.nil_append, List.append_nil]

/-- Surroundings in which the reader speaks. -/
def loudEnv : Output.Env := { Output.reportEnv partLib with talk := fun f => Output.urgent (readData exVoice partLib f (Output.reportEnv partLib).plant).said }

theorem loudStarted (disk : Text → Option (List Text)) : Output.Started loudEnv disk "in/bar.txt".toList "out/bar.log".toList
    ["Input file: in/bar.txt".toList, "Output file: bar.log \n".toList] "bar".toList :=
  ⟨⟨rfl, Or.inr rfl⟩, by decide, (Output.reportStarted partLib []).named⟩

example (a : Output.Level) : ∃ lines pre t, Stored bareFile lines ∧ Complaint exVoice partLib lines t ∧
    ((Output.main loudEnv ["almost".toList, "in/bar.txt".toList, "out/bar.log".toList, a.word]).run (Output.World.start (Output.reportDisk bareFile))).1.disk "out/bar.log".toList =
      some (Output.opening loudEnv ++ ["Input file: in/bar.txt".toList, "Output file: bar.log \n".toList] ++ pre ++ [t]) :=
  (C102_log (e := loudEnv) partLib_sane partLib_returns (loudStarted _) (Output.reportDisk_get _) rfl rfl a).2

example (a : Output.Level) :
    ((Output.main loudEnv ["almost".toList, "in/bar.txt".toList, "out/bar.log".toList, a.word]).run (Output.World.start fun _ => none)).1.disk "out/bar.log".toList =
      some (Output.opening loudEnv ++ ["Input file: in/bar.txt".toList, "Output file: bar.log \n".toList] ++ ["Unable to open file: in/bar.txt".toList]) :=
  (C102_absent (e := loudEnv) (v := exVoice) (loudStarted _) rfl rfl rfl a).2

/-- The generation time is no number. -/
def wordFile : List Text := ["solvers kinetics".toList, "solver kinetics".toList, "accuracy 1".toList, "max_iteration_number 9".toList, "generation_time x".toList]

/-- **C102** fails for numbers that cannot be read: the program ends with an exception, and no line is about the word it could not read. -/
theorem C102_false (p : Calc.Plant) :
    (readData exVoice partLib (some wordFile) p).res = throws .invalidArgument ∧
    (readData exVoice partLib (some wordFile) p).said = ["Solvers: kinetics \n".toList, "KINETICS solver accuracy: 1".toList, "KINETICS solver max_iteration_number: 9".toList] :=
  ⟨by rfl, by rfl⟩

/-- **C102**, the wrong reason: a setting without a value is said to have too many. -/
theorem C102_wrong (p : Calc.Plant) : Setting bareFile .kinetics "accuracy" [] ∧ (readData exVoice partLib (some bareFile) p).res = exit ∧
    (readData exVoice partLib (some bareFile) p).said.getLast? = some "accuracy number of parameters exceeded!".toList := by
  refine ⟨?_, by rw [bareSaid], by rw [bareSaid]; rfl⟩
  have hb : Input.findBlock partLib bareFile "solver".toList (blockName .kinetics) = ok (1, maxU) := by rfl
  have hf : Input.findKeyword partLib bareFile "accuracy".toList 1 maxU = ok "accuracy".toList := by rfl
  exact ⟨1, maxU, findBlock_sound partLib_sane hb, findKeyword_card partLib_sane hf⟩

end

end Verif.Echo
