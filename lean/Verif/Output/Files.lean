import Verif.Output.Lemmas

/-!
# Helper lemmas for the output: which files change
-/

namespace Verif.Output

open Verif Outcome

noncomputable section

open scoped Classical

variable {α β : Type} {e : Env} {w w' : World} {f : Text}

/-- however an action ends, it is carried over to the end of the sequence -/
theorem bind_cases (m : Act α) (g : α → Act β) (w : World) :
    (∃ a, (m.run w).2 = ok a ∧ (m >>= g).run w = (g a).run (m.run w).1) ∨ ((m >>= g).run w).1 = (m.run w).1 ∧ ∀ b, ((m >>= g).run w).2 ≠ ok b := by
  rcases h : m.run w with ⟨w', a | _ | _ | _ | _⟩
  · exact Or.inl ⟨a, rfl, act_ok h⟩
  all_goals
    refine Or.inr ?_
    have : (m >>= g).run w = (Act.bind m g).run w := rfl
    rw [this]
    unfold Act.bind
    dsimp only
    rw [h]
    simp

/-- the action leaves the file `f` alone, if the logger writes elsewhere -/
def Keeps (f : Text) (m : Act α) : Prop :=
  ∀ w, (∀ l, w.logger = some l → l.file ≠ f) → (m.run w).1.disk f = w.disk f ∧ ∀ l, (m.run w).1.logger = some l → l.file ≠ f

theorem Keeps.bind {m : Act α} {g : α → Act β} (h1 : Keeps f m) (h2 : ∀ a, Keeps f (g a)) : Keeps f (m >>= g) := by
  intro w hw
  obtain ⟨d, hl⟩ := h1 w hw
  rcases bind_cases m g w with ⟨a, -, e⟩ | ⟨e, -⟩
  · rw [e]
    obtain ⟨d', hl'⟩ := h2 a _ hl
    exact ⟨d'.trans d, hl'⟩
  · rw [e]
    exact ⟨d, hl⟩

theorem Keeps.pure (a : α) : Keeps f (Pure.pure a : Act α) := fun _ h => ⟨rfl, h⟩

theorem Keeps.lift (x : Outcome α) : Keeps f (Act.lift x) := fun _ h => ⟨rfl, h⟩

theorem Keeps.look (g : World → α) : Keeps f (Act.look g) := fun _ h => ⟨rfl, h⟩

theorem Keeps.change {g : World → World} (h1 : ∀ w, (g w).disk f = w.disk f) (h2 : ∀ w, (g w).logger = w.logger) : Keeps f (Act.change g) :=
  fun w h => ⟨h1 w, fun l hl => h l ((h2 w).symm.trans hl)⟩

theorem Keeps.log (s : Severity) (t : Text) : Keeps f (log e s t) := by
  intro w h
  unfold Output.log
  dsimp only
  rcases hl : w.logger with _ | l
  · exact ⟨rfl, fun l h' => h l (hl.trans h')⟩
  · have hf := h l hl
    dsimp only
    by_cases hs : l.threshold.rank ≤ s.rank
    · rw [if_pos hs]
      refine ⟨Function.update_of_ne (Ne.symm hf) _ _, fun l' h' => ?_⟩
      cases h'
      exact hf
    · rw [if_neg hs]
      exact ⟨rfl, h⟩

theorem Keeps.say (ms : List Message) : Keeps f (say e ms) := by
  induction ms with
  | nil => exact Keeps.pure ()
  | cons m ms ih => exact (Keeps.log _ _).bind fun _ => ih

theorem Keeps.setPattern (p : Pattern) : Keeps f (setPattern p) := by
  intro w h
  unfold Output.setPattern
  dsimp only
  rcases hl : w.logger with _ | l
  · exact ⟨rfl, fun l h' => h l (hl.trans h')⟩
  · refine ⟨rfl, fun l' h' => ?_⟩
    cases h'
    exact h l hl

theorem Keeps.setThreshold (s : Severity) (b : Level) : Keeps f (setThreshold s b) := by
  intro w h
  unfold Output.setThreshold
  dsimp only
  rcases hl : w.logger with _ | l
  · exact ⟨rfl, h⟩
  · refine ⟨rfl, fun l' h' => ?_⟩
    cases h'
    exact h l hl

theorem Keeps.setLevel (t : Text) : Keeps f (setLevel e t) := by
  unfold Output.setLevel
  split_ifs
  · exact Keeps.setThreshold _ _
  · exact Keeps.setThreshold _ _
  · exact Keeps.setThreshold _ _
  · exact Keeps.setThreshold _ _
  · exact Keeps.setThreshold _ _
  · exact Keeps.setThreshold _ _
  · exact (Keeps.log _ _).bind fun _ => (Keeps.log _ _).bind fun _ => (Keeps.log _ _).bind fun _ => Keeps.setThreshold _ _

/-- the three actions that choose the output file -/
theorem Keeps.choose {input output : Text} (hf : output ≠ f) :
    Keeps f (setInputPath input >>= fun _ => setOutputPath e output >>= fun _ => createLogger e) := by
  refine Keeps.bind (Keeps.change (fun w => ?_) fun w => ?_) fun _ => ?_
  · split <;> rfl
  · split <;> rfl
  · intro w h
    have key : ∃ w', (setOutputPath e output).run w = (w', ok ()) ∧ w'.disk f = w.disk f ∧ w'.logger = w.logger ∧ w'.fullName = output := by
      unfold setOutputPath
      obtain ⟨w1, h1, h2, h3⟩ : ∃ w1, (Act.change fun w => match findLast slash output with
          | some i => { w with outputPath := output.take i, outputName := output.drop (i + 1) }
          | none => w).run w = (w1, ok ()) ∧ w1.disk f = w.disk f ∧ w1.logger = w.logger := by
        refine ⟨_, rfl, ?_, ?_⟩ <;> (cases findLast slash output <;> rfl)
      refine ⟨_, (act_ok h1).trans ((act_change _ _).trans rfl), ?_⟩
      dsimp only
      split
      · exact ⟨(Function.update_of_ne (Ne.symm hf) _ _).trans h2, h3, rfl⟩
      · exact ⟨h2, h3, rfl⟩
    obtain ⟨w', e1, e2, e3, e4⟩ := key
    rw [act_ok e1]
    unfold createLogger
    dsimp only
    rw [e4]
    by_cases hw : e.writable output = true
    · rw [if_pos hw]
      refine ⟨(Function.update_of_ne (Ne.symm hf) _ _).trans e2, fun l h' => ?_⟩
      cases h'
      exact hf
    · rw [if_neg hw]
      exact ⟨e2, fun l h' => h l (e3.symm.trans h')⟩

theorem act_assoc {γ : Type} (m : Act α) (g : α → Act β) (k : β → Act γ) : (m >>= g) >>= k = m >>= fun a => g a >>= k := by
  show Act.bind (Act.bind m g) k = Act.bind m fun a => Act.bind (g a) k
  unfold Act.bind
  congr 1
  funext w
  dsimp only
  rcases m.run w with ⟨w', a | _ | _ | _ | _⟩ <;> rfl

theorem Keeps.getArguments {argv : List Text} (h : argv[2]? ≠ some f) : Keeps f (getArguments e argv) := by
  have bad : ∀ t : Text, Keeps f ((cout t >>= fun _ => Act.lift exit) : Act Text) := fun t =>
    Keeps.bind (Keeps.change (g := fun w => { w with console := w.console ++ [t] }) (fun _ => rfl) fun _ => rfl) fun _ => Keeps.lift _
  unfold Output.getArguments
  split
  · exact bad _
  · split
    · rename_i input output level _
      have ho : output ≠ f := by
        simpa using h
      have := (Keeps.choose (e := e) (input := input) ho).bind fun _ => (Keeps.setLevel (e := e) level).bind fun _ => Keeps.pure input
      rw [act_assoc] at this
      simp only [act_assoc] at this
      exact this
    · exact bad _

theorem Keeps.main {argv : List Text} (h : argv[2]? ≠ some f) : Keeps f (main e argv) :=
  (Keeps.getArguments h).bind fun _ => ((Keeps.setPattern _).bind fun _ => (Keeps.log _ _).bind fun _ => (Keeps.log _ _).bind fun _ => Keeps.setPattern _).bind fun _ =>
    ((Keeps.look _).bind fun _ => (Keeps.look _).bind fun _ => (Keeps.log _ _).bind fun _ => (Keeps.look _).bind fun _ => Keeps.log _ _).bind fun _ =>
    (Keeps.look _).bind fun _ => (Keeps.say _).bind fun _ => (Keeps.lift _).bind fun _ => (Keeps.look _).bind fun _ => (Keeps.lift _).bind fun _ =>
    (Keeps.say _).bind fun _ => Keeps.bind (fun _ h => ⟨rfl, h⟩) fun _ => ((Keeps.setPattern _).bind fun _ => Keeps.log _ _).bind fun _ => Keeps.pure _

/-- the action only adds to the log -/
def Grows (m : Act α) : Prop :=
  ∀ w l c, w.logger = some l → w.disk l.file = some c → ∃ l' c', (m.run w).1.logger = some l' ∧ l'.file = l.file ∧ (m.run w).1.disk l.file = some c' ∧ c <+: c'

theorem Grows.bind {m : Act α} {g : α → Act β} (h1 : Grows m) (h2 : ∀ a, Grows (g a)) : Grows (m >>= g) := by
  intro w l c hl hc
  obtain ⟨l', c', e1, e2, e3, e4⟩ := h1 w l c hl hc
  rcases bind_cases m g w with ⟨a, -, e⟩ | ⟨e, -⟩
  · rw [e]
    obtain ⟨l'', c'', f1, f2, f3, f4⟩ := h2 a _ l' c' e1 (by rw [e2]; exact e3)
    exact ⟨l'', c'', f1, f2.trans e2, by rw [← e2]; exact f3, e4.trans f4⟩
  · rw [e]
    exact ⟨l', c', e1, e2, e3, e4⟩

theorem Grows.pure (a : α) : Grows (Pure.pure a : Act α) := fun _ l c hl hc => ⟨l, c, hl, rfl, hc, List.prefix_rfl⟩

theorem Grows.lift (x : Outcome α) : Grows (Act.lift x) := fun _ l c hl hc => ⟨l, c, hl, rfl, hc, List.prefix_rfl⟩

theorem Grows.look (g : World → α) : Grows (Act.look g) := fun _ l c hl hc => ⟨l, c, hl, rfl, hc, List.prefix_rfl⟩

theorem Grows.log (s : Severity) (t : Text) : Grows (log e s t) := by
  intro w l c hl hc
  rw [log_ok hl hc]
  exact ⟨l, _, hl, rfl, Function.update_self .., List.prefix_append _ _⟩

theorem Grows.say (ms : List Message) : Grows (say e ms) := by
  induction ms with
  | nil => exact Grows.pure ()
  | cons m ms ih => exact (Grows.log _ _).bind fun _ => ih

theorem Grows.setPattern (p : Pattern) : Grows (setPattern p) := by
  intro w l c hl hc
  rw [setPattern_ok hl]
  exact ⟨_, c, rfl, rfl, hc, List.prefix_rfl⟩

/-- what follows the start of the log only adds to it -/
theorem main_grows {argv : List Text} {disk : Text → Option (List Text)} {input output : Text} {s : Severity} {c : List Text} {w0 : World}
    (harg : (getArguments e argv).run w0 = (w, ok input)) (ho : Opened disk input output s c w) :
    ∃ tail, ((main e argv).run w0).1.disk output = some (c ++ opening e ++ tail) := by
  have hc : w.disk output = some c := by
    rw [ho.files]
    exact Function.update_self ..
  have h1 := printStart_ok (e := e) ho.log hc
  have hg : Grows (printData e >>= fun _ => Act.look (fun w => w.disk input) >>= fun file => say e (e.talk file) >>= fun _ =>
      Act.lift (Input.readData e.lib file e.plant) >>= fun r => Act.look World.inputName >>= fun name =>
      Act.lift (calculate e (baseName name) r.plots r.plant r.solvers) >>= fun x => say e (x.lines.map fun t => (.critical, t)) >>= fun _ =>
      (Act.change fun w => { w with drawn := w.drawn ++ x.figures }) >>= fun _ => printEnd e >>= fun _ => (pure x.plant : Act Calc.Plant)) :=
    ((Grows.look _).bind fun _ => (Grows.look _).bind fun _ => (Grows.log _ _).bind fun _ => (Grows.look _).bind fun _ => Grows.log _ _).bind fun _ =>
    (Grows.look _).bind fun _ => (Grows.say _).bind fun _ => (Grows.lift _).bind fun _ => (Grows.look _).bind fun _ => (Grows.lift _).bind fun _ =>
    (Grows.say _).bind fun _ => Grows.bind (fun _ l c hl hc => ⟨l, c, hl, rfl, hc, List.prefix_rfl⟩) fun _ =>
      ((Grows.setPattern _).bind fun _ => Grows.log _ _).bind fun _ => Grows.pure _
  obtain ⟨l', c', -, -, h3, t, rfl⟩ := hg { w.write output (c ++ opening e) with logger := some ⟨s, .plain, output⟩ } _ (c ++ opening e) rfl (Function.update_self ..)
  refine ⟨t, ?_⟩
  rw [← h3]
  unfold main
  rw [act_ok harg, act_ok h1]

end

end Verif.Output
