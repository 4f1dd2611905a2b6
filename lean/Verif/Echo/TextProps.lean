import Verif.Echo.TextUnique
import Verif.Echo.Props
import Verif.Output.TransientProps

/-!
# C103: what the log shows of the input file
-/

namespace Verif.Echo

open Verif Outcome Input Tell

noncomputable section

variable {v : Voice} {lib : Lib} {raw lines : List Text}

/-- **C103**: if the file is read, the text printed meanwhile is the one `FileText` describes: the solvers, the geometry with boundaries, volumes, materials and middle points of the cells
that are used, the lines of all settings, and for each solver its data, cell by cell, as they stand in the file. Missing is the initial power, in place of which the generation time is shown:
see `C103_false`. -/
theorem C103_partial (hs : Sane lib) {p : Calc.Plant} {r : Reader} (h : Input.readData lib (some raw) p = ok r) :
    Stored raw r.lines ∧ FileText v lib r.lines r.plant (readData v lib (some raw) p).said := by
  have e : readData v lib (some raw) p = ⟨(readData v lib (some raw) p).said, ok r⟩ := by
    rw [← h, ← readData_res (v := v)]
  refine ⟨?_, readData_said hs e⟩
  obtain ⟨ls, r1, r2, r3, r4, h0, h1, h2, h3, h4, h5⟩ := readData_stages h
  have : r.lines = ls := by
    obtain ⟨x, rfl⟩ := setPlots_eq h5
    have e1 : r1.lines = ls := by
      obtain ⟨ws, -, h1⟩ := bind_eq_ok.1 h1
      obtain ⟨ss, -, h1⟩ := bind_eq_ok.1 h1
      cases h1
      rfl
    show r4.lines = ls
    rw [(setAll_frame h4).1.lines, (setSettings_frame h3).lines, (setShape_solvers h2).1, e1]
  rw [this]
  exact (C36_tidy raw ls).1 h0

/-- **C103**: there is only one text that `FileText` describes. -/
theorem C103_unique {p : Calc.Plant} (hT : Clear lib lines "temperatures") (hq : Clear lib lines "heat_sources") {t t' : List Text} (h : FileText v lib lines p t) (h' : FileText v lib lines p t') :
    t = t' := FileText.unique hT hq h h'

/-- **C103**, the log: whatever happens after the file is read, the log begins with the names of the files and the text about the input. -/
theorem C103_log_partial {e : Output.Env} {disk : Text → Option (List Text)} {prog input output base : Text} {names : List Text} (hs : Sane e.lib)
    (hst : Output.Started e disk input output names base) (hd : disk input = some raw) (ht : e.talk (disk input) = Output.urgent (readData v e.lib (disk input) e.plant).said)
    {r : Reader} (h : Input.readData e.lib (some raw) e.plant = ok r) (a : Output.Level) :
    ∃ t rest, FileText v e.lib r.lines r.plant t ∧
      ((Output.main e [prog, input, output, a.word]).run (Output.World.start disk)).1.disk output = some (Output.opening e ++ names ++ t ++ rest) := by
  have hm := Output.main_word prog hst.free hst.apart a
  refine ⟨_, Output.linesOf (Output.work e disk input) ++ Output.endOf e (Output.work e disk input), (C103_partial (v := v) hs h).2, ?_⟩
  rw [hm.files, Function.update_self, (Output.started_names hst).1, ht, hd]
  show some ([] ++ Output.opening e ++ Output.shown a (Output.urgent names ++ Output.urgent _ ++ Output.urgent _) ++ _) = _
  rw [Output.shown_append, Output.shown_append, Output.shown_urgent, Output.shown_urgent, Output.shown_urgent]
  simp only [List.append_assoc, List.nil_append]

/-- **C103**, the whole log of a criticality calculation: names of the files, text about the input, results. -/
theorem C103_whole_partial {e : Output.Env} {disk : Text → Option (List Text)} {prog input output base : Text} {names : List Text} {g : Diffusion.Geom} {rs : List Region} {E : Nat}
    (hst : Output.Started e disk input output names base) (hd : disk input = some raw) (ht : e.talk (disk input) = Output.urgent (readData v e.lib (disk input) e.plant).said)
    (hraw : Stored raw lines) (hc : Clean e.lib lines) (hp : Proper lines) {k : Calc.Kind} (hk : k = .transport ∨ k = .diffusion) (hF : Full e.lib lines [k] g rs E) (h0 : 0 < E)
    (hb : Output.Blank e.plant) (hz : Output.LeastZero e.small) (a : Output.Level) {p' : Calc.Plant}
    (h : ((Output.main e [prog, input, output, a.word]).run (Output.World.start disk)).2 = ok p') :
    ∃ r t, Input.readData e.lib (some raw) e.plant = ok r ∧ FileText v e.lib lines r.plant t ∧
      ((Output.main e [prog, input, output, a.word]).run (Output.World.start disk)).1.disk output =
        some (Output.opening e ++ names ++ t ++ Output.criticalLog e.fmt lines k p' ++ Output.closing e) := by
  obtain ⟨want, -, hl⟩ := (Output.C93 (prog := prog) hst hd hraw hc hp hk hF h0 hb hz a).2 p' h
  obtain ⟨r, hr, hlines, -⟩ := C87 hc hraw hF e.plant
  refine ⟨r, _, hr, hlines ▸ (C103_partial (v := v) hc.1 hr).2, ?_⟩
  rw [hl.log, ← hd, ht, hd, Output.shown_urgent]

/-- **C103**, the text about a kinetics calculation, line by line. -/
theorem C103_kinetics_partial (hc : Clean lib lines) (hraw : Stored raw lines) {lam beta times rhos : Vec ℝ} {alpha power : ℝ}
    (hF : TransientFile lib lines lam beta alpha power times rhos) (hn : times.n = rhos.n) (p : Calc.Plant) :
    ∃ x y, Setting lines .kinetics "accuracy" [x] ∧ Setting lines .kinetics "max_iteration_number" [y] ∧ (readData v lib (some raw) p).said =
      ["Solvers: kinetics \n".toList, "KINETICS solver accuracy: ".toList ++ x, "KINETICS solver max_iteration_number: ".toList ++ y] ++
      ["Mean generation time of the reactor [s]: ".toList ++ v.fmt alpha ++ " \n".toList, "Initial power [W]: ".toList ++ v.fmt alpha ++ " \n".toList] ++
      column v "\nInput delayed neutrons group decay constants [1/s]:".toList lam ++ column v "\nInput delayed neutrons group fractions:".toList beta ++
      column v "\nInput times [s]:".toList times ++ column v "\nInput reactivities:".toList rhos := by
  obtain ⟨r, hr, hl, hR⟩ := transientFile_read hc hraw hF hn p
  have hT := (C103_partial (v := v) hc.1 hr).2
  rw [hl] at hT
  obtain ⟨c0, hsol⟩ := hF.solvers
  obtain ⟨x, _, hx, -⟩ := hF.accuracy
  obtain ⟨y, _, hy, -⟩ := hF.limit
  refine ⟨x, y, hx, hy, ?_⟩
  obtain ⟨c, ws, ks, mats, t1, t2, t3, a1, a2, -, -, -, -, a7, a8, a9, hsaid⟩ := hT
  cases card_unique a1 hsol
  have hks : ks = [.kinetics] := names_unique a2 (.cons (by simp [solverNames]) .nil)
  subst hks
  rw [hsaid, a7 (by simp)]
  have e2 : t2 = ["KINETICS solver accuracy: ".toList ++ x, "KINETICS solver max_iteration_number: ".toList ++ y] := by
    have line : ∀ {key : String} {z : Text}, Setting lines .kinetics key [z] →
        SettingText lines (.kinetics, key) ["KINETICS".toList ++ " solver ".toList ++ key.toList ++ ":".toList ++ ([z].flatMap (" ".toList ++ ·))] := fun ⟨a, b, h1, h2⟩ => ⟨a, b, _, _, h1, h2, rfl⟩
    refine a8.unique (fun _ _ _ _ a b => a.unique b) ?_
    have := (Parts.one (line hx)).append (Parts.one (line hy))
    simp only [List.flatMap_cons, List.flatMap_nil, List.append_nil] at this
    exact this
  have e3 : t3 = kineticsText v r.plant.kinetics := by
    obtain ⟨ts, h1, rfl⟩ := a9
    cases h1 with
    | cons h1 h2 =>
      cases h2
      rw [List.flatten_cons, List.flatten_nil, List.append_nil]
      exact h1
  rw [e2, e3]
  unfold kineticsText
  rw [hR.alpha, column_eq hR.lam.n hR.lam.v, column_eq hR.beta.n hR.beta.v, column_eq hR.times.n hR.times.v, column_eq hR.rhos.n hR.rhos.v]
  simp only [List.append_assoc, List.nil_append]
  rfl

theorem mem_column {title t : Text} {x : Vec ℝ} (h : t ∈ column v title x) : t = title ∨ t = " ".toList ∨ ∃ y, t = v.fmt y := by
  unfold column at h
  rcases List.mem_append.1 h with h | h
  · rcases List.mem_cons.1 h with rfl | h
    · exact Or.inl rfl
    · obtain ⟨i, -, rfl⟩ := List.mem_map.1 h
      exact Or.inr (Or.inr ⟨_, rfl⟩)
  · exact Or.inr (Or.inl (by simpa using h))

/-- A voice that tells a power of five from other numbers. -/
def fiveVoice : Voice := ⟨"in/bar.txt".toList, fun x => open Classical in if x = 5 then "5.0".toList else "0.1".toList, fun _ => "2".toList⟩

theorem fiveVoice_fmt (x : ℝ) : fiveVoice.fmt x = "5.0".toList ∨ fiveVoice.fmt x = "0.1".toList := by
  unfold fiveVoice
  by_cases h : x = 5
  · left; exact if_pos h
  · right; exact if_neg h

/-- **C103** fails for the initial power: a file in which it is 5 is read, and the reader keeps 5, but what is printed as initial power is the generation time. -/
theorem C103_false (p : Calc.Plant) : NumberFile pulseLib (pulseFile pulseTwo) "initial_power" 5 ∧ NumberFile pulseLib (pulseFile pulseTwo) "generation_time" (1 / 10000) ∧
    (∃ r, Input.readData pulseLib (some (pulseFile pulseTwo)) p = ok r ∧ r.plant.kinetics.power = 5) ∧ fiveVoice.fmt 5 = "5.0".toList ∧ fiveVoice.fmt (1 / 10000) = "0.1".toList ∧
    "Initial power [W]: 0.1 \n".toList ∈ (readData fiveVoice pulseLib (some (pulseFile pulseTwo)) p).said ∧
    "Initial power [W]: 5.0 \n".toList ∉ (readData fiveVoice pulseLib (some (pulseFile pulseTwo)) p).said := by
  have hF := pulse_file (q := pulseTwo) (by simp [pulses])
  have hst := pulseStored pulseTwo (by simp [pulses])
  obtain ⟨r, hr, -, hR⟩ := transientFile_read (pulseLib_clean _) hst hF rfl p
  have h5 : fiveVoice.fmt 5 = "5.0".toList := if_pos rfl
  have h1 : fiveVoice.fmt (1 / 10000) = "0.1".toList := if_neg (by norm_num)
  obtain ⟨x, y, -, -, hs⟩ := C103_kinetics_partial (v := fiveVoice) (pulseLib_clean _) hst hF rfl p
  refine ⟨hF.start, hF.generation, ⟨r, hr, hR.power⟩, h5, h1, ?_, fun hm => ?_⟩
  · rw [hs, h1]
    exact List.mem_append_left _ (List.mem_append_left _ (List.mem_append_left _ (List.mem_append_left _ (List.mem_append_right _ (List.mem_cons_of_mem _ List.mem_cons_self)))))
  · have col : ∀ {title : Text} {x : Vec ℝ}, "Initial power [W]: 5.0 \n".toList ≠ title → "Initial power [W]: 5.0 \n".toList ∉ column fiveVoice title x := fun hne hin => by
      rcases mem_column hin with h | h | ⟨z, h⟩
      · exact hne h
      · exact absurd h (by decide)
      · rcases fiveVoice_fmt z with h' | h' <;> rw [h'] at h <;> exact absurd h (by decide)
    have cut : ∀ {a b : Text}, "Initial power [W]: 5.0 \n".toList = a ++ b → (a ++ b).head? = some 'I' := fun h => by rw [← h]; rfl
    rw [hs, h1] at hm
    rcases List.mem_append.1 hm with hm | hm
    · rcases List.mem_append.1 hm with hm | hm
      · rcases List.mem_append.1 hm with hm | hm
        · rcases List.mem_append.1 hm with hm | hm
          · rcases List.mem_append.1 hm with hm | hm
            · rcases List.mem_cons.1 hm with hm | hm
              · exact absurd hm (by decide)
              · rcases List.mem_cons.1 hm with hm | hm
                · exact absurd (cut hm) (by intro h; cases h)
                · rcases List.mem_cons.1 hm with hm | hm
                  · exact absurd (cut hm) (by intro h; cases h)
                  · cases hm
            · rcases List.mem_cons.1 hm with hm | hm
              · exact absurd hm (by decide)
              · rcases List.mem_cons.1 hm with hm | hm
                · exact absurd hm (by decide)
                · cases hm
          · exact col (by decide) hm
        · exact col (by decide) hm
      · exact col (by decide) hm
    · exact col (by decide) hm

/-! ### examples -/

example (p : Calc.Plant) : ∃ r, Input.readData wLib (some wRaw) p = ok r ∧ FileText exVoice wLib wKept r.plant (readData exVoice wLib (some wRaw) p).said := by
  obtain ⟨r, h1, h2, -⟩ := C87 (wLib_clean _) wStored wFull p
  exact ⟨r, h1, h2 ▸ (C103_partial wLib_sane h1).2⟩

/-- the file gives its temperatures one by one and no sources of heat -/
example (p : Calc.Plant) : ∃ r : Reader, ∀ t, FileText exVoice wLib wKept r.plant t ↔ t = (readData exVoice wLib (some wRaw) p).said := by
  obtain ⟨r, h1, h2, -⟩ := C87 (wLib_clean _) wStored wFull p
  have h3 := (C103_partial (v := exVoice) wLib_sane h1).2
  rw [h2] at h3
  have hT : Clear wLib wKept "temperatures" := fun c ws hcard => by
    obtain ⟨x, ⟨c', ws', h4, h5⟩, -⟩ := wFull.temperatures (by simp)
    cases card_unique hcard h4
    exact ⟨x, h5⟩
  have hq : Clear wLib wKept "heat_sources" := fun c ws ⟨i, m, hf, _⟩ =>
    absurd hf.1.2 ((by decide +kernel : ∀ m ∈ active wKept, ¬ small "heat_sources".toList <:+: small m) m (List.mem_of_getElem? hf.1.1))
  exact ⟨r, fun t => ⟨fun h => C103_unique hT hq h h3, fun h => h ▸ h3⟩⟩

/-- Surroundings in which the reader speaks about a criticality calculation. -/
def critVoiced : Output.Env := { Output.reportEnv critLib with talk := fun f => Output.urgent (readData exVoice critLib f (Output.reportEnv critLib).plant).said }

theorem critVoicedStarted : Output.Started critVoiced (Output.reportDisk critDiffusion) "in/bar.txt".toList "out/bar.log".toList
    ["Input file: in/bar.txt".toList, "Output file: bar.log \n".toList] "bar".toList :=
  ⟨⟨rfl, Or.inr rfl⟩, by decide, (Output.reportStarted critLib []).named⟩

example (a : Output.Level) : ∃ r t rest, Input.readData critLib (some critDiffusion) critVoiced.plant = ok r ∧ FileText exVoice critLib critDiffusion r.plant t ∧
    ((Output.main critVoiced ["almost".toList, "in/bar.txt".toList, "out/bar.log".toList, a.word]).run (Output.World.start (Output.reportDisk critDiffusion))).1.disk "out/bar.log".toList =
      some (Output.opening critVoiced ++ ["Input file: in/bar.txt".toList, "Output file: bar.log \n".toList] ++ t ++ rest) := by
  obtain ⟨r, h1, h2, -⟩ := C87 (critLib_clean _) critStored critFull critVoiced.plant
  obtain ⟨t, rest, h3, h4⟩ := C103_log_partial (v := exVoice) (e := critVoiced) (prog := "almost".toList) (critLib_clean critDiffusion).1 critVoicedStarted (Output.reportDisk_get _) rfl h1 a
  exact ⟨r, t, rest, h1, h2 ▸ h3, h4⟩

example (p' : Calc.Plant)
    (h : ((Output.main critVoiced ["almost".toList, "in/bar.txt".toList, "out/bar.log".toList, Output.Level.err.word]).run (Output.World.start (Output.reportDisk critDiffusion))).2 = ok p') :
    ∃ r t, Input.readData critLib (some critDiffusion) critVoiced.plant = ok r ∧ FileText exVoice critLib critDiffusion r.plant t ∧
      ((Output.main critVoiced ["almost".toList, "in/bar.txt".toList, "out/bar.log".toList, Output.Level.err.word]).run (Output.World.start (Output.reportDisk critDiffusion))).1.disk "out/bar.log".toList =
        some (Output.opening critVoiced ++ ["Input file: in/bar.txt".toList, "Output file: bar.log \n".toList] ++ t ++ Output.criticalLog critVoiced.fmt critDiffusion .diffusion p' ++ Output.closing critVoiced) :=
  C103_whole_partial (v := exVoice) (e := critVoiced) critVoicedStarted (Output.reportDisk_get _) rfl critStored (critLib_clean _) critProper (Or.inr rfl) critFull (by decide)
    (Output.reportBlank critLib) (Output.reportLeast critLib) .err h

end

end Verif.Echo
