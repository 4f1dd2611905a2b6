import Verif.Output.ReportProps
import Verif.Kinetics.Surplus
import Verif.Input.TransientRead
import Verif.Input.PulseFile

/-! # Properties of the report of a kinetics calculation -/

namespace Verif.Output

open Verif Outcome Input

noncomputable section

variable {e : Env} {disk : Text → Option (List Text)} {prog input output base : Text} {names raw lines : List Text} {lam beta times rhos : Vec ℝ} {alpha power : ℝ}

/-! ### lemmas -/

theorem kinetics_single {want : List Plot} {o : Calc.Settings} {p : Calc.Plant} (ho : o.kind = .kinetics) {s0 s : Kinetics.State} {x : Vec ℝ}
    (h0 : Kinetics.init p.kinetics.lam p.kinetics.beta p.kinetics.alpha p.kinetics.power = ok s0)
    (h1 : Kinetics.history e.tools.roots s0 p.kinetics.rhos p.kinetics.times = ok (s, x)) :
    calculate e base want p [o] = (plots e.small base p.grid want >>= fun f => ok ⟨p, "Output power [W]: ".toList :: vectorLines e.fmt (reals x), f⟩) := by
  show (if o.kind = .ads then ads e o p else single e base want o p) = _
  rw [if_neg (by rw [ho]; decide)]
  unfold single Calc.solver Calc.kineticsPart powerHistory eigenLines resultLines
  simp only [ho, h0, h1, ok_bind, List.append_nil]

theorem plot_noMesh {g : Mesh.Grid} (h : g.bounds.n = 0) (k : Plot) : plot e.small base g k = ub := by
  unfold plot Mesh.middlePoints predIdx
  rw [h]
  rfl

theorem plotIf_noMesh {g : Mesh.Grid} (h : g.bounds.n = 0) (want : List Plot) (k : Plot) : plotIf e.small base g want k = if k ∈ want then ub else ok [] := by
  unfold plotIf
  rw [plot_noMesh h]

theorem plots_noMesh {g : Mesh.Grid} (h : g.bounds.n = 0) {want : List Plot} (hw : want ≠ []) : plots e.small base g want = ub := by
  obtain ⟨k, hk⟩ := List.exists_mem_of_ne_nil _ hw
  unfold plots
  simp only [plotIf_noMesh h]
  by_cases h1 : Plot.temperature ∈ want
  · rw [if_pos h1]; rfl
  rw [if_neg h1, ok_bind]
  by_cases h2 : Plot.powerDensity ∈ want
  · rw [if_pos h2]; rfl
  rw [if_neg h2, ok_bind]
  by_cases h3 : Plot.totalFlux ∈ want
  · rw [if_pos h3]; rfl
  rw [if_neg h3, ok_bind]
  by_cases h4 : Plot.neutronFlux ∈ want
  · rw [if_pos h4]; rfl
  rw [if_neg h4, ok_bind]
  by_cases h5 : Plot.adjointFlux ∈ want
  · rw [if_pos h5]; rfl
  cases k <;> contradiction

theorem plotNames_unique {a b : Text × Plot} (ha : a ∈ plotNames) (hb : b ∈ plotNames) (h : a.1 = b.1) : a = b := by
  exact (by decide +kernel : ∀ a ∈ plotNames, ∀ b ∈ plotNames, a.1 = b.1 → a = b) a ha b hb h

theorem plotted_unique {ws : List Text} {x y : List Plot} (h : Plotted ws x) (h' : Plotted ws y) : x = y := by
  induction h generalizing y with
  | nil =>
    cases h'
    rfl
  | plot hw h ih =>
    cases h' with
    | plot hw' h' =>
      have := plotNames_unique hw hw' rfl
      injection this with _ this
      rw [this, ih h']
    | skip hw' _ => exact absurd hw (hw' _)
  | skip hw h ih =>
    cases h' with
    | plot hw' _ => exact absurd hw' (hw _)
    | skip _ h' => exact ih h'

theorem wanted_unique {want want' : List Plot} (h : Wanted lines want) (h' : Wanted lines want') : want = want' := by
  rcases h with ⟨c, ws, c1, c2, c3⟩ | ⟨c1, rfl⟩
  · rcases h' with ⟨c', ws', d1, d2, d3⟩ | ⟨d1 | d1, -⟩
    · have := card_unique c1 d1
      injection this with _ this
      subst this
      exact plotted_unique c3 d3
    · exact absurd (card_unique c1 d1) (by simp)
    · obtain ⟨i, m, ⟨hf, -, hi, -⟩, -⟩ := c1
      exact absurd hf (d1 i m (Nat.zero_le _) hi)
  · rcases h' with ⟨c', ws', d1, d2, d3⟩ | ⟨-, rfl⟩
    · rcases c1 with c1 | c1
      · exact absurd (card_unique c1 d1) (by simp)
      · obtain ⟨i, m, ⟨hf, -, hi, -⟩, -⟩ := d1
        exact absurd hf (c1 i m (Nat.zero_le _) hi)
    · rfl

/-- the powers the program computes -/
theorem transient_powers (hphys : Kinetics.Physical lam.n lam.v beta.v alpha) (hb : lam.n ≤ beta.n) (hn : times.n = rhos.n) (hroots : Kinetics.ExactRootFinder e.tools.roots)
    {p : Calc.Plant} {r : Reader} (hR : TransientGot p lam beta alpha power times rhos r) {P : Nat → ℝ → ℝ} {C : Nat → Nat → ℝ → ℝ}
    (hT : Kinetics.Transient lam.n lam.v beta.v alpha power rhos.n (fun k => rhos.v k - ∑ i ∈ Finset.Ico lam.n beta.n, beta.v i) times.v P C) :
    ∃ s0 s x, Kinetics.init r.plant.kinetics.lam r.plant.kinetics.beta r.plant.kinetics.alpha r.plant.kinetics.power = ok s0 ∧
      Kinetics.history e.tools.roots s0 r.plant.kinetics.rhos r.plant.kinetics.times = ok (s, x) ∧
      reals x = (List.range rhos.n).map fun k => .fin (P k (times.v k)) := by
  have hl := hR.lam.n
  have hrn := hR.rhos.n
  have hbn := hR.beta.n
  have hB : ∀ i, i < lam.n → r.plant.kinetics.beta.v i = beta.v i := fun i hi => hR.beta.v i (by omega)
  have hp' : Kinetics.Physical r.plant.kinetics.lam.n r.plant.kinetics.lam.v r.plant.kinetics.beta.v r.plant.kinetics.alpha := by
    rw [hR.alpha, hl]
    exact hphys.congr hR.lam.v hB
  have hT' : Kinetics.Transient r.plant.kinetics.lam.n r.plant.kinetics.lam.v r.plant.kinetics.beta.v r.plant.kinetics.alpha r.plant.kinetics.power r.plant.kinetics.rhos.n
      (fun k => r.plant.kinetics.rhos.v k - ∑ i ∈ Finset.Ico r.plant.kinetics.lam.n r.plant.kinetics.beta.n, r.plant.kinetics.beta.v i) r.plant.kinetics.times.v P C := by
    rw [hR.alpha, hR.power, hl, hrn, hbn]
    refine hT.congr hR.lam.v hB (fun k hk => ?_) fun i hi => hR.times.v i (by rw [hn]; exact hi)
    rw [hR.rhos.v k hk, Finset.sum_congr rfl fun i hi => hR.beta.v i (Finset.mem_Ico.1 hi).2]
  obtain ⟨s0, s, x, h0, h1, h2, h3⟩ := Kinetics.surplus_transient hroots (by rw [hbn, hl]; exact hb) hp' (by rw [hR.times.n, hn, hrn]) hT'
  refine ⟨s0, s, x, h0, h1, ?_⟩
  unfold reals Vec.toList
  rw [List.map_map, h2, hrn]
  refine List.map_congr_left fun k hk => ?_
  have hk := List.mem_range.1 hk
  show Fl.fin (x.v k) = _
  rw [h3 k (by rw [hrn]; exact hk), hR.times.v k (by rw [hn]; exact hk)]

/-! ### C92 -/

/-- **C92.** More fractions than decay constants are not refused: the log then shows the powers of a reactor without the surplus fractions in which every reactivity is lower by their sum.
Nothing is said about it in the log. -/
theorem C92_surplus (hs : Started e disk input output names base) (hd : disk input = some raw) (hraw : Stored raw lines) (hc : Clean e.lib lines)
    (hF : TransientFile e.lib lines lam beta alpha power times rhos) (hn : times.n = rhos.n) (hb : lam.n ≤ beta.n) (hphys : Kinetics.Physical lam.n lam.v beta.v alpha)
    (hq : Silent lines "plots".toList 0 4294967295) (hroots : Kinetics.ExactRootFinder e.tools.roots) (a : Level) {P : Nat → ℝ → ℝ} {C : Nat → Nat → ℝ → ℝ}
    (hT : Kinetics.Transient lam.n lam.v beta.v alpha power rhos.n (fun k => rhos.v k - ∑ i ∈ Finset.Ico lam.n beta.n, beta.v i) times.v P C) : ∃ p',
      Logged e a output names (e.talk (some raw)) p' (block "Output power [W]: " ((List.range rhos.n).map fun k => e.fmt (.fin (P k (times.v k))))) []
        ((main e [prog, input, output, a.word]).run (World.start disk)) := by
  obtain ⟨r, hr, hl, hR⟩ := transientFile_read hc hraw hF hn e.plant
  obtain ⟨o, ho, hk⟩ := hR.solvers
  have hW := C88 hc.1 hr
  have hw0 : r.plots = [] := by
    rcases hW with ⟨c, ws, ⟨i, m, ⟨hf, -, hi, -⟩, -⟩, -⟩ | ⟨-, h⟩
    · rw [hl] at hf
      exact absurd hf (hq i m (Nat.zero_le _) hi)
    · exact h
  rw [← hd] at hr
  obtain ⟨s0, s, x, h0, h1, h2⟩ := transient_powers hphys hb hn hroots hR hT
  have hw := work_eq hs hr
  rw [ho, kinetics_single hk h0 h1, hw0, plots_none, ok_bind] at hw
  refine ⟨r.plant, ?_⟩
  have := work_logged (prog := prog) hs a hw
  rw [hd] at this
  have e1 : "Output power [W]: ".toList :: vectorLines e.fmt (reals x) =
      block "Output power [W]: " ((List.range rhos.n).map fun k => e.fmt (.fin (P k (times.v k)))) := by
    unfold block vectorLines
    rw [h2, List.map_map]
    rfl
  rw [e1] at this
  exact this

/-- **C92, partial.** A complete file for a kinetics calculation with physical data: the program comes to its end, and its log shows exactly the powers, at the times of the file, of the one
solution of the equations of point kinetics that starts in equilibrium at the power of the file and has the reactivities of the file. Missing: files that ask for figures (`C92_false`). -/
theorem C92_partial (hs : Started e disk input output names base) (hd : disk input = some raw) (hraw : Stored raw lines) (hc : Clean e.lib lines)
    (hF : TransientFile e.lib lines lam beta alpha power times rhos) (hn : times.n = rhos.n) (hb : beta.n = lam.n) (hphys : Kinetics.Physical lam.n lam.v beta.v alpha)
    (hq : Silent lines "plots".toList 0 4294967295) (hroots : Kinetics.ExactRootFinder e.tools.roots) (a : Level) :
    (∃ P C, Kinetics.Transient lam.n lam.v beta.v alpha power rhos.n rhos.v times.v P C) ∧
    ∀ P C, Kinetics.Transient lam.n lam.v beta.v alpha power rhos.n rhos.v times.v P C → ∃ p',
      Logged e a output names (e.talk (some raw)) p' (block "Output power [W]: " ((List.range rhos.n).map fun k => e.fmt (.fin (P k (times.v k))))) []
        ((main e [prog, input, output, a.word]).run (World.start disk)) := by
  refine ⟨Kinetics.exists_transient hphys power rhos.n rhos.v times.v, fun P C hT => C92_surplus hs hd hraw hc hF hn hb.ge hphys hq hroots a (P := P) (C := C) ?_⟩
  simpa [hb] using hT

/-- **C92.** The solution spoken of in `C92_partial` is unique. -/
theorem C92_unique {n m : Nat} {lam beta rhos times : Nat → ℝ} {P P' : Nat → ℝ → ℝ} {C C' : Nat → Nat → ℝ → ℝ} (hphys : Kinetics.Physical n lam beta alpha)
    (h : Kinetics.Transient n lam beta alpha power m rhos times P C) (h' : Kinetics.Transient n lam beta alpha power m rhos times P' C') {k : Nat} (hk : k < m) (t : ℝ) :
    P k t = P' k t :=
  (h.unique hphys h' k hk t).1

/-- **C92.** If a file for a kinetics calculation asks for figures, whatever they are, the behaviour is undefined once the powers have been calculated. -/
theorem C92_plots (hs : Started e disk input output names base) (hd : disk input = some raw) (hraw : Stored raw lines) (hc : Clean e.lib lines)
    (hF : TransientFile e.lib lines lam beta alpha power times rhos) (hn : times.n = rhos.n) (hb : beta.n = lam.n) (hphys : Kinetics.Physical lam.n lam.v beta.v alpha)
    (hroots : Kinetics.ExactRootFinder e.tools.roots) (hm : e.plant.grid.bounds.n = 0) {want : List Plot} (hW : Wanted lines want) (hw : want ≠ []) (a : Level) :
    ((main e [prog, input, output, a.word]).run (World.start disk)).2 = ub := by
  obtain ⟨P, C, hT⟩ := Kinetics.exists_transient hphys power rhos.n (fun k => rhos.v k - ∑ i ∈ Finset.Ico lam.n beta.n, beta.v i) times.v
  obtain ⟨r, hr, hl, hR⟩ := transientFile_read hc hraw hF hn e.plant
  obtain ⟨o, ho, hk⟩ := hR.solvers
  have hW' := C88 hc.1 hr
  have hr' : r.plots ≠ [] := by
    rw [hl] at hW'
    rw [wanted_unique hW' hW]
    exact hw
  rw [← hd] at hr
  obtain ⟨s0, s, x, h0, h1, h2⟩ := transient_powers hphys hb.ge hn hroots hR hT
  have hwk := work_eq hs hr
  rw [ho, kinetics_single hk h0 h1, plots_noMesh (by rw [hR.bounds]; exact hm) hr'] at hwk
  rw [(main_word prog hs.free hs.apart a).result, hwk]
  rfl

/-- **C92.** With fewer fractions than decay constants the behaviour is undefined. -/
theorem C92_short (hs : Started e disk input output names base) (hd : disk input = some raw) (hraw : Stored raw lines) (hc : Clean e.lib lines)
    (hF : TransientFile e.lib lines lam beta alpha power times rhos) (hn : times.n = rhos.n) (hb : beta.n < lam.n) (ha : alpha ≠ 0) (hlam : ∀ i, i < lam.n → lam.v i ≠ 0) (a : Level) :
    ((main e [prog, input, output, a.word]).run (World.start disk)).2 = ub := by
  obtain ⟨r, hr, hl, hR⟩ := transientFile_read hc hraw hF hn e.plant
  obtain ⟨o, ho, hk⟩ := hR.solvers
  rw [← hd] at hr
  have hwk := work_eq hs hr
  have h1 := hR.lam.n
  have h2 := hR.beta.n
  have h0 : Kinetics.init r.plant.kinetics.lam r.plant.kinetics.beta r.plant.kinetics.alpha r.plant.kinetics.power = ub :=
    Kinetics.init_short (by omega) (fun i hi => by
      rw [hR.alpha, hR.lam.v i (by omega)]
      exact mul_ne_zero (hlam i (by omega)) ha) _
  have h3 : calculate e base r.plots r.plant [o] = ub := by
    show (if o.kind = .ads then ads e o r.plant else single e base r.plots o r.plant) = _
    rw [if_neg (by rw [hk]; decide)]
    unfold single Calc.solver Calc.kineticsPart
    simp only [hk, h0, ok_bind]
    rfl
  rw [(main_word prog hs.free hs.apart a).result, hwk, ho, h3]
  rfl

/-- **C92.** With different numbers of times and reactivities the program exits before calculating anything. -/
theorem C92_lengths (hs : Started e disk input output names base) (hd : disk input = some raw) (hraw : Stored raw lines) (hc : Clean e.lib lines)
    (hF : TransientFile e.lib lines lam beta alpha power times rhos) (hn : times.n ≠ rhos.n) (a : Level) :
    ((main e [prog, input, output, a.word]).run (World.start disk)).2 = exit := by
  have hwk : work e disk input = exit := by
    unfold work
    rw [hd, transientFile_refused hc hraw hF hn]
    rfl
  rw [(main_word prog hs.free hs.apart a).result, hwk]
  rfl

/-! ### examples -/

/-- The computer of the examples, with an exact root finder. -/
def pulseEnv : Env := { reportEnv pulseLib with tools := { Calc.exTools Solve.exLib with roots := Classical.choose Kinetics.exists_exactRootFinder } }

theorem pulseRoots : Kinetics.ExactRootFinder pulseEnv.tools.roots := Classical.choose_spec Kinetics.exists_exactRootFinder

theorem pulseStarted (raw : List Text) : Started pulseEnv (reportDisk raw) "in/bar.txt".toList "out/bar.log".toList
    ["Input file: in/bar.txt".toList, "Output file: bar.log \n".toList] "bar".toList where
  free := ⟨rfl, Or.inr rfl⟩
  apart := by decide
  named := (reportStarted pulseLib raw).named

/-- The call of the program in the examples. -/
def pulseRun (q : Pulse) : World × Outcome Calc.Plant :=
  (main pulseEnv ["almost".toList, "in/bar.txt".toList, "out/bar.log".toList, Level.err.word]).run (World.start (reportDisk (pulseFile q)))

example : ∃ (P : Nat → ℝ → ℝ) (C : Nat → Nat → ℝ → ℝ) (p' : Calc.Plant),
    Kinetics.Transient 2 (pulseVec pulseTwo.constants).v (pulseVec pulseTwo.fractions).v (1 / 10000) 5 2 (pulseVec ["1.0e-03", "-4.0e-03"]).v (pulseVec ["1.0", "5.0"]).v P C ∧
    Logged pulseEnv .err "out/bar.log".toList ["Input file: in/bar.txt".toList, "Output file: bar.log \n".toList] (pulseEnv.talk (some (pulseFile pulseTwo))) p'
      (block "Output power [W]: " ((List.range 2).map fun k => pulseEnv.fmt (.fin (P k ((pulseVec ["1.0", "5.0"]).v k))))) [] (pulseRun pulseTwo) := by
  obtain ⟨⟨P, C, h⟩, h'⟩ := C92_partial (prog := "almost".toList) (pulseStarted _) (reportDisk_get _) (pulseStored pulseTwo (by simp [pulses])) (pulseLib_clean _)
    (pulse_file (q := pulseTwo) (by simp [pulses])) rfl rfl pulseTwo_physical (pulseSilent (by simp)) pulseRoots .err
  obtain ⟨p', h2⟩ := h' P C h
  exact ⟨P, C, p', h, h2⟩

/-- the second fraction lowers both reactivities by 0.003 -/
example : ∃ (P : Nat → ℝ → ℝ) (C : Nat → Nat → ℝ → ℝ) (p' : Calc.Plant),
    Kinetics.Transient 1 (pulseVec pulseSurplus.constants).v (pulseVec pulseSurplus.fractions).v (1 / 10000) 5 2
      (fun k => (pulseVec ["1.0e-03", "-4.0e-03"]).v k - ∑ i ∈ Finset.Ico 1 2, (pulseVec pulseSurplus.fractions).v i) (pulseVec ["1.0", "5.0"]).v P C ∧
    Logged pulseEnv .err "out/bar.log".toList ["Input file: in/bar.txt".toList, "Output file: bar.log \n".toList] (pulseEnv.talk (some (pulseFile pulseSurplus))) p'
      (block "Output power [W]: " ((List.range 2).map fun k => pulseEnv.fmt (.fin (P k ((pulseVec ["1.0", "5.0"]).v k))))) [] (pulseRun pulseSurplus) := by
  obtain ⟨P, C, h⟩ := Kinetics.exists_transient pulseSurplus_physical 5 2
    (fun k => (pulseVec ["1.0e-03", "-4.0e-03"]).v k - ∑ i ∈ Finset.Ico 1 2, (pulseVec pulseSurplus.fractions).v i) (pulseVec ["1.0", "5.0"]).v
  obtain ⟨p', h2⟩ := C92_surplus (prog := "almost".toList) (pulseStarted _) (reportDisk_get _) (pulseStored pulseSurplus (by simp [pulses])) (pulseLib_clean _)
    (pulse_file (q := pulseSurplus) (by simp [pulses])) rfl (by decide) pulseSurplus_physical (pulseSilent (by simp)) pulseRoots .err h
  exact ⟨P, C, p', h, h2⟩

example : (pulseRun pulseShort).2 = ub :=
  C92_short (prog := "almost".toList) (pulseStarted _) (reportDisk_get _) (pulseStored pulseShort (by simp [pulses])) (pulseLib_clean _)
    (pulse_file (q := pulseShort) (by simp [pulses])) rfl (by decide) (by norm_num) (fun i hi => (pulseTwo_physical.lam_pos i hi).ne') .err

example : (pulseRun pulseUneven).2 = exit :=
  C92_lengths (prog := "almost".toList) (pulseStarted _) (reportDisk_get _) (pulseStored pulseUneven (by simp [pulses])) (pulseLib_clean _)
    (pulse_file (q := pulseUneven) (by simp [pulses])) (by decide) .err

/-- **C92 fails** for files that ask for figures: the example above with one more line, which asks for the temperatures to be drawn, is complete and physical, but the behaviour of the
program is undefined. -/
theorem C92_false : ∃ (e : Env) (disk : Text → Option (List Text)) (prog input output base : Text) (names lines : List Text) (lam beta times rhos : Vec ℝ) (alpha power : ℝ),
    Started e disk input output names base ∧ disk input = some lines ∧ Stored lines lines ∧ Clean e.lib lines ∧ TransientFile e.lib lines lam beta alpha power times rhos ∧
    times.n = rhos.n ∧ beta.n = lam.n ∧ Kinetics.Physical lam.n lam.v beta.v alpha ∧ Kinetics.ExactRootFinder e.tools.roots ∧ Blank e.plant ∧
    Wanted lines [.temperature] ∧ ∀ a : Level, ((main e [prog, input, output, a.word]).run (World.start disk)).2 = ub := by
  have hW : Wanted (pulseFile pulseDrawn) [.temperature] :=
    Or.inl ⟨_, _, saysB_card pulseLib_sane pulsePlots.2, by simp, .plot (by simp [plotNames]) .nil⟩
  refine ⟨pulseEnv, reportDisk (pulseFile pulseDrawn), "almost".toList, _, _, _, _, pulseFile pulseDrawn, _, _, _, _, _, _, pulseStarted _, reportDisk_get _,
    pulseStored pulseDrawn (by simp [pulses]), pulseLib_clean _, pulse_file (q := pulseDrawn) (by simp [pulses]), rfl, rfl, pulseTwo_physical, pulseRoots, reportBlank pulseLib, hW, fun a => ?_⟩
  exact C92_plots (pulseStarted _) (reportDisk_get _) (pulseStored pulseDrawn (by simp [pulses])) (pulseLib_clean _)
    (pulse_file (q := pulseDrawn) (by simp [pulses])) rfl rfl pulseTwo_physical pulseRoots rfl hW (by simp) a

end

end Verif.Output
