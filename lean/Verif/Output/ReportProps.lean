import Verif.Output.ReportEnd
import Verif.Output.Props
import Verif.Input.CriticalFile

/-! # Properties of the reports and figures of whole calculations -/

namespace Verif.Output

open Verif Outcome Input

noncomputable section

variable {e : Env} {disk : Text → Option (List Text)} {prog input output base : Text} {names raw lines : List Text} {p' : Calc.Plant} {g : Diffusion.Geom} {rs : List Region} {E : Nat}

theorem fullRead_fit {ks : List Calc.Kind} {r : Reader} (h : FullRead lines ks g rs E r) {o : Calc.Settings} (ho : o ∈ r.solvers)
    (hk : o.kind = .transport ∨ o.kind = .diffusion ∨ o.kind = .heat) : Fit lines E o :=
  ⟨hk, h.groups o ho, h.direction o ho, h.modes o ho⟩

theorem plotted_total {ws : List Text} {ps : List Plot} (h : Plotted ws ps) (hm : .totalFlux ∈ ps) : "totalflux".toList ∈ ws := by
  induction h with
  | nil => simp at hm
  | @plot w x ws ps hw h ih =>
    rcases List.mem_cons.1 hm with e | e
    · subst e
      have : w = "totalflux".toList := by simpa [plotNames] using hw
      rw [this]
      exact List.mem_cons_self
    · exact List.mem_cons_of_mem _ (ih e)
  | skip hw h ih => exact List.mem_cons_of_mem _ (ih hm)

/-! ### a concrete case for the examples -/

/-- The computer of the other examples, with a library that reads the numbers of a given file, at the start of the program. -/
def reportEnv (lib : Lib) : Env := { exEnv with lib, small := fun l => open Classical in if ∀ x ∈ l, x = Fl.fin 0 then .fin 0 else .fin 1, plant := fresh 7 7 (Calc.exPlant (Calc.exBar 1 (Vec.ofList [0, 0]))).kinetics }

/-- A disk with one file. -/
def reportDisk (raw : List Text) : Text → Option (List Text) := fun f => if f = "in/bar.txt".toList then some raw else none

theorem reportStarted (lib : Lib) (raw : List Text) : Started (reportEnv lib) (reportDisk raw) "in/bar.txt".toList "out/bar.log".toList
    ["Input file: in/bar.txt".toList, "Output file: bar.log \n".toList] "bar".toList where
  free := ⟨rfl, Or.inr rfl⟩
  apart := by decide
  named := ⟨"in".toList, "bar.txt".toList, "out".toList, "bar.log".toList, ⟨'/', Or.inl rfl, by decide, by simp [Separator]⟩, ⟨"txt".toList, by decide, by decide⟩,
    ⟨'/', Or.inl rfl, by decide, by simp [Separator]⟩, by decide⟩

theorem reportDisk_get (raw : List Text) : reportDisk raw "in/bar.txt".toList = some raw := if_pos rfl

theorem reportBlank (lib : Lib) : Blank (reportEnv lib).plant := ⟨rfl, rfl, rfl, rfl⟩

theorem reportLeast (lib : Lib) : LeastZero (reportEnv lib).small := fun _ _ h => if_pos h

/-- The call of the program in the examples. -/
def reportRun (lib : Lib) (raw : List Text) : World × Outcome Calc.Plant :=
  (main (reportEnv lib) ["almost".toList, "in/bar.txt".toList, "out/bar.log".toList, Level.err.word]).run (World.start (reportDisk raw))

/-! ### C93 -/

/-- **C93.** A complete file for one criticality solver: the result of the program is that of the calculation alone, so nothing goes wrong while results are printed and
drawn; and if it comes to its end, the log shows exactly the modes, factor, fluxes and power densities of the reactor at the end, and the figures are those the file asks for. -/
theorem C93 (hs : Started e disk input output names base) (hd : disk input = some raw) (hraw : Stored raw lines) (hc : Clean e.lib lines) (hp : Proper lines) {k : Calc.Kind}
    (hk : k = .transport ∨ k = .diffusion) (hF : Full e.lib lines [k] g rs E) (h0 : 0 < E) (hb : Blank e.plant) (hz : LeastZero e.small) (a : Level) :
    ((main e [prog, input, output, a.word]).run (World.start disk)).2 = program e.lib e.tools (some raw) e.plant ∧
    ∀ p', ((main e [prog, input, output, a.word]).run (World.start disk)).2 = ok p' → ∃ want, Wanted lines want ∧
      Logged e a output names (e.talk (some raw)) p' (criticalLog e.fmt lines k p') (allFigures base p'.grid want)
        ((main e [prog, input, output, a.word]).run (World.start disk)) := by
  have hn : k ∈ neutronics := by rcases hk with rfl | rfl <;> simp [neutronics]
  obtain ⟨r, hr, hl, hR⟩ := full_read hc hraw hp hF ⟨k, by simp, hn⟩ hb
  have hW := C88 hc.1 hr
  rw [hl] at hW
  rw [← hd] at hr
  have hw := work_eq hs hr
  obtain ⟨o, ho⟩ : ∃ o, r.solvers = [o] := by
    have := congrArg List.length hR.kinds
    rw [List.length_map] at this
    exact List.length_eq_one_iff.1 this
  have hok : o.kind = k := by
    have := hR.kinds
    rw [ho] at this
    exact (List.cons.inj this).1
  have hfit : Fit lines E o := fullRead_fit hR (by rw [ho]; simp) (by rw [hok]; tauto)
  have hh : o.kind ≠ .heat := by rw [hok]; rcases hk with rfl | rfl <;> decide
  have hprog : program e.lib e.tools (some raw) e.plant = Calc.problem e.tools r.plant r.solvers := by
    unfold program
    rw [← hd, hr, ok_bind]
  have key : ∀ q, Calc.problem e.tools r.plant r.solvers = ok q →
      work e disk input = ok ⟨q, criticalLog e.fmt lines k q, allFigures base q.grid r.plots⟩ := by
    intro q hq
    rw [ho] at hq
    rw [hw, ho, single_report hfit hh hR.sound hR.energies h0 hR.totals hz hq, hok]
  have hres : ((main e [prog, input, output, a.word]).run (World.start disk)).2 = program e.lib e.tools (some raw) e.plant := by
    rw [hprog, (main_word prog hs.free hs.apart a).result]
    by_cases hq : ∃ q, Calc.problem e.tools r.plant r.solvers = ok q
    · obtain ⟨q, hq⟩ := hq
      rw [key q hq, ok_bind, hq]
    · rw [hw]
      exact calculate_fails (by rw [ho]; simp only [List.mem_singleton, forall_eq]; rw [hok]; rcases hk with rfl | rfl <;> decide) fun q hq' => hq ⟨q, hq'⟩
  refine ⟨hres, fun p' h => ⟨r.plots, hW, ?_⟩⟩
  rw [hres, hprog] at h
  have := work_logged (prog := prog) hs a (key p' h)
  rw [hd] at this
  exact this

example : (reportRun critLib critDiffusion).2 = program critLib (Calc.exTools Solve.exLib) (some critDiffusion) (reportEnv critLib).plant ∧
    ∀ p', (reportRun critLib critDiffusion).2 = ok p' → ∃ want, Wanted critDiffusion want ∧
      Logged (reportEnv critLib) .err "out/bar.log".toList ["Input file: in/bar.txt".toList, "Output file: bar.log \n".toList] ((reportEnv critLib).talk (some critDiffusion)) p'
        (criticalLog (reportEnv critLib).fmt critDiffusion .diffusion p') (allFigures "bar".toList p'.grid want) (reportRun critLib critDiffusion) :=
  C93 (reportStarted _ _) (reportDisk_get _) critStored (critLib_clean _) critProper (Or.inr rfl) critFull (by decide) (reportBlank _) (reportLeast _) .err

/-- **C93**, two solvers coupled: transport or diffusion with heat conduction or with one another. The log gives the number of passes, which is at most the limit in the file,
and the results of both solvers, in the order in which they are named; the figures are drawn twice. -/
theorem C93_coupled (hs : Started e disk input output names base) (hd : disk input = some raw) (hraw : Stored raw lines) (hc : Clean e.lib lines) (hp : Proper lines) {k1 k2 : Calc.Kind}
    (h1 : k1 = .transport ∨ k1 = .diffusion ∨ k1 = .heat) (h2 : k2 = .transport ∨ k2 = .diffusion ∨ k2 = .heat) (hne : ¬ (k1 = .heat ∧ k2 = .heat))
    (hF : Full e.lib lines [k1, k2] g rs E) (h0 : 0 < E) (hb : Blank e.plant) (hz : LeastZero e.small) (a : Level) :
    ((main e [prog, input, output, a.word]).run (World.start disk)).2 = program e.lib e.tools (some raw) e.plant ∧
    ∀ p', ((main e [prog, input, output, a.word]).run (World.start disk)).2 = ok p' →
      ∃ (want : List Plot) (v : Text) (limit n : Nat), Wanted lines want ∧ Setting lines .coupled "max_iteration_number" [v] ∧ Numeral v limit ∧ 1 ≤ n ∧ n ≤ limit ∧
      Logged e a output names (e.talk (some raw)) p' (coupledLog e.fmt lines k1 k2 n p') (allFigures base p'.grid want ++ allFigures base p'.grid want)
        ((main e [prog, input, output, a.word]).run (World.start disk)) := by
  have hn : ∃ k ∈ [k1, k2], k ∈ neutronics := by
    rcases h1 with rfl | rfl | rfl
    · exact ⟨.transport, by simp, by simp [neutronics]⟩
    · exact ⟨.diffusion, by simp, by simp [neutronics]⟩
    · rcases h2 with rfl | rfl | rfl
      · exact ⟨.transport, by simp, by simp [neutronics]⟩
      · exact ⟨.diffusion, by simp, by simp [neutronics]⟩
      · exact absurd ⟨rfl, rfl⟩ hne
  obtain ⟨r, hr, hl, hR⟩ := full_read hc hraw hp hF hn hb
  have hW := C88 hc.1 hr
  rw [hl] at hW
  have hr0 := hr
  rw [← hd] at hr
  have hw := work_eq hs hr
  obtain ⟨o1, o2, o3, ho⟩ : ∃ o1 o2 o3, r.solvers = [o1, o2, o3] := by
    have := congrArg List.length hR.kinds
    rw [List.length_map] at this
    exact List.length_eq_three.1 this
  have hkinds := hR.kinds
  rw [ho] at hkinds
  have ho1 : o1.kind = k1 := (List.cons.inj hkinds).1
  have ho2 : o2.kind = k2 := (List.cons.inj (List.cons.inj hkinds).2).1
  have ho3 : o3.kind = .coupled := (List.cons.inj (List.cons.inj (List.cons.inj hkinds).2).2).1
  have f1 : Fit lines E o1 := fullRead_fit hR (by rw [ho]; simp) (by rw [ho1]; exact h1)
  have f2 : Fit lines E o2 := fullRead_fit hR (by rw [ho]; simp) (by rw [ho2]; exact h2)
  have hlimit : ∃ (v : Text) (limit : Nat), Setting lines .coupled "max_iteration_number" [v] ∧ Numeral v limit ∧ o3.maxIter = limit := by
    obtain ⟨ws, a1, a2⟩ := (C79_partial hc.1 hr0 (by rw [hl]; exact hp) (s := o3) (by rw [ho]; simp)).2
    rw [ho3, hl] at a1
    obtain ⟨ws', b1, b2⟩ := hF.settings .coupled (by simp [everyone]) "max_iteration_number" (by simp [settingsOf])
    obtain rfl := setting_unique a1 b1
    obtain ⟨v, limit, rfl, hv⟩ : ∃ v limit, ws = [v] ∧ Numeral v limit := by
      generalize hk : "max_iteration_number" = key at b2
      cases b2 with
      | limit h _ => exact ⟨_, _, rfl, h⟩
      | _ => exact absurd hk (by decide)
    refine ⟨v, limit, b1, hv, ?_⟩
    rcases a2 with ⟨v', e', b⟩ | ⟨e', -⟩
    · cases e'
      exact b limit hv
    · simp at e'
  obtain ⟨v, limit, hv1, hv2, hv3⟩ := hlimit
  have hprog : program e.lib e.tools (some raw) e.plant = Calc.problem e.tools r.plant r.solvers := by
    unfold program
    rw [← hd, hr, ok_bind]
  have key : ∀ q, Calc.problem e.tools r.plant r.solvers = ok q → ∃ n, 1 ≤ n ∧ n ≤ limit ∧
      work e disk input = ok ⟨q, coupledLog e.fmt lines k1 k2 n q, allFigures base q.grid r.plots ++ allFigures base q.grid r.plots⟩ := by
    intro q hq
    rw [ho] at hq
    obtain ⟨n, n1, n2, hn⟩ := double_report (base := base) (want := r.plots) f1 f2 ho3 hR.sound hR.energies h0 hR.totals hz hq
    refine ⟨n, n1, by omega, ?_⟩
    rw [hw, ho, hn, ho1, ho2]
  have hres : ((main e [prog, input, output, a.word]).run (World.start disk)).2 = program e.lib e.tools (some raw) e.plant := by
    rw [hprog, (main_word prog hs.free hs.apart a).result]
    by_cases hq : ∃ q, Calc.problem e.tools r.plant r.solvers = ok q
    · obtain ⟨q, hq⟩ := hq
      obtain ⟨n, -, -, hn⟩ := key q hq
      rw [hn, ok_bind, hq]
    · rw [hw]
      refine calculate_fails (fun o hm => ?_) fun q hq' => hq ⟨q, hq'⟩
      rw [ho] at hm
      simp only [List.mem_cons, List.not_mem_nil, or_false] at hm
      rcases hm with rfl | rfl | rfl
      · rw [ho1]; rcases h1 with rfl | rfl | rfl <;> decide
      · rw [ho2]; rcases h2 with rfl | rfl | rfl <;> decide
      · rw [ho3]; decide
  refine ⟨hres, fun p' h => ?_⟩
  rw [hres, hprog] at h
  obtain ⟨n, n1, n2, hn⟩ := key p' h
  refine ⟨r.plots, v, limit, n, hW, hv1, hv2, n1, n2, ?_⟩
  have := work_logged (prog := prog) hs a hn
  rw [hd] at this
  exact this

theorem wProper : Proper wKept := proper_eval (by decide +kernel)

example : (reportRun wLib wRaw).2 = program wLib (Calc.exTools Solve.exLib) (some wRaw) (reportEnv wLib).plant ∧
    ∀ p', (reportRun wLib wRaw).2 = ok p' →
      ∃ (want : List Plot) (v : Text) (limit n : Nat), Wanted wKept want ∧ Setting wKept .coupled "max_iteration_number" [v] ∧ Numeral v limit ∧ 1 ≤ n ∧ n ≤ limit ∧
      Logged (reportEnv wLib) .err "out/bar.log".toList ["Input file: in/bar.txt".toList, "Output file: bar.log \n".toList] ((reportEnv wLib).talk (some wRaw)) p'
        (coupledLog (reportEnv wLib).fmt wKept .diffusion .heat n p') (allFigures "bar".toList p'.grid want ++ allFigures "bar".toList p'.grid want) (reportRun wLib wRaw) :=
  C93_coupled (reportStarted _ _) (reportDisk_get _) wStored (wLib_clean _) wProper (Or.inr (Or.inl rfl)) (Or.inr (Or.inr rfl)) (by simp) wFull (by decide) (reportBlank _)
    (reportLeast _) .err

/-! ### C91 -/

/-- **C91.** A complete file for a heat calculation: if no total fluxes are to be drawn, the result of the program is that of the calculation alone, and if it comes to its end, the log
shows exactly the temperatures of the reactor at the end, and the figures are those the file asks for. -/
theorem C91 (hs : Started e disk input output names base) (hd : disk input = some raw) (hraw : Stored raw lines) (hc : Clean e.lib lines)
    (hF : Full e.lib lines [.heat] g rs E) (hb : Blank e.plant) (hT : ∀ ws, Card lines "plots" ws → "totalflux".toList ∉ ws) (a : Level) :
    ((main e [prog, input, output, a.word]).run (World.start disk)).2 = program e.lib e.tools (some raw) e.plant ∧
    ∀ p', ((main e [prog, input, output, a.word]).run (World.start disk)).2 = ok p' → p'.grid.cells = (cellNames rs).length ∧ ∃ want, Wanted lines want ∧
      Logged e a output names (e.talk (some raw)) p' (heatLog e.fmt p'.grid) (allFigures base p'.grid want)
        ((main e [prog, input, output, a.word]).run (World.start disk)) := by
  obtain ⟨r, hr, hl, hk, hm, -⟩ := C87 hc hraw hF e.plant
  obtain ⟨hg, hM⟩ := hm ⟨.heat, by simp⟩
  obtain ⟨c1, c2, -, -⟩ := read_counts hr
  have hcells : 0 < r.plant.grid.cells := by
    rw [hM.cells]
    exact cells_pos (hF.body ⟨.heat, by simp⟩)
  have hW := C88 hc.1 hr
  rw [hl] at hW
  have hnt : .totalFlux ∉ r.plots := by
    rcases hW with ⟨c, ws, h1, -, h2⟩ | ⟨-, h2⟩
    · exact fun h => hT _ h1 (List.mem_cons_of_mem _ (plotted_total h2 h))
    · simp [h2]
  rw [← hd] at hr
  have hw := work_eq hs hr
  obtain ⟨o, ho⟩ : ∃ o, r.solvers = [o] := by
    have := congrArg List.length hk
    rw [List.length_map] at this
    exact List.length_eq_one_iff.1 this
  have hok : o.kind = .heat := by
    rw [ho] at hk
    exact (List.cons.inj hk).1
  have hprog : program e.lib e.tools (some raw) e.plant = Calc.problem e.tools r.plant r.solvers := by
    unfold program
    rw [← hd, hr, ok_bind]
  have key : ∀ q, Calc.problem e.tools r.plant r.solvers = ok q → q.grid.cells = (cellNames rs).length ∧
      work e disk input = ok ⟨q, heatLog e.fmt q.grid, allFigures base q.grid r.plots⟩ := by
    intro q hq
    rw [ho] at hq
    have hads : o.kind ≠ .ads := by rw [hok]; decide
    unfold Calc.problem at hq
    dsimp only at hq
    rw [if_neg hads] at hq
    unfold Calc.single at hq
    simp only [bind_eq_ok] at hq
    obtain ⟨s, hs', ⟨q1, x⟩, hx, hq⟩ := hq
    cases hq
    have hs0 := hs'
    unfold Calc.solver at hs'
    rw [hok] at hs'
    cases hs'
    have hx0 := hx
    change Calc.heatSolve e.tools o r.plant = _ at hx0
    unfold Calc.heatSolve at hx0
    simp only [bind_eq_ok] at hx0
    obtain ⟨old, -, G, hG, hx0⟩ := hx0
    cases hx0
    have hst := heatLoop_steady hG
    have hW' : Whole G := ⟨by rw [hst.kept.bounds, hst.kept.cells]; exact (meshed_whole hM).bounds, by rw [hst.kept.size, hst.kept.cells]; exact (meshed_whole hM).mats⟩
    have hS' : Stocked G := ⟨Or.inl (by rw [hst.kept.forward, c1, hb.nForward]), Or.inl (by rw [hst.kept.adjoint, c2, hb.nAdjoint])⟩
    refine ⟨by show G.cells = _; rw [hst.kept.cells, hM.cells], ?_⟩
    rw [hw, ho]
    unfold calculate
    dsimp only
    rw [if_neg hads]
    unfold single
    rw [hs0, ok_bind, hx, ok_bind]
    have : powerHistory e.fmt e.tools o r.plant = ok [] := by
      unfold powerHistory
      rw [hok]
    rw [this, ok_bind]
    have : eigenLines e.fmt o { r.plant with grid := G } = ok [] := by
      unfold eigenLines
      rw [hok]
    rw [this, ok_bind, heatLines (p := { r.plant with grid := G }) hW' hok, ok_bind]
    rw [plots_ok hW' hS' (by rw [hst.kept.cells]; exact hcells) (fun h => absurd h hnt), ok_bind]
    rfl
  have hres : ((main e [prog, input, output, a.word]).run (World.start disk)).2 = program e.lib e.tools (some raw) e.plant := by
    rw [hprog, (main_word prog hs.free hs.apart a).result]
    by_cases hq : ∃ q, Calc.problem e.tools r.plant r.solvers = ok q
    · obtain ⟨q, hq⟩ := hq
      rw [(key q hq).2, ok_bind, hq]
    · rw [hw]
      exact calculate_fails (by rw [ho]; simp only [List.mem_singleton, forall_eq]; rw [hok]; decide) fun q hq' => hq ⟨q, hq'⟩
  refine ⟨hres, fun p' h => ?_⟩
  rw [hres, hprog] at h
  refine ⟨(key p' h).1, r.plots, hW, ?_⟩
  have := work_logged (prog := prog) hs a (key p' h).2
  rw [hd] at this
  exact this

/-- **C91.** The temperatures in the log of such a calculation: they are those of heat conduction (by the equations of the program, see C85_right) for the body the file describes, for conductivities taken at temperatures `s` that agree
with them within the accuracy of the file, if no temperature can lie near one degree. -/
theorem C91_steady (hs : Started e disk input output names base) (hd : disk input = some raw) (hraw : Stored raw lines) (hc : Clean e.lib lines) (hp : Proper lines)
    {law : Text → Vec ℝ} {t q bc : Vec ℝ} {acc m AL BL CL AR BR CR : ℝ} {f : Nat → ℝ} {n : Nat} (hf : HeatFile e.lib lines g rs law t q bc acc n)
    (hcase : HeatCase g rs law t q bc f m AL BL CL AR BR CR) (hm : 1 + acc ≤ m) (hlin : Calc.LinSolves e.tools.lin) (hb : Blank e.plant)
    (hT : ∀ ws, Card lines "plots" ws → "totalflux".toList ∉ ws) (a : Level)
    (hrun : ((main e [prog, input, output, a.word]).run (World.start disk)).2 = ok p') :
    ∃ T s : Nat → ℝ, ConductedHeat g (cellNames rs).length f (fun i => conductivityAt rs law i (s i)) q.v AL BL CL AR BR CR T ∧
      (∀ i, i < (cellNames rs).length → |T i - s i| < acc) ∧
      ((main e [prog, input, output, a.word]).run (World.start disk)).1.disk output =
        some (opening e ++ names ++ shown a (e.talk (some raw)) ++ block "Final temperatures [C]:" (cellTexts e.fmt (cellNames rs).length T) ++ closing e) := by
  obtain ⟨h1, h2⟩ := C91 (prog := prog) hs hd hraw hc (heatFile_full hf) hb hT a
  obtain ⟨hcells, want, -, hl⟩ := h2 p' hrun
  rw [h1] at hrun
  obtain ⟨-, -, -, s, hS, -, hacc⟩ := C85_partial hc hraw hp hf hcase hlin hrun
  refine ⟨Calc.temp p', s, hS, hacc hm, ?_⟩
  rw [hl.log]
  unfold heatLog
  rw [hcells]
  rfl

/-- **C91.** If moreover the conductivities do not depend on the temperature, the accuracy is positive and there are at least two passes, such a program comes to its end with the
temperatures of its equations in the log. -/
theorem C91_constant (hs : Started e disk input output names base) (hd : disk input = some raw) (hraw : Stored raw lines) (hc : Clean e.lib lines) (hp : Proper lines)
    {law : Text → Vec ℝ} {t q bc : Vec ℝ} {acc m AL BL CL AR BR CR : ℝ} {f : Nat → ℝ} {n : Nat} (hf : HeatFile e.lib lines g rs law t q bc acc n)
    (hcase : HeatCase g rs law t q bc f m AL BL CL AR BR CR) (hlin : Calc.LinSolves e.tools.lin) (hb : Blank e.plant)
    (hT : ∀ ws, Card lines "plots" ws → "totalflux".toList ∉ ws) (hn : 2 ≤ n) (hacc : 0 < acc) (hk : ∀ r ∈ rs, (law r.mat).n = 1) (a : Level) :
    ∃ (p' : Calc.Plant) (T : Nat → ℝ), ((main e [prog, input, output, a.word]).run (World.start disk)).2 = ok p' ∧
      ConductedHeat g (cellNames rs).length f (fun i => (law ((cellNames rs).getD i [])).v 0) q.v AL BL CL AR BR CR T ∧
      ((main e [prog, input, output, a.word]).run (World.start disk)).1.disk output =
        some (opening e ++ names ++ shown a (e.talk (some raw)) ++ block "Final temperatures [C]:" (cellTexts e.fmt (cellNames rs).length T) ++ closing e) := by
  obtain ⟨h1, h2⟩ := C91 (prog := prog) hs hd hraw hc (heatFile_full hf) hb hT a
  obtain ⟨p', hr, -, -, hS⟩ := C85_constant hc hraw hp hf hcase hlin hn hacc hk e.plant
  rw [hr] at h1
  obtain ⟨hcells, want, -, hl⟩ := h2 p' h1
  refine ⟨p', Calc.temp p', h1, hS, ?_⟩
  rw [hl.log]
  unfold heatLog
  rw [hcells]
  rfl

/-- The file asks for no figures. -/
theorem vQuiet (ws : List Text) (h : Card vFile "plots" ws) : "totalflux".toList ∉ ws := by
  obtain ⟨i, m, ⟨⟨hm, hh⟩, -⟩, -⟩ := h
  have : ∀ m ∈ active vFile, ¬ has (small "plots".toList) (small m) = true := by decide +kernel
  exact absurd (has_iff.2 hh) (this m (List.mem_of_getElem? hm))

example : (reportRun vLib vFile).2 = program vLib (Calc.exTools Solve.exLib) (some vFile) (reportEnv vLib).plant :=
  (C91 (prog := "almost".toList) (reportStarted _ _) (reportDisk_get _) vStored (vLib_clean _) (heatFile_full vHeatFile) (reportBlank _) vQuiet .err).1

example : ∃ (p' : Calc.Plant) (T : Nat → ℝ), (reportRun vLib vFile).2 = ok p' ∧
    ConductedHeat .slab 3 (fun i => i * (1 / 2)) (fun i => (vLaw ((cellNames vRegions).getD i [])).v 0) (Vec.ofList [3, 3, 1 / 2]).v 0 1 0 1 0 20 T ∧
    (reportRun vLib vFile).1.disk "out/bar.log".toList = some (opening (reportEnv vLib) ++ ["Input file: in/bar.txt".toList, "Output file: bar.log \n".toList] ++
      shown .err ((reportEnv vLib).talk (some vFile)) ++ block "Final temperatures [C]:" (cellTexts (reportEnv vLib).fmt 3 T) ++ closing (reportEnv vLib)) :=
  C91_constant (reportStarted _ _) (reportDisk_get _) vStored (vLib_clean _) vProper vHeatFile vCase Calc.exLin_solves (reportBlank _) vQuiet (by norm_num) (by norm_num) (fun _ _ => rfl) .err

example : ∃ (p' : Calc.Plant) (T s : Nat → ℝ), (reportRun vLib vFile).2 = ok p' ∧
    ConductedHeat .slab 3 (fun i => i * (1 / 2)) (fun i => conductivityAt vRegions vLaw i (s i)) (Vec.ofList [3, 3, 1 / 2]).v 0 1 0 1 0 20 T ∧ ∀ i, i < 3 → |T i - s i| < 1 / 100 := by
  obtain ⟨p', T, h, -⟩ := C91_constant (prog := "almost".toList) (reportStarted _ _) (reportDisk_get _) vStored (vLib_clean _) vProper vHeatFile vCase Calc.exLin_solves (reportBlank vLib) vQuiet
    (by norm_num) (by norm_num) (fun _ _ => rfl) .err
  obtain ⟨T, s, h1, h2, -⟩ := C91_steady (prog := "almost".toList) (reportStarted _ _) (reportDisk_get _) vStored (vLib_clean _) vProper vHeatFile vCase (by norm_num) Calc.exLin_solves
    (reportBlank vLib) vQuiet .err h
  exact ⟨p', T, s, h, h1, h2⟩

end

end Verif.Output
