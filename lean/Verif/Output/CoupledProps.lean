import Verif.Output.CoupledSpec
import Verif.Output.CriticalProps
import Verif.Input.CoupledFileProps

/-! # Coupled calculations from the input file to the log -/

namespace Verif.Output

open Verif Outcome Input Finset Filter Topology

noncomputable section

variable {e : Env} {disk : Text → Option (List Text)} {prog input output base : Text} {names raw lines : List Text} {p' : Calc.Plant} {g : Diffusion.Geom} {rs : List Region} {E : Nat}
  {T : Tables} {alb : Vec ℝ} {accN accH acc P w m AL BL CL AR BR CR : ℝ} {f : Nat → ℝ} {nN nH n : Nat} {first : Bool} {law : Text → Vec ℝ} {t bc : Vec ℝ} {want : List Plot}

theorem cellFigure_mem {name axis : String} {G : Mesh.Grid} {y : Nat → ℝ} {N : Nat} {fs : List Figure} (hc : G.cells = N) (s : String) (hs : s.toList = "_".toList ++ name.toList ++ ".pdf".toList)
    (hm : cellFigure base name axis G y ∈ fs) : ⟨base ++ s.toList, axis.toList, middles G, [([], (List.range N).map fun i => .fin (y i))]⟩ ∈ fs := by
  rw [hs]
  unfold cellFigure at hm
  rw [hc] at hm
  simpa only [List.append_assoc] using hm

/-- what the log and the figures say about a reactor -/
theorem together_shows {k : Calc.Kind} (hk : k = .transport ∨ k = .diffusion) {a : Level} {talk : List Message} {run : World × Outcome Calc.Plant} {j : Nat} {k0 k' : ℝ}
    {T0 Q0 s ψ rate F Q x u : Nat → ℝ} (hn : ¬ Backward lines k)
    (ht : Together first g rs E law f m AL BL CL AR BR CR accH acc w P p' k0 T0 Q0 s k' ψ rate F Q x u)
    (hl : Logged e a output names talk p' (if first then coupledLog e.fmt lines k .heat j p' else coupledLog e.fmt lines .heat k j p')
      (allFigures base p'.grid want ++ allFigures base p'.grid want) run) :
    ShowsBoth e a output names talk base want first rs E j run p' k' ψ (Calc.heat p') (Calc.temp p') := by
  obtain ⟨f1, f2, f3⟩ := ht.found
  have hc := ht.mesh.cells
  have hkh : k ≠ .heat := by rcases hk with rfl | rfl <;> decide
  have e1 : partLog e.fmt lines k p' = resultLog e.fmt "Fundamental Neutron Flux [1/(cm2*s)]:" (cellNames rs).length E k' ψ ++ powerLog e.fmt (cellNames rs).length (Calc.heat p') := by
    unfold partLog fluxLog
    rw [if_neg hkh, if_neg hn, f1, ht.groups, hc, groupTexts_congr f3]
    rfl
  have e2 : partLog e.fmt lines .heat p' = block "Final temperatures [C]:" (cellTexts e.fmt (cellNames rs).length (Calc.temp p')) := by
    unfold partLog heatLog
    rw [if_pos rfl, hc]
    rfl
  have hin : ∀ {f : Figure} {q : Plot}, q ∈ want → f ∈ figuresFor base p'.grid q → f ∈ run.1.drawn := fun hq hf => by
    rw [hl.drawn]
    exact List.mem_append_left _ (allFigures_mem hq hf)
  refine ⟨hl.result, ht.mesh, ?_, fun hq x hx => hin hq ?_, fun hq hv => ?_, fun hq hv => ?_⟩
  · rw [hl.log]
    cases first
    · simp only [Bool.false_eq_true, if_false]
      unfold coupledLog
      rw [e1, e2, List.append_assoc (block _ _)]
    · simp only [if_true]
      unfold coupledLog
      rw [e1, e2]
  · show _ ∈ fluxFigures base "neutronflux" "Neutron Flux [1/cm2/s]" p'.grid p'.grid.nForward fun e i n => (p'.grid.mats.v i).flux.m e n
    rw [f2]
    exact fluxFigures_one hc ht.groups f3 hx
  · refine cellFigure_mem (name := "temperature") hc _ (by decide) (hin hq ?_)
    show _ ∈ temperatureFigures base p'.grid
    unfold temperatureFigures
    rw [if_neg (by rw [hc]; exact hv)]
    exact List.mem_singleton.2 rfl
  · refine cellFigure_mem (name := "powerdensity") hc _ (by decide) (hin hq ?_)
    show _ ∈ powerFigures base p'.grid
    unfold powerFigures
    rw [if_neg (by rw [hc]; exact hv)]
    exact List.mem_singleton.2 rfl

/-- the log of a coupled calculation -/
theorem coupled_logged {k : Calc.Kind} (hk : k = .transport ∨ k = .diffusion) (hs : Started e disk input output names base) (hd : disk input = some raw) (hraw : Stored raw lines)
    (hc : Clean e.lib lines) (hp : Proper lines) (hf : CoupledAsks e.lib lines first k g rs E P acc n w) (h0 : 0 < E) (hb : Blank e.plant) (hz : LeastZero e.small) (a : Level) :
    ((main e [prog, input, output, a.word]).run (World.start disk)).2 = program e.lib e.tools (some raw) e.plant ∧
    ∀ p', ((main e [prog, input, output, a.word]).run (World.start disk)).2 = ok p' → ∃ (want : List Plot) (j : Nat), Wanted lines want ∧ 1 ≤ j ∧ j ≤ n ∧
      Logged e a output names (e.talk (some raw)) p' (if first then coupledLog e.fmt lines k .heat j p' else coupledLog e.fmt lines .heat k j p')
        (allFigures base p'.grid want ++ allFigures base p'.grid want) ((main e [prog, input, output, a.word]).run (World.start disk)) := by
  have hkh : k ≠ .heat := by rcases hk with rfl | rfl <;> decide
  have hlim : ∀ {v : Text} {limit : Nat}, Setting lines .coupled "max_iteration_number" [v] → Numeral v limit → limit = n := fun h1 h2 => by
    obtain ⟨v', h3, h4⟩ := hf.limit
    have := setting_unique h1 h3
    simp only [List.cons.injEq, and_true] at this
    subst this
    exact (numeral_facts h2).2.2.symm.trans (numeral_facts h4).2.2
  cases first
  · obtain ⟨c1, c2⟩ := C93_coupled (prog := prog) (k1 := .heat) (k2 := k) hs hd hraw hc hp (by tauto) (by tauto) (fun hh => hkh hh.2) hf.full h0 hb hz a
    refine ⟨c1, fun p' h => ?_⟩
    obtain ⟨want, v, limit, j, d1, d2, d3, d4, d5, d6⟩ := c2 p' h
    rw [hlim d2 d3] at d5
    exact ⟨want, j, d1, d4, d5, d6⟩
  · obtain ⟨c1, c2⟩ := C93_coupled (prog := prog) (k1 := k) (k2 := .heat) hs hd hraw hc hp (by tauto) (by tauto) (fun hh => hkh hh.1) hf.full h0 hb hz a
    refine ⟨c1, fun p' h => ?_⟩
    obtain ⟨want, v, limit, j, d1, d2, d3, d4, d5, d6⟩ := c2 p' h
    rw [hlim d2 d3] at d5
    exact ⟨want, j, d1, d4, d5, d6⟩

/-! ### C101 -/

/-- **C101.** Diffusion coupled with heat conduction, from the file to the log and the figures: the program ends with status one, or its log and its figures show a k-factor, a flux,
temperatures and power densities that belong together in the sense of C100. -/
theorem C101_diffusion (hs : Started e disk input output names base) (hd : disk input = some raw) (hraw : Stored raw lines) (hc : Clean e.lib lines) (hp : Proper lines)
    (hf : CoupledAsks e.lib lines first .diffusion g rs E P acc n w)
    (hT : TableFile e.lib lines rs E T) (hD : DiffFile e.lib lines rs E T) (hN : CriticalAsks e.lib lines .diffusion "forward" alb accN nN)
    (hH : HeatAsks e.lib lines g rs law t bc accH nH) (hC : CriticalCase rs E T (Set.Ici m)) (hpos : ∀ q ∈ rs, ∀ e, e < E → ∀ x, m ≤ x → 0 < valueAt (T.diff e q.mat) x)
    (ha : Calc.GoodAlbedos g alb) (hcase : HeatCase g rs law t ⟨0, fun _ => 0⟩ bc f m AL BL CL AR BR CR) (hP : 0 ≤ P) (hw : 0 ≤ w ∧ w ≤ 1) (hacc : acc < 1)
    (hlib : Solve.SolvesRegular e.tools.num) (hlin : Calc.LinSolves e.tools.lin) (hbig : Calc.Largest e.tools.big)
    (hb : Blank e.plant) (hz : LeastZero e.small) (a : Level) (l1 : nN < 2147483647) (l2 : nH < 2147483647) (l3 : n < 2147483647) :
    ((main e [prog, input, output, a.word]).run (World.start disk)).2 = exit ∨ ∃ p' want j b s d k φ κ y k' ψ k0 T0 Q0 F Q x u, Wanted lines want ∧ 1 ≤ j ∧ j ≤ n ∧
      ShowsBoth e a output names (e.talk (some raw)) base want first rs E j ((main e [prog, input, output, a.word]).run (World.start disk)) p' k' ψ (Calc.heat p') (Calc.temp p') ∧
      DiffusionOf g rs E T alb s b d ∧ 0 < k ∧ Solve.Physical (cellNames rs).length E φ ∧ ∑ x ∈ range ((cellNames rs).length * E), φ x = 1 ∧
      Solve.DiffusionEq d (if g = .slab then alb.v 0 else 1) (if g = .slab then alb.v 1 else alb.v 0) k φ ∧
      (∀ k' ψ, Solve.Physical (cellNames rs).length E ψ → Solve.DiffusionEq d (if g = .slab then alb.v 0 else 1) (if g = .slab then alb.v 1 else alb.v 0) k' ψ →
        k' = k ∧ ∃ c, ∀ x, x < (cellNames rs).length * E → ψ x = c * φ x) ∧
      Solve.DiffusionGenerations d (if g = .slab then alb.v 0 else 1) (if g = .slab then alb.v 1 else alb.v 0) κ y ∧
      Tendsto κ atTop (𝓝 k) ∧ (∀ x, x < (cellNames rs).length * E → Tendsto (fun j => y j x) atTop (𝓝 (φ x))) ∧ FirstClose nN accN κ y k' ψ ∧
      Together first g rs E law f m AL BL CL AR BR CR accH acc w P p' k0 T0 Q0 s k' ψ (Solve.fissions d ψ) F Q x u := by
  obtain ⟨r1, r2⟩ := coupled_logged (prog := prog) (Or.inr rfl) hs hd hraw hc hp hf (groups_pos hC) hb hz a
  obtain ⟨c1, c2⟩ := C100_diffusion hc hraw hp hf hT hD hN hH hC hpos ha hcase hP hw hacc hlib hlin hbig e.plant
  rcases c1 l1 l2 l3 with h' | ⟨p', h'⟩
  · exact Or.inl (r1.trans h')
  · obtain ⟨b, s, d, k, φ, κ, y, k', ψ, k0, T0, Q0, F, Q, x, u, h1, h2, h3, h4, h5, h6, h7, h8, h9, h10, h11⟩ := c2 p' h'
    obtain ⟨want, j, d1, d2, d3, d4⟩ := r2 p' (r1.trans h')
    refine Or.inr ⟨p', want, j, b, s, d, k, φ, κ, y, k', ψ, k0, T0, Q0, F, Q, x, u, d1, d2, d3, together_shows (Or.inr rfl) (fun hB => ?_) h11 d4,
      h1, h2, h3, h4, h5, h6, h7, h8, h9, h10, h11⟩
    have := setting_unique hB.2 (hN.direction rfl)
    exact absurd this (by decide)

/-- **C101** for transport with exact special functions. In cylinders and spheres every ring must be thick enough for the quadrature of the code at all temperatures. -/
theorem C101_transport_partial {dir : String} (hs : Started e disk input output names base) (hd : disk input = some raw) (hraw : Stored raw lines) (hc : Clean e.lib lines)
    (hp : Proper lines) (hf : CoupledAsks e.lib lines first .transport g rs E P acc n w)
    (hT : TableFile e.lib lines rs E T) (hN : CriticalAsks e.lib lines .transport dir alb accN nN)
    (hH : HeatAsks e.lib lines g rs law t bc accH nH) (hC : CriticalCase rs E T (Set.Ici m)) (ha : 0 ≤ alb.v 0 ∧ alb.v 0 ≤ 1)
    (ht : ∀ s b d, (∀ i, i < (cellNames rs).length → m ≤ s i) → TransportOf g rs E T alb s b d → Solve.Thick d g) (he3 : e.tools.e3 = CPM.E3) (hki3 : e.tools.ki3 = CPM.Ki3)
    (hcase : HeatCase g rs law t ⟨0, fun _ => 0⟩ bc f m AL BL CL AR BR CR) (hP : 0 ≤ P) (hw : 0 ≤ w ∧ w ≤ 1) (hacc : acc < 1)
    (hlib : Solve.SolvesRegular e.tools.num) (hlin : Calc.LinSolves e.tools.lin) (hbig : Calc.Largest e.tools.big)
    (hb : Blank e.plant) (hz : LeastZero e.small) (a : Level) (l1 : nN < 2147483647) (l2 : nH < 2147483647) (l3 : n < 2147483647) :
    ((main e [prog, input, output, a.word]).run (World.start disk)).2 = exit ∨ ∃ p' want j b s d G k φ κ y k' ψ k0 T0 Q0 F Q x u, Wanted lines want ∧ 1 ≤ j ∧ j ≤ n ∧
      ShowsBoth e a output names (e.talk (some raw)) base want first rs E j ((main e [prog, input, output, a.word]).run (World.start disk)) p' k' ψ (Calc.heat p') (Calc.temp p') ∧
      TransportOf g rs E T alb s b d ∧ CPM.vacuumCPs d CPM.E3 CPM.Ki3 g = ok G ∧ 0 < k ∧ Solve.Physical (cellNames rs).length E φ ∧
      ∑ x ∈ range ((cellNames rs).length * E), φ x = 1 ∧ Solve.TransportEq d G.v k φ ∧
      (∀ k' ψ, Solve.Physical (cellNames rs).length E ψ → Solve.TransportEq d G.v k' ψ → k' = k ∧ ∃ c, ∀ x, x < (cellNames rs).length * E → ψ x = c * φ x) ∧
      Solve.TransportGenerations d G.v κ y ∧
      Tendsto κ atTop (𝓝 k) ∧ (∀ x, x < (cellNames rs).length * E → Tendsto (fun j => y j x) atTop (𝓝 (φ x))) ∧ FirstClose nN accN κ y k' ψ ∧
      Together first g rs E law f m AL BL CL AR BR CR accH acc w P p' k0 T0 Q0 s k' ψ (Solve.fissions (Solve.reactions d) ψ) F Q x u := by
  obtain ⟨r1, r2⟩ := coupled_logged (prog := prog) (Or.inl rfl) hs hd hraw hc hp hf (groups_pos hC) hb hz a
  obtain ⟨c1, c2⟩ := C100_transport_partial hc hraw hp hf hT hN hH hC ha ht he3 hki3 hcase hP hw hacc hlib hlin hbig e.plant
  rcases c1 l1 l2 l3 with h' | ⟨p', h'⟩
  · exact Or.inl (r1.trans h')
  · obtain ⟨b, s, d, G, k, φ, κ, y, k', ψ, k0, T0, Q0, F, Q, x, u, h0, h1, h2, h3, h4, h5, h6, h7, h8, h9, h10, h11⟩ := c2 p' h'
    obtain ⟨want, j, d1, d2, d3, d4⟩ := r2 p' (r1.trans h')
    exact Or.inr ⟨p', want, j, b, s, d, G, k, φ, κ, y, k', ψ, k0, T0, Q0, F, Q, x, u, d1, d2, d3,
      together_shows (Or.inl rfl) (fun hB => absurd hB.1 (by decide)) h11 d4, h0, h1, h2, h3, h4, h5, h6, h7, h8, h9, h10, h11⟩

/-! ### examples -/

/-- The computer of the examples with exact special functions. -/
theorem duoStarted (raw : List Text) : Started (exactEnv duoLib) (reportDisk raw) "in/bar.txt".toList "out/bar.log".toList
    ["Input file: in/bar.txt".toList, "Output file: bar.log \n".toList] "bar".toList :=
  ⟨⟨rfl, Or.inr rfl⟩, (reportStarted duoLib []).apart, (reportStarted duoLib []).named⟩

/-- The run with the cylinder. -/
def duoRun (first t : Bool) : World × Outcome Calc.Plant :=
  (main (exactEnv duoLib) ["almost".toList, "in/bar.txt".toList, "out/bar.log".toList, Level.err.word]).run (World.start (reportDisk (duoFile first t)))

theorem duo_wanted {first t : Bool} {want : List Plot} (h : Wanted (duoFile first t) want) : want = [.temperature, .powerDensity] :=
  wanted_unique h (Or.inl ⟨_, _, saysB_card duoLib_sane (duoCards first t).2.2.2.2.2.2.1, by simp, .plot (by simp [plotNames]) (.plot (by simp [plotNames]) .nil)⟩)

/-- temperatures that are at least 20 degrees are drawn -/
theorem duo_drawn {N : Nat} {t : Nat → ℝ} (h : ∀ i, i < N → 20 ≤ t i) : ¬ Vanishing N t := by
  rintro ⟨i, hi, h1, -⟩
  have h2 := h i hi
  rw [abs_lt] at h1
  norm_num at h1
  linarith [h1.2]

/-- the cylinder with diffusion: status one, or a figure of the temperatures, all of them at least 20 degrees and half way between those found last and those before -/
example (first : Bool) : (duoRun first false).2 = exit ∨ ∃ (p' : Calc.Plant) (j : Nat) (T0 x : Nat → ℝ), (duoRun first false).2 = ok p' ∧ j ≤ 100 ∧
    (∀ i, i < 3 → 20 ≤ Calc.temp p' i ∧ Calc.temp p' i = 1 / 2 * x i + (1 - 1 / 2) * T0 i) ∧
    ⟨"bar_temperature.pdf".toList, "Temperature [C]".toList, middles p'.grid, [([], (List.range 3).map fun i => .fin (Calc.temp p' i))]⟩ ∈ (duoRun first false).1.drawn := by
  rcases C101_diffusion (e := exactEnv duoLib) (prog := "almost".toList) (duoStarted _) (reportDisk_get _) (duoStored first false) (duoLib_clean _)
    (duoProper first false) (duo_asks (t := false)) duo_tables duo_diff (duo_critical (t := false)) duo_heat duo_case duo_diff_pos pile_good duo_conduction
    (by norm_num) (by norm_num) (by norm_num) Solve.exLib_solves Calc.exLin_solves Calc.exBig_largest (reportBlank duoLib) (reportLeast duoLib) .err
    (by norm_num) (by norm_num) (by norm_num) with h | ⟨p', want, j, b, s, d, k, φ, κ, y, k', ψ, k0, T0, Q0, F, Q, x, u, h1, h2, h3, h4, h5⟩
  · exact Or.inl h
  · have ht := h5.2.2.2.2.2.2.2.2.2.2
    refine Or.inr ⟨p', j, T0, x, h4.result, h3, fun i hi => ⟨(ht.warm i hi).2.2, ht.temp i hi⟩, h4.warmth (by rw [duo_wanted h1]; simp) (duo_drawn fun i hi => (ht.warm i hi).2.2)⟩

/-- the cylinder with transport: status one, or a log with a k-factor close to the one of the pass before -/
example (first : Bool) : (duoRun first true).2 = exit ∨ ∃ (p' : Calc.Plant) (k' k0 : ℝ), (duoRun first true).2 = ok p' ∧ p'.kForward = [.fin k'] ∧ |k' - k0| ≤ 1 / 2 * |k'| ∧
    Calc.totalHeat p' = 2 := by
  rcases C101_transport_partial (e := exactEnv duoLib) (prog := "almost".toList) (duoStarted _) (reportDisk_get _) (duoStored first true) (duoLib_clean _)
    (duoProper first true) (duo_asks (t := true)) duo_tables (duo_critical (t := true)) duo_heat duo_case (by simp [Vec.ofList]; norm_num) duo_thick rfl rfl duo_conduction
    (by norm_num) (by norm_num) (by norm_num) Solve.exLib_solves Calc.exLin_solves Calc.exBig_largest (reportBlank duoLib) (reportLeast duoLib) .err
    (by norm_num) (by norm_num) (by norm_num) with h | ⟨p', want, j, b, s, d, G, k, φ, κ, y, k', ψ, k0, T0, Q0, F, Q, x, u, h1, h2, h3, h4, h5⟩
  · exact Or.inl h
  · have ht := h5.2.2.2.2.2.2.2.2.2.2.2
    exact Or.inr ⟨p', k', k0, h4.result, ht.found.1, ht.closeK, ht.total⟩

end

end Verif.Output
