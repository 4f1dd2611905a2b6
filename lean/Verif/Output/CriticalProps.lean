import Verif.Output.CriticalSpec
import Verif.Output.FigureProps
import Verif.Input.CriticalProps

/-! # Criticality calculations from the input file to the log -/

namespace Verif.Output

open Verif Outcome Input Finset Filter Topology

noncomputable section

variable {e : Env} {disk : Text → Option (List Text)} {prog input output base : Text} {names raw lines : List Text} {p' : Calc.Plant} {g : Diffusion.Geom} {rs : List Region} {E : Nat}
  {T : Tables} {alb : Vec ℝ} {acc : ℝ} {n : Nat} {want : List Plot}

theorem settles_imp {run : Outcome Calc.Plant} {R R' : Calc.Plant → ℝ → (Nat → ℝ) → Prop} {κ : Nat → ℝ} {y : Nat → Nat → ℝ} (h : Settles run R n acc κ y)
    (hi : ∀ p' k φ, run = ok p' → R p' k φ → R' p' k φ) : Settles run R' n acc κ y := by
  refine ⟨fun m h1 h2 h3 => ?_, h.2⟩
  obtain ⟨p', e, r⟩ := h.1 m h1 h2 h3
  exact ⟨p', e, hi p' _ _ e r⟩

theorem groupTexts_congr {fmt : Fl → Text} {E N : Nat} {y z : Nat → Nat → Fl} (h : ∀ e i, e < E → i < N → y e i = z e i) : groupTexts fmt E N y = groupTexts fmt E N z := by
  unfold groupTexts
  refine congrArg List.flatten (List.map_congr_left fun e he => List.map_congr_left fun i hi => ?_)
  rw [h e i (List.mem_range.1 he) (List.mem_range.1 hi)]

theorem powerLog_none {fmt : Fl → Text} {N : Nat} {q : Nat → ℝ} (h : ∀ i, i < N → q i ≤ 0) : powerLog fmt N q = [] := by
  unfold powerLog
  rw [if_neg]
  rintro ⟨i, hi, h1⟩
  have := h i hi
  norm_num at h1
  linarith

/-- without power the shares of all cells are at most zero -/
theorem critical_idle {power : ℝ} {rate : Nat → ℝ} {k : ℝ} {φ : Nat → ℝ} (h : Critical g rs E power rate p' k φ) (hv : ∀ i, i < (cellNames rs).length → 0 < Calc.volume p'.grid i)
    (hp : power ≤ 0) {i : Nat} (hi : i < (cellNames rs).length) : Calc.heat p' i ≤ 0 := by
  have h1 := h.share i hi
  have h2 : power * rate i ≤ 0 := mul_nonpos_of_nonpos_of_nonneg hp (h.rates.1 i hi)
  by_contra hc
  have := mul_pos (mul_pos (not_le.1 hc) (hv i hi)) h.rates.2
  linarith

theorem meshed_volume {lib : Lib} {G : Mesh.Grid} (hM : Meshed rs G) (hg : G.geom = g) (hb : BodyFile lib lines g rs) (hw : ∀ q ∈ rs, 0 < q.width) {i : Nat}
    (hi : i < (cellNames rs).length) : 0 < Calc.volume G i := by
  have hn : G.bounds.n = G.cells + 1 := by
    rw [hM.bounds.1, hM.cells, cellNames_length, List.map_map]
    rfl
  obtain ⟨h0, -, hinc⟩ := C32_bounds hM.bounds (by simpa using hb.some) (by
    intro q hq
    obtain ⟨q', hq', rfl⟩ := List.mem_map.1 hq
    exact hb.cells q' hq')
  have hS : Mesh.Shaped G := by
    refine ⟨?_, hn, fun _ => by rw [h0], fun i hi => hinc (fun q hq => ?_) i (by omega)⟩
    · rw [hg]
      obtain ⟨c, w, -, hg⟩ := hb.geometry
      rintro rfl
      simp [geometries] at hg
    · obtain ⟨q', hq', rfl⟩ := List.mem_map.1 hq
      exact hw q' hq'
  obtain ⟨V, -, -, vV, hV⟩ := Calc.volumes_m hS
  rw [← vV i (by rw [hM.cells]; exact hi)]
  exact hV.2 i (by rw [hM.cells]; exact hi)

/-- the figures of one mode -/
theorem fluxFigures_one {name axis : String} {G : Mesh.Grid} {y : Nat → Nat → Nat → Fl} {φ : Nat → ℝ} {N : Nat} (hc : G.cells = N) (hE : G.energies = E)
    (hy : ∀ e i, e < E → i < N → y e i 0 = .fin (φ (i + e * N))) {x : Nat} (hx : x < E) :
    resultFigure base name axis G N φ x ∈ fluxFigures base name axis G 1 y := by
  unfold fluxFigures
  rw [if_neg (by decide)]
  refine List.mem_map.2 ⟨x, List.mem_range.2 (by rw [hE]; exact hx), ?_⟩
  unfold resultFigure modeCurves
  refine congrArg (groupFigure base name axis G x) ?_
  rw [show (List.range (min 5 1)) = [0] from rfl, List.map_singleton, if_pos rfl, hc]
  exact congrArg (fun l => [("fundamental".toList, l)]) (List.map_congr_left fun i hi => hy x i hx (List.mem_range.1 hi))

theorem critical_shows {k : Calc.Kind} {power : ℝ} {rate : Nat → ℝ} {κ : ℝ} {φ : Nat → ℝ} {a : Level} {talk : List Message} {run : World × Outcome Calc.Plant} (hF : Full e.lib lines [k] g rs E)
    (hk : k ≠ .kinetics) (hw : ∀ q ∈ rs, 0 < q.width) (hn : ¬ Backward lines k) (hp : power ≤ 0) (hW : Wanted lines want)
    (hl : Logged e a output names talk p' (criticalLog e.fmt lines k p') (allFigures base p'.grid want) run) (hC : Critical g rs E power rate p' κ φ) :
    Shows e a output names talk base "Fundamental Neutron Flux [1/(cm2*s)]:" "neutronflux" "Neutron Flux [1/cm2/s]" (∃ w, Wanted lines w ∧ .neutronFlux ∈ w) rs E run p' κ φ := by
  obtain ⟨f1, f2, f3⟩ := hC.found
  refine ⟨hl.result, hC.mesh, ?_, fun hask x hx => ?_⟩
  · rw [hl.log]
    unfold criticalLog forwardLog forwardModes fluxLog
    rw [if_neg hn, f1, if_neg (by simp), hC.groups, hC.mesh.cells, powerLog_none (q := fun i => (p'.grid.mats.v i).q) fun i hi =>
      critical_idle hC (fun i hi => meshed_volume hC.mesh hC.geom (hF.body ⟨k, by simp, hk⟩) hw hi) hp hi, groupTexts_congr f3]
    simp only [List.nil_append, List.append_nil]
    rfl
  · rw [hl.drawn]
    obtain ⟨w, h1, h2⟩ := hask
    refine allFigures_mem (by rw [wanted_unique hW h1]; exact h2) ?_
    show _ ∈ fluxFigures base "neutronflux" "Neutron Flux [1/cm2/s]" p'.grid p'.grid.nForward fun e i n => (p'.grid.mats.v i).flux.m e n
    rw [f2]
    exact fluxFigures_one hC.mesh.cells hC.groups f3 hx

theorem adjoint_shows {κ : ℝ} {φ : Nat → ℝ} {a : Level} {talk : List Message} {run : World × Outcome Calc.Plant} (hn : Backward lines .diffusion) (hW : Wanted lines want)
    (hl : Logged e a output names talk p' (criticalLog e.fmt lines .diffusion p') (allFigures base p'.grid want) run) (hC : CriticalAdjoint g rs E p' κ φ) :
    Shows e a output names talk base "Fundamental Adjoint Flux [arbitrary]:" "adjointflux" "Adjoint Flux [arbitrary]" (∃ w, Wanted lines w ∧ .adjointFlux ∈ w) rs E run p' κ φ := by
  obtain ⟨f1, f2, f3⟩ := hC.found
  refine ⟨hl.result, hC.mesh, ?_, fun hask x hx => ?_⟩
  · rw [hl.log]
    unfold criticalLog adjointLog adjointModes importanceLog
    rw [if_pos hn, f1, if_neg (by simp), hC.groups, hC.mesh.cells, powerLog_none (q := fun i => (p'.grid.mats.v i).q) fun i hi => (hC.idle i hi).le, groupTexts_congr f3]
    simp only [List.nil_append, List.append_nil]
    rfl
  · rw [hl.drawn]
    obtain ⟨w, h1, h2⟩ := hask
    refine allFigures_mem (by rw [wanted_unique hW h1]; exact h2) ?_
    show _ ∈ fluxFigures base "adjointflux" "Adjoint Flux [arbitrary]" p'.grid p'.grid.nAdjoint fun e i n => (p'.grid.mats.v i).adj.m e n
    rw [f2]
    exact fluxFigures_one hC.mesh.cells hC.groups f3 hx

theorem groups_pos {X : Set ℝ} (hC : CriticalCase rs E T X) : 0 < E := by
  obtain ⟨q, -, e, he, -⟩ := hC.somewhere
  omega

/-! ### C99 -/

/-- **C99.** A diffusion calculation from the file to the log: the file fixes a diffusion problem, this has one k-factor with a physical flux, and the generations of neutrons
converge to both. The log shows the first of them that meets the accuracy of the file, with all its digits, and the figures asked for show the same flux; if the limit of the file
comes first the program ends with status one. (For a program started without power, as the real one is.) -/
theorem C99_forward (hs : Started e disk input output names base) (hd : disk input = some raw) (hraw : Stored raw lines) (hc : Clean e.lib lines) (hp : Proper lines)
    (hf : CriticalFile e.lib lines .diffusion "forward" g rs E T alb acc n) (hC : CriticalCase rs E T {0}) (h2 : 2 ≤ (cellNames rs).length)
    (hD : ∀ q ∈ rs, ∀ x, x < E → 0 < valueAt (T.diff x q.mat) 0) (ha : Calc.GoodAlbedos g alb) (hlib : Solve.SolvesRegular e.tools.num)
    (hb : Blank e.plant) (hpow : e.plant.power ≤ 0) (hz : LeastZero e.small) (a : Level) :
    ∃ b d k φ κ y, DiffusionOf g rs E T alb 0 b d ∧ 0 < k ∧ Solve.Physical (cellNames rs).length E φ ∧ ∑ x ∈ range ((cellNames rs).length * E), φ x = 1 ∧
      Solve.DiffusionEq d (if g = .slab then alb.v 0 else 1) (if g = .slab then alb.v 1 else alb.v 0) k φ ∧
      (∀ k' ψ, Solve.Physical (cellNames rs).length E ψ → Solve.DiffusionEq d (if g = .slab then alb.v 0 else 1) (if g = .slab then alb.v 1 else alb.v 0) k' ψ →
        k' = k ∧ ∃ c, ∀ x, x < (cellNames rs).length * E → ψ x = c * φ x) ∧
      Solve.DiffusionGenerations d (if g = .slab then alb.v 0 else 1) (if g = .slab then alb.v 1 else alb.v 0) κ y ∧
      Tendsto κ atTop (𝓝 k) ∧ (∀ x, x < (cellNames rs).length * E → Tendsto (fun j => y j x) atTop (𝓝 (φ x))) ∧
      Settles ((main e [prog, input, output, a.word]).run (World.start disk)).2
        (Shows e a output names (e.talk (some raw)) base "Fundamental Neutron Flux [1/(cm2*s)]:" "neutronflux" "Neutron Flux [1/cm2/s]" (∃ w, Wanted lines w ∧ .neutronFlux ∈ w) rs E
          ((main e [prog, input, output, a.word]).run (World.start disk))) n acc κ y := by
  obtain ⟨h1, h3⟩ := C93 (prog := prog) hs hd hraw hc hp (Or.inr rfl) hf.full (groups_pos hC) hb hz a
  obtain ⟨b, d, k, φ, κ, y, c1, c2, c3, c4, c5, c6, c0, c7, c8, c9⟩ := C97_forward hc hraw hp hf hC h2 hD ha hlib e.plant
  refine ⟨b, d, k, φ, κ, y, c1, c2, c3, c4, c5, c6, c0, c7, c8, ?_⟩
  rw [← h1] at c9
  refine settles_imp c9 fun p' k' φ' hr hR => ?_
  obtain ⟨want, hW, hl⟩ := h3 p' hr
  refine critical_shows hf.full (by decide) hC.widths (fun hB => ?_) hpow hW hl hR
  have := setting_unique hB.2 (hf.direction rfl)
  exact absurd this (by decide)

/-- **C99** for adjoint calculations. -/
theorem C99_adjoint (hs : Started e disk input output names base) (hd : disk input = some raw) (hraw : Stored raw lines) (hc : Clean e.lib lines) (hp : Proper lines)
    (hf : CriticalFile e.lib lines .diffusion "adjoint" g rs E T alb acc n) (hC : CriticalCase rs E T {0}) (h2 : 2 ≤ (cellNames rs).length)
    (hD : ∀ q ∈ rs, ∀ x, x < E → 0 < valueAt (T.diff x q.mat) 0) (ha : Calc.GoodAlbedos g alb) (hlib : Solve.SolvesRegular e.tools.num)
    (hb : Blank e.plant) (hz : LeastZero e.small) (a : Level) :
    ∃ b d k φ κ y, DiffusionOf g rs E T alb 0 b d ∧ 0 < k ∧ Solve.Physical (cellNames rs).length E φ ∧ ∑ x ∈ range ((cellNames rs).length * E), φ x = 1 ∧
      Solve.AdjointEq d (if g = .slab then alb.v 0 else 1) (if g = .slab then alb.v 1 else alb.v 0) k φ ∧
      (∀ k' ψ, Solve.Physical (cellNames rs).length E ψ → Solve.AdjointEq d (if g = .slab then alb.v 0 else 1) (if g = .slab then alb.v 1 else alb.v 0) k' ψ →
        k' = k ∧ ∃ c, ∀ x, x < (cellNames rs).length * E → ψ x = c * φ x) ∧
      Solve.AdjointGenerations d (if g = .slab then alb.v 0 else 1) (if g = .slab then alb.v 1 else alb.v 0) κ y ∧
      Tendsto κ atTop (𝓝 k) ∧ (∀ x, x < (cellNames rs).length * E → Tendsto (fun j => y j x) atTop (𝓝 (φ x))) ∧
      Settles ((main e [prog, input, output, a.word]).run (World.start disk)).2
        (Shows e a output names (e.talk (some raw)) base "Fundamental Adjoint Flux [arbitrary]:" "adjointflux" "Adjoint Flux [arbitrary]" (∃ w, Wanted lines w ∧ .adjointFlux ∈ w) rs E
          ((main e [prog, input, output, a.word]).run (World.start disk))) n acc κ y := by
  obtain ⟨h1, h3⟩ := C93 (prog := prog) hs hd hraw hc hp (Or.inr rfl) hf.full (groups_pos hC) hb hz a
  obtain ⟨b, d, k, φ, κ, y, c1, c2, c3, c4, c5, c6, -, c0, c7, c8, c9⟩ := C97_adjoint hc hraw hp hf hC h2 hD ha hlib e.plant
  refine ⟨b, d, k, φ, κ, y, c1, c2, c3, c4, c5, c6, c0, c7, c8, ?_⟩
  rw [← h1] at c9
  refine settles_imp c9 fun p' k' φ' hr hR => ?_
  obtain ⟨want, hW, hl⟩ := h3 p' hr
  exact adjoint_shows ⟨rfl, hf.direction rfl⟩ hW hl hR

/-- **C99** for transport calculations with exact special functions. In cylinders and spheres every ring must be thick enough for the quadrature of the code. -/
theorem C99_transport_partial {dir : String} (hs : Started e disk input output names base) (hd : disk input = some raw) (hraw : Stored raw lines) (hc : Clean e.lib lines) (hp : Proper lines)
    (hf : CriticalFile e.lib lines .transport dir g rs E T alb acc n) (hC : CriticalCase rs E T {0}) (ha : 0 ≤ alb.v 0 ∧ alb.v 0 ≤ 1)
    (ht : ∀ b d, TransportOf g rs E T alb 0 b d → Solve.Thick d g) (he3 : e.tools.e3 = CPM.E3) (hki3 : e.tools.ki3 = CPM.Ki3) (hlib : Solve.SolvesRegular e.tools.num)
    (hb : Blank e.plant) (hpow : e.plant.power ≤ 0) (hz : LeastZero e.small) (a : Level) :
    ∃ b d G k φ κ y, TransportOf g rs E T alb 0 b d ∧ CPM.vacuumCPs d CPM.E3 CPM.Ki3 g = ok G ∧ 0 < k ∧ Solve.Physical (cellNames rs).length E φ ∧
      ∑ x ∈ range ((cellNames rs).length * E), φ x = 1 ∧ Solve.TransportEq d G.v k φ ∧
      (∀ k' ψ, Solve.Physical (cellNames rs).length E ψ → Solve.TransportEq d G.v k' ψ → k' = k ∧ ∃ c, ∀ x, x < (cellNames rs).length * E → ψ x = c * φ x) ∧
      Solve.TransportGenerations d G.v κ y ∧
      Tendsto κ atTop (𝓝 k) ∧ (∀ x, x < (cellNames rs).length * E → Tendsto (fun j => y j x) atTop (𝓝 (φ x))) ∧
      Settles ((main e [prog, input, output, a.word]).run (World.start disk)).2
        (Shows e a output names (e.talk (some raw)) base "Fundamental Neutron Flux [1/(cm2*s)]:" "neutronflux" "Neutron Flux [1/cm2/s]" (∃ w, Wanted lines w ∧ .neutronFlux ∈ w) rs E
          ((main e [prog, input, output, a.word]).run (World.start disk))) n acc κ y := by
  obtain ⟨h1, h3⟩ := C93 (prog := prog) hs hd hraw hc hp (Or.inl rfl) hf.full (groups_pos hC) hb hz a
  obtain ⟨b, d, G, k, φ, κ, y, c1, c2, c3, c4, c5, c6, c7, c0, c8, c9, c10⟩ := C97_transport_partial hc hraw hp hf hC ha ht he3 hki3 hlib e.plant
  refine ⟨b, d, G, k, φ, κ, y, c1, c2, c3, c4, c5, c6, c7, c0, c8, c9, ?_⟩
  rw [← h1] at c10
  refine settles_imp c10 fun p' k' φ' hr hR => ?_
  obtain ⟨want, hW, hl⟩ := h3 p' hr
  exact critical_shows hf.full (by decide) hC.widths (fun hB => absurd hB.1 (by decide)) hpow hW hl hR

/-! ### examples -/

theorem pileWanted {q : Calc.Kind × Text × Text × Text × Text} (hq : q ∈ pileKinds) : Wanted (pileOf q) [.neutronFlux, .powerDensity] :=
  Or.inl ⟨_, _, saysB_card critLib_sane (pileCards q hq).2.2.2.2.1, by simp, .plot (by simp [plotNames]) (.plot (by simp [plotNames]) .nil)⟩

/-- the cylinder of two materials: if the iterates meet the accuracy within the limit, its log shows the k-factor and there are two figures of the flux, one for each group -/
example : ∃ (b : Vec ℝ) (d : Diffusion.Data) (k : ℝ) (φ : Nat → ℝ) (κ : Nat → ℝ) (y : Nat → Nat → ℝ), DiffusionOf .cylinder pileRegions 2 pileTables (Vec.ofList [1 / 2]) 0 b d ∧ 0 < k ∧ Solve.DiffusionEq d 1 (1 / 2) k φ ∧ Tendsto κ atTop (𝓝 k) ∧
    ∀ m, m + 1 ≤ 100 → (∀ j, j < m → 1 / 1000 ≤ Eigen.change κ j) → Eigen.change κ m < 1 / 1000 →
      ∃ p', (reportRun critLib (pileFile "diffusion".toList "forward".toList "fundamental".toList)).2 = ok p' ∧
        (reportRun critLib (pileFile "diffusion".toList "forward".toList "fundamental".toList)).1.disk "out/bar.log".toList =
          some (opening (reportEnv critLib) ++ ["Input file: in/bar.txt".toList, "Output file: bar.log \n".toList] ++ shown .err ((reportEnv critLib).talk (some (pileFile "diffusion".toList "forward".toList "fundamental".toList))) ++
            resultLog (reportEnv critLib).fmt "Fundamental Neutron Flux [1/(cm2*s)]:" 3 2 (κ (m + 1)) (y (m + 1)) ++ closing (reportEnv critLib)) ∧
        resultFigure "bar".toList "neutronflux" "Neutron Flux [1/cm2/s]" p'.grid 3 (y (m + 1)) 1 ∈
          (reportRun critLib (pileFile "diffusion".toList "forward".toList "fundamental".toList)).1.drawn := by
  have hq : (Calc.Kind.diffusion, "diffusion".toList, "forward".toList, "fundamental".toList, "0.5".toList) ∈ pileKinds := by simp [pileKinds]
  obtain ⟨b, d, k, φ, κ, y, h1, h2, -, -, h3, -, -, h4, -, h5, -⟩ := C99_forward (prog := "almost".toList) (reportStarted critLib _) (reportDisk_get _) (pileStored _ hq) (critLib_clean _)
    (pileProper _ hq) (pile_critical hq (dir := "forward") rfl (x := 1 / 2) rfl) pile_case (by decide) pile_diff_pos pile_good Solve.exLib_solves (reportBlank _) (by show (-1 : ℝ) ≤ 0; norm_num) (reportLeast _) .err
  refine ⟨b, d, k, φ, κ, y, h1, h2, by simpa [Vec.ofList] using h3, h4, fun m a1 a2 a3 => ?_⟩
  obtain ⟨p', e, hS⟩ := h5 m a1 a2 a3
  exact ⟨p', e, hS.log, hS.drawn ⟨_, pileWanted hq, by simp⟩ 1 (by decide)⟩

example : ∃ (b : Vec ℝ) (d : Diffusion.Data) (k : ℝ) (φ : Nat → ℝ) (κ : Nat → ℝ) (y : Nat → Nat → ℝ), DiffusionOf .cylinder pileRegions 2 pileTables (Vec.ofList [1 / 2]) 0 b d ∧ 0 < k ∧ Solve.AdjointEq d 1 (1 / 2) k φ ∧ Tendsto κ atTop (𝓝 k) ∧
    Settles (reportRun critLib (pileFile "diffusion".toList "adjoint".toList "fundamental".toList)).2
      (Shows (reportEnv critLib) .err "out/bar.log".toList ["Input file: in/bar.txt".toList, "Output file: bar.log \n".toList]
        ((reportEnv critLib).talk (some (pileFile "diffusion".toList "adjoint".toList "fundamental".toList))) "bar".toList "Fundamental Adjoint Flux [arbitrary]:" "adjointflux" "Adjoint Flux [arbitrary]"
        (∃ w, Wanted (pileFile "diffusion".toList "adjoint".toList "fundamental".toList) w ∧ .adjointFlux ∈ w) pileRegions 2
        (reportRun critLib (pileFile "diffusion".toList "adjoint".toList "fundamental".toList))) 100 (1 / 1000) κ y := by
  have hq : (Calc.Kind.diffusion, "diffusion".toList, "adjoint".toList, "fundamental".toList, "0.5".toList) ∈ pileKinds := by simp [pileKinds]
  obtain ⟨b, d, k, φ, κ, y, h1, h2, -, -, h3, -, -, h4, -, h5⟩ := C99_adjoint (prog := "almost".toList) (reportStarted critLib _) (reportDisk_get _) (pileStored _ hq) (critLib_clean _)
    (pileProper _ hq) (pile_critical hq (dir := "adjoint") rfl (x := 1 / 2) rfl) pile_case (by decide) pile_diff_pos pile_good Solve.exLib_solves (reportBlank _) (reportLeast _) .err
  exact ⟨b, d, k, φ, κ, y, h1, h2, by simpa [Vec.ofList] using h3, h4, h5⟩

/-- The same computer with exact special functions. -/
def exactEnv (lib : Lib) : Env := { reportEnv lib with tools := { Calc.exTools Solve.exLib with e3 := CPM.E3, ki3 := CPM.Ki3 } }

example : ∃ (b : Vec ℝ) (d : CPM.Data) (G : Nat × Nat × Nat → ℝ) (k : ℝ) (φ : Nat → ℝ) (κ : Nat → ℝ) (y : Nat → Nat → ℝ), TransportOf .cylinder pileRegions 2 pileTables (Vec.ofList [1 / 2]) 0 b d ∧ 0 < k ∧ Solve.TransportEq d G k φ ∧ Tendsto κ atTop (𝓝 k) ∧
    ∀ m, m + 1 ≤ 100 → (∀ j, j < m → 1 / 1000 ≤ Eigen.change κ j) → Eigen.change κ m < 1 / 1000 →
      ∃ p', ((main (exactEnv critLib) ["almost".toList, "in/bar.txt".toList, "out/bar.log".toList, Level.err.word]).run
          (World.start (reportDisk (pileFile "transport".toList "forward".toList "fundamental".toList)))).2 = ok p' ∧ Meshed pileRegions p'.grid ∧
        resultFigure "bar".toList "neutronflux" "Neutron Flux [1/cm2/s]" p'.grid 3 (y (m + 1)) 0 ∈
          ((main (exactEnv critLib) ["almost".toList, "in/bar.txt".toList, "out/bar.log".toList, Level.err.word]).run
            (World.start (reportDisk (pileFile "transport".toList "forward".toList "fundamental".toList)))).1.drawn := by
  have hq : (Calc.Kind.transport, "transport".toList, "forward".toList, "fundamental".toList, "0.5".toList) ∈ pileKinds := by simp [pileKinds]
  obtain ⟨b, d, G, k, φ, κ, y, h1, -, h2, -, -, h3, -, -, h4, -, h5, -⟩ := C99_transport_partial (e := exactEnv critLib) (prog := "almost".toList)
    (disk := reportDisk (pileFile "transport".toList "forward".toList "fundamental".toList)) ⟨⟨rfl, Or.inr rfl⟩, (reportStarted critLib []).apart, (reportStarted critLib []).named⟩
    (reportDisk_get _) (pileStored _ hq) (critLib_clean _) (pileProper _ hq) (pile_critical hq (dir := "forward") rfl (x := 1 / 2) rfl) pile_case (by simp [Vec.ofList]; norm_num) pile_thick rfl rfl
    Solve.exLib_solves (reportBlank critLib) (by show (-1 : ℝ) ≤ 0; norm_num) (reportLeast critLib) .err
  refine ⟨b, d, G.v, k, φ, κ, y, h1, h2, h3, h4, fun m a1 a2 a3 => ?_⟩
  obtain ⟨p', e, hS⟩ := h5 m a1 a2 a3
  exact ⟨p', e, hS.mesh, hS.drawn ⟨_, pileWanted hq, by simp⟩ 0 (by decide)⟩

end

end Verif.Output
