import Verif.Calc.Pair
import Verif.Calc.Props
import Verif.Calc.HeatProps
import Verif.Solve.Examples

/-! # Properties of neutronics coupled with heat conduction -/

namespace Verif.Calc

open Verif Outcome Finset Mesh

noncomputable section

open scoped Classical

variable {tl : Tools} {p p' : Plant} {oN oH oC : Settings} {c : Nat → Vec ℝ} {AL BL CL AR BR CR m : ℝ}

/-- the coupled calculation behind a problem of two solvers -/
theorem problem_two {o1 o2 o3 : Settings} (h1 : o1.kind ≠ .coupled) (h2 : o2.kind ≠ .coupled) (h3 : o3.kind = .coupled)
    {a b : Part Plant (Vec ℝ)} (ha : solver tl o1 = ok a) (hb : solver tl o2 = ok b) (hrun : problem tl p [o1, o2, o3] = ok p') :
    ∃ j, coupled tl.big a b o3.relax o3.acc o3.maxIter p = ok (p', j) := by
  rw [C37_two h1 h2 h3 ha hb] at hrun
  split_ifs at hrun
  obtain ⟨⟨q, j⟩, h, e⟩ := bind_eq_ok.1 hrun
  cases e
  exact ⟨j, h⟩

theorem problem_two_safe {o1 o2 o3 : Settings} (h1 : o1.kind ≠ .coupled) (h2 : o2.kind ≠ .coupled) (h3 : o3.kind = .coupled)
    {a b : Part Plant (Vec ℝ)} (ha : solver tl o1 = ok a) (hb : solver tl o2 = ok b)
    (h : coupled tl.big a b o3.relax o3.acc o3.maxIter p = exit ∨ ∃ p' j, coupled tl.big a b o3.relax o3.acc o3.maxIter p = ok (p', j)) :
    problem tl p [o1, o2, o3] = exit ∨ ∃ p', problem tl p [o1, o2, o3] = ok p' := by
  rw [C37_two h1 h2 h3 ha hb]
  split_ifs
  · rcases h with h | ⟨p', j, h⟩
    · left
      rw [h, exit_bind]
    · right
      rw [h, ok_bind]
      exact ⟨_, rfl⟩
  · exact Or.inl rfl

/-! ### C76: the reactor after a coupled calculation -/

/-- **C76.** Diffusion coupled with heat conduction, in either order: a calculation that ends normally leaves the reactor in order, whatever the
number of passes. If heat conduction comes first, the heat sources given must not be negative. -/
theorem C76_diffusion (hN : oN.kind = .diffusion) (hH : oH.kind = .heat) (hC : oC.kind = .coupled) (hd : DiffusionReady oN p.grid m)
    (hc : Conducting p.grid c oH.bc AL BL CL AR BR CR m) (hlib : Solve.SolvesRegular tl.num) (hlin : LinSolves tl.lin) (hp : 0 ≤ p.power)
    (hw : 0 ≤ oC.relax ∧ oC.relax ≤ 1) (hT : ∀ i, i < p.grid.cells → m ≤ temp p i) :
    (problem tl p [oN, oH, oC] = ok p' → InOrder p m p') ∧
    ((∀ i, i < p.grid.cells → 0 ≤ heat p i) → problem tl p [oH, oN, oC] = ok p' → InOrder p m p') := by
  have a1 : solver tl oN = ok (diffusionPart tl oN) := by unfold solver; rw [hN]
  have a2 : solver tl oH = ok (heatPart tl oH) := by unfold solver; rw [hH]
  refine ⟨fun h => ?_, fun hq h => ?_⟩
  · obtain ⟨j, h⟩ := problem_two (by rw [hN]; decide) (by rw [hH]; decide) hC a1 a2 h
    exact first_critical hc hlin (diffusion_critical hlib hd) hp hw hT h
  · obtain ⟨j, h⟩ := problem_two (by rw [hH]; decide) (by rw [hN]; decide) hC a2 a1 h
    exact second_critical hc hlin (diffusion_critical hlib hd) hp hw hT hq h

/-- **C76.** The same for transport. Outside slabs the self-collision probabilities computed must not be negative. -/
theorem C76_transport (hN : oN.kind = .transport) (hH : oH.kind = .heat) (hC : oC.kind = .coupled) (hd : TransportReady tl oN p.grid m)
    (hself : p.grid.geom ≠ .slab → ∀ s d, (∀ i, i < p.grid.cells → m ≤ s i) → TransportOn p.grid oN.albedo s d → ∀ G,
      CPM.vacuumCPs d CPM.E3 CPM.Ki3 p.grid.geom = ok G → ∀ e i, e < p.grid.energies → i < p.grid.cells → 0 ≤ G.v (i, i, e))
    (hc : Conducting p.grid c oH.bc AL BL CL AR BR CR m) (hlib : Solve.SolvesRegular tl.num) (hlin : LinSolves tl.lin) (hp : 0 ≤ p.power)
    (hw : 0 ≤ oC.relax ∧ oC.relax ≤ 1) (hT : ∀ i, i < p.grid.cells → m ≤ temp p i) :
    (problem tl p [oN, oH, oC] = ok p' → InOrder p m p') ∧
    ((∀ i, i < p.grid.cells → 0 ≤ heat p i) → problem tl p [oH, oN, oC] = ok p' → InOrder p m p') := by
  have a1 : solver tl oN = ok (transportPart tl oN) := by unfold solver; rw [hN]
  have a2 : solver tl oH = ok (heatPart tl oH) := by unfold solver; rw [hH]
  refine ⟨fun h => ?_, fun hq h => ?_⟩
  · obtain ⟨j, h⟩ := problem_two (by rw [hN]; decide) (by rw [hH]; decide) hC a1 a2 h
    exact first_critical hc hlin (transport_critical hlib hd hself) hp hw hT h
  · obtain ⟨j, h⟩ := problem_two (by rw [hH]; decide) (by rw [hN]; decide) hC a2 a1 h
    exact second_critical hc hlin (transport_critical hlib hd hself) hp hw hT hq h

/-- **C76.** If moreover the reactor is multiplying and its fissile regions are linked at all temperatures, the only alternative to results is
the end of the program with a message: nothing is undefined, nothing is thrown. -/
theorem C76_diffusion_safe (hN : oN.kind = .diffusion) (hH : oH.kind = .heat) (hC : oC.kind = .coupled) (hd : DiffusionReady oN p.grid m)
    (hreg : ∀ s d, (∀ i, i < p.grid.cells → m ≤ s i) → DiffusionOn p.grid oN.albedo s d → Solve.Multiplying d ∧ Solve.Linked d)
    (hc : Conducting p.grid c oH.bc AL BL CL AR BR CR m) (hlib : Solve.SolvesRegular tl.num) (hlin : LinSolves tl.lin)
    (hbig : Largest tl.big) (hp : 0 ≤ p.power) (hw : 0 ≤ oC.relax ∧ oC.relax ≤ 1) (hT : ∀ i, i < p.grid.cells → m ≤ temp p i)
    (hmN : oN.maxIter < 2147483647) (hmH : oH.maxIter < 2147483647) (hmC : oC.maxIter < 2147483647) :
    (problem tl p [oN, oH, oC] = exit ∨ ∃ p', problem tl p [oN, oH, oC] = ok p') ∧
    ((∀ i, i < p.grid.cells → 0 ≤ heat p i) → problem tl p [oH, oN, oC] = exit ∨ ∃ p', problem tl p [oH, oN, oC] = ok p') := by
  have a1 : solver tl oN = ok (diffusionPart tl oN) := by unfold solver; rw [hN]
  have a2 : solver tl oH = ok (heatPart tl oH) := by unfold solver; rw [hH]
  refine ⟨?_, fun hq => ?_⟩
  · exact problem_two_safe (by rw [hN]; decide) (by rw [hH]; decide) hC a1 a2 (first_safe hc hlin (diffusion_critical hlib hd)
      (diffusion_quiet hlib hd hreg hmN) hp hw hT hmH.ne hbig hmC.ne)
  · exact problem_two_safe (by rw [hH]; decide) (by rw [hN]; decide) hC a2 a1 (second_safe hc hlin (diffusion_critical hlib hd)
      (diffusion_quiet hlib hd hreg hmN) hp hw hT hq hmH.ne hbig hmC.ne)

/-- **C76.** The same for transport. -/
theorem C76_transport_safe (hN : oN.kind = .transport) (hH : oH.kind = .heat) (hC : oC.kind = .coupled) (hd : TransportReady tl oN p.grid m)
    (hself : p.grid.geom ≠ .slab → ∀ s d, (∀ i, i < p.grid.cells → m ≤ s i) → TransportOn p.grid oN.albedo s d → ∀ G,
      CPM.vacuumCPs d CPM.E3 CPM.Ki3 p.grid.geom = ok G → ∀ e i, e < p.grid.energies → i < p.grid.cells → 0 < G.v (i, i, e))
    (hreg : ∀ s d, (∀ i, i < p.grid.cells → m ≤ s i) → TransportOn p.grid oN.albedo s d →
      Solve.Multiplying (Solve.reactions d) ∧ Solve.GroupsLinked d)
    (hc : Conducting p.grid c oH.bc AL BL CL AR BR CR m) (hlib : Solve.SolvesRegular tl.num) (hlin : LinSolves tl.lin)
    (hbig : Largest tl.big) (hp : 0 ≤ p.power) (hw : 0 ≤ oC.relax ∧ oC.relax ≤ 1) (hT : ∀ i, i < p.grid.cells → m ≤ temp p i)
    (hmN : oN.maxIter < 2147483647) (hmH : oH.maxIter < 2147483647) (hmC : oC.maxIter < 2147483647) :
    (problem tl p [oN, oH, oC] = exit ∨ ∃ p', problem tl p [oN, oH, oC] = ok p') ∧
    ((∀ i, i < p.grid.cells → 0 ≤ heat p i) → problem tl p [oH, oN, oC] = exit ∨ ∃ p', problem tl p [oH, oN, oC] = ok p') := by
  have a1 : solver tl oN = ok (transportPart tl oN) := by unfold solver; rw [hN]
  have a2 : solver tl oH = ok (heatPart tl oH) := by unfold solver; rw [hH]
  have hself : SelfPos oN p.grid m := hself
  refine ⟨?_, fun hq => ?_⟩
  · exact problem_two_safe (by rw [hN]; decide) (by rw [hH]; decide) hC a1 a2 (first_safe hc hlin (transport_critical hlib hd hself.ok)
      (transport_quiet hlib hd hself hreg hmN) hp hw hT hmH.ne hbig hmC.ne)
  · exact problem_two_safe (by rw [hH]; decide) (by rw [hN]; decide) hC a2 a1 (second_safe hc hlin (transport_critical hlib hd hself.ok)
      (transport_quiet hlib hd hself hreg hmN) hp hw hT hq hmH.ne hbig hmC.ne)

/-! A slab of two cells with fission in both groups, whose total cross section grows with temperature. -/

/-- Two cells of one metre. -/
def exCore : Grid where
  geom := .slab
  bounds := ⟨3, fun i => i⟩
  cells := 2
  energies := 2
  nForward := 1
  nAdjoint := 1
  mats := ⟨2, fun _ => { exMat 100 with kLaw := some (constLaw 3), chi := [constLaw 1, constLaw 0] }⟩

theorem exCore_shaped : Shaped exCore := ⟨fun h => (by cases h), rfl, fun h => absurd rfl h, fun i _ => by
    show (i : ℝ) < ((i + 1 : ℕ) : ℝ)
    push_cast
    linarith⟩

theorem exCore_conducting : Conducting exCore (fun _ => constLaw 3) exBarSettings.bc 0 1 0 1 0 1 1 :=
  have h := exBar_conducting 100 (k := constLaw 3) (fun x _ => by norm_num [Numeric.polyValue, constLaw])
  ⟨exCore_shaped, rfl, le_rfl, fun _ _ => rfl, h.pos, h.boundaries, h.AL_nonneg, h.BL_nonneg, h.AR_nonneg, h.BR_nonneg,
    h.left, h.right, h.tied, h.lowLeft, h.lowRight⟩

theorem exCore_nuclear : Nuclear exCore 1 where
  complete _ _ := ⟨by simp [exCore, exMat], by simp [exCore, exMat], by simp [exCore, exMat], Or.inr (by simp [exCore, exMat]),
    Or.inr (by simp [exCore])⟩
  scatt n i hn _ T _ := by
    change n < 4 at hn
    interval_cases n <;> norm_num [exCore, exMat, law, Numeric.polyValue, constLaw, sum_range_succ]
  absorbs e i he _ T hT := by
    change e < 2 at he
    show ∑ f ∈ range 2, _ < _
    interval_cases e <;> norm_num [exCore, exMat, law, Numeric.polyValue, constLaw, sum_range_succ] <;> nlinarith
  chi e i he _ T _ := by
    change e < 2 at he
    interval_cases e <;> norm_num [exCore, exMat, law, Numeric.polyValue, constLaw, sum_range_succ]
  nu e i he _ T _ := by
    change e < 2 at he
    interval_cases e <;> norm_num [exCore, exMat, law, Numeric.polyValue, constLaw, sum_range_succ]
  fiss e i he _ T _ := by
    change e < 2 at he
    interval_cases e <;> norm_num [exCore, exMat, law, Numeric.polyValue, constLaw, sum_range_succ]

theorem exCore_diffusive : Diffusive exCore 1 where
  laws _ _ := by simp [exCore, exMat]
  pos e i he _ T _ := by
    change e < 2 at he
    interval_cases e <;> norm_num [exCore, exMat, law, Numeric.polyValue, constLaw, sum_range_succ]

/-- Settings of the criticality calculation and of the coupling. -/
def exCoreSettings (k : Kind) : Settings := ⟨k, 1 / 1000, 100, 1 / 2, ⟨2, fun _ => 1 / 2⟩, Vec.const 0 0, 2, .forward, .fundamental⟩

theorem exCore_diffusion : DiffusionReady (exCoreSettings .diffusion) exCore 1 :=
  ⟨rfl, rfl, rfl, exCore_shaped, ⟨rfl, fun _ _ => rfl⟩, le_rfl, exCore_nuclear, exCore_diffusive,
    ⟨fun _ => ⟨le_rfl, by norm_num [exCoreSettings], by norm_num [exCoreSettings]⟩, by norm_num [exCoreSettings], by norm_num [exCoreSettings],
      by norm_num [exCoreSettings]⟩⟩

theorem exCore_data {s : Nat → ℝ} {d : Diffusion.Data} {alb : Vec ℝ} (on : DiffusionOn exCore alb s d) :
    Solve.Multiplying d ∧ Solve.Linked d := by
  have hc : d.cells = 2 := on.cells
  have hE : d.energies = 2 := on.energies
  have hchi : ∀ i, i < 2 → d.chi.m 0 i = 1 ∧ d.chi.m 1 i = 0 := fun i hi => by
    rw [on.chi 0 i (by decide) hi, on.chi 1 i (by decide) hi]
    norm_num [exCore, exMat, law, Numeric.polyValue, constLaw, sum_range_succ]
  have hnu : ∀ i, i < 2 → d.nu.m 0 i * d.fiss.m 0 i = 1 / 5 ∧ d.nu.m 1 i * d.fiss.m 1 i = 2 / 5 := fun i hi => by
    rw [on.nu 0 i (by decide) hi, on.nu 1 i (by decide) hi, on.fiss 0 i (by decide) hi, on.fiss 1 i (by decide) hi]
    norm_num [exCore, exMat, law, Numeric.polyValue, constLaw, sum_range_succ]
  have hsurf : d.surf.v 1 = 1 := by
    rw [on.surf 1 (by decide)]
    rfl
  refine ⟨⟨fun g i hg hi => ?_, fun g i hg hi => ?_, fun i g hi _ _ => ⟨0, by omega, ?_⟩, 0, 0, by omega, by omega, ?_⟩, ?_⟩
  · rw [hE] at hg
    rw [hc] at hi
    interval_cases g
    · rw [(hchi i hi).1]; norm_num
    · rw [(hchi i hi).2]
  · rw [hE] at hg
    rw [hc] at hi
    interval_cases g
    · rw [(hnu i hi).1]; norm_num
    · rw [(hnu i hi).2]; norm_num
  · rw [(hchi i (by omega)).1]; norm_num
  · rw [(hnu 0 (by omega)).1]; norm_num
  · intro a b ha hb _ _
    refine ⟨0, 0, by omega, by omega, by rw [(hchi a (by omega)).1]; norm_num, by rw [(hnu b (by omega)).1]; norm_num, ?_⟩
    rw [hc] at ha hb
    interval_cases a <;> interval_cases b
    · exact .refl
    · exact .single ⟨by dsimp only; omega, by dsimp only; omega, by dsimp only; omega, by dsimp only; omega,
        .inl ⟨rfl, rfl, by dsimp only; rw [hsurf]; norm_num⟩⟩
    · exact .single ⟨by dsimp only; omega, by dsimp only; omega, by dsimp only; omega, by dsimp only; omega,
        .inr (.inl ⟨rfl, rfl, by dsimp only; rw [hsurf]; norm_num⟩)⟩
    · exact .refl

theorem exCore_temps : ∀ i, i < (exPlant exCore).grid.cells → (1 : ℝ) ≤ temp (exPlant exCore) i := fun i _ => by
  norm_num [temp, exPlant, exCore, exMat]

/-- The calculation ends with a reactor in order, or with a message. -/
example : problem (exTools Solve.exLib) (exPlant exCore) [exCoreSettings .diffusion, exBarSettings, exCoreSettings .coupled] = exit ∨
    ∃ p', problem (exTools Solve.exLib) (exPlant exCore) [exCoreSettings .diffusion, exBarSettings, exCoreSettings .coupled] = ok p' ∧
      InOrder (exPlant exCore) 1 p' := by
  rcases (C76_diffusion_safe (tl := exTools Solve.exLib) (p := exPlant exCore) (oN := exCoreSettings .diffusion) (oH := exBarSettings)
    (oC := exCoreSettings .coupled) rfl rfl rfl exCore_diffusion (fun s d _ on => exCore_data on) exCore_conducting Solve.exLib_solves
    exLin_solves exBig_largest zero_le_one (by norm_num [exCoreSettings]) exCore_temps (by norm_num [exCoreSettings])
    (by norm_num [exBarSettings]) (by norm_num [exCoreSettings])).1 with h | ⟨p', h⟩
  · exact Or.inl h
  · exact Or.inr ⟨p', h, (C76_diffusion (tl := exTools Solve.exLib) (p := exPlant exCore) (oN := exCoreSettings .diffusion)
      (oH := exBarSettings) (oC := exCoreSettings .coupled) rfl rfl rfl exCore_diffusion exCore_conducting Solve.exLib_solves
      exLin_solves zero_le_one (by norm_num [exCoreSettings]) exCore_temps).1 h⟩

/-- The library with exact special functions. -/
def exExact (num : Solve.Numerics) : Tools := { exTools num with e3 := CPM.E3, ki3 := CPM.Ki3 }

theorem exCore_transport : TransportReady (exExact Solve.exLib) (exCoreSettings .transport) exCore 1 :=
  ⟨rfl, rfl, rfl, rfl, exCore_shaped, ⟨rfl, fun _ _ => rfl⟩, by decide, exCore_nuclear, by norm_num [exCoreSettings]⟩

theorem exCore_transport_data {s : Nat → ℝ} {d : CPM.Data} {alb : Vec ℝ} (on : TransportOn exCore alb s d) :
    Solve.Multiplying (Solve.reactions d) ∧ Solve.GroupsLinked d := by
  have hc : d.cells = 2 := on.cells
  have hE : d.energies = 2 := on.energies
  have hchi : ∀ i, i < 2 → d.chi.m 0 i = 1 ∧ d.chi.m 1 i = 0 := fun i hi => by
    rw [on.chi 0 i (by decide) hi, on.chi 1 i (by decide) hi]
    norm_num [exCore, exMat, law, Numeric.polyValue, constLaw, sum_range_succ]
  have hnu : ∀ i, i < 2 → d.nu.m 0 i * d.fiss.m 0 i = 1 / 5 ∧ d.nu.m 1 i * d.fiss.m 1 i = 2 / 5 := fun i hi => by
    rw [on.nu 0 i (by decide) hi, on.nu 1 i (by decide) hi, on.fiss 0 i (by decide) hi, on.fiss 1 i (by decide) hi]
    norm_num [exCore, exMat, law, Numeric.polyValue, constLaw, sum_range_succ]
  refine ⟨⟨fun g i hg hi => ?_, fun g i hg hi => ?_, fun i g hi _ _ => ⟨0, by show 0 < d.energies; omega, ?_⟩, 0, 0, by show 0 < d.cells; omega,
    by show 0 < d.energies; omega, ?_⟩, ?_⟩
  · change g < d.energies at hg
    change i < d.cells at hi
    show 0 ≤ d.chi.m g i
    rw [hE] at hg
    rw [hc] at hi
    interval_cases g
    · rw [(hchi i hi).1]; norm_num
    · rw [(hchi i hi).2]
  · change g < d.energies at hg
    change i < d.cells at hi
    show 0 ≤ d.nu.m g i * d.fiss.m g i
    rw [hE] at hg
    rw [hc] at hi
    interval_cases g
    · rw [(hnu i hi).1]; norm_num
    · rw [(hnu i hi).2]; norm_num
  · change i < d.cells at hi
    show 0 < d.chi.m 0 i
    rw [(hchi i (by omega)).1]; norm_num
  · show 0 < d.nu.m 0 0 * d.fiss.m 0 0
    rw [(hnu 0 (by omega)).1]; norm_num
  · intro a b ha hb _ _
    exact ⟨0, 0, by omega, by omega, by rw [(hchi a (by omega)).1]; norm_num, by rw [(hnu b (by omega)).1]; norm_num, .refl⟩

/-- The same with transport, heat conduction first. -/
example : problem (exExact Solve.exLib) (exPlant exCore) [exBarSettings, exCoreSettings .transport, exCoreSettings .coupled] = exit ∨
    ∃ p', problem (exExact Solve.exLib) (exPlant exCore) [exBarSettings, exCoreSettings .transport, exCoreSettings .coupled] = ok p' ∧
      InOrder (exPlant exCore) 1 p' := by
  have hq : ∀ i, i < (exPlant exCore).grid.cells → 0 ≤ heat (exPlant exCore) i := fun i _ => by
    norm_num [heat, exPlant, exCore, exMat]
  rcases (C76_transport_safe (tl := exExact Solve.exLib) (p := exPlant exCore) (oN := exCoreSettings .transport) (oH := exBarSettings)
    (oC := exCoreSettings .coupled) rfl rfl rfl exCore_transport (fun h => absurd rfl h) (fun s d _ on => exCore_transport_data on)
    exCore_conducting Solve.exLib_solves
    exLin_solves exBig_largest zero_le_one (by norm_num [exCoreSettings]) exCore_temps (by norm_num [exCoreSettings])
    (by norm_num [exBarSettings]) (by norm_num [exCoreSettings])).2 hq with h | ⟨p', h⟩
  · exact Or.inl h
  · exact Or.inr ⟨p', h, (C76_transport (tl := exExact Solve.exLib) (p := exPlant exCore) (oN := exCoreSettings .transport)
      (oH := exBarSettings) (oC := exCoreSettings .coupled) rfl rfl rfl exCore_transport (fun h => absurd rfl h) exCore_conducting
      Solve.exLib_solves exLin_solves zero_le_one (by norm_num [exCoreSettings]) exCore_temps).2 hq h⟩

/-! ### C77: the results of a coupled calculation belong together -/

/-- **C77, without damping.** With relaxation parameter one (and an accuracy below one), the two calculations of the last pass, made one after the
other as separate calculations, lead from some reactor `r` to the result `p'`; and `r` is the result of the pass before, with which both solvers
agree within the accuracy. -/
theorem C77_partial {o1 o2 o3 : Settings} (h1 : o1.kind ∈ [Kind.transport, .diffusion, .heat, .kinetics])
    (h2 : o2.kind ∈ [Kind.transport, .diffusion, .heat, .kinetics]) (h3 : o3.kind = .coupled) (hbig : Largest tl.big) (hw : o3.relax = 1)
    (hacc : o3.acc < 1) (hrun : problem tl p [o1, o2, o3] = ok p') :
    ∃ q r s, problem tl q [o1] = ok s ∧ problem tl s [o2] = ok r ∧ ∃ s', problem tl r [o1] = ok s' ∧ problem tl s' [o2] = ok p' ∧
      Agree o3.acc o1 s s' ∧ Agree o3.acc o2 r p' := by
  have one : ∀ {o : Settings}, o.kind ∈ [Kind.transport, .diffusion, .heat, .kinetics] →
      (∃ a, solver tl o = ok a) ∧ o.kind ≠ .coupled ∧ ∀ p, problem tl p [o] = single tl o p := by
    intro o ho
    simp only [List.mem_cons, List.not_mem_nil, or_false] at ho
    rcases ho with ho | ho | ho | ho <;> refine ⟨?_, by rw [ho]; decide, fun p => ?_⟩ <;> simp only [solver, problem, ho] <;>
      first | exact ⟨_, rfl⟩ | rfl
  obtain ⟨⟨a, ha⟩, n1, s1⟩ := one h1
  obtain ⟨⟨b, hb⟩, n2, s2⟩ := one h2
  obtain ⟨j, h⟩ := problem_two n1 n2 h3 ha hb hrun
  have hj := C28_twice hacc h
  rw [hw] at h
  obtain ⟨r, s', x, y, x', y', e, k1, k2, k3, k4, k5, k6⟩ := loop_last _ _ _ _ _ _ _ (fun h0 => absurd rfl h0) h
  obtain ⟨q, s, k7, k8⟩ := k3 (by omega)
  unfold differences at k4
  rw [if_pos (by omega)] at k4
  obtain ⟨e1, k9, k4⟩ := bind_eq_ok.1 k4
  obtain ⟨e2, k10, k4⟩ := bind_eq_ok.1 k4
  cases k4
  obtain ⟨a1, a2⟩ := single_half ha k1
  obtain ⟨b1, b2⟩ := single_half hb k2
  obtain ⟨a3, a4⟩ := single_half ha k7
  obtain ⟨b3, b4⟩ := single_half hb k8
  exact ⟨q, r, s, by rw [s1]; exact a3, by rw [s2]; exact b3, s', by rw [s1]; exact a1, by rw [s2]; exact b1, agree_of ha hbig a4 a2 k9 k5,
    agree_of hb hbig b4 b2 k10 k6⟩

/-- With constant conductivities two heat solvers, the same twice, stop after the second pass: all hypotheses hold. -/
example (num : Solve.Numerics) : ∃ p', problem (exTools num) (exPlant (exBar 20 (constLaw 3))) [exBarSettings, exBarSettings,
    { exCoreSettings .coupled with relax := 1 }] = ok p' := by
  have hc := exBar_conducting 20 (k := constLaw 3) (fun x _ => by norm_num [Numeric.polyValue, constLaw])
  obtain ⟨t, low, ht⟩ := heat_constant (tl := exTools num) (p0 := exPlant (exBar 20 (constLaw 3))) (o := exBarSettings) hc exLin_solves
    (fun i _ x y => by simp [Numeric.polyValue, constLaw]) (fun i _ => by norm_num [heat, exPlant, exBar])
    (fun i _ => by norm_num [temp, exPlant, exBar, exMat]) (by norm_num [exBarSettings]) (by decide)
  have half : ∀ i p, Kept (exPlant (exBar 20 (constLaw 3))) p → (∀ i, i < 2 → heat p i = 10) → (∀ i, i < 2 → 1 ≤ temp p i) →
      ∃ p' x, Half (heatPart (exTools num) exBarSettings) 1 i p p' (.vec x) ∧ x.n = 2 ∧ (∀ i, i < 2 → x.v i = .fin (t i)) ∧
        Kept (exPlant (exBar 20 (constLaw 3))) p' ∧ (∀ i, i < 2 → heat p' i = 10) ∧ (∀ i, i < 2 → 1 ≤ temp p' i) := by
    intro i p hk hq hT
    obtain ⟨g', old, e, hg, no, vo⟩ := ht p hk hq hT
    have hcells : p.grid.cells = 2 := hk.body.cells
    have hF : g'.mats.n = g'.cells := hg.same.filled (hk.body.filled hc.mats_n)
    obtain ⟨x, e1, nx, vx⟩ := temperatures_ok hF
    obtain ⟨g'', e2, hg''⟩ := heatRelax_ok (p := { p with grid := g' }) hF (old := old) (by rw [no]; exact hg.cells.symm) 1
    have hm : ∀ j, j < 2 → g'.mats.v j = { p.grid.mats.v j with T := t j } := fun j hj => hg.mats j (by rw [hcells]; exact hj)
    have e3 := relax_one (tl := exTools num) (o := exBarSettings) (a := heatPart (exTools num) exBarSettings) rfl e2
    refine ⟨{ p with grid := g' }, ⟨x.n, fun i => .fin (x.v i)⟩, ⟨_, old, e, ?_, fun _ => rfl, fun _ => ?_⟩,
      nx.trans (hg.cells.trans hcells), fun j hj => ?_, hk.trans hg.kept, fun j hj => ?_, fun j hj => ?_⟩
    · show (temperatures g' "C" >>= _) = _
      rw [e1, ok_bind]
    · rw [e3] at e2
      exact e2
    · show Fl.fin (x.v j) = _
      rw [vx j (by show j < g'.cells; rw [hg.cells, hcells]; exact hj), hm j hj]
    · show (g'.mats.v j).q = _
      rw [hm j hj]
      exact hq j hj
    · show _ ≤ (g'.mats.v j).T
      rw [hm j hj]
      exact low j hj
  obtain ⟨p1, x1, h1, n1, v1, a1, b1, c1⟩ := half 0 (exPlant (exBar 20 (constLaw 3))) (Kept.refl _)
    (fun i _ => by norm_num [heat, exPlant, exBar]) (fun i _ => by norm_num [temp, exPlant, exBar, exMat])
  obtain ⟨p2, x2, h2, n2, v2, a2, b2, c2⟩ := half 0 p1 a1 b1 c1
  obtain ⟨p3, x3, h3, n3, v3, a3, b3, c3⟩ := half 1 p2 a2 b2 c2
  obtain ⟨p4, x4, h4, n4, v4, -⟩ := half 1 p3 a3 b3 c3
  have near : ∀ x y : Vec Fl, x.n = 2 → y.n = 2 → (∀ i, i < 2 → x.v i = .fin (t i)) → (∀ i, i < 2 → y.v i = .fin (t i)) →
      ∃ e, difference exBig (.vec x) (.vec y) = ok e ∧ e.le (.fin (1 / 1000)) := fun x y hx hy vx vy => by
    obtain ⟨e, he, hn⟩ := difference_ok exBig_largest (s := .field 2) (x := .vec x) (y := .vec y) ⟨by norm_num, x, rfl, hx, fun i hi => ⟨_, vx i hi⟩⟩
      ⟨by norm_num, y, rfl, hy, fun i hi => ⟨_, vy i hi⟩⟩ (acc := 1 / 1000)
    exact ⟨e, he, hn.2 (fun i hi => ⟨t i, t i, vx i (by omega), vy i (by omega), by norm_num⟩)⟩
  obtain ⟨d1, f1, g1⟩ := near x3 x1 n3 n1 v3 v1
  obtain ⟨d2, f2, g2⟩ := near x4 x2 n4 n2 v4 v2
  refine ⟨p4, ?_⟩
  rw [C37_two (a := heatPart (exTools num) exBarSettings) (b := heatPart (exTools num) exBarSettings) (by decide) (by decide) rfl rfl rfl]
  show (if (0 : Int) < 100 then (do
    let r ← coupled exBig (heatPart (exTools num) exBarSettings) (heatPart (exTools num) exBarSettings) 1 (1 / 1000) 100 _
    ok r.1) else exit) = _
  rw [if_pos (by norm_num)]
  have e : coupled exBig (heatPart (exTools num) exBarSettings) (heatPart (exTools num) exBarSettings) 1 (1 / 1000) 100
      (exPlant (exBar 20 (constLaw 3))) = ok (p4, 1) := by
    unfold coupled
    show coupledLoop _ _ _ _ _ _ (98 + 1 + 1) _ _ _ _ = _
    unfold coupledLoop
    rw [partPass_ok.2 h1, ok_bind, partPass_ok.2 h2, ok_bind]
    unfold differences
    rw [if_neg (by simp), ok_bind, if_neg (by
      rintro ⟨h, -⟩
      have h : (1 : ℝ) ≤ 1 / 1000 := h
      norm_num at h)]
    unfold coupledLoop
    rw [partPass_ok.2 h3, ok_bind, partPass_ok.2 h4, ok_bind]
    unfold differences
    rw [if_pos (by simp)]
    dsimp only
    rw [f1, ok_bind, f2, ok_bind, ok_bind, if_pos ⟨g1, g2⟩]
  rw [e, ok_bind]

/-- **C77 fails with damping.** The criterion compares what the solver computes in two successive passes, but with a small relaxation
parameter the reactor hardly moves from one pass to the next, so the solver computes nearly the same again. Here the reactor is one number, a
solver turns `r` into `20 - r` (so only 10 reproduces itself), and with relaxation parameter 1/1000 and accuracy 1/100 the calculation ends
normally at about 15, where the solver computes about 5. -/
theorem C77_false {big : List Fl → Fl} : ∃ (a b : Part ℝ ℝ) (r' : ℝ), (∀ r, a.solve r = ok (20 - r, r)) ∧ (∀ r, b.solve r = ok (r, r)) ∧
    (∀ w r m, a.relax w r m = ok (w * r + (1 - w) * m) ∧ b.relax w r m = ok (w * r + (1 - w) * m)) ∧
    (∀ r, a.main r = ok (.num (.fin r)) ∧ b.main r = ok (.num (.fin 1))) ∧ coupled big a b (1 / 1000) (1 / 100) 100 5 = ok (r', 2) ∧
    9 < r' - (20 - r') := by
  obtain ⟨a, ha⟩ : ∃ a : Part ℝ ℝ, a = ⟨fun r => ok (20 - r, r), fun r => ok (.num (.fin r)), fun w r m => ok (w * r + (1 - w) * m)⟩ :=
    ⟨_, rfl⟩
  obtain ⟨b, hb⟩ : ∃ b : Part ℝ ℝ, b = ⟨fun r => ok (r, r), fun _ => ok (.num (.fin 1)), fun w r m => ok (w * r + (1 - w) * m)⟩ :=
    ⟨_, rfl⟩
  refine ⟨a, b, 1498002 / 100000, fun _ => by rw [ha], fun _ => by rw [hb], fun _ _ _ => by rw [ha, hb]; exact ⟨rfl, rfl⟩,
    fun _ => by rw [ha, hb]; exact ⟨rfl, rfl⟩, ?_, by norm_num⟩
  have a0 : partPass a (1 / 1000) 0 5 = ok (15, .num (.fin 15)) := by
    rw [ha]
    refine partPass_ok.2 ⟨15, 5, by norm_num, rfl, fun _ => rfl, fun h => absurd rfl h⟩
  have a1 : partPass a (1 / 1000) 1 15 = ok (1499 / 100, .num (.fin 5)) := by
    rw [ha]
    refine partPass_ok.2 ⟨5, 15, by norm_num, rfl, fun h => absurd h one_ne_zero, fun _ => by norm_num⟩
  have a2 : partPass a (1 / 1000) 2 (1499 / 100) = ok (1498002 / 100000, .num (.fin (501 / 100))) := by
    rw [ha]
    refine partPass_ok.2 ⟨501 / 100, 1499 / 100, by norm_num, rfl, fun h => absurd h two_ne_zero, fun _ => by norm_num⟩
  have bb : ∀ i r, partPass b (1 / 1000) i r = ok (r, .num (.fin 1)) := fun i r => by
    rw [hb]
    exact partPass_ok.2 ⟨r, r, rfl, rfl, fun _ => rfl, fun _ => congrArg ok (by ring)⟩
  have far : ¬ ((Fl.fin 5).sub (Fl.fin 15) |>.div (Fl.fin 5)).abs.le (.fin (1 / 100)) := by
    rw [near_num]
    rintro ⟨u, v, h1, h2, -, h3⟩
    cases h1
    cases h2
    norm_num at h3
  have near : (((Fl.fin (501 / 100)).sub (Fl.fin 5)).div (Fl.fin (501 / 100))).abs.le (.fin (1 / 100)) := by
    rw [near_num]
    exact ⟨_, _, rfl, rfl, by norm_num, by norm_num [abs_of_pos]⟩
  have same : (((Fl.fin 1).sub (Fl.fin 1)).div (Fl.fin 1)).abs.le (.fin (1 / 100)) := by
    rw [near_num]
    exact ⟨_, _, rfl, rfl, by norm_num, by norm_num⟩
  unfold coupled
  show coupledLoop _ _ _ _ _ _ (97 + 1 + 1 + 1) _ _ _ _ = _
  unfold coupledLoop
  rw [a0, ok_bind, bb, ok_bind]
  unfold differences
  rw [if_neg (by simp), ok_bind, if_neg (by
    rintro ⟨h, -⟩
    have h : (1 : ℝ) ≤ 1 / 100 := h
    norm_num at h)]
  unfold coupledLoop
  dsimp only
  rw [a1, ok_bind, bb, ok_bind]
  unfold differences
  rw [if_pos (by simp)]
  dsimp only [difference]
  rw [ok_bind, ok_bind, ok_bind, if_neg (fun h => far h.1)]
  unfold coupledLoop
  dsimp only
  rw [a2, ok_bind, bb, ok_bind]
  unfold differences
  rw [if_pos (by simp)]
  dsimp only [difference]
  rw [ok_bind, ok_bind, ok_bind, if_pos ⟨near, same⟩]

/-- **C77, full damping.** With relaxation parameter zero there is no feedback: when the calculation ends, heat sources and temperatures are those
of one diffusion and one heat calculation, made one after the other from the given reactor, however the nuclear data depend on temperature. -/
theorem C77_frozen (hN : oN.kind = .diffusion) (hH : oH.kind = .heat) (hC : oC.kind = .coupled) (hd : DiffusionReady oN p.grid m)
    (hc : Conducting p.grid c oH.bc AL BL CL AR BR CR m) (hlib : Solve.SolvesRegular tl.num) (hlin : LinSolves tl.lin) (hp : 0 ≤ p.power)
    (hw : oC.relax = 0) (hT : ∀ i, i < p.grid.cells → m ≤ temp p i) :
    (problem tl p [oN, oH, oC] = ok p' → ∃ q r, problem tl p [oN] = ok q ∧ problem tl q [oH] = ok r ∧
      ∀ i, i < p.grid.cells → heat p' i = heat q i ∧ temp p' i = temp r i) ∧
    ((∀ i, i < p.grid.cells → 0 ≤ heat p i) → problem tl p [oH, oN, oC] = ok p' → ∃ q r, problem tl p [oH] = ok q ∧ problem tl q [oN] = ok r ∧
      ∀ i, i < p.grid.cells → heat p' i = heat r i ∧ temp p' i = temp q i) := by
  have a1 : solver tl oN = ok (diffusionPart tl oN) := by unfold solver; rw [hN]
  have a2 : solver tl oH = ok (heatPart tl oH) := by unfold solver; rw [hH]
  have s1 : ∀ p, problem tl p [oN] = single tl oN p := fun p =>
    if_neg (by rw [hN]; decide)
  have s2 : ∀ p, problem tl p [oH] = single tl oH p := fun p =>
    if_neg (by rw [hH]; decide)
  simp only [s1, s2]
  refine ⟨fun h => ?_, fun hq h => ?_⟩
  · obtain ⟨j, h⟩ := problem_two (by rw [hN]; decide) (by rw [hH]; decide) hC a1 a2 h
    rw [hw] at h
    exact first_frozen a1 a2 hc hlin (diffusion_critical hlib hd) hp hT h
  · obtain ⟨j, h⟩ := problem_two (by rw [hH]; decide) (by rw [hN]; decide) hC a2 a1 h
    rw [hw] at h
    exact second_frozen a1 a2 hc hlin (diffusion_critical hlib hd) hp hT hq h

/-- The reactor of C76: the calculation ends with the fields of the first pass, or with a message. -/
example : problem (exTools Solve.exLib) (exPlant exCore) [exCoreSettings .diffusion, exBarSettings, { exCoreSettings .coupled with relax := 0 }] = exit ∨
    ∃ p' q r, problem (exTools Solve.exLib) (exPlant exCore) [exCoreSettings .diffusion, exBarSettings, { exCoreSettings .coupled with relax := 0 }] =
      ok p' ∧ problem (exTools Solve.exLib) (exPlant exCore) [exCoreSettings .diffusion] = ok q ∧ problem (exTools Solve.exLib) q [exBarSettings] = ok r ∧
      ∀ i, i < 2 → heat p' i = heat q i ∧ temp p' i = temp r i := by
  rcases (C76_diffusion_safe (tl := exTools Solve.exLib) (p := exPlant exCore) (oN := exCoreSettings .diffusion) (oH := exBarSettings)
    (oC := { exCoreSettings .coupled with relax := 0 }) rfl rfl rfl exCore_diffusion (fun s d _ on => exCore_data on) exCore_conducting
    Solve.exLib_solves exLin_solves exBig_largest zero_le_one (by norm_num) exCore_temps (by norm_num [exCoreSettings])
    (by norm_num [exBarSettings]) (by norm_num [exCoreSettings])).1 with h | ⟨p', h⟩
  · exact Or.inl h
  · obtain ⟨q, r, h1, h2, h3⟩ := (C77_frozen (tl := exTools Solve.exLib) (p := exPlant exCore) (oN := exCoreSettings .diffusion)
      (oH := exBarSettings) (oC := { exCoreSettings .coupled with relax := 0 }) rfl rfl rfl exCore_diffusion exCore_conducting Solve.exLib_solves
      exLin_solves zero_le_one rfl exCore_temps).1 h
    exact Or.inr ⟨p', q, r, h, h1, h2, h3⟩

end

end Verif.Calc
