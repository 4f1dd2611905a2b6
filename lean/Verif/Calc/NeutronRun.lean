import Verif.Calc.HeatRun
import Verif.Solve.Props
import Verif.Solve.TransportProps

/-! # Lemmas about the criticality solvers working on the reactor -/

namespace Verif.Calc

open Verif Outcome Finset Mesh

noncomputable section

open scoped Classical

variable {g : Grid} {m : ℝ}

theorem Nuclear.same {g' : Grid} (h : Nuclear g m) (k : SameBody g g') : Nuclear g' m where
  complete i hi := by
    rw [k.cells] at hi
    have c := h.complete i hi
    have e := k.mats i hi
    rw [k.energies]
    exact ⟨by rw [e.tot]; exact c.tot, by rw [e.fiss]; exact c.fiss, by rw [e.scatt]; exact c.scatt, by rw [e.nu]; exact c.nu,
      by rw [e.chi]; exact c.chi⟩
  scatt n i hn hi T hT := by
    rw [k.cells] at hi
    rw [k.energies] at hn
    rw [(k.mats i hi).scatt]
    exact h.scatt n i hn hi T hT
  absorbs e i he hi T hT := by
    rw [k.cells] at hi
    rw [k.energies] at he
    rw [k.energies, (k.mats i hi).scatt, (k.mats i hi).tot]
    exact h.absorbs e i he hi T hT
  chi e i he hi T hT := by
    rw [k.cells] at hi
    rw [k.energies] at he
    rw [(k.mats i hi).chi]
    exact h.chi e i he hi T hT
  nu e i he hi T hT := by
    rw [k.cells] at hi
    rw [k.energies] at he
    rw [(k.mats i hi).nu]
    exact h.nu e i he hi T hT
  fiss e i he hi T hT := by
    rw [k.cells] at hi
    rw [k.energies] at he
    rw [(k.mats i hi).fiss]
    exact h.fiss e i he hi T hT

theorem Diffusive.same {g' : Grid} (h : Diffusive g m) (k : SameBody g g') : Diffusive g' m where
  laws i hi := by
    rw [k.cells] at hi
    rw [k.energies, (k.mats i hi).diff]
    exact h.laws i hi
  pos e i he hi T hT := by
    rw [k.cells] at hi
    rw [k.energies] at he
    rw [(k.mats i hi).diff]
    exact h.pos e i he hi T hT

theorem DiffusionOn.same {g' : Grid} {alb : Vec ℝ} {s : Nat → ℝ} {d : Diffusion.Data} (h : DiffusionOn g' alb s d) (k : SameBody g g') :
    DiffusionOn g alb s d where
  wf := h.wf
  cells := h.cells.trans k.cells
  energies := h.energies.trans k.energies
  geom := h.geom.trans k.geom
  albedo := h.albedo
  size i hi := by rw [h.size i (by rw [k.cells]; exact hi), k.bounds]
  vol i hi := by rw [h.vol i (by rw [k.cells]; exact hi), k.bounds, k.geom]
  surf i hi := by rw [h.surf i (by rw [k.cells]; exact hi), k.bounds, k.geom]
  D e i he hi := by rw [h.D e i (by rw [k.energies]; exact he) (by rw [k.cells]; exact hi), (k.mats i hi).diff]
  tot e i he hi := by rw [h.tot e i (by rw [k.energies]; exact he) (by rw [k.cells]; exact hi), (k.mats i hi).tot]
  fiss e i he hi := by rw [h.fiss e i (by rw [k.energies]; exact he) (by rw [k.cells]; exact hi), (k.mats i hi).fiss]
  nu e i he hi := by rw [h.nu e i (by rw [k.energies]; exact he) (by rw [k.cells]; exact hi), (k.mats i hi).nu]
  chi e i he hi := by rw [h.chi e i (by rw [k.energies]; exact he) (by rw [k.cells]; exact hi), (k.mats i hi).chi]
  scatt e f i he hf hi := by
    rw [h.scatt e f i (by rw [k.energies]; exact he) (by rw [k.energies]; exact hf) (by rw [k.cells]; exact hi), (k.mats i hi).scatt,
      k.energies]

theorem TransportOn.same {g' : Grid} {alb : Vec ℝ} {s : Nat → ℝ} {d : CPM.Data} (h : TransportOn g' alb s d) (k : SameBody g g') :
    TransportOn g alb s d where
  wf := h.wf
  cells := h.cells.trans k.cells
  energies := h.energies.trans k.energies
  albedo := h.albedo
  radii i := by rw [h.radii i, k.bounds]
  vol i hi := by rw [h.vol i (by rw [k.cells]; exact hi), k.geom]
  surface_pos := h.surface_pos
  surface hg := by rw [h.surface (by rw [k.geom]; exact hg), k.geom]
  tot e i he hi := by rw [h.tot e i (by rw [k.energies]; exact he) (by rw [k.cells]; exact hi), (k.mats i hi).tot]
  fiss e i he hi := by rw [h.fiss e i (by rw [k.energies]; exact he) (by rw [k.cells]; exact hi), (k.mats i hi).fiss]
  nu e i he hi := by rw [h.nu e i (by rw [k.energies]; exact he) (by rw [k.cells]; exact hi), (k.mats i hi).nu]
  chi e i he hi := by rw [h.chi e i (by rw [k.energies]; exact he) (by rw [k.cells]; exact hi), (k.mats i hi).chi]
  scatt e f i he hf hi := by
    rw [h.scatt e f i (by rw [k.energies]; exact he) (by rw [k.energies]; exact hf) (by rw [k.cells]; exact hi), (k.mats i hi).scatt,
      k.energies]

/-! ### the problems are sensible -/

theorem pair_lt {e f E : Nat} (he : e < E) (hf : f < E) : f + e * E < E * E := by
  have : (e + 1) * E ≤ E * E := Nat.mul_le_mul_right _ he
  rw [Nat.add_mul, Nat.one_mul] at this
  omega

theorem volume_pos_cm (hS : Shaped g) {i : Nat} (hi : i < g.cells) :
    0 < ∫ r in (100 * g.bounds.v i)..(100 * g.bounds.v (i + 1)), area g.geom r := by
  obtain ⟨-, V, eV, nV, vV, pV, -⟩ := C31_volumes hS
  rw [← vV i hi]
  exact pV i hi

theorem DiffusionOn.sound {alb : Vec ℝ} {s : Nat → ℝ} {d : Diffusion.Data} (on : DiffusionOn g alb s d) (hS : Shaped g) (h2 : 2 ≤ g.cells)
    (hN : Nuclear g m) (hD : Diffusive g m) (ha : GoodAlbedos g.geom alb) (hs : ∀ i, i < g.cells → m ≤ s i) :
    Solve.Sound d (if g.geom = .slab then alb.v 0 else 1) (if g.geom = .slab then alb.v 1 else alb.v 0) ∧ Diffusion.Absorbing d ∧
      Solve.NonnegFission d := by
  have hc := on.cells
  have hE := on.energies
  refine ⟨⟨on.wf, ⟨fun e he i hi => ?_, fun i hi => ?_⟩, by rw [hc]; exact h2, ?_, ?_, ?_⟩,
    ⟨fun i hi => ?_, fun i hi => ?_, fun e f i he hf hi => ?_, fun e i he hi => ?_⟩,
    ⟨fun e i he hi => ?_, fun e i he hi => ?_, fun e i he hi => ?_⟩⟩
  · rw [hE] at he
    rw [hc] at hi
    rw [on.D e i he hi]
    exact hD.pos e i he hi _ (hs i hi)
  · rw [hc] at hi
    rw [on.size i hi]
    have := hS.incr i hi
    linarith
  · unfold Diffusion.HasAlbedos
    rw [on.geom, on.albedo]
    by_cases hg : g.geom = .slab
    · exact Or.inl ⟨hg, (ha.1 hg).1, if_pos hg, if_pos hg⟩
    · exact Or.inr ⟨hg, ha.2.1, if_neg hg, if_neg hg⟩
  · split_ifs
    · exact ha.2.2
    · norm_num
  · split_ifs with hg
    · exact (ha.1 hg).2
    · exact ha.2.2
  · rw [hc] at hi
    rw [on.vol i hi]
    exact volume_pos_cm hS hi
  · rw [hc] at hi
    rw [on.surf i hi, ← area_scale]
    have := area_nonneg hS hi
    positivity
  · rw [hE] at he hf
    rw [hc] at hi
    rw [on.scatt e f i he hf hi]
    exact hN.scatt _ i (pair_lt he hf) hi _ (hs i hi)
  · rw [hE] at he ⊢
    rw [hc] at hi
    rw [sum_congr rfl (fun f hf => on.scatt e f i he (mem_range.1 hf) hi), on.tot e i he hi]
    exact hN.absorbs e i he hi _ (hs i hi)
  · rw [hE] at he
    rw [hc] at hi
    rw [on.chi e i he hi]
    exact hN.chi e i he hi _ (hs i hi)
  · rw [hE] at he
    rw [hc] at hi
    rw [on.nu e i he hi, on.fiss e i he hi]
    exact mul_nonneg (hN.nu e i he hi _ (hs i hi)) (hN.fiss e i he hi _ (hs i hi))
  · rw [hE] at he
    rw [hc] at hi
    rw [on.fiss e i he hi]
    exact hN.fiss e i he hi _ (hs i hi)

theorem TransportOn.body {alb : Vec ℝ} {s : Nat → ℝ} {d : CPM.Data} (on : TransportOn g alb s d) (hS : Shaped g) (h0 : 0 < g.cells)
    (hN : Nuclear g m) (ha : 0 ≤ alb.v 0 ∧ alb.v 0 ≤ 1) (hs : ∀ i, i < g.cells → m ≤ s i) :
    Solve.Body d g.geom ∧ Solve.NonnegFission (Solve.reactions d) := by
  have hc := on.cells
  have hE := on.energies
  have hsc : ∀ e f i, e < d.energies → f < d.energies → i < d.cells → 0 ≤ d.scatt e f i := fun e f i he hf hi => by
    rw [hE] at he hf
    rw [hc] at hi
    rw [on.scatt e f i he hf hi]
    exact hN.scatt _ i (pair_lt he hf) hi _ (hs i hi)
  have hab : ∀ e i, e < d.energies → i < d.cells → ∑ f ∈ range d.energies, d.scatt e f i < d.tot.m e i := fun e i he hi => by
    rw [hE] at he ⊢
    rw [hc] at hi
    rw [sum_congr rfl (fun f hf => on.scatt e f i he (mem_range.1 hf) hi), on.tot e i he hi]
    exact hN.absorbs e i he hi _ (hs i hi)
  have hinc : ∀ i, i < d.cells → d.radii.v i < d.radii.v (i + 1) := by
    intro i hi
    rw [hc] at hi
    rw [on.radii, on.radii]
    have := hS.incr i hi
    linarith
  have hvol : ∀ i, i < d.cells → 0 < d.vol.v i := fun i hi => by
    rw [hc] at hi
    rw [on.vol i hi, on.radii, on.radii]
    exact volume_pos_cm hS hi
  refine ⟨⟨on.wf, ⟨fun e he i hi => ?_, hvol, on.surface_pos⟩, ?_, by rw [hc]; exact h0, by rw [on.albedo]; exact ha, ⟨hsc, hab⟩⟩,
    ⟨fun e i he hi => ?_, fun e i he hi => ?_, fun e i he hi => ?_⟩⟩
  · exact (sum_nonneg (fun f hf => hsc e f i he (mem_range.1 hf) hi)).trans_lt (hab e i he hi)
  · cases hG : g.geom with
    | undefined => exact absurd hG hS.geom
    | slab =>
      refine ⟨hinc, fun i hi => ?_⟩
      rw [hc] at hi
      rw [on.vol i hi, hG]
      simp [area]
    | cylinder =>
      refine ⟨?_, hinc⟩
      rw [on.radii]
      have := hS.first (by rw [hG]; decide)
      positivity
    | sphere =>
      refine ⟨?_, hinc⟩
      rw [on.radii]
      have := hS.first (by rw [hG]; decide)
      positivity
  · change e < d.energies at he
    change i < d.cells at hi
    rw [hE] at he
    rw [hc] at hi
    show 0 ≤ d.chi.m e i
    rw [on.chi e i he hi]
    exact hN.chi e i he hi _ (hs i hi)
  · change e < d.energies at he
    change i < d.cells at hi
    rw [hE] at he
    rw [hc] at hi
    show 0 ≤ d.nu.m e i * d.fiss.m e i
    rw [on.nu e i he hi, on.fiss e i he hi]
    exact mul_nonneg (hN.nu e i he hi _ (hs i hi)) (hN.fiss e i he hi _ (hs i hi))
  · change e < d.energies at he
    change i < d.cells at hi
    rw [hE] at he
    rw [hc] at hi
    show 0 ≤ d.fiss.m e i
    rw [on.fiss e i he hi]
    exact hN.fiss e i he hi _ (hs i hi)

/-! ### storing the results -/

theorem writeForward_ok {p : Plant} (hF : Furnished p.grid) {s : Solve.State} {k : ℝ} {φ : Nat → ℝ}
    (hr : Solve.Reports s.forward p.grid.cells p.grid.energies k φ) {V : Vec ℝ} (hV : ∀ i, i < p.grid.cells → V.v i = volume p.grid i)
    {rate : Nat → ℝ} (hh : Solve.Heats p.grid.cells p.power V rate s.heat) :
    ∃ p', writeForward s p.grid.energies p = ok p' ∧ Burned p k φ rate p' ∧ ∀ i, i < p.grid.cells → heat p' i = s.heat.v i := by
  obtain ⟨g1, e1, b1, f1, a1, h1⟩ := setFluxes_ok hF (t := ⟨p.grid.energies, p.grid.cells, s.forward.modes, s.forward.flux⟩) rfl
  have b1' : SameBody p.grid { g1 with nForward := s.forward.modes } := ⟨b1.geom, b1.bounds, b1.cells, b1.energies, b1.mats_n, b1.mats⟩
  have hF1 : Furnished { g1 with nForward := s.forward.modes } := b1'.furnished hF
  obtain ⟨g2, e2, h2⟩ := setHeatSources_ok (g := { g1 with nForward := s.forward.modes }) hF1.mats_n (t := s.heat) (by rw [hh.1]; exact b1.cells.symm)
  have b2 : SameBody p.grid g2 := b1'.trans h2.same
  have hq : ∀ i, i < p.grid.cells → (g2.mats.v i).q = s.heat.v i := fun i hi => by
    rw [h2.mats i (by show i < g1.cells; rw [b1.cells]; exact hi)]
  have hm2 : ∀ i, i < p.grid.cells → g2.mats.v i = { g1.mats.v i with q := s.heat.v i } := fun i hi =>
    h2.mats i (by show i < g1.cells; rw [b1.cells]; exact hi)
  refine ⟨{ p with grid := g2, kForward := s.forward.k }, ?_, ⟨⟨b2, rfl, rfl, rfl⟩, fun i hi => ?_, ⟨rfl, ?_, fun i hi => ?_⟩, hr.1, ?_,
    fun e i he hi => ?_, ?_, fun i hi => ?_⟩, hq⟩
  · unfold writeForward
    rw [e1, ok_bind, e2, ok_bind]
  · show (g2.mats.v i).T = (p.grid.mats.v i).T
    rw [hm2 i hi]
    exact (h1 i hi).1
  · show g2.nAdjoint = _
    rw [h2.nAdjoint]
    exact a1
  · show (g2.mats.v i).adj = _
    rw [hm2 i hi]
    exact (h1 i hi).2.2.1
  · show g2.nForward = _
    rw [h2.nForward]
    exact hr.2.1
  · show (g2.mats.v i).flux.m e 0 = _
    rw [hm2 i hi]
    dsimp only
    rw [(h1 i hi).2.2.2.2.2 e he 0 (by show 0 < s.forward.modes; rw [hr.2.1]; exact one_pos)]
    exact hr.2.2 e i he hi
  · rw [← hh.2.1]
    show ∑ i ∈ range g2.cells, (g2.mats.v i).q * volume g2 i = _
    rw [b2.cells]
    refine sum_congr rfl (fun i hi => ?_)
    rw [mem_range] at hi
    rw [hq i hi, b2.volume, hV i hi]
  · show (g2.mats.v i).q * _ * _ = _
    rw [hq i hi, ← hV i hi]
    exact hh.2.2 i hi

/-! ### the solvers -/

theorem DiffusionReady.same {o : Settings} {g' : Grid} (h : DiffusionReady o g m) (k : SameBody g g') : DiffusionReady o g' m :=
  ⟨h.1, h.2, by rw [k.energies]; exact h.3, k.shaped h.4, k.furnished h.5, by rw [k.cells]; exact h.6, h.7.same k, h.8.same k,
    by rw [k.geom]; exact h.9⟩

theorem diffusion_step {tl : Tools} (hlib : Solve.SolvesRegular tl.num) {o : Settings} {p : Plant} (h : DiffusionReady o p.grid m)
    (hT : ∀ i, i < p.grid.cells → m ≤ temp p i) :
    ∃ d old V st, DiffusionOn p.grid o.albedo (temp p) d ∧ old.n = p.grid.cells ∧ (∀ i, i < p.grid.cells → old.v i = heat p i) ∧
      Solve.Volumes d.cells V ∧
      diffusionSolve tl o p = (do
        let s ← Solve.diffusion tl.num ⟨.forward, .fundamental, o.maxIter, o.acc⟩ d p.power V st
        let p ← writeForward s p.grid.energies p
        ok (p, old)) ∧
      ∀ s, Solve.diffusion tl.num ⟨.forward, .fundamental, o.maxIter, o.acc⟩ d p.power V st = ok s →
        ∃ p' k φ, writeForward s p.grid.energies p = ok p' ∧ Burned p k φ (Solve.fissions d φ) p' ∧ 0 < k ∧
          (∀ x, x < p.grid.cells * p.grid.energies → 0 ≤ φ x) ∧ ∑ x ∈ range (p.grid.cells * p.grid.energies), φ x = 1 ∧
          (0 ≤ p.power → ∀ i, i < p.grid.cells → 0 ≤ heat p' i) := by
  obtain ⟨old, eo, no, vo⟩ := heatSources_ok h.furnished.mats_n
  obtain ⟨d, ed, on⟩ := diffusionData_ok h.shaped h.furnished h.nuclear.complete h.diffusive.laws o.albedo
  obtain ⟨V, eV, nV, vV, hV⟩ := volumes_m h.shaped
  obtain ⟨S, hab, hf⟩ := on.sound h.shaped h.two h.nuclear h.diffusive h.albedos hT
  have hc := on.cells
  have hE := on.energies
  rw [← hc] at hV
  refine ⟨d, old, V, ⟨noModes, noModes, old, old⟩, on, no, vo, hV, ?_, fun s hs => ?_⟩
  · unfold diffusionSolve Settings.options
    rw [eo, ok_bind, h.energies, ed, ok_bind, eV, ok_bind, h.direction, h.modes]
  · obtain ⟨k, φ, hr, hk, h0, h1, hh, hpos, -⟩ := Solve.C60_diffusion S hab hf hlib hV hs
    rw [hc, hE] at hr h0 h1
    rw [hc] at hh hpos
    obtain ⟨p', e, hb, hq⟩ := writeForward_ok h.furnished hr vV hh
    exact ⟨p', k, φ, e, hb, hk, h0, h1, fun hp i hi => by rw [hq i hi]; exact hpos hp i hi⟩

/-- the computed self-collision probabilities are not negative (slabs need no assumption) -/
def SelfOk (o : Settings) (g : Grid) (m : ℝ) : Prop :=
  g.geom ≠ .slab → ∀ s d, (∀ i, i < g.cells → m ≤ s i) → TransportOn g o.albedo s d → ∀ G,
    CPM.vacuumCPs d CPM.E3 CPM.Ki3 g.geom = ok G → ∀ e i, e < g.energies → i < g.cells → 0 ≤ G.v (i, i, e)

theorem TransportReady.same {tl : Tools} {o : Settings} {g' : Grid} (h : TransportReady tl o g m) (k : SameBody g g') :
    TransportReady tl o g' m :=
  ⟨h.1, h.2, h.3, by rw [k.energies]; exact h.4, k.shaped h.5, k.furnished h.6, by rw [k.cells]; exact h.7, h.8.same k, h.9⟩

theorem SelfOk.same {o : Settings} {g' : Grid} (h : SelfOk o g m) (k : SameBody g g') : SelfOk o g' m :=
  fun hg s d hs on G hG e i he hi => by
    rw [k.geom] at hg hG
    rw [k.cells] at hi hs
    rw [k.energies] at he
    exact h hg s d hs (on.same k) G hG e i he hi

theorem transport_step {tl : Tools} (hlib : Solve.SolvesRegular tl.num) {o : Settings} {p : Plant} (h : TransportReady tl o p.grid m)
    (hself : SelfOk o p.grid m) (hT : ∀ i, i < p.grid.cells → m ≤ temp p i) :
    ∃ d old V st, TransportOn p.grid o.albedo (temp p) d ∧ old.n = p.grid.cells ∧ (∀ i, i < p.grid.cells → old.v i = heat p i) ∧
      Solve.Volumes d.cells V ∧
      transportSolve tl o p = (do
        let s ← Solve.transport tl.num ⟨o.direction, .fundamental, o.maxIter, o.acc⟩ d CPM.E3 CPM.Ki3 p.grid.geom p.power V st
        let p ← writeForward s p.grid.energies p
        ok (p, old)) ∧
      ∀ s, Solve.transport tl.num ⟨o.direction, .fundamental, o.maxIter, o.acc⟩ d CPM.E3 CPM.Ki3 p.grid.geom p.power V st = ok s →
        ∃ p' k φ, writeForward s p.grid.energies p = ok p' ∧ Burned p k φ (Solve.fissions (Solve.reactions d) φ) p' ∧ 0 < k ∧
          (∀ x, x < p.grid.cells * p.grid.energies → 0 ≤ φ x) ∧ ∑ x ∈ range (p.grid.cells * p.grid.energies), φ x = 1 ∧
          (0 ≤ p.power → ∀ i, i < p.grid.cells → 0 ≤ heat p' i) := by
  obtain ⟨old, eo, no, vo⟩ := heatSources_ok h.furnished.mats_n
  obtain ⟨d, ed, on⟩ := transportData_ok h.shaped h.furnished h.some h.nuclear.complete h.albedo.1
  obtain ⟨V, eV, nV, vV, hV⟩ := volumes_m h.shaped
  obtain ⟨B, hf⟩ := on.body h.shaped h.some h.nuclear h.albedo.2 hT
  have hc := on.cells
  have hE := on.energies
  rw [← hc] at hV
  refine ⟨d, old, V, ⟨noModes, noModes, old, old⟩, on, no, vo, hV, ?_, fun s hs => ?_⟩
  · unfold transportSolve Settings.options
    rw [eo, ok_bind, h.energies, ed, ok_bind, eV, ok_bind, h.modes, h.e3, h.ki3]
  · obtain ⟨k, φ, hr, hk, h0, h1, hh, hpos, -⟩ := Solve.C67_transport B hf hlib (fun hg G hG e i he hi => by
        rw [hE] at he
        rw [hc] at hi
        exact hself hg _ d hT on G hG e i he hi) hV hs
    rw [hc, hE] at hr h0 h1
    rw [hc] at hh hpos
    obtain ⟨p', e, hb, hq⟩ := writeForward_ok h.furnished hr vV hh
    exact ⟨p', k, φ, e, hb, hk, h0, h1, fun hp i hi => by rw [hq i hi]; exact hpos hp i hi⟩

end

end Verif.Calc
