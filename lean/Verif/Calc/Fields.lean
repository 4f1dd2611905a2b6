import Verif.Calc.Model
import Verif.Calc.Spec
import Verif.Mesh.GlueProps

/-! # Lemmas about the fields of the reactor -/

namespace Verif.Calc

open Verif Outcome Finset Mesh

noncomputable section

/-! ### what stays the same -/

theorem SameMaterial.refl (m : Material) : SameMaterial m m := ⟨rfl, rfl, rfl, rfl, rfl, rfl, rfl, rfl, rfl⟩

theorem SameMaterial.trans {a b c : Material} (h : SameMaterial a b) (k : SameMaterial b c) : SameMaterial a c :=
  ⟨k.1.trans h.1, k.2.trans h.2, k.3.trans h.3, k.4.trans h.4, k.5.trans h.5, k.6.trans h.6, k.7.trans h.7, k.8.trans h.8, k.9.trans h.9⟩

theorem SameBody.refl (g : Grid) : SameBody g g := ⟨rfl, rfl, rfl, rfl, rfl, fun _ _ => SameMaterial.refl _⟩

theorem SameBody.trans {a b c : Grid} (h : SameBody a b) (k : SameBody b c) : SameBody a c :=
  ⟨k.1.trans h.1, k.2.trans h.2, k.3.trans h.3, k.4.trans h.4, k.5.trans h.5,
    fun i hi => (h.6 i hi).trans (k.6 i (by rw [h.cells]; exact hi))⟩

theorem Kept.refl (p : Plant) : Kept p p := ⟨SameBody.refl _, rfl, rfl, rfl⟩

theorem Kept.trans {a b c : Plant} (h : Kept a b) (k : Kept b c) : Kept a c :=
  ⟨h.1.trans k.1, k.2.trans h.2, k.3.trans h.3, k.4.trans h.4⟩

theorem SameBody.volume {g g' : Grid} (h : SameBody g g') (i : Nat) : volume g' i = volume g i := by
  unfold Calc.volume
  rw [h.bounds, h.geom]

theorem SameBody.shaped {g g' : Grid} (h : SameBody g g') (hS : Shaped g) : Shaped g' :=
  ⟨by rw [h.geom]; exact hS.geom, by rw [h.bounds, h.cells]; exact hS.bounds_n, by rw [h.geom, h.bounds]; exact hS.first,
    by rw [h.cells, h.bounds]; exact hS.incr⟩

theorem SameBody.furnished {g g' : Grid} (h : SameBody g g') (hF : Furnished g) : Furnished g' :=
  ⟨by rw [h.mats_n, h.cells]; exact hF.mats_n, fun i hi => by
    rw [h.cells] at hi
    rw [(h.mats i hi).energies, h.energies]
    exact hF.energies i hi⟩

theorem SameBody.filled {g g' : Grid} (h : SameBody g g') (hF : g.mats.n = g.cells) : g'.mats.n = g'.cells := by
  rw [h.mats_n, h.cells]
  exact hF

theorem Heated.same {g g' : Grid} {t : Nat → ℝ} (h : Heated g t g') : SameBody g g' :=
  ⟨h.1, h.2, h.3, h.4, h.7, fun i hi => by rw [h.mats i hi]; exact ⟨rfl, rfl, rfl, rfl, rfl, rfl, rfl, rfl, rfl⟩⟩

theorem Powered.same {g g' : Grid} {t : Nat → ℝ} (h : Powered g t g') : SameBody g g' :=
  ⟨h.1, h.2, h.3, h.4, h.7, fun i hi => by rw [h.mats i hi]; exact ⟨rfl, rfl, rfl, rfl, rfl, rfl, rfl, rfl, rfl⟩⟩

theorem Heated.trans {g g' g'' : Grid} {t t' : Nat → ℝ} (h : Heated g t g') (k : Heated g' t' g'') : Heated g t' g'' :=
  ⟨k.1.trans h.1, k.2.trans h.2, k.3.trans h.3, k.4.trans h.4, k.5.trans h.5, k.6.trans h.6, k.7.trans h.7, fun i hi => by
    rw [k.mats i (by rw [h.cells]; exact hi), h.mats i hi]⟩

theorem Heated.congr {g g' : Grid} {t t' : Nat → ℝ} (h : Heated g t g') (e : ∀ i, i < g.cells → t i = t' i) : Heated g t' g' :=
  ⟨h.1, h.2, h.3, h.4, h.5, h.6, h.7, fun i hi => by rw [h.mats i hi, e i hi]⟩

/-! ### writing and reading -/

theorem setTemperatures_ok {g : Grid} (hF : g.mats.n = g.cells) {t : Vec ℝ} (hn : t.n = g.cells) :
    ∃ g', setTemperatures t g = ok g' ∧ Heated g t.v g' := by
  have hb : ∀ i, i < t.n → ∀ M' : Grid, (do
      let y ← t.get i
      change (fun m => { m with T := y }) i M') = change (fun m => { m with T := t.v i }) i M' := by
    intro i hi M'
    rw [Vec.get_ok hi, ok_bind]
  obtain ⟨M', e, h1, h2, h3, h4, h5, h6, h7, h8⟩ :=
    changes_ok (fun i m => { m with T := t.v i }) t.n g (by rw [hF, hn]) hb
  exact ⟨M', e, h1, h2, h3, h4, h5, h6, h7, fun i hi => by rw [h8 i, if_pos (by omega)]⟩

theorem setHeatSources_ok {g : Grid} (hF : g.mats.n = g.cells) {t : Vec ℝ} (hn : t.n = g.cells) :
    ∃ g', setHeatSources t g = ok g' ∧ Powered g t.v g' := by
  have hb : ∀ i, i < t.n → ∀ M' : Grid, (do
      let y ← t.get i
      change (fun m => { m with q := y }) i M') = change (fun m => { m with q := t.v i }) i M' := by
    intro i hi M'
    rw [Vec.get_ok hi, ok_bind]
  obtain ⟨M', e, h1, h2, h3, h4, h5, h6, h7, h8⟩ :=
    changes_ok (fun i m => { m with q := t.v i }) t.n g (by rw [hF, hn]) hb
  exact ⟨M', e, h1, h2, h3, h4, h5, h6, h7, fun i hi => by rw [h8 i, if_pos (by omega)]⟩

theorem temperatures_ok {g : Grid} (hF : g.mats.n = g.cells) :
    ∃ x, temperatures g "C" = ok x ∧ x.n = g.cells ∧ ∀ i, i < g.cells → x.v i = (g.mats.v i).T := by
  obtain ⟨x, ex, nx, vx⟩ := perCell (M := g) (fun m => m.T) 0 hF.ge
  refine ⟨x, ?_, nx, vx⟩
  unfold temperatures
  rw [ex, ok_bind, if_pos rfl]

theorem heatSources_ok {g : Grid} (hF : g.mats.n = g.cells) :
    ∃ x, heatSources g = ok x ∧ x.n = g.cells ∧ ∀ i, i < g.cells → x.v i = (g.mats.v i).q :=
  perCell (M := g) (fun m => m.q) 0 hF.ge

/-- the relaxation of the temperatures -/
theorem heatRelax_ok {p : Plant} (hF : p.grid.mats.n = p.grid.cells) {old : Vec ℝ} (hn : old.n = p.grid.cells) (w : ℝ) :
    ∃ g', heatRelax w p old = ok { p with grid := g' } ∧ Heated p.grid (fun i => w * temp p i + (1 - w) * old.v i) g' := by
  obtain ⟨x, ex, nx, vx⟩ := temperatures_ok hF
  obtain ⟨g', e, hg⟩ := setTemperatures_ok hF (t := ⟨x.n, fun i => x.v i * w + old.v i * (1 - w)⟩) nx
  refine ⟨g', ?_, hg.congr (fun i hi => ?_)⟩
  · unfold heatRelax Heat.relax
    rw [ex, ok_bind, if_pos (nx.trans hn.symm), ok_bind, e, ok_bind]
  · dsimp only
    rw [vx i hi, temp]
    ring

/-- the relaxation of the heat sources -/
theorem powerRelax_ok {p : Plant} (hF : p.grid.mats.n = p.grid.cells) {old : Vec ℝ} (hn : old.n = p.grid.cells) (w : ℝ) :
    ∃ g', powerRelax w p old = ok { p with grid := g' } ∧ Powered p.grid (fun i => w * heat p i + (1 - w) * old.v i) g' := by
  obtain ⟨x, ex, nx, vx⟩ := heatSources_ok hF
  obtain ⟨g', e, hg⟩ := setHeatSources_ok hF (t := ⟨x.n, fun i => x.v i * w + old.v i * (1 - w)⟩) nx
  refine ⟨g', ?_, ?_⟩
  · unfold powerRelax Heat.relax
    rw [ex, ok_bind, if_pos (nx.trans hn.symm), ok_bind, e, ok_bind]
  · exact ⟨hg.1, hg.2, hg.3, hg.4, hg.5, hg.6, hg.7, fun i hi => by
      rw [hg.mats i hi]
      dsimp only
      rw [vx i hi, heat, mul_comm, mul_comm (old.v i)]⟩

/-! ### storing the results of a criticality calculation -/

theorem setFluxes_ok {g : Grid} (hF : Furnished g) {t : Box Fl} (hb : t.b = g.cells) :
    ∃ g', setFluxes t g = ok g' ∧ SameBody g g' ∧ g'.nForward = g.nForward ∧ g'.nAdjoint = g.nAdjoint ∧ ∀ i, i < g.cells →
      (g'.mats.v i).T = (g.mats.v i).T ∧ (g'.mats.v i).q = (g.mats.v i).q ∧ (g'.mats.v i).adj = (g.mats.v i).adj ∧
      (g'.mats.v i).flux.r = t.a ∧ (g'.mats.v i).flux.c = t.c ∧
      ∀ e, e < t.a → ∀ k, k < t.c → (g'.mats.v i).flux.m e k = t.v e i k := by
  have ch : ∀ m, m < t.b → ∃ X, chip t m = ok X ∧ X.r = t.a ∧ X.c = t.c ∧ ∀ i, i < t.a → ∀ k, k < t.c → X.m i k = t.v i m k :=
    fun m hm => chip_ok hm
  have : Nonempty (Mat Fl) := ⟨⟨0, 0, fun _ _ => .nan⟩⟩
  choose! X hX hr hcc hv using ch
  have hb1 : ∀ i, i < t.b → ∀ M' : Grid, (do
      let x ← chip t i
      change (fun mat => { mat with flux := x }) i M') = change (fun mat => { mat with flux := X i }) i M' := by
    intro i hi M'
    rw [hX i hi, ok_bind]
  obtain ⟨M', e, h1, h2, h3, h4, h5, h6, h7, h8⟩ :=
    changes_ok (fun i m => { m with flux := X i }) t.b g (by rw [hF.mats_n, hb]) hb1
  refine ⟨M', e, ⟨h1, h2, h3, h4, h7, fun i hi => ?_⟩, h5, h6, fun i hi => ?_⟩
  · rw [h8 i, if_pos (by omega)]
    exact ⟨rfl, rfl, rfl, rfl, rfl, rfl, rfl, rfl, rfl⟩
  · rw [h8 i, if_pos (by omega)]
    exact ⟨rfl, rfl, rfl, hr i (by omega), hcc i (by omega), hv i (by omega)⟩

theorem setAdjoints_ok {g : Grid} (hF : Furnished g) {t : Box Fl} (hb : t.b = g.cells) :
    ∃ g', setAdjoints t g = ok g' ∧ SameBody g g' ∧ g'.nForward = g.nForward ∧ g'.nAdjoint = g.nAdjoint ∧ ∀ i, i < g.cells →
      (g'.mats.v i).T = (g.mats.v i).T ∧ (g'.mats.v i).q = (g.mats.v i).q ∧ (g'.mats.v i).flux = (g.mats.v i).flux ∧
      (g'.mats.v i).adj.r = t.a ∧ (g'.mats.v i).adj.c = t.c ∧
      ∀ e, e < t.a → ∀ k, k < t.c → (g'.mats.v i).adj.m e k = t.v e i k := by
  have ch : ∀ m, m < t.b → ∃ X, chip t m = ok X ∧ X.r = t.a ∧ X.c = t.c ∧ ∀ i, i < t.a → ∀ k, k < t.c → X.m i k = t.v i m k :=
    fun m hm => chip_ok hm
  have : Nonempty (Mat Fl) := ⟨⟨0, 0, fun _ _ => .nan⟩⟩
  choose! X hX hr hcc hv using ch
  have hb1 : ∀ i, i < t.b → ∀ M' : Grid, (do
      let x ← chip t i
      change (fun mat => { mat with adj := x }) i M') = change (fun mat => { mat with adj := X i }) i M' := by
    intro i hi M'
    rw [hX i hi, ok_bind]
  obtain ⟨M', e, h1, h2, h3, h4, h5, h6, h7, h8⟩ :=
    changes_ok (fun i m => { m with adj := X i }) t.b g (by rw [hF.mats_n, hb]) hb1
  refine ⟨M', e, ⟨h1, h2, h3, h4, h7, fun i hi => ?_⟩, h5, h6, fun i hi => ?_⟩
  · rw [h8 i, if_pos (by omega)]
    exact ⟨rfl, rfl, rfl, rfl, rfl, rfl, rfl, rfl, rfl⟩
  · rw [h8 i, if_pos (by omega)]
    exact ⟨rfl, rfl, rfl, hr i (by omega), hcc i (by omega), hv i (by omega)⟩

/-! ### the data of the solvers, without any condition on their signs -/

theorem diffusionData_ok {g : Grid} (hS : Shaped g) (hF : Furnished g) (hc : ∀ i, i < g.cells → Complete (g.mats.v i) g.energies)
    (hD : ∀ i, i < g.cells → g.energies ≤ (g.mats.v i).diff.length) (alb : Vec ℝ) :
    ∃ d, diffusionData g g.energies alb = ok d ∧ DiffusionOn g alb (fun i => (g.mats.v i).T) d := by
  obtain ⟨-, V, eV, nV, vV, pV, -⟩ := C31_volumes hS
  obtain ⟨-, U, eU, nU, vU⟩ := C31_surfaces hS.geom
  obtain ⟨-, ⟨Z, eZ, nZ, vZ⟩, -⟩ := C31_cells hS
  obtain ⟨⟨tot, et, rt, ct, vt⟩, ⟨fiss, ef, rf, cf, vf⟩, ⟨nu, en, rn, cn, vn⟩, ⟨chi, ex, rx, cx, vx⟩, ⟨s, es, vs⟩⟩ := get_tables hF hc
  obtain ⟨D, eD, rD, cD, vD⟩ := (C39_tables hF).2.2.1 hD
  have hb := hS.bounds_n
  refine ⟨{ cells := g.cells, energies := g.energies, geom := g.geom, albedo := alb, D := D, tot := tot, fiss := fiss, nu := nu,
            chi := chi, scatt := s.v, vol := V, surf := U, size := Z }, ?_,
    ⟨rD, cD, rt, ct, rf, cf, rn, cn, rx, cx, nV, nU.trans hb, nZ⟩, rfl, rfl, rfl, rfl, vZ, vV, fun i hi => vU i (by omega),
    fun e i he hi => vD e he i hi, fun e i he hi => vt e he i hi, fun e i he hi => vf e he i hi, fun e i he hi => vn e he i hi,
    fun e i he hi => vx e he i hi, fun e f i he hf hi => vs e he f hf i hi⟩
  unfold diffusionData
  rw [eV, ok_bind, eU, ok_bind, eZ, ok_bind, eD, ok_bind, et, ok_bind, es, ok_bind, ef, ok_bind, ex, ok_bind, en, ok_bind]

theorem transportData_ok {g : Grid} (hS : Shaped g) (hF : Furnished g) (hcells : 0 < g.cells)
    (hc : ∀ i, i < g.cells → Complete (g.mats.v i) g.energies) {alb : Vec ℝ} (ha : 0 < alb.n) :
    ∃ d, transportData g g.energies alb = ok d ∧ TransportOn g alb (fun i => (g.mats.v i).T) d := by
  obtain ⟨-, V, eV, nV, vV, pV, -⟩ := C31_volumes hS
  obtain ⟨⟨tot, et, rt, ct, vt⟩, ⟨fiss, ef, rf, cf, vf⟩, ⟨nu, en, rn, cn, vn⟩, ⟨chi, ex, rx, cx, vx⟩, ⟨s, es, vs⟩⟩ := get_tables hF hc
  have hsurf : ∃ S, externalSurface g "cm" = ok S ∧ 0 < S ∧ (g.geom ≠ .sphere → S = area g.geom (100 * g.bounds.v g.cells)) := by
    have hp : 0 < area g.geom (100 * g.bounds.v g.cells) := by
      rw [← area_scale]
      have := area_pos hS (i := g.cells - 1) (by omega)
      rw [Nat.sub_add_cancel hcells] at this
      positivity
    by_cases hg : g.geom = .sphere
    · refine ⟨_, (C31_external_sphere_false hS hg hcells).1, ?_, fun h => absurd hg h⟩
      rw [hg] at hp
      positivity
    · exact ⟨_, (C31_external_partial hS).2 hg, hp, fun _ => rfl⟩
  obtain ⟨S, eS, pS, vS⟩ := hsurf
  have rad : ∀ i, (boundaries g "cm").v i = 100 * g.bounds.v i := fun i => by rw [boundaries, unit_cm]; ring
  refine ⟨{ cells := g.cells, energies := g.energies, albedo := alb, radii := boundaries g "cm", vol := V, surface := S, tot := tot,
            fiss := fiss, nu := nu, chi := chi, scatt := s.v }, ?_, ⟨ha, ?_, nV, rt, ct, rf, cf, rn, cn, rx, cx⟩, rfl, rfl, rfl, rad,
    fun i hi => ?_, pS, fun hg => ?_, fun e i he hi => vt e he i hi, fun e i he hi => vf e he i hi, fun e i he hi => vn e he i hi,
    fun e i he hi => vx e he i hi, fun e f i he hf hi => vs e he f hf i hi⟩
  · unfold transportData
    rw [eV, ok_bind, et, ok_bind, eS, ok_bind, es, ok_bind, ef, ok_bind, ex, ok_bind, en, ok_bind]
  · show (boundaries g "cm").n = g.cells + 1
    rw [boundaries, unit_cm]
    exact hS.bounds_n
  · dsimp only
    rw [vV i hi, rad, rad]
  · dsimp only
    rw [vS hg, rad]

/-- the volumes in m³ -/
theorem volumes_m {g : Grid} (hS : Shaped g) :
    ∃ V, volumes g "m" = ok V ∧ V.n = g.cells ∧ (∀ i, i < g.cells → V.v i = volume g i) ∧ Solve.Volumes g.cells V := by
  obtain ⟨⟨V, eV, nV, vV, pV, -⟩, -⟩ := C31_volumes hS
  exact ⟨V, eV, nV, vV, nV, pV⟩

end

end Verif.Calc
