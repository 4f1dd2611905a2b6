import Verif.Calc.CoupledProps

/-! # The last pass of neutronics coupled with heat conduction (lemmas) -/

namespace Verif.Calc

open Verif Outcome Finset Mesh

noncomputable section

section Generic

variable {R M N : Type} {big : List Fl → Fl} {a : Part R M} {b : Part R N} {w acc : ℝ} {maxIter : Int}

/-- the last pass and the one before, with an invariant -/
theorem loop_last_kept {Inv Mid : Nat → R → Prop} (ha : ∀ i r r' x, Inv i r → Half a w i r r' x → Mid i r')
    (hb : ∀ i r r' y, Mid i r → Half b w i r r' y → Inv (i + 1) r') (fuel : Nat) : ∀ i x' y' r r' j, Inv i r →
    (i ≠ 0 → ∃ r0 s0, Inv (i - 1) r0 ∧ Mid (i - 1) s0 ∧ Half a w (i - 1) r0 s0 x' ∧ Half b w (i - 1) s0 r y') →
    coupledLoop big a b w acc maxIter fuel i x' y' r = ok (r', j) →
      ∃ r s x y x' y' e, Inv j r ∧ Mid j s ∧ Inv (j + 1) r' ∧ Half a w j r s x ∧ Half b w j s r' y ∧
        (j ≠ 0 → ∃ r0 s0, Inv (j - 1) r0 ∧ Mid (j - 1) s0 ∧ Half a w (j - 1) r0 s0 x' ∧ Half b w (j - 1) s0 r y') ∧
        differences big j x y x' y' = ok e ∧ e.1.le (.fin acc) ∧ e.2.le (.fin acc) := by
  induction fuel with
  | zero =>
    intro i x y r r' j _ _ h
    unfold coupledLoop notConverged at h
    split_ifs at h
  | succ fuel ih =>
    intro i x' y' r r' j hr hi h
    unfold coupledLoop at h
    obtain ⟨⟨s, u⟩, h1, h⟩ := bind_eq_ok.1 h
    obtain ⟨⟨t, v⟩, h2, h⟩ := bind_eq_ok.1 h
    obtain ⟨e, h3, h⟩ := bind_eq_ok.1 h
    have g1 := partPass_ok.1 h1
    have g2 := partPass_ok.1 h2
    have m1 := ha i _ _ _ hr g1
    have m2 := hb i _ _ _ m1 g2
    split_ifs at h with hc
    · cases h
      exact ⟨r, s, u, v, x', y', e, hr, m1, m2, g1, g2, hi, h3, hc.1, hc.2⟩
    · exact ih (i + 1) u v t r' j m2 (fun _ => ⟨r, s, hr, m1, g1, g2⟩) h

end Generic

variable {p0 : Plant} {m w : ℝ}

theorem Powered.congr {g g' : Grid} {t t' : Nat → ℝ} (h : Powered g t g') (e : ∀ i, i < g.cells → t i = t' i) : Powered g t' g' :=
  ⟨h.1, h.2, h.3, h.4, h.5, h.6, h.7, fun i hi => by rw [h.mats i hi, e i hi]⟩

/-- neutronics in one pass, and what is stored -/
theorem critical_last {a : Part Plant (Vec ℝ)} (hF : p0.grid.mats.n = p0.grid.cells) (h : Critical a p0 m)
    {i : Nat} {p p' : Plant} {x : Param} (hp1 : Fine p0 m p) (hh : Half a w i p p' x) :
    ∃ q old k, a.solve p = ok (q, old) ∧ Kept p0 q ∧ (∀ i, i < p0.grid.cells → temp q i = temp p i) ∧ 0 < k ∧ q.kForward = [.fin k] ∧ x = .num (.fin k) ∧
      (i = 0 → p' = q) ∧
      (i ≠ 0 → ∃ g', p' = { q with grid := g' } ∧ Powered q.grid (fun j => w * heat q j + (1 - w) * heat p j) g') := by
  obtain ⟨q, old, h1, h2, h3, h4⟩ := hh
  obtain ⟨no, vo, k1, k2, k3, ⟨k, hk, k4⟩, k5⟩ := h.step p q old hp1.kept hp1.temps h1
  have hc := k1.body.cells
  refine ⟨q, old, k, h1, k1, k2, hk, k4, ?_, h3, fun hi => ?_⟩
  · rw [h.main] at h2
    unfold kMain at h2
    rw [k4] at h2
    cases h2
    rfl
  · obtain ⟨g', e, hg⟩ := powerRelax_ok (k1.body.filled hF) (old := old) (by rw [hc]; exact no) w
    have h5 := h4 hi
    rw [h.relax, e] at h5
    cases h5
    exact ⟨g', rfl, hg.congr (fun j hj => by rw [vo j (by rw [← hc]; exact hj)])⟩

variable {c : Nat → Vec ℝ} {AL BL CL AR BR CR : ℝ} {tl : Tools} {o : Settings}

/-- heat conduction in one pass, and what is stored -/
theorem heat_last (h : Conducting p0.grid c o.bc AL BL CL AR BR CR m) (hlin : LinSolves tl.lin)
    {i : Nat} {p p' : Plant} {x : Param} (hp1 : Fine p0 m p) (hq : ∀ i, i < p0.grid.cells → 0 ≤ heat p i)
    (hh : Half (heatPart tl o) w i p p' x) :
    ∃ t g old, heatSolve tl o p = ok ({ p with grid := g }, old) ∧ Heated p.grid t g ∧ (∀ i, i < p0.grid.cells → m ≤ t i) ∧
      (∃ v : Vec Fl, x = .vec v ∧ v.n = p0.grid.cells ∧ ∀ i, i < p0.grid.cells → v.v i = .fin (t i)) ∧
      ∃ g', p' = { p with grid := g' } ∧ Heated p.grid (fun j => if i = 0 then t j else w * t j + (1 - w) * temp p j) g' := by
  obtain ⟨q, old, h1, h2, h3, h4⟩ := hh
  have hc := hp1.kept.body.cells
  change heatSolve tl o p = _ at h1
  rcases heatSolve_cases (tl := tl) (o := o) (h.same hp1.kept.body) hlin (fun i hi => hq i (by rw [← hc]; exact hi))
    (fun i hi => hp1.temps i (by rw [← hc]; exact hi)) with ⟨g', old', t, e, hg, no, vo, low⟩ | e
  · rw [h1] at e
    cases e
    have hF : g'.mats.n = g'.cells := hg.same.filled ((h.same hp1.kept.body).mats_n)
    refine ⟨t, g', old, h1, hg, fun i hi => low i (by rw [hc]; exact hi), ?_, ?_⟩
    · obtain ⟨y, ey, ny, vy⟩ := temperatures_ok hF
      change (temperatures g' "C" >>= _) = _ at h2
      rw [ey, ok_bind] at h2
      cases h2
      have e : g'.cells = p0.grid.cells := hg.cells.trans hc
      refine ⟨_, rfl, ny.trans e, fun i hi => ?_⟩
      dsimp only
      rw [vy i (by rw [e]; exact hi), hg.mats i (by rw [hc]; exact hi)]
    · by_cases hi : i = 0
      · refine ⟨g', h3 hi, hg.congr (fun j _ => ?_)⟩
        rw [if_pos hi]
      · obtain ⟨g'', e, hg'⟩ := heatRelax_ok (p := { p with grid := g' }) hF (old := old) (by rw [no]; exact hg.cells.symm) w
        have h5 := h4 hi
        change heatRelax w _ old = _ at h5
        rw [e] at h5
        cases h5
        refine ⟨g'', rfl, (hg.trans hg').congr (fun j hj => ?_)⟩
        have e1 : temp { p with grid := g' } j = t j := by
          show (g'.mats.v j).T = _
          rw [hg.mats j hj]
        rw [if_neg hi, e1, vo j hj]
  · rw [e] at h1
    unfold notConverged at h1
    split_ifs at h1

/-- How a coupled calculation of the criticality solver `a` and the heat solver `o` ends: `r` is the reactor before the last pass, in which neutronics turns `pN` into `qN` and heat
conduction gives `pH` the temperatures `t`. -/
structure LastPass (a : Part Plant (Vec ℝ)) (tl : Tools) (o : Settings) (w acc : ℝ) (p0 : Plant) (m : ℝ) (first : Bool) (p' r pN qN pH : Plant) (t : Nat → ℝ) : Prop where
  before : InOrder p0 m r
  after : InOrder p0 m p'
  fineN : Fine p0 m pN
  fineH : Fine p0 m pH
  sources : ∀ i, i < p0.grid.cells → 0 ≤ heat pH i
  neutronics : ∃ old, a.solve pN = ok (qN, old)
  conduction : ∃ g old, heatSolve tl o pH = ok ({ pH with grid := g }, old) ∧ Heated pH.grid t g
  heat : ∀ i, i < p0.grid.cells → heat p' i = w * heat qN i + (1 - w) * heat r i
  temp : ∀ i, i < p0.grid.cells → temp p' i = w * t i + (1 - w) * temp r i
  k : p'.kForward = qN.kForward
  modes : p'.grid.nForward = qN.grid.nForward
  flux : ∀ i, i < p0.grid.cells → (p'.grid.mats.v i).flux = (qN.grid.mats.v i).flux
  tempN : ∀ i, i < p0.grid.cells → Calc.temp pN i = if first then Calc.temp r i else Calc.temp p' i
  heatH : ∀ i, i < p0.grid.cells → Calc.heat pH i = if first then Calc.heat p' i else Calc.heat r i
  close : ∃ k k', qN.kForward = [.fin k] ∧ r.kForward = [.fin k'] ∧ |k - k'| ≤ acc * |k|
  low : ∀ i, i < p0.grid.cells → m ≤ t i
  calm : ∃ t' T' : Nat → ℝ, ∀ i, i < p0.grid.cells → |t i - t' i| ≤ acc ∧ m ≤ t' i ∧ m ≤ T' i ∧ Calc.temp r i = w * t' i + (1 - w) * T' i

theorem heated_temp {p : Plant} {g : Grid} {t : Nat → ℝ} (h : Heated p.grid t g) {i : Nat} (hi : i < p.grid.cells) :
    temp { p with grid := g } i = t i ∧ heat { p with grid := g } i = heat p i ∧ (g.mats.v i).flux = (p.grid.mats.v i).flux := by
  have := h.mats i hi
  refine ⟨?_, ?_, ?_⟩
  · show (g.mats.v i).T = _
    rw [this]
  · show (g.mats.v i).q = _
    rw [this]
    rfl
  · rw [this]

theorem powered_heat {p : Plant} {g : Grid} {t : Nat → ℝ} (h : Powered p.grid t g) {i : Nat} (hi : i < p.grid.cells) :
    heat { p with grid := g } i = t i ∧ temp { p with grid := g } i = temp p i ∧ (g.mats.v i).flux = (p.grid.mats.v i).flux := by
  have := h.mats i hi
  refine ⟨?_, ?_, ?_⟩
  · show (g.mats.v i).q = _
    rw [this]
  · show (g.mats.v i).T = _
    rw [this]
    rfl
  · rw [this]

theorem near_field {big : List Fl → Fl} (hbig : Largest big) {N : Nat} (hN : 0 < N) {u v : Vec Fl} {t t' : Nat → ℝ} (hu : u.n = N) (hv : v.n = N)
    (eu : ∀ i, i < N → u.v i = .fin (t i)) (ev : ∀ i, i < N → v.v i = .fin (t' i)) {e : Fl} {acc : ℝ} (hd : difference big (.vec u) (.vec v) = ok e)
    (he : e.le (.fin acc)) : ∀ i, i < N → |t i - t' i| ≤ acc := by
  obtain ⟨e', he', hnear⟩ := difference_ok hbig (s := .field N) (x := .vec u) (y := .vec v) ⟨hN, _, rfl, hu, fun i hi => ⟨_, eu i hi⟩⟩
    ⟨hN, _, rfl, hv, fun i hi => ⟨_, ev i hi⟩⟩ (acc := acc)
  rw [hd] at he'
  cases he'
  intro i hi
  obtain ⟨y, z, hy, hz, hyz⟩ := hnear.1 he i (by rw [hu]; exact hi)
  rw [eu i hi] at hy
  rw [ev i hi] at hz
  cases hy
  cases hz
  exact hyz

theorem near_k {big : List Fl → Fl} {k k' : ℝ} {e : Fl} {acc : ℝ} (hd : difference big (.num (.fin k)) (.num (.fin k')) = ok e) (he : e.le (.fin acc)) :
    |k - k'| ≤ acc * |k| := by
  cases hd
  obtain ⟨u, v, hu, hv, -, hle⟩ := near_num.1 he
  cases hu
  cases hv
  exact hle

theorem first_last {a : Part Plant (Vec ℝ)} (h : Conducting p0.grid c o.bc AL BL CL AR BR CR m) (hlin : LinSolves tl.lin)
    (ha : Critical a p0 m) (hp : 0 ≤ p0.power) (hw : 0 ≤ w ∧ w ≤ 1) (hT : ∀ i, i < p0.grid.cells → m ≤ temp p0 i)
    {big : List Fl → Fl} (hbig : Largest big) {acc : ℝ} (hacc : acc < 1) {maxIter : Int} {p' : Plant} {j : Nat}
    (hrun : coupled big a (heatPart tl o) w acc maxIter p0 = ok (p', j)) : ∃ r pN qN pH t, LastPass a tl o w acc p0 m true p' r pN qN pH t := by
  have hj := C28_twice hacc hrun
  have key := loop_last_kept (a := a) (b := heatPart tl o) (w := w)
    (Inv := fun i p => Fine p0 m p ∧ (i ≠ 0 → (∀ i, i < p0.grid.cells → 0 ≤ heat p i) ∧ Normal p0 p))
    (Mid := fun _ p => Fine p0 m p ∧ (∀ i, i < p0.grid.cells → 0 ≤ heat p i) ∧ Normal p0 p)
    (fun i r r' x hi hh => by
      obtain ⟨k1, k2, k3, -⟩ := critical_half h.mats_n ha hp hw hi.1 (fun h0 => ⟨(hi.2 h0).1, (hi.2 h0).2.total⟩) hh
      exact ⟨k1, k2, k3⟩)
    (fun i r r' y hi hh => by
      obtain ⟨k1, k2, k3, k4⟩ := heat_half h hlin hw hi.1 hi.2.1 hh
      exact ⟨k1, fun _ => ⟨fun i' hi' => by rw [k2 i' hi']; exact hi.2.1 i' hi', ⟨by rw [k3]; exact hi.2.2.total, by
        rw [k4]; exact hi.2.2.k⟩⟩⟩)
    _ _ _ _ _ _ _ ⟨⟨Kept.refl _, hT⟩, fun h0 => absurd rfl h0⟩ (fun h0 => absurd rfl h0) hrun
  obtain ⟨r, s, x, y, x', y', e, i1, i2, i3, h1, h2, h3, h4, h5, h6⟩ := key
  obtain ⟨r0, s0, i4, i5, h7, h8⟩ := h3 (by omega)
  obtain ⟨r0h, r0n⟩ := i1.2 (by omega)
  obtain ⟨p0h, p0n⟩ := i3.2 (by omega)
  obtain ⟨q, old, k, a1, a2, a3, -, a4, rfl, -, a6⟩ := critical_last h.mats_n ha i1.1 h1
  obtain ⟨g, rfl, a5⟩ := a6 (by omega)
  obtain ⟨t, gh, old', b1, b2, b6, ⟨v, rfl, b3, b4⟩, g', rfl, b5⟩ := heat_last h hlin i2.1 i2.2.1 h2
  obtain ⟨q0, old0, k', -, -, -, -, c4, rfl, c5, c6⟩ := critical_last h.mats_n ha i4.1 h7
  obtain ⟨t', -, -, -, -, d6, ⟨v', rfl, d3, d4⟩, g0, rfl, d5⟩ := heat_last h hlin i5.1 i5.2.1 h8
  have hk' : s0.kForward = [.fin k'] := by
    by_cases hj0 : j - 1 = 0
    · rw [c5 hj0, c4]
    · obtain ⟨g1, e1, -⟩ := c6 hj0
      rw [e1]
      exact c4
  unfold differences at h4
  rw [if_pos (by omega)] at h4
  obtain ⟨e1, k9, h4⟩ := bind_eq_ok.1 h4
  obtain ⟨e2, k10, h4⟩ := bind_eq_ok.1 h4
  cases h4
  have hcq : q.grid.cells = p0.grid.cells := a2.body.cells
  have hcg : g.cells = p0.grid.cells := a5.cells.trans hcq
  have hcs : s0.grid.cells = p0.grid.cells := i5.1.kept.body.cells
  have hN : 0 < p0.grid.cells := by
    have := h.two
    omega
  have fs : ∀ i, i < p0.grid.cells → heat { q with grid := g } i = w * heat q i + (1 - w) * heat { s0 with grid := g0 } i ∧
      temp { q with grid := g } i = temp { s0 with grid := g0 } i ∧ (g.mats.v i).flux = (q.grid.mats.v i).flux := fun i hi => by
    obtain ⟨f1, f2, f3⟩ := powered_heat a5 (i := i) (by rw [hcq]; exact hi)
    exact ⟨f1, f2.trans (a3 i hi), f3⟩
  have fp : ∀ i, i < p0.grid.cells → temp { q with grid := g' } i = w * t i + (1 - w) * temp { q with grid := g } i ∧
      heat { q with grid := g' } i = heat { q with grid := g } i ∧ (g'.mats.v i).flux = (g.mats.v i).flux := fun i hi => by
    obtain ⟨f1, f2, f3⟩ := heated_temp (p := { q with grid := g }) b5 (i := i) (by show i < g.cells; rw [hcg]; exact hi)
    refine ⟨?_, f2, f3⟩
    rw [if_neg (by omega)] at f1
    exact f1
  refine ⟨_, _, q, { q with grid := g }, t, ⟨i1.1.kept, i1.1.temps, r0h, r0n.total, r0n.k⟩, ⟨i3.1.kept, i3.1.temps, p0h, p0n.total, p0n.k⟩, i1.1, i2.1, i2.2.1, ⟨old, a1⟩,
    ⟨gh, old', b1, b2⟩, fun i hi => ?_, fun i hi => ?_, rfl, ?_, fun i hi => ?_, fun i hi => rfl, fun i hi => ?_, ⟨k, k', a4, hk', near_k k9 h5⟩,
    b6, t', fun i => if j - 1 = 0 then t' i else temp s0 i, fun i hi => ⟨near_field hbig hN b3 d3 b4 d4 k10 h6 i hi, d6 i hi, ?_, ?_⟩⟩
  · rw [(fp i hi).2.1, (fs i hi).1]
  · rw [(fp i hi).1, (fs i hi).2.1]
  · exact b5.nForward.trans a5.nForward
  · exact (fp i hi).2.2.trans (fs i hi).2.2
  · exact ((fp i hi).2.1).symm
  · dsimp only
    split_ifs
    · exact d6 i hi
    · exact i5.1.temps i hi
  · obtain ⟨f1, -⟩ := heated_temp d5 (i := i) (by rw [hcs]; exact hi)
    rw [f1]
    dsimp only
    split_ifs
    · ring
    · rfl

theorem second_last {a : Part Plant (Vec ℝ)} (h : Conducting p0.grid c o.bc AL BL CL AR BR CR m) (hlin : LinSolves tl.lin)
    (ha : Critical a p0 m) (hp : 0 ≤ p0.power) (hw : 0 ≤ w ∧ w ≤ 1) (hT : ∀ i, i < p0.grid.cells → m ≤ temp p0 i)
    (hq : ∀ i, i < p0.grid.cells → 0 ≤ heat p0 i)
    {big : List Fl → Fl} (hbig : Largest big) {acc : ℝ} (hacc : acc < 1) {maxIter : Int} {p' : Plant} {j : Nat}
    (hrun : coupled big (heatPart tl o) a w acc maxIter p0 = ok (p', j)) : ∃ r pN qN pH t, LastPass a tl o w acc p0 m false p' r pN qN pH t := by
  have hj := C28_twice hacc hrun
  have key := loop_last_kept (a := heatPart tl o) (b := a) (w := w)
    (Inv := fun i p => Fine p0 m p ∧ (∀ i, i < p0.grid.cells → 0 ≤ heat p i) ∧ (i ≠ 0 → Normal p0 p))
    (Mid := fun i p => Fine p0 m p ∧ (∀ i, i < p0.grid.cells → 0 ≤ heat p i) ∧ (i ≠ 0 → Normal p0 p))
    (fun i r r' y hi hh => by
      obtain ⟨k1, k2, k3, k4⟩ := heat_half h hlin hw hi.1 hi.2.1 hh
      exact ⟨k1, fun i' hi' => by rw [k2 i' hi']; exact hi.2.1 i' hi', fun h0 => ⟨by rw [k3]; exact (hi.2.2 h0).total, by
        rw [k4]; exact (hi.2.2 h0).k⟩⟩)
    (fun i r r' x hi hh => by
      obtain ⟨k1, k2, k3, -⟩ := critical_half h.mats_n ha hp hw hi.1 (fun h0 => ⟨hi.2.1, (hi.2.2 h0).total⟩) hh
      exact ⟨k1, k2, fun _ => k3⟩)
    _ _ _ _ _ _ _ ⟨⟨Kept.refl _, hT⟩, hq, fun h0 => absurd rfl h0⟩ (fun h0 => absurd rfl h0) hrun
  obtain ⟨r, s, y, x, y', x', e, i1, i2, i3, h1, h2, h3, h4, h5, h6⟩ := key
  obtain ⟨r0, s0, i4, i5, h7, h8⟩ := h3 (by omega)
  obtain ⟨i1f, r0h, r0n⟩ := i1
  obtain ⟨i3f, p0h, p0n⟩ := i3
  have r0n := r0n (by omega)
  have p0n := p0n (by omega)
  obtain ⟨t, gh, old', b1, b2, b6, ⟨v, rfl, b3, b4⟩, g', rfl, b5⟩ := heat_last h hlin i1f r0h h1
  obtain ⟨q, old, k, a1, a2, a3, -, a4, rfl, -, a6⟩ := critical_last h.mats_n ha i2.1 h2
  obtain ⟨g, rfl, a5⟩ := a6 (by omega)
  obtain ⟨t', -, -, -, -, d6, ⟨v', rfl, d3, d4⟩, g0, rfl, d5⟩ := heat_last h hlin i4.1 i4.2.1 h7
  obtain ⟨q0, old0, k', -, c2, c3, -, c4, rfl, c5, c6⟩ := critical_last h.mats_n ha i5.1 h8
  have hk' : r.kForward = [.fin k'] := by
    by_cases hj0 : j - 1 = 0
    · rw [c5 hj0, c4]
    · obtain ⟨g1, e1, -⟩ := c6 hj0
      rw [e1]
      exact c4
  have htr : ∀ i, i < p0.grid.cells → temp r i = temp { r0 with grid := g0 } i := fun i hi => by
    by_cases hj0 : j - 1 = 0
    · rw [c5 hj0, c3 i hi]
    · obtain ⟨g1, e1, hg1⟩ := c6 hj0
      rw [e1, (powered_heat hg1 (i := i) (by rw [c2.body.cells]; exact hi)).2.1, c3 i hi]
  unfold differences at h4
  rw [if_pos (by omega)] at h4
  obtain ⟨e1, k9, h4⟩ := bind_eq_ok.1 h4
  obtain ⟨e2, k10, h4⟩ := bind_eq_ok.1 h4
  cases h4
  have hcr : r.grid.cells = p0.grid.cells := i1f.kept.body.cells
  have hcq : q.grid.cells = p0.grid.cells := a2.body.cells
  have hcr0 : r0.grid.cells = p0.grid.cells := i4.1.kept.body.cells
  have hN : 0 < p0.grid.cells := by
    have := h.two
    omega
  have fs : ∀ i, i < p0.grid.cells → temp { r with grid := g' } i = w * t i + (1 - w) * temp r i ∧ heat { r with grid := g' } i = heat r i := fun i hi => by
    obtain ⟨f1, f2, f3⟩ := heated_temp b5 (i := i) (by rw [hcr]; exact hi)
    refine ⟨?_, f2⟩
    rw [if_neg (by omega)] at f1
    exact f1
  have fp : ∀ i, i < p0.grid.cells → heat { q with grid := g } i = w * heat q i + (1 - w) * heat r i ∧
      temp { q with grid := g } i = temp { r with grid := g' } i ∧ (g.mats.v i).flux = (q.grid.mats.v i).flux := fun i hi => by
    obtain ⟨f1, f2, f3⟩ := powered_heat a5 (i := i) (by rw [hcq]; exact hi)
    exact ⟨by rw [f1, (fs i hi).2], f2.trans (a3 i hi), f3⟩
  refine ⟨r, { r with grid := g' }, q, r, t, ⟨i1f.kept, i1f.temps, r0h, r0n.total, r0n.k⟩, ⟨i3f.kept, i3f.temps, p0h, p0n.total, p0n.k⟩, i2.1, i1f, r0h, ⟨old, a1⟩,
    ⟨gh, old', b1, b2⟩, fun i hi => (fp i hi).1, fun i hi => ?_, rfl, a5.nForward, fun i hi => (fp i hi).2.2, fun i hi => ?_, fun i hi => rfl,
    ⟨k, k', a4, hk', near_k k10 h6⟩, b6, t', fun i => if j - 1 = 0 then t' i else temp r0 i, fun i hi => ⟨near_field hbig hN b3 d3 b4 d4 k9 h5 i hi, d6 i hi, ?_, ?_⟩⟩
  · rw [(fp i hi).2.1, (fs i hi).1]
  · exact ((fp i hi).2.1).symm
  · dsimp only
    split_ifs
    · exact d6 i hi
    · exact i4.1.temps i hi
  · obtain ⟨f1, -⟩ := heated_temp d5 (i := i) (by rw [hcr0]; exact hi)
    rw [htr i hi, f1]
    dsimp only
    split_ifs
    · ring
    · rfl

end

end Verif.Calc
