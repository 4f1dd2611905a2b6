import Verif.Calc.NeutronRun
import Verif.Calc.Loop
import Verif.Solve.Safe

/-! # Lemmas about neutronics coupled with heat conduction -/

namespace Verif.Calc

open Verif Outcome Finset Mesh

noncomputable section

open scoped Classical

/-! ### any two solvers -/

section Generic

variable {R M N : Type} {a : Part R M} {b : Part R N} {w acc : ℝ} {maxIter : Int} {big : List Fl → Fl}

/-- an invariant of the passes holds at the end -/
theorem loop_kept {Inv Mid : Nat → R → Prop} (ha : ∀ i r r' x, Inv i r → Half a w i r r' x → Mid i r')
    (hb : ∀ i r r' y, Mid i r → Half b w i r r' y → Inv (i + 1) r') (fuel : Nat) :
    ∀ i x y r r' j, Inv i r → coupledLoop big a b w acc maxIter fuel i x y r = ok (r', j) → i ≤ j ∧ Inv (j + 1) r' := by
  induction fuel with
  | zero =>
    intro i x y r r' j _ h
    unfold coupledLoop notConverged at h
    split_ifs at h <;> cases h
  | succ fuel ih =>
    intro i x y r r' j hi h
    unfold coupledLoop at h
    obtain ⟨⟨s, u⟩, h1, h⟩ := bind_eq_ok.1 h
    obtain ⟨⟨t, v⟩, h2, h⟩ := bind_eq_ok.1 h
    obtain ⟨e, -, h⟩ := bind_eq_ok.1 h
    have hn := hb i _ _ _ (ha i _ _ _ hi (partPass_ok.1 h1)) (partPass_ok.1 h2)
    split_ifs at h
    · cases h
      exact ⟨le_rfl, hn⟩
    · obtain ⟨g1, g2⟩ := ih _ _ _ _ _ _ hn h
      exact ⟨by omega, g2⟩

/-- passes that end with results or with a message -/
theorem loop_safe (hbig : Largest big) {sa sb : Shape} (hm : maxIter ≠ 2147483647) {Inv Mid : Nat → R → Prop}
    (ha : ∀ i r, Inv i r → partPass a w i r = exit ∨ ∃ r' x, partPass a w i r = ok (r', x) ∧ Mid i r' ∧ Has sa x)
    (hb : ∀ i r, Mid i r → partPass b w i r = exit ∨ ∃ r' y, partPass b w i r = ok (r', y) ∧ Inv (i + 1) r' ∧ Has sb y) (fuel : Nat) :
    ∀ i x' y' r, Inv i r → (i ≠ 0 → Has sa x' ∧ Has sb y') →
      coupledLoop big a b w acc maxIter fuel i x' y' r = exit ∨
        ∃ r' j, coupledLoop big a b w acc maxIter fuel i x' y' r = ok (r', j) := by
  induction fuel with
  | zero =>
    intro i x' y' r _ _
    left
    unfold coupledLoop notConverged
    rw [if_neg hm]
  | succ fuel ih =>
    intro i x' y' r hi hxy
    unfold coupledLoop
    rcases ha i r hi with h1 | ⟨s, x, h1, hs, hx⟩
    · left
      rw [h1, exit_bind]
    rw [h1, ok_bind]
    dsimp only
    rcases hb i s hs with h2 | ⟨t, y, h2, ht, hy⟩
    · left
      rw [h2, exit_bind]
    rw [h2, ok_bind]
    dsimp only
    obtain ⟨e, he⟩ : ∃ e, differences big i x y x' y' = ok e := by
      unfold differences
      by_cases h0 : i = 0
      · rw [if_neg (by simpa using h0)]
        exact ⟨_, rfl⟩
      · rw [if_pos h0]
        obtain ⟨d1, f1, -⟩ := difference_ok hbig hx (hxy h0).1 (acc := acc)
        obtain ⟨d2, f2, -⟩ := difference_ok hbig hy (hxy h0).2 (acc := acc)
        rw [f1, ok_bind, f2, ok_bind]
        exact ⟨_, rfl⟩
    rw [he, ok_bind]
    split_ifs
    · exact Or.inr ⟨_, _, rfl⟩
    · exact ih _ _ _ _ ht (fun _ => ⟨hx, hy⟩)

/-- the last pass and the one before -/
theorem loop_last (fuel : Nat) : ∀ i x' y' r r' j,
    (i ≠ 0 → ∃ r0 s0, Half a w (i - 1) r0 s0 x' ∧ Half b w (i - 1) s0 r y') →
    coupledLoop big a b w acc maxIter fuel i x' y' r = ok (r', j) →
      ∃ r s x y x' y' e, Half a w j r s x ∧ Half b w j s r' y ∧
        (j ≠ 0 → ∃ r0 s0, Half a w (j - 1) r0 s0 x' ∧ Half b w (j - 1) s0 r y') ∧ differences big j x y x' y' = ok e ∧
        e.1.le (.fin acc) ∧ e.2.le (.fin acc) := by
  induction fuel with
  | zero =>
    intro i x y r r' j _ h
    unfold coupledLoop notConverged at h
    split_ifs at h <;> cases h
  | succ fuel ih =>
    intro i x' y' r r' j hi h
    unfold coupledLoop at h
    obtain ⟨⟨s, u⟩, h1, h⟩ := bind_eq_ok.1 h
    obtain ⟨⟨t, v⟩, h2, h⟩ := bind_eq_ok.1 h
    obtain ⟨e, h3, h⟩ := bind_eq_ok.1 h
    split_ifs at h with hc
    · cases h
      exact ⟨r, s, u, v, x', y', e, partPass_ok.1 h1, partPass_ok.1 h2, hi, h3, hc.1, hc.2⟩
    · exact ih (i + 1) u v t r' j (fun _ => ⟨r, s, partPass_ok.1 h1, partPass_ok.1 h2⟩) h

end Generic

/-! ### neutronics and heat -/

variable {p0 : Plant} {m w : ℝ}

/-- a criticality solver at work on the reactor -/
structure Critical (a : Part Plant (Vec ℝ)) (p0 : Plant) (m : ℝ) : Prop where
  main : a.main = kMain
  relax : a.relax = powerRelax
  step : ∀ p q old, Kept p0 p → (∀ i, i < p0.grid.cells → m ≤ temp p i) → a.solve p = ok (q, old) →
    old.n = p0.grid.cells ∧ (∀ i, i < p0.grid.cells → old.v i = heat p i) ∧ Kept p0 q ∧
      (∀ i, i < p0.grid.cells → temp q i = temp p i) ∧ totalHeat q = p0.power ∧ (∃ k, 0 < k ∧ q.kForward = [.fin k]) ∧
      (0 ≤ p0.power → ∀ i, i < p0.grid.cells → 0 ≤ heat q i)

theorem Burned.kept_total {p q : Plant} {k : ℝ} {φ rate : Nat → ℝ} (h : Burned p k φ rate q) (hk : Kept p0 p) :
    Kept p0 q ∧ (∀ i, i < p0.grid.cells → temp q i = temp p i) ∧ totalHeat q = p0.power ∧ q.kForward = [.fin k] :=
  ⟨hk.trans h.kept, fun i hi => h.temps i (by rw [hk.body.cells]; exact hi), by rw [h.total, hk.power], h.k⟩

theorem diffusion_critical {tl : Tools} (hlib : Solve.SolvesRegular tl.num) {o : Settings} (h : DiffusionReady o p0.grid m) :
    Critical (diffusionPart tl o) p0 m := by
  refine ⟨rfl, rfl, fun p q old hk hT hs => ?_⟩
  have hc := hk.body.cells
  obtain ⟨d, old', V, st, -, no, vo, -, e, hres⟩ := diffusion_step hlib (h.same hk.body) (fun i hi => hT i (by rw [← hc]; exact hi))
  change diffusionSolve tl o p = _ at hs
  rw [e] at hs
  obtain ⟨s, h1, h2⟩ := bind_eq_ok.1 hs
  obtain ⟨p', h3, h4⟩ := bind_eq_ok.1 h2
  cases h4
  obtain ⟨p'', k, φ, e', hb, hk0, -, -, hpos⟩ := hres s h1
  rw [h3] at e'
  cases e'
  obtain ⟨g1, g2, g3, g4⟩ := hb.kept_total hk
  rw [hc] at no vo hpos
  exact ⟨no, vo, g1, g2, g3, ⟨k, hk0, g4⟩, fun hp => hpos (by rw [hk.power]; exact hp)⟩

theorem transport_critical {tl : Tools} (hlib : Solve.SolvesRegular tl.num) {o : Settings} (h : TransportReady tl o p0.grid m)
    (hself : SelfOk o p0.grid m) : Critical (transportPart tl o) p0 m := by
  refine ⟨rfl, rfl, fun p q old hk hT hs => ?_⟩
  have hc := hk.body.cells
  obtain ⟨d, old', V, st, -, no, vo, -, e, hres⟩ := transport_step hlib (h.same hk.body) (hself.same hk.body) (fun i hi => hT i (by rw [← hc]; exact hi))
  change transportSolve tl o p = _ at hs
  rw [e] at hs
  obtain ⟨s, h1, h2⟩ := bind_eq_ok.1 hs
  obtain ⟨p', h3, h4⟩ := bind_eq_ok.1 h2
  cases h4
  obtain ⟨p'', k, φ, e', hb, hk0, -, -, hpos⟩ := hres s h1
  rw [h3] at e'
  cases e'
  obtain ⟨g1, g2, g3, g4⟩ := hb.kept_total hk
  rw [hc] at no vo hpos
  exact ⟨no, vo, g1, g2, g3, ⟨k, hk0, g4⟩, fun hp => hpos (by rw [hk.power]; exact hp)⟩

/-- neutronics has been calculated and normalised -/
structure Normal (p0 p : Plant) : Prop where
  total : totalHeat p = p0.power
  k : ∃ k, 0 < k ∧ p.kForward = [.fin k]

/-- the reactor is in order -/
structure Fine (p0 : Plant) (m : ℝ) (p : Plant) : Prop where
  kept : Kept p0 p
  temps : ∀ i, i < p0.grid.cells → m ≤ temp p i

theorem Powered.kept {p : Plant} {g' : Grid} {q : Nat → ℝ} (h : Powered p.grid q g') : Kept p { p with grid := g' } :=
  ⟨h.same, rfl, rfl, rfl⟩

theorem Heated.kept {p : Plant} {g' : Grid} {t : Nat → ℝ} (h : Heated p.grid t g') : Kept p { p with grid := g' } :=
  ⟨h.same, rfl, rfl, rfl⟩

theorem total_of {p p' : Plant} (hk : SameBody p.grid p'.grid) {q : Nat → ℝ} (hq : ∀ i, i < p.grid.cells → heat p' i = q i) :
    totalHeat p' = ∑ i ∈ range p.grid.cells, q i * volume p.grid i := by
  unfold totalHeat
  rw [hk.cells]
  refine sum_congr rfl (fun i hi => ?_)
  rw [hq i (mem_range.1 hi), hk.volume]

/-- neutronics in one pass; before the first pass only of the calculation nothing is known about the heat sources -/
theorem critical_half {a : Part Plant (Vec ℝ)} (hF : p0.grid.mats.n = p0.grid.cells) (h : Critical a p0 m) (hp : 0 ≤ p0.power) (hw : 0 ≤ w ∧ w ≤ 1)
    {i : Nat} {p p' : Plant} {x : Param} (hp1 : Fine p0 m p)
    (hp2 : i ≠ 0 → (∀ i, i < p0.grid.cells → 0 ≤ heat p i) ∧ totalHeat p = p0.power) (hh : Half a w i p p' x) :
    Fine p0 m p' ∧ (∀ i, i < p0.grid.cells → 0 ≤ heat p' i) ∧ Normal p0 p' ∧ (∀ i, i < p0.grid.cells → temp p' i = temp p i) := by
  obtain ⟨q, old, h1, -, h3, h4⟩ := hh
  obtain ⟨no, vo, k1, k2, k3, ⟨k, hk, k4⟩, k5⟩ := h.step p q old hp1.kept hp1.temps h1
  have base : Fine p0 m q ∧ (∀ i, i < p0.grid.cells → 0 ≤ heat q i) ∧ Normal p0 q ∧ (∀ i, i < p0.grid.cells → temp q i = temp p i) :=
    ⟨⟨k1, fun i hi => by rw [k2 i hi]; exact hp1.temps i hi⟩, k5 hp, ⟨k3, k, hk, k4⟩, k2⟩
  by_cases hi : i = 0
  · rw [h3 hi]
    exact base
  · have h5 := h4 hi
    have hc := k1.body.cells
    obtain ⟨g', e, hg⟩ := powerRelax_ok (k1.body.filled hF) (old := old) (by rw [hc]; exact no) w
    rw [h.relax, e] at h5
    cases h5
    have hgm : ∀ j, j < p0.grid.cells → g'.mats.v j = { q.grid.mats.v j with q := w * heat q j + (1 - w) * old.v j } := fun j hj =>
      hg.mats j (by rw [hc]; exact hj)
    have hq : ∀ j, j < p0.grid.cells → heat { q with grid := g' } j = w * heat q j + (1 - w) * heat p j := fun j hj => by
      show (g'.mats.v j).q = _
      rw [hgm j hj, ← vo j hj]
    have hT : ∀ j, j < p0.grid.cells → temp { q with grid := g' } j = temp p j := fun j hj => by
      show (g'.mats.v j).T = _
      rw [hgm j hj, ← k2 j hj]
      rfl
    have kk := k1.trans hg.kept
    refine ⟨⟨kk, fun j hj => by rw [hT j hj]; exact hp1.temps j hj⟩, fun j hj => ?_, ⟨?_, k, hk, k4⟩, hT⟩
    · rw [hq j hj]
      have := base.2.1 j hj
      have := (hp2 hi).1 j hj
      have : 0 ≤ 1 - w := by linarith [hw.2]
      have := hw.1
      positivity
    · rw [total_of kk.body hq]
      have e1 : totalHeat q = ∑ i ∈ range p0.grid.cells, heat q i * volume p0.grid i := total_of k1.body (fun _ _ => rfl)
      have e2 : totalHeat p = ∑ i ∈ range p0.grid.cells, heat p i * volume p0.grid i := total_of hp1.kept.body (fun _ _ => rfl)
      rw [k3] at e1
      rw [(hp2 hi).2] at e2
      calc ∑ i ∈ range p0.grid.cells, (w * heat q i + (1 - w) * heat p i) * volume p0.grid i
          = w * ∑ i ∈ range p0.grid.cells, heat q i * volume p0.grid i +
            (1 - w) * ∑ i ∈ range p0.grid.cells, heat p i * volume p0.grid i := by
            rw [mul_sum, mul_sum, ← sum_add_distrib]
            refine sum_congr rfl (fun i _ => ?_)
            ring
        _ = p0.power := by
            rw [← e1, ← e2]
            ring

variable {c : Nat → Vec ℝ} {AL BL CL AR BR CR : ℝ} {tl : Tools} {o : Settings}

/-- heat conduction in one pass -/
theorem heat_half (h : Conducting p0.grid c o.bc AL BL CL AR BR CR m) (hlin : LinSolves tl.lin) (hw : 0 ≤ w ∧ w ≤ 1)
    {i : Nat} {p p' : Plant} {x : Param} (hp1 : Fine p0 m p) (hq : ∀ i, i < p0.grid.cells → 0 ≤ heat p i)
    (hh : Half (heatPart tl o) w i p p' x) :
    Fine p0 m p' ∧ (∀ i, i < p0.grid.cells → heat p' i = heat p i) ∧ totalHeat p' = totalHeat p ∧ p'.kForward = p.kForward := by
  obtain ⟨q, old, h1, -, h3, h4⟩ := hh
  have hc := hp1.kept.body.cells
  change heatSolve tl o p = _ at h1
  rcases heatSolve_cases (tl := tl) (o := o) (h.same hp1.kept.body) hlin (fun i hi => hq i (by rw [← hc]; exact hi))
    (fun i hi => hp1.temps i (by rw [← hc]; exact hi)) with ⟨g', old', t, e, hg, no, vo, low⟩ | e
  · rw [h1] at e
    cases e
    have fin : ∀ {g'' : Grid} {t : Nat → ℝ}, Heated p.grid t g'' → (∀ i, i < p.grid.cells → m ≤ t i) →
        Fine p0 m { p with grid := g'' } ∧ (∀ i, i < p0.grid.cells → heat { p with grid := g'' } i = heat p i) ∧
        totalHeat { p with grid := g'' } = totalHeat p ∧ ({ p with grid := g'' } : Plant).kForward = p.kForward := by
      intro g'' t hg low
      have e1 : ∀ i, i < p.grid.cells → heat { p with grid := g'' } i = heat p i := fun i hi => by
        show (g''.mats.v i).q = _
        rw [hg.mats i hi]
        rfl
      refine ⟨⟨hp1.kept.trans hg.kept, fun i hi => ?_⟩, fun i hi => e1 i (by rw [hc]; exact hi), total_of hg.kept.body e1, rfl⟩
      show m ≤ (g''.mats.v i).T
      rw [hg.mats i (by rw [hc]; exact hi)]
      exact low i (by rw [hc]; exact hi)
    by_cases hi : i = 0
    · rw [h3 hi]
      exact fin hg low
    · have h5 := h4 hi
      have hF : g'.mats.n = g'.cells := hg.same.filled ((h.same hp1.kept.body).mats_n)
      obtain ⟨g'', e, hg'⟩ := heatRelax_ok (p := { p with grid := g' }) hF (old := old) (by rw [no]; exact hg.cells.symm) w
      change heatRelax w _ old = _ at h5
      rw [e] at h5
      cases h5
      refine fin (hg.trans hg') (fun i hi => ?_)
      rw [vo i hi]
      have e1 : temp { p with grid := g' } i = t i := by
        show (g'.mats.v i).T = _
        rw [hg.mats i hi]
      rw [e1]
      have h2 := low i hi
      have h3 := hp1.temps i (by rw [← hc]; exact hi)
      nlinarith [mul_nonneg hw.1 (sub_nonneg.2 h2), mul_nonneg (sub_nonneg.2 hw.2) (sub_nonneg.2 h3)]
  · rw [e] at h1
    unfold notConverged at h1
    split_ifs at h1

/-! ### both orders -/

theorem first_critical {a : Part Plant (Vec ℝ)} (h : Conducting p0.grid c o.bc AL BL CL AR BR CR m) (hlin : LinSolves tl.lin)
    (ha : Critical a p0 m) (hp : 0 ≤ p0.power) (hw : 0 ≤ w ∧ w ≤ 1) (hT : ∀ i, i < p0.grid.cells → m ≤ temp p0 i)
    {big : List Fl → Fl} {acc : ℝ} {maxIter : Int} {p' : Plant} {j : Nat}
    (hrun : coupled big a (heatPart tl o) w acc maxIter p0 = ok (p', j)) : InOrder p0 m p' := by
  have key := loop_kept (a := a) (b := heatPart tl o) (w := w)
    (Inv := fun i p => Fine p0 m p ∧ (i ≠ 0 → (∀ i, i < p0.grid.cells → 0 ≤ heat p i) ∧ Normal p0 p))
    (Mid := fun _ p => Fine p0 m p ∧ (∀ i, i < p0.grid.cells → 0 ≤ heat p i) ∧ Normal p0 p)
    (fun i r r' x hi hh => by
      obtain ⟨k1, k2, k3, -⟩ := critical_half h.mats_n ha hp hw hi.1 (fun h0 => ⟨(hi.2 h0).1, (hi.2 h0).2.total⟩) hh
      exact ⟨k1, k2, k3⟩)
    (fun i r r' y hi hh => by
      obtain ⟨k1, k2, k3, k4⟩ := heat_half h hlin hw hi.1 hi.2.1 hh
      exact ⟨k1, fun _ => ⟨fun i' hi' => by rw [k2 i' hi']; exact hi.2.1 i' hi', ⟨by rw [k3]; exact hi.2.2.total, by
        rw [k4]; exact hi.2.2.k⟩⟩⟩)
    _ _ _ _ _ _ _ ⟨⟨Kept.refl _, hT⟩, fun h0 => absurd rfl h0⟩ hrun
  obtain ⟨-, f, n⟩ := key
  obtain ⟨h0, n⟩ := n (Nat.succ_ne_zero _)
  exact ⟨f.kept, f.temps, h0, n.total, n.k⟩

theorem second_critical {a : Part Plant (Vec ℝ)} (h : Conducting p0.grid c o.bc AL BL CL AR BR CR m) (hlin : LinSolves tl.lin)
    (ha : Critical a p0 m) (hp : 0 ≤ p0.power) (hw : 0 ≤ w ∧ w ≤ 1) (hT : ∀ i, i < p0.grid.cells → m ≤ temp p0 i)
    (hq : ∀ i, i < p0.grid.cells → 0 ≤ heat p0 i) {big : List Fl → Fl} {acc : ℝ} {maxIter : Int} {p' : Plant} {j : Nat}
    (hrun : coupled big (heatPart tl o) a w acc maxIter p0 = ok (p', j)) : InOrder p0 m p' := by
  have key := loop_kept (a := heatPart tl o) (b := a) (w := w)
    (Inv := fun i p => Fine p0 m p ∧ (∀ i, i < p0.grid.cells → 0 ≤ heat p i) ∧ (i ≠ 0 → Normal p0 p))
    (Mid := fun i p => Fine p0 m p ∧ (∀ i, i < p0.grid.cells → 0 ≤ heat p i) ∧ (i ≠ 0 → Normal p0 p))
    (fun i r r' y hi hh => by
      obtain ⟨k1, k2, k3, k4⟩ := heat_half h hlin hw hi.1 hi.2.1 hh
      exact ⟨k1, fun i' hi' => by rw [k2 i' hi']; exact hi.2.1 i' hi', fun h0 => ⟨by rw [k3]; exact (hi.2.2 h0).total, by
        rw [k4]; exact (hi.2.2 h0).k⟩⟩)
    (fun i r r' x hi hh => by
      obtain ⟨k1, k2, k3, -⟩ := critical_half h.mats_n ha hp hw hi.1 (fun h0 => ⟨hi.2.1, (hi.2.2 h0).total⟩) hh
      exact ⟨k1, k2, fun _ => k3⟩)
    _ _ _ _ _ _ _ ⟨⟨Kept.refl _, hT⟩, hq, fun h0 => absurd rfl h0⟩ hrun
  obtain ⟨-, f, h0, n⟩ := key
  have n := n (Nat.succ_ne_zero _)
  exact ⟨f.kept, f.temps, h0, n.total, n.k⟩

/-! ### results or a message -/

/-- neutronics ends with results or with a message -/
def Quiet (a : Part Plant (Vec ℝ)) (p0 : Plant) (m : ℝ) : Prop :=
  ∀ p, Fine p0 m p → a.solve p = exit ∨ ∃ r, a.solve p = ok r

theorem critical_pass {a : Part Plant (Vec ℝ)} (hF : p0.grid.mats.n = p0.grid.cells) (ha : Critical a p0 m) (hs : Quiet a p0 m) {p : Plant}
    (hf : Fine p0 m p) (i : Nat) :
    partPass a w i p = exit ∨ ∃ r' x, partPass a w i p = ok (r', x) ∧ Half a w i p r' x ∧ Has .num x := by
  rcases hs p hf with e | ⟨⟨q, old⟩, e⟩
  · left
    unfold partPass
    rw [e, exit_bind]
  · right
    obtain ⟨no, -, k1, -, -, ⟨k, -, k4⟩, -⟩ := ha.step p q old hf.kept hf.temps e
    have em : a.main q = ok (.num (.fin k)) := by
      rw [ha.main]
      unfold kMain
      rw [k4]
      rfl
    obtain ⟨g', e', -⟩ := powerRelax_ok (k1.body.filled hF) (old := old) (by rw [k1.body.cells]; exact no) w
    by_cases h0 : i = 0
    · have hh : Half a w i p q (.num (.fin k)) := ⟨q, old, e, em, fun _ => rfl, fun h => absurd h0 h⟩
      exact ⟨q, _, partPass_ok.2 hh, hh, _, rfl⟩
    · have hh : Half a w i p { q with grid := g' } (.num (.fin k)) :=
        ⟨q, old, e, em, fun h => absurd h h0, fun _ => by rw [ha.relax]; exact e'⟩
      exact ⟨_, _, partPass_ok.2 hh, hh, _, rfl⟩

theorem heat_pass_safe (h : Conducting p0.grid c o.bc AL BL CL AR BR CR m) (hlin : LinSolves tl.lin) (hmax : o.maxIter ≠ 2147483647)
    {p : Plant} (hf : Fine p0 m p) (hq : ∀ i, i < p0.grid.cells → 0 ≤ heat p i) (i : Nat) :
    partPass (heatPart tl o) w i p = exit ∨ ∃ r' x, partPass (heatPart tl o) w i p = ok (r', x) ∧
      Half (heatPart tl o) w i p r' x ∧ Has (.field p0.grid.cells) x := by
  have hc := hf.kept.body.cells
  rcases heatSolve_cases (tl := tl) (o := o) (h.same hf.kept.body) hlin (fun i hi => hq i (by rw [← hc]; exact hi))
    (fun i hi => hf.temps i (by rw [← hc]; exact hi)) with ⟨g', old, t, e, hg, no, vo, low⟩ | e
  · right
    have hF : g'.mats.n = g'.cells := hg.same.filled ((h.same hf.kept.body).mats_n)
    obtain ⟨x, ex, nx, vx⟩ := temperatures_ok hF
    have em : (heatPart tl o).main { p with grid := g' } = ok (.vec ⟨x.n, fun i => .fin (x.v i)⟩) := by
      show (temperatures g' "C" >>= _) = _
      rw [ex, ok_bind]
    have hx : Has (.field p0.grid.cells) (.vec ⟨x.n, fun i => .fin (x.v i)⟩) :=
      ⟨by have := h.two; omega, _, rfl, by show x.n = _; rw [nx, hg.cells, hc], fun i _ => ⟨_, rfl⟩⟩
    obtain ⟨g'', e', -⟩ := heatRelax_ok (p := { p with grid := g' }) hF (old := old) (by rw [no]; exact hg.cells.symm) w
    by_cases h0 : i = 0
    · have hh : Half (heatPart tl o) w i p { p with grid := g' } (.vec ⟨x.n, fun i => .fin (x.v i)⟩) :=
        ⟨_, old, e, em, fun _ => rfl, fun h => absurd h0 h⟩
      exact ⟨_, _, partPass_ok.2 hh, hh, hx⟩
    · have hh : Half (heatPart tl o) w i p { p with grid := g'' } (.vec ⟨x.n, fun i => .fin (x.v i)⟩) :=
        ⟨_, old, e, em, fun h => absurd h h0, fun _ => e'⟩
      exact ⟨_, _, partPass_ok.2 hh, hh, hx⟩
  · left
    unfold partPass
    show (heatSolve tl o p >>= _) = _
    rw [e]
    unfold notConverged
    rw [if_neg hmax, exit_bind]

theorem first_safe {a : Part Plant (Vec ℝ)} (h : Conducting p0.grid c o.bc AL BL CL AR BR CR m) (hlin : LinSolves tl.lin)
    (ha : Critical a p0 m) (hs : Quiet a p0 m) (hp : 0 ≤ p0.power) (hw : 0 ≤ w ∧ w ≤ 1) (hT : ∀ i, i < p0.grid.cells → m ≤ temp p0 i)
    (hmax : o.maxIter ≠ 2147483647) {big : List Fl → Fl} (hbig : Largest big) {acc : ℝ} {maxIter : Int} (hM : maxIter ≠ 2147483647) :
    coupled big a (heatPart tl o) w acc maxIter p0 = exit ∨ ∃ p' j, coupled big a (heatPart tl o) w acc maxIter p0 = ok (p', j) :=
  loop_safe (a := a) (b := heatPart tl o) (w := w) hbig hM
    (Inv := fun i p => Fine p0 m p ∧ (i ≠ 0 → (∀ i, i < p0.grid.cells → 0 ≤ heat p i) ∧ Normal p0 p))
    (Mid := fun _ p => Fine p0 m p ∧ (∀ i, i < p0.grid.cells → 0 ≤ heat p i) ∧ Normal p0 p)
    (fun i r hi => by
      rcases critical_pass (w := w) h.mats_n ha hs hi.1 i with e | ⟨r', x, e, hh, hx⟩
      · exact Or.inl e
      · obtain ⟨k1, k2, k3, -⟩ := critical_half h.mats_n ha hp hw hi.1 (fun h0 => ⟨(hi.2 h0).1, (hi.2 h0).2.total⟩) hh
        exact Or.inr ⟨r', x, e, ⟨k1, k2, k3⟩, hx⟩)
    (fun i r hi => by
      rcases heat_pass_safe (w := w) h hlin hmax hi.1 hi.2.1 i with e | ⟨r', x, e, hh, hx⟩
      · exact Or.inl e
      · obtain ⟨k1, k2, k3, k4⟩ := heat_half h hlin hw hi.1 hi.2.1 hh
        exact Or.inr ⟨r', x, e, ⟨k1, fun _ => ⟨fun i' hi' => by rw [k2 i' hi']; exact hi.2.1 i' hi',
          ⟨by rw [k3]; exact hi.2.2.total, by rw [k4]; exact hi.2.2.k⟩⟩⟩, hx⟩)
    _ _ _ _ _ ⟨⟨Kept.refl _, hT⟩, fun h0 => absurd rfl h0⟩ (fun h0 => absurd rfl h0)

theorem second_safe {a : Part Plant (Vec ℝ)} (h : Conducting p0.grid c o.bc AL BL CL AR BR CR m) (hlin : LinSolves tl.lin)
    (ha : Critical a p0 m) (hs : Quiet a p0 m) (hp : 0 ≤ p0.power) (hw : 0 ≤ w ∧ w ≤ 1) (hT : ∀ i, i < p0.grid.cells → m ≤ temp p0 i)
    (hq : ∀ i, i < p0.grid.cells → 0 ≤ heat p0 i) (hmax : o.maxIter ≠ 2147483647) {big : List Fl → Fl} (hbig : Largest big) {acc : ℝ}
    {maxIter : Int} (hM : maxIter ≠ 2147483647) :
    coupled big (heatPart tl o) a w acc maxIter p0 = exit ∨ ∃ p' j, coupled big (heatPart tl o) a w acc maxIter p0 = ok (p', j) :=
  loop_safe (a := heatPart tl o) (b := a) (w := w) hbig hM
    (Inv := fun i p => Fine p0 m p ∧ (∀ i, i < p0.grid.cells → 0 ≤ heat p i) ∧ (i ≠ 0 → Normal p0 p))
    (Mid := fun i p => Fine p0 m p ∧ (∀ i, i < p0.grid.cells → 0 ≤ heat p i) ∧ (i ≠ 0 → Normal p0 p))
    (fun i r hi => by
      rcases heat_pass_safe (w := w) h hlin hmax hi.1 hi.2.1 i with e | ⟨r', x, e, hh, hx⟩
      · exact Or.inl e
      · obtain ⟨k1, k2, k3, k4⟩ := heat_half h hlin hw hi.1 hi.2.1 hh
        exact Or.inr ⟨r', x, e, ⟨k1, fun i' hi' => by rw [k2 i' hi']; exact hi.2.1 i' hi', fun h0 =>
          ⟨by rw [k3]; exact (hi.2.2 h0).total, by rw [k4]; exact (hi.2.2 h0).k⟩⟩, hx⟩)
    (fun i r hi => by
      rcases critical_pass (w := w) h.mats_n ha hs hi.1 i with e | ⟨r', x, e, hh, hx⟩
      · exact Or.inl e
      · obtain ⟨k1, k2, k3, -⟩ := critical_half h.mats_n ha hp hw hi.1 (fun h0 => ⟨hi.2.1, (hi.2.2 h0).total⟩) hh
        exact Or.inr ⟨r', x, e, ⟨k1, k2, fun _ => k3⟩, hx⟩)
    _ _ _ _ _ ⟨⟨Kept.refl _, hT⟩, hq, fun h0 => absurd rfl h0⟩ (fun h0 => absurd rfl h0)

theorem diffusion_quiet {tl : Tools} (hlib : Solve.SolvesRegular tl.num) {o : Settings} (h : DiffusionReady o p0.grid m)
    (hreg : ∀ s d, (∀ i, i < p0.grid.cells → m ≤ s i) → DiffusionOn p0.grid o.albedo s d → Solve.Multiplying d ∧ Solve.Linked d)
    (hmax : o.maxIter < 2147483647) : Quiet (diffusionPart tl o) p0 m := by
  intro p hf
  have hc := hf.kept.body.cells
  have h' := h.same hf.kept.body
  have hT : ∀ i, i < p.grid.cells → m ≤ temp p i := fun i hi => hf.temps i (by rw [← hc]; exact hi)
  obtain ⟨d, old, V, st, on, -, -, hV, e, hres⟩ := diffusion_step hlib h' hT
  obtain ⟨S, hab, hfi⟩ := on.sound h'.shaped h'.two h'.nuclear h'.diffusive h'.albedos hT
  obtain ⟨hm, hl⟩ := hreg _ d hf.temps (on.same hf.kept.body)
  show diffusionSolve tl o p = _ ∨ ∃ r, diffusionSolve tl o p = _
  rw [e]
  rcases Solve.C62_safe (power := p.power) ⟨S.wf, S.pos, S.cells, S.albedos, S.left, S.right, hab, hm, hl⟩ hfi.fiss hlib hV hmax o.acc st with
    ⟨s, hs⟩ | hs
  · right
    obtain ⟨p', k, φ, e', -⟩ := hres s hs
    rw [hs, ok_bind, e', ok_bind]
    exact ⟨_, rfl⟩
  · left
    rw [hs, exit_bind]

/-- the computed self-collision probabilities are positive (slabs need no assumption) -/
def SelfPos (o : Settings) (g : Grid) (m : ℝ) : Prop :=
  g.geom ≠ .slab → ∀ s d, (∀ i, i < g.cells → m ≤ s i) → TransportOn g o.albedo s d → ∀ G,
    CPM.vacuumCPs d CPM.E3 CPM.Ki3 g.geom = ok G → ∀ e i, e < g.energies → i < g.cells → 0 < G.v (i, i, e)

theorem SelfPos.ok {o : Settings} {g : Grid} (h : SelfPos o g m) : SelfOk o g m :=
  fun hg s d hs on G hG e i he hi => (h hg s d hs on G hG e i he hi).le

theorem transport_quiet {tl : Tools} (hlib : Solve.SolvesRegular tl.num) {o : Settings} (h : TransportReady tl o p0.grid m)
    (hself : SelfPos o p0.grid m)
    (hreg : ∀ s d, (∀ i, i < p0.grid.cells → m ≤ s i) → TransportOn p0.grid o.albedo s d →
      Solve.Multiplying (Solve.reactions d) ∧ Solve.GroupsLinked d)
    (hmax : o.maxIter < 2147483647) : Quiet (transportPart tl o) p0 m := by
  intro p hf
  have hc := hf.kept.body.cells
  have h' := h.same hf.kept.body
  have hT : ∀ i, i < p.grid.cells → m ≤ temp p i := fun i hi => hf.temps i (by rw [← hc]; exact hi)
  obtain ⟨d, old, V, st, on, -, -, hV, e, hres⟩ := transport_step hlib h' (hself.ok.same hf.kept.body) hT
  obtain ⟨B, hfi⟩ := on.body h'.shaped h'.some h'.nuclear h'.albedo.2 hT
  obtain ⟨hm, hl⟩ := hreg _ d hf.temps (on.same hf.kept.body)
  show transportSolve tl o p = _ ∨ ∃ r, transportSolve tl o p = _
  rw [e]
  rcases Solve.C68_safe (power := p.power) B hm hl hfi.fiss (fun hg G hG e i he hi => by
      rw [hf.kept.body.geom] at hg hG
      rw [on.energies, hf.kept.body.energies] at he
      rw [on.cells, hc] at hi
      exact hself hg _ d hf.temps (on.same hf.kept.body) G hG e i he hi) hlib hV o.direction hmax o.acc st with
    ⟨s, hs⟩ | hs
  · right
    obtain ⟨p', k, φ, e', -⟩ := hres s hs
    rw [hs, ok_bind, e', ok_bind]
    exact ⟨_, rfl⟩
  · left
    rw [hs, exit_bind]

/-! ### full relaxation -/

theorem read_bound {M : Grid} {f : Material → ℝ} {z : ℝ} {x : Vec ℝ} (h : loop (fun i x => do
    let m ← M.mats.get i
    x.set i (f m)) M.cells (Vec.const M.cells z) = ok x) : M.cells ≤ M.mats.n := by
  refine loop_inv_of_ok (fun k _ => k ≤ M.mats.n) (Nat.zero_le _) (fun i u u' hi _ hb => ?_) h
  by_contra hlt
  obtain ⟨y, hy, -⟩ := bind_eq_ok.1 hb
  rw [Vec.get_ub (by omega)] at hy
  cases hy

theorem temperatures_back {g g' : Grid} {x old y : Vec ℝ} (hx : temperatures g "C" = ok x) (hy : Heat.relax 1 x old = ok y)
    (hg : setTemperatures y g = ok g') : g' = g := by
  unfold temperatures at hx
  obtain ⟨x', h1, h2⟩ := bind_eq_ok.1 hx
  have hb := read_bound h1
  rw [if_pos rfl] at h2
  cases h2
  obtain ⟨x'', e, nx, vx⟩ := perCell (M := g) (fun m => m.T) 0 hb
  rw [h1] at e
  cases e
  unfold Heat.relax at hy
  split_ifs at hy with hn
  cases hy
  have hb1 : ∀ i, i < x.n → ∀ M' : Grid, (do
      let y ← (⟨x.n, fun i => x.v i * 1 + old.v i * (1 - 1)⟩ : Vec ℝ).get i
      change (fun m => { m with T := y }) i M') = change (fun m => { m with T := x.v i }) i M' := by
    intro i hi M'
    rw [Vec.get_ok (x := ⟨x.n, fun i => x.v i * 1 + old.v i * (1 - 1)⟩) hi, ok_bind]
    simp
  obtain ⟨M', e, h1', h2, h3, h4, h5, h6, h7, h8⟩ := changes_ok (fun i m => { m with T := x.v i }) x.n g (by rw [nx]; exact hb) hb1
  unfold setTemperatures at hg
  dsimp only at hg e
  rw [e] at hg
  cases hg
  have hv : g'.mats.v = g.mats.v := funext fun i => by
    rw [h8 i]
    split_ifs with hi
    · dsimp only
      rw [vx i (by omega)]
    · rfl
  obtain ⟨a1, a2, a3, a4, a5, a6, ⟨a7, a8⟩⟩ := g'
  obtain ⟨b1, b2, b3, b4, b5, b6, ⟨b7, b8⟩⟩ := g
  dsimp only at *
  subst_vars
  rfl

theorem heatSources_back {g g' : Grid} {x old y : Vec ℝ} (hx : heatSources g = ok x) (hy : Heat.relax 1 x old = ok y)
    (hg : setHeatSources y g = ok g') : g' = g := by
  unfold heatSources at hx
  have hb := read_bound hx
  obtain ⟨x'', e, nx, vx⟩ := perCell (M := g) (fun m => m.q) 0 hb
  rw [hx] at e
  cases e
  unfold Heat.relax at hy
  split_ifs at hy with hn
  cases hy
  have hb1 : ∀ i, i < x.n → ∀ M' : Grid, (do
      let y ← (⟨x.n, fun i => x.v i * 1 + old.v i * (1 - 1)⟩ : Vec ℝ).get i
      change (fun m => { m with q := y }) i M') = change (fun m => { m with q := x.v i }) i M' := by
    intro i hi M'
    rw [Vec.get_ok (x := ⟨x.n, fun i => x.v i * 1 + old.v i * (1 - 1)⟩) hi, ok_bind]
    simp
  obtain ⟨M', e, h1', h2, h3, h4, h5, h6, h7, h8⟩ := changes_ok (fun i m => { m with q := x.v i }) x.n g (by rw [nx]; exact hb) hb1
  unfold setHeatSources at hg
  dsimp only at hg e
  rw [e] at hg
  cases hg
  have hv : g'.mats.v = g.mats.v := funext fun i => by
    rw [h8 i]
    split_ifs with hi
    · dsimp only
      rw [vx i (by omega)]
    · rfl
  obtain ⟨a1, a2, a3, a4, a5, a6, ⟨a7, a8⟩⟩ := g'
  obtain ⟨b1, b2, b3, b4, b5, b6, ⟨b7, b8⟩⟩ := g
  dsimp only at *
  subst_vars
  rfl

/-- relaxation with the parameter one keeps the new results -/
theorem relax_one {tl : Tools} {o : Settings} {a : Part Plant (Vec ℝ)} (h : solver tl o = ok a) {p q : Plant} {old : Vec ℝ}
    (hr : a.relax 1 p old = ok q) : q = p := by
  have hh : heatRelax 1 p old = ok q → q = p := fun hr => by
    unfold heatRelax at hr
    obtain ⟨x, h1, hr⟩ := bind_eq_ok.1 hr
    obtain ⟨y, h2, hr⟩ := bind_eq_ok.1 hr
    obtain ⟨g, h3, hr⟩ := bind_eq_ok.1 hr
    cases hr
    rw [temperatures_back h1 h2 h3]
  have hp : powerRelax 1 p old = ok q → q = p := fun hr => by
    unfold powerRelax at hr
    obtain ⟨x, h1, hr⟩ := bind_eq_ok.1 hr
    obtain ⟨y, h2, hr⟩ := bind_eq_ok.1 hr
    obtain ⟨g, h3, hr⟩ := bind_eq_ok.1 hr
    cases hr
    rw [heatSources_back h1 h2 h3]
  have hi : (ok p : Outcome Plant) = ok q → q = p := fun e => by cases e; rfl
  unfold solver at h
  cases hk : o.kind <;> rw [hk] at h <;> dsimp only at h <;> cases h
  · exact hi hr
  · exact hp hr
  · exact hi hr
  · exact hh hr
  · exact hp hr
  · exact hi hr

theorem single_half {tl : Tools} {o : Settings} {a : Part Plant (Vec ℝ)} (h : solver tl o = ok a) {i : Nat} {p q : Plant} {x : Param}
    (hh : Half a 1 i p q x) : single tl o p = ok q ∧ a.main q = ok x := by
  obtain ⟨s, old, h1, h2, h3, h4⟩ := hh
  have : q = s := by
    by_cases hi : i = 0
    · exact h3 hi
    · exact relax_one h (h4 hi)
  subst this
  refine ⟨?_, h2⟩
  unfold single
  rw [h, ok_bind, h1, ok_bind]

/-- the test at the end of a pass, for the results of one solver -/
theorem agree_of {tl : Tools} {o : Settings} {a : Part Plant (Vec ℝ)} (h : solver tl o = ok a) (hbig : Largest tl.big) {p p' : Plant}
    {x x' : Param} (hx : a.main p = ok x) (hx' : a.main p' = ok x') {acc : ℝ} {e : Fl} (hd : difference tl.big x' x = ok e)
    (he : e.le (.fin acc)) : Agree acc o p p' := by
  have hk : kMain p = ok x → kMain p' = ok x' → ∃ k k', p.kForward.head? = some (.fin k) ∧ p'.kForward.head? = some (.fin k') ∧ k' ≠ 0 ∧
      |k' - k| ≤ acc * |k'| := by
    intro h1 h2
    unfold kMain at h1 h2
    obtain ⟨u, h3, h4⟩ := bind_eq_ok.1 h1
    obtain ⟨v, h5, h6⟩ := bind_eq_ok.1 h2
    cases h4
    cases h6
    cases hd
    obtain ⟨k', k, rfl, rfl, hne, hle⟩ := near_num.1 he
    refine ⟨k, k', ?_, ?_, hne, hle⟩
    · cases hl : p.kForward with
      | nil => rw [hl] at h3; cases h3
      | cons z l => rw [hl] at h3; cases h3; rfl
    · cases hl : p'.kForward with
      | nil => rw [hl] at h5; cases h5
      | cons z l => rw [hl] at h5; cases h5; rfl
  unfold solver at h
  unfold Agree
  cases hkind : o.kind <;> rw [hkind] at h <;> dsimp only at h ⊢ <;> cases h
  · exact hk hx hx'
  · change (temperatures p.grid "C" >>= _) = _ at hx
    change (temperatures p'.grid "C" >>= _) = _ at hx'
    obtain ⟨u, h1, h2⟩ := bind_eq_ok.1 hx
    obtain ⟨v, h3, h4⟩ := bind_eq_ok.1 hx'
    have h1' := h1
    have h3' := h3
    unfold temperatures at h1 h3
    obtain ⟨u', h5, h6⟩ := bind_eq_ok.1 h1
    obtain ⟨v', h7, h8⟩ := bind_eq_ok.1 h3
    rw [if_pos rfl] at h6 h8
    cases h6
    cases h8
    obtain ⟨u', e1, nu, vu⟩ := perCell (M := p.grid) (fun m => m.T) 0 (read_bound h5)
    obtain ⟨v', e2, nv, vv⟩ := perCell (M := p'.grid) (fun m => m.T) 0 (read_bound h7)
    rw [h5] at e1
    rw [h7] at e2
    cases e1
    cases e2
    cases h2
    cases h4
    have hn : v.n = u.n ∧ 0 < v.n := by
      unfold difference at hd
      dsimp only at hd
      split_ifs at hd with hn
      exact hn
    obtain ⟨e', he', hnear⟩ := difference_ok hbig (s := .field u.n) (x := .vec ⟨v.n, fun i => .fin (v.v i)⟩)
      (y := .vec ⟨u.n, fun i => .fin (u.v i)⟩) ⟨by omega, _, rfl, hn.1, fun i _ => ⟨_, rfl⟩⟩ ⟨by omega, _, rfl, rfl, fun i _ => ⟨_, rfl⟩⟩ (acc := acc)
    rw [hd] at he'
    cases he'
    refine ⟨by rw [← nu, ← nv, hn.1], fun i hi => ?_⟩
    obtain ⟨y, z, hy, hz, hyz⟩ := hnear.1 he i (by show i < v.n; omega)
    dsimp only at hy hz
    cases hy
    cases hz
    rw [vu i hi, vv i (by omega)] at hyz
    exact hyz
  · exact hk hx hx'

/-! ### no relaxation towards new results -/

/-- with the relaxation parameter zero, neutronics changes neither heat sources nor temperatures after the first pass -/
theorem critical_zero {a : Part Plant (Vec ℝ)} (hF : p0.grid.mats.n = p0.grid.cells) (h : Critical a p0 m)
    {i : Nat} (hi : i ≠ 0) {p p' : Plant} {x : Param} (hp1 : Fine p0 m p) (hh : Half a 0 i p p' x) :
    ∀ j, j < p0.grid.cells → heat p' j = heat p j ∧ temp p' j = temp p j := by
  obtain ⟨q, old, h1, -, -, h4⟩ := hh
  obtain ⟨no, vo, k1, k2, -⟩ := h.step p q old hp1.kept hp1.temps h1
  have h5 := h4 hi
  have hc := k1.body.cells
  obtain ⟨g', e, hg⟩ := powerRelax_ok (k1.body.filled hF) (old := old) (by rw [hc]; exact no) 0
  rw [h.relax, e] at h5
  cases h5
  intro j hj
  have hgm : g'.mats.v j = { q.grid.mats.v j with q := 0 * heat q j + (1 - 0) * old.v j } := hg.mats j (by rw [hc]; exact hj)
  refine ⟨?_, ?_⟩
  · show (g'.mats.v j).q = _
    rw [hgm]
    show 0 * heat q j + (1 - 0) * old.v j = _
    rw [vo j hj]
    ring
  · show (g'.mats.v j).T = _
    rw [hgm, ← k2 j hj]
    rfl

theorem heat_zero (h : Conducting p0.grid c o.bc AL BL CL AR BR CR m) (hlin : LinSolves tl.lin)
    {i : Nat} (hi : i ≠ 0) {p p' : Plant} {x : Param} (hp1 : Fine p0 m p) (hq : ∀ i, i < p0.grid.cells → 0 ≤ heat p i)
    (hh : Half (heatPart tl o) 0 i p p' x) : ∀ j, j < p0.grid.cells → temp p' j = temp p j := by
  obtain ⟨q, old, h1, -, -, h4⟩ := hh
  have hc := hp1.kept.body.cells
  change heatSolve tl o p = _ at h1
  rcases heatSolve_cases (tl := tl) (o := o) (h.same hp1.kept.body) hlin (fun i hi => hq i (by rw [← hc]; exact hi))
    (fun i hi => hp1.temps i (by rw [← hc]; exact hi)) with ⟨g', old', t, e, hg, no, vo, -⟩ | e
  · rw [h1] at e
    cases e
    have h5 := h4 hi
    have hF : g'.mats.n = g'.cells := hg.same.filled ((h.same hp1.kept.body).mats_n)
    obtain ⟨g'', e, hg'⟩ := heatRelax_ok (p := { p with grid := g' }) hF (old := old) (by rw [no]; exact hg.cells.symm) 0
    change heatRelax 0 _ old = _ at h5
    rw [e] at h5
    cases h5
    intro j hj
    show (g''.mats.v j).T = _
    rw [hg'.mats j (by show j < g'.cells; rw [hg.cells, hc]; exact hj)]
    dsimp only
    rw [vo j (by rw [hc]; exact hj)]
    ring
  · rw [e] at h1
    unfold notConverged at h1
    split_ifs at h1

theorem single_first {a : Part Plant (Vec ℝ)} {o : Settings} (h : solver tl o = ok a) {p q : Plant} {x : Param} (hh : Half a w 0 p q x) :
    single tl o p = ok q := by
  obtain ⟨s, old, h1, -, h3, -⟩ := hh
  rw [h3 rfl]
  unfold single
  rw [h, ok_bind, h1, ok_bind]

/-- neutronics first: the fields stay as the first pass left them -/
theorem first_frozen {a : Part Plant (Vec ℝ)} {oN : Settings} (hN : solver tl oN = ok a) (hH : solver tl o = ok (heatPart tl o))
    (h : Conducting p0.grid c o.bc AL BL CL AR BR CR m) (hlin : LinSolves tl.lin)
    (ha : Critical a p0 m) (hp : 0 ≤ p0.power) (hT : ∀ i, i < p0.grid.cells → m ≤ temp p0 i)
    {big : List Fl → Fl} {acc : ℝ} {maxIter : Int} {p' : Plant} {j : Nat}
    (hrun : coupled big a (heatPart tl o) 0 acc maxIter p0 = ok (p', j)) :
    ∃ q r, single tl oN p0 = ok q ∧ single tl o q = ok r ∧ ∀ i, i < p0.grid.cells → heat p' i = heat q i ∧ temp p' i = temp r i := by
  have hw : (0 : ℝ) ≤ 0 ∧ (0 : ℝ) ≤ 1 := ⟨le_rfl, zero_le_one⟩
  have key := loop_kept (a := a) (b := heatPart tl o) (w := 0)
    (Inv := fun i p => Fine p0 m p ∧ (i = 0 → p = p0) ∧ (i ≠ 0 → (∀ i, i < p0.grid.cells → 0 ≤ heat p i) ∧ totalHeat p = p0.power ∧
      ∃ q r, single tl oN p0 = ok q ∧ single tl o q = ok r ∧ ∀ i, i < p0.grid.cells → heat p i = heat q i ∧ temp p i = temp r i))
    (Mid := fun i p => Fine p0 m p ∧ (∀ i, i < p0.grid.cells → 0 ≤ heat p i) ∧ totalHeat p = p0.power ∧ (i = 0 → single tl oN p0 = ok p) ∧ (i ≠ 0 →
      ∃ q r, single tl oN p0 = ok q ∧ single tl o q = ok r ∧ ∀ i, i < p0.grid.cells → heat p i = heat q i ∧ temp p i = temp r i))
    (fun i r r' x hi hh => by
      obtain ⟨k1, k2, k3, -⟩ := critical_half h.mats_n ha hp hw hi.1 (fun h0 => ⟨(hi.2.2 h0).1, (hi.2.2 h0).2.1⟩) hh
      refine ⟨k1, k2, k3.total, fun h0 => ?_, fun h0 => ?_⟩
      · subst h0
        rw [← hi.2.1 rfl]
        exact single_first hN hh
      · obtain ⟨-, -, q, s, s1, s2, s3⟩ := hi.2.2 h0
        have z := critical_zero h.mats_n ha h0 hi.1 hh
        exact ⟨q, s, s1, s2, fun i' hi' => ⟨(z i' hi').1.trans (s3 i' hi').1, (z i' hi').2.trans (s3 i' hi').2⟩⟩)
    (fun i r r' y hi hh => by
      obtain ⟨k1, k2, k3, k4⟩ := heat_half h hlin hw hi.1 hi.2.1 hh
      refine ⟨k1, fun h0 => absurd h0 (Nat.succ_ne_zero i), fun _ => ⟨fun i' hi' => by rw [k2 i' hi']; exact hi.2.1 i' hi', by
        rw [k3]; exact hi.2.2.1, ?_⟩⟩
      by_cases h0 : i = 0
      · subst h0
        exact ⟨r, r', hi.2.2.2.1 rfl, single_first hH hh, fun i' hi' => ⟨k2 i' hi', rfl⟩⟩
      · obtain ⟨q, s, s1, s2, s3⟩ := hi.2.2.2.2 h0
        have z := heat_zero h hlin h0 hi.1 hi.2.1 hh
        exact ⟨q, s, s1, s2, fun i' hi' => ⟨(k2 i' hi').trans (s3 i' hi').1, (z i' hi').trans (s3 i' hi').2⟩⟩)
    _ _ _ _ _ _ _ ⟨⟨Kept.refl _, hT⟩, fun _ => rfl, fun h0 => absurd rfl h0⟩ hrun
  exact (key.2.2.2 (Nat.succ_ne_zero _)).2.2

/-- heat conduction first -/
theorem second_frozen {a : Part Plant (Vec ℝ)} {oN : Settings} (hN : solver tl oN = ok a) (hH : solver tl o = ok (heatPart tl o))
    (h : Conducting p0.grid c o.bc AL BL CL AR BR CR m) (hlin : LinSolves tl.lin)
    (ha : Critical a p0 m) (hp : 0 ≤ p0.power) (hT : ∀ i, i < p0.grid.cells → m ≤ temp p0 i) (hq : ∀ i, i < p0.grid.cells → 0 ≤ heat p0 i)
    {big : List Fl → Fl} {acc : ℝ} {maxIter : Int} {p' : Plant} {j : Nat}
    (hrun : coupled big (heatPart tl o) a 0 acc maxIter p0 = ok (p', j)) :
    ∃ q r, single tl o p0 = ok q ∧ single tl oN q = ok r ∧ ∀ i, i < p0.grid.cells → heat p' i = heat r i ∧ temp p' i = temp q i := by
  have hw : (0 : ℝ) ≤ 0 ∧ (0 : ℝ) ≤ 1 := ⟨le_rfl, zero_le_one⟩
  have key := loop_kept (a := heatPart tl o) (b := a) (w := 0)
    (Inv := fun i p => Fine p0 m p ∧ (i = 0 → p = p0) ∧ (∀ i, i < p0.grid.cells → 0 ≤ heat p i) ∧ (i ≠ 0 → totalHeat p = p0.power ∧
      ∃ q r, single tl o p0 = ok q ∧ single tl oN q = ok r ∧ ∀ i, i < p0.grid.cells → heat p i = heat r i ∧ temp p i = temp q i))
    (Mid := fun i p => Fine p0 m p ∧ (i = 0 → single tl o p0 = ok p) ∧ (∀ i, i < p0.grid.cells → 0 ≤ heat p i) ∧ (i ≠ 0 → totalHeat p = p0.power ∧
      ∃ q r, single tl o p0 = ok q ∧ single tl oN q = ok r ∧ ∀ i, i < p0.grid.cells → heat p i = heat r i ∧ temp p i = temp q i))
    (fun i r r' y hi hh => by
      obtain ⟨k1, k2, k3, k4⟩ := heat_half h hlin hw hi.1 hi.2.2.1 hh
      refine ⟨k1, fun h0 => ?_, fun i' hi' => by rw [k2 i' hi']; exact hi.2.2.1 i' hi', fun h0 => ?_⟩
      · subst h0
        rw [← hi.2.1 rfl]
        exact single_first hH hh
      · obtain ⟨t, q, s, s1, s2, s3⟩ := hi.2.2.2 h0
        have z := heat_zero h hlin h0 hi.1 hi.2.2.1 hh
        exact ⟨by rw [k3]; exact t, q, s, s1, s2, fun i' hi' => ⟨(k2 i' hi').trans (s3 i' hi').1, (z i' hi').trans (s3 i' hi').2⟩⟩)
    (fun i r r' x hi hh => by
      obtain ⟨k1, k2, k3, k4⟩ := critical_half h.mats_n ha hp hw hi.1 (fun h0 => ⟨hi.2.2.1, (hi.2.2.2 h0).1⟩) hh
      refine ⟨k1, fun h0 => absurd h0 (Nat.succ_ne_zero i), k2, fun _ => ⟨k3.total, ?_⟩⟩
      by_cases h0 : i = 0
      · subst h0
        exact ⟨r, r', hi.2.1 rfl, single_first hN hh, fun i' hi' => ⟨rfl, k4 i' hi'⟩⟩
      · obtain ⟨-, q, s, s1, s2, s3⟩ := hi.2.2.2 h0
        have z := critical_zero h.mats_n ha h0 hi.1 hh
        exact ⟨q, s, s1, s2, fun i' hi' => ⟨(z i' hi').1.trans (s3 i' hi').1, (z i' hi').2.trans (s3 i' hi').2⟩⟩)
    _ _ _ _ _ _ _ ⟨⟨Kept.refl _, hT⟩, fun _ => rfl, hq, fun h0 => absurd rfl h0⟩ hrun
  exact (key.2.2.2.2 (Nat.succ_ne_zero _)).2

/-! ### constant conductivities -/

/-- with constant conductivities the heat solver always arrives at the same temperatures -/
theorem heat_constant (h : Conducting p0.grid c o.bc AL BL CL AR BR CR m) (hlin : LinSolves tl.lin)
    (hk : ∀ i, i < p0.grid.cells → ∀ x y, Numeric.polyValue (c i).n (c i).v x = Numeric.polyValue (c i).n (c i).v y)
    (hq : ∀ i, i < p0.grid.cells → 0 ≤ heat p0 i) (hT : ∀ i, i < p0.grid.cells → m ≤ temp p0 i) (hacc : 0 < o.acc) (hmax : 2 ≤ o.maxIter) :
    ∃ t, (∀ i, i < p0.grid.cells → m ≤ t i) ∧ ∀ p, Kept p0 p → (∀ i, i < p0.grid.cells → heat p i = heat p0 i) →
      (∀ i, i < p0.grid.cells → m ≤ temp p i) → ∃ g' old, heatSolve tl o p = ok ({ p with grid := g' }, old) ∧ Heated p.grid t g' ∧
        old.n = p.grid.cells ∧ ∀ i, i < p.grid.cells → old.v i = temp p i := by
  obtain ⟨t0, ht0, low0⟩ := pass_exists h hq hT
  refine ⟨t0, low0, fun p hkp hqp hTp => ?_⟩
  have hc := hkp.body.cells
  have h' := h.same hkp.body
  have hq' : ∀ i, i < p.grid.cells → 0 ≤ heat p i := fun i hi => by
    rw [hc] at hi
    rw [hqp i hi]
    exact hq i hi
  obtain ⟨t, e0, hp, hlow⟩ := passes_exist h' hq' (fun i hi => hTp i (by rw [← hc]; exact hi))
  have hsame : ∀ j i, i < p0.grid.cells → t (j + 1) i = t0 i := fun j i hi => by
    obtain ⟨d, T, rhs, on, e, hS⟩ := hp j
    rw [hc] at hS
    exact pass_unique h (fun i hi => hk i hi _ _) ht0 ⟨d, T, rhs, on.same hkp.body hqp, e, hS⟩ i hi
  obtain ⟨k1, k2⟩ := heatSolve_char (tl := tl) h' hlin hq' (fun i _ => e0 i) hp hlow
  have h1 : Calm p.grid.cells o.acc t 1 := fun i hi => by
    rw [hc] at hi
    rw [hsame 1 i hi, hsame 0 i hi, sub_self, abs_zero]
    exact hacc
  have hex : ∃ k, Calm p.grid.cells o.acc t k := ⟨1, h1⟩
  have hle : Nat.find hex ≤ 1 := Nat.find_min' hex h1
  obtain ⟨g', old, e, hg, no, vo⟩ := k1 (Nat.find hex) (by omega) (Nat.find_spec hex) (fun k hk' => Nat.find_min hex hk')
  exact ⟨g', old, e, hg.congr (fun i hi => hsame _ i (by rw [← hc]; exact hi)), no, vo⟩


end

end Verif.Calc
