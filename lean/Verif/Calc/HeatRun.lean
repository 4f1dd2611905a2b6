import Verif.Calc.Fields
import Verif.Heat.Props

/-! # Lemmas about the heat solver working on the reactor -/

namespace Verif.Calc

open Verif Outcome Finset Mesh

noncomputable section

open scoped Classical

variable {g : Grid} {c : Nat → Vec ℝ} {bc : Vec ℝ} {AL BL CL AR BR CR m : ℝ} {lin : Mat ℝ → List ℝ → Nat → ℝ}

theorem Conducting.same {g' : Grid} (h : Conducting g c bc AL BL CL AR BR CR m) (k : SameBody g g') :
    Conducting g' c bc AL BL CL AR BR CR m where
  shaped := k.shaped h.shaped
  mats_n := k.filled h.mats_n
  two := by rw [k.cells]; exact h.two
  laws i hi := by
    rw [k.cells] at hi
    rw [(k.mats i hi).kLaw]
    exact h.laws i hi
  pos i hi := h.pos i (by rw [← k.cells]; exact hi)
  boundaries := h.boundaries
  AL_nonneg := h.AL_nonneg
  BL_nonneg := h.BL_nonneg
  AR_nonneg := h.AR_nonneg
  BR_nonneg := h.BR_nonneg
  left hg := h.left (by rw [← k.geom]; exact hg)
  right := h.right
  tied := by rw [k.geom]; exact h.tied
  lowLeft hg := h.lowLeft (by rw [← k.geom]; exact hg)
  lowRight := h.lowRight

theorem HeatOn.same {g' : Grid} {s : Nat → ℝ} {d : Heat.Data} (h : HeatOn g' c bc s d) (k : SameBody g g')
    (hq : ∀ i, i < g.cells → (g'.mats.v i).q = (g.mats.v i).q) : HeatOn g c bc s d where
  physical := h.physical
  cells := h.cells.trans k.cells
  geom := h.geom.trans k.geom
  bc := h.bc
  radii := h.radii.trans k.bounds
  vol i hi := by rw [h.vol i (by rw [k.cells]; exact hi), k.volume]
  surf i hi := by rw [h.surf i (by rw [k.cells]; exact hi), k.geom, k.bounds]
  k i hi := h.k i (by rw [k.cells]; exact hi)
  q i hi := by rw [h.q i (by rw [k.cells]; exact hi), hq i hi]

/-- the linear problem of one pass -/
theorem heat_problem (h : Conducting g c bc AL BL CL AR BR CR m) (hT : ∀ i, i < g.cells → m ≤ (g.mats.v i).T) :
    ∃ d, heatData g bc = ok d ∧ HeatOn g c bc (fun i => (g.mats.v i).T) d ∧ Heat.Boundaries d.bc AL BL CL AR BR CR ∧
      Heat.Admissible d AL BL AR BR := by
  obtain ⟨d, e, ph, h1, h2, h3, h4, h5, h6, h7⟩ := C73_heat h.shaped h.mats_n h.two c h.laws (fun i hi => h.pos i hi _ (hT i hi)) bc
  refine ⟨d, e, ⟨ph, h1, h2, h3, h4, h5, h6, fun i hi => (h7 i hi).1, fun i hi => (h7 i hi).2⟩, by rw [h3]; exact h.boundaries,
    ⟨h.AL_nonneg, h.BL_nonneg, h.AR_nonneg, h.BR_nonneg, by rw [h2]; exact h.left, h.right, by rw [h2]; exact h.tied⟩⟩

/-- what a pass computes: the temperatures with the conductivities at `s` -/
def Pass (g : Grid) (c : Nat → Vec ℝ) (bc : Vec ℝ) (s t : Nat → ℝ) : Prop :=
  ∃ d T rhs, HeatOn g c bc s d ∧ Heat.system d = ok (T, rhs) ∧ Heat.Solves T rhs g.cells t

/-- one pass of the iteration -/
theorem heat_pass (h : Conducting g c bc AL BL CL AR BR CR m) (hlin : LinSolves lin) (hT : ∀ i, i < g.cells → m ≤ (g.mats.v i).T)
    (hq : ∀ i, i < g.cells → 0 ≤ (g.mats.v i).q) :
    ∃ d s t g' new, heatData g bc = ok d ∧ Heat.system d = ok s ∧ HeatOn g c bc (fun i => (g.mats.v i).T) d ∧
      Heat.Solves s.1 s.2 g.cells t ∧ (∀ t', Heat.Solves s.1 s.2 g.cells t' → ∀ i < g.cells, t' i = t i) ∧
      setTemperatures ⟨s.1.c, lin s.1 s.2.toList⟩ g = ok g' ∧ Heated g t g' ∧ (∀ i, i < g.cells → m ≤ t i) ∧
      temperatures g' "C" = ok new ∧ new.n = g.cells ∧ ∀ i, i < g.cells → new.v i = t i := by
  obtain ⟨d, e, on, hb, ha⟩ := heat_problem h hT
  obtain ⟨T, rhs, e', hex, hmin, -⟩ := Heat.C47_extremum on.physical hb ha
  obtain ⟨pL, pR⟩ := ha.determined on.physical
  obtain ⟨T', rhs', e'', r1, r2, r3, -⟩ := Heat.system_ok on.physical hb ⟨fun hg => (pL hg).ne', pR.ne'⟩
  rw [e'] at e''
  cases e''
  have hs : Heat.Solves T rhs d.cells (lin T rhs.toList) := hlin d.cells T rhs r1 r2 r3 hex
  have hu : ∀ t', Heat.Solves T rhs d.cells t' → ∀ i < d.cells, t' i = lin T rhs.toList i := by
    obtain ⟨t, -, hu⟩ := hex
    intro t' ht' i hi
    rw [hu t' ht' i hi, hu _ hs i hi]
  obtain ⟨g', eg, hg⟩ := setTemperatures_ok h.mats_n (t := ⟨T.c, lin T rhs.toList⟩) (by dsimp only; rw [r2, on.cells])
  obtain ⟨new, en, nn, nv⟩ := temperatures_ok (hg.same.filled h.mats_n)
  have hc := on.cells
  rw [hg.cells] at nn nv
  refine ⟨d, (T, rhs), lin T rhs.toList, g', new, e, e', on, by rw [← hc]; exact hs, by rw [← hc]; exact hu, eg, hg, ?_, en, nn,
    fun i hi => by rw [nv i hi, hg.mats i hi]⟩
  intro i hi
  rw [← hc] at hi
  exact hmin m _ hs (fun i hi => by rw [hc] at hi; rw [on.q i hi]; exact hq i hi) (by rw [on.geom]; exact h.lowLeft) h.lowRight i hi

theorem maxDiff_lt {x y : Vec ℝ} (h0 : 0 < x.n) (hn : x.n = y.n) (acc : ℝ) :
    ∃ M, maxDiff x y = ok M ∧ (M < acc ↔ ∀ i, i < x.n → |x.v i - y.v i| < acc) := by
  have := loop_inv (n := x.n) (body := fun i (m : ℝ) => do
    let a ← x.get i
    let b ← y.get i
    ok (if m < |a - b| then |a - b| else m)) (s := 0)
    (fun k M => (∀ i, i < k → |x.v i - y.v i| ≤ M) ∧ (M = 0 ∨ ∃ i, i < k ∧ M = |x.v i - y.v i|)) ?_ ?_
  · obtain ⟨M, e, h2, h3⟩ := this
    refine ⟨M, e, fun h i hi => (h2 i hi).trans_lt h, fun h => ?_⟩
    rcases h3 with rfl | ⟨i, hi, rfl⟩
    · exact (abs_nonneg _).trans_lt (h 0 h0)
    · exact h i hi
  · exact ⟨fun i hi => by omega, Or.inl rfl⟩
  · rintro i M hi ⟨h2, h3⟩
    rw [Vec.get_ok hi, ok_bind, Vec.get_ok (by omega), ok_bind]
    refine ⟨_, rfl, fun j hj => ?_, ?_⟩
    · rcases Nat.lt_succ_iff_lt_or_eq.1 hj with hj | rfl
      · split_ifs with hlt
        · exact (h2 j hj).trans hlt.le
        · exact h2 j hj
      · split_ifs with hlt
        · exact le_rfl
        · exact not_lt.1 hlt
    · split_ifs with hlt
      · exact Or.inr ⟨i, Nat.lt_succ_self i, rfl⟩
      · rcases h3 with h3 | ⟨j, hj, e⟩
        · exact Or.inl h3
        · exact Or.inr ⟨j, by omega, e⟩

/-! ### the sequence of temperatures -/

/-- two heat problems with the same numbers have the same system -/
theorem system_agree {d d' : Heat.Data} (ph : Heat.Physical d) (ph' : Heat.Physical d')
    (hb : Heat.Boundaries d.bc AL BL CL AR BR CR) (hb' : Heat.Boundaries d'.bc AL BL CL AR BR CR)
    (ha : Heat.Admissible d AL BL AR BR) (hc : d'.cells = d.cells) (hg : d'.geom = d.geom)
    (hsize : ∀ i, i < d.cells → d'.size.v i = d.size.v i) (hvol : ∀ i, i < d.cells → d'.vol.v i = d.vol.v i)
    (hsurf : ∀ i, i ≤ d.cells → d'.surf.v i = d.surf.v i) (hk : ∀ i, i < d.cells → d'.k.v i = d.k.v i)
    (hq : ∀ i, i < d.cells → d'.q.v i = d.q.v i) {T T' : Mat ℝ} {rhs rhs' : Vec ℝ} (e : Heat.system d = ok (T, rhs))
    (e' : Heat.system d' = ok (T', rhs')) {t : Nat → ℝ} : Heat.Solves T rhs d.cells t ↔ Heat.Solves T' rhs' d.cells t := by
  have h2 := ph.two
  have ha' : Heat.Admissible d' AL BL AR BR := ⟨ha.1, ha.2, ha.3, ha.4, by rw [hg]; exact ha.5, ha.6, by rw [hg]; exact ha.7⟩
  obtain ⟨pL, pR⟩ := ha.determined ph
  obtain ⟨pL', pR'⟩ := ha'.determined ph'
  obtain ⟨X, b, eX, -, -, -, hX, hbv⟩ := Heat.system_ok ph hb ⟨fun hg => (pL hg).ne', pR.ne'⟩
  obtain ⟨X', b', eX', -, -, -, hX', hbv'⟩ := Heat.system_ok ph' hb' ⟨fun hg => (pL' hg).ne', pR'.ne'⟩
  rw [e] at eX
  cases eX
  rw [e'] at eX'
  cases eX'
  have hdx : ∀ i, i < d.cells → Heat.dx d' i = Heat.dx d i := by
    intro i hi
    unfold Heat.dx
    rw [hc, hsize i hi, hsize (i - 1) (by omega)]
  have hlam : ∀ i, i < d.cells → Heat.lam d' i = Heat.lam d i := by
    intro i hi
    unfold Heat.lam Heat.kInter
    rw [hc, hsize i hi, hsize (i - 1) (by omega), hk i hi, hk (i - 1) (by omega), hsurf i hi.le]
  have hgl : ∀ i, i < d.cells → Heat.gl d' i = Heat.gl d i := by
    intro i hi
    unfold Heat.gl
    rw [hc, hlam i hi, hdx i hi, hdx (i - 1) (by omega)]
  have hgr : ∀ i, i < d.cells → Heat.gr d' i = Heat.gr d i := by
    intro i hi
    unfold Heat.gr
    rw [hc]
    split_ifs with h
    · rfl
    · rw [hlam (i + 1) (by omega), hdx (i + 1) (by omega)]
  have hm : ∀ i j, i < d.cells → j < d.cells → T'.m i j = T.m i j := by
    intro i j hi hj
    rw [hX i j hi hj, hX' i j (by omega) (by omega)]
    unfold Heat.tm Heat.bl Heat.br
    rw [hgl i hi, hgr i hi, hg, hc, hsize 0 (by omega), hk 0 (by omega), hsize (d.cells - 1) (by omega),
      hk (d.cells - 1) (by omega), hsurf d.cells le_rfl]
  have hr : ∀ i, i < d.cells → rhs'.v i = rhs.v i := by
    intro i hi
    rw [hbv i hi, hbv' i (by omega)]
    unfold Heat.bl Heat.br
    rw [hg, hc, hsize 0 (by omega), hk 0 (by omega), hsize (d.cells - 1) (by omega), hq i hi, hvol i hi,
      hk (d.cells - 1) (by omega), hsurf d.cells le_rfl]
  refine forall₂_congr (fun i hi => ?_)
  rw [hr i hi, sum_congr rfl (fun j hj => by rw [← hm i j hi (mem_range.1 hj)])]

/-- a pass is determined by the conductivities it uses -/
theorem pass_unique (h : Conducting g c bc AL BL CL AR BR CR m) {s s' t t' : Nat → ℝ}
    (hs : ∀ i, i < g.cells → Numeric.polyValue (c i).n (c i).v (s' i) = Numeric.polyValue (c i).n (c i).v (s i))
    (p : Pass g c bc s t) (p' : Pass g c bc s' t') : ∀ i, i < g.cells → t' i = t i := by
  obtain ⟨d, T, rhs, on, e, hS⟩ := p
  obtain ⟨d', T', rhs', on', e', hS'⟩ := p'
  have hb : Heat.Boundaries d.bc AL BL CL AR BR CR := by rw [on.bc]; exact h.boundaries
  have hb' : Heat.Boundaries d'.bc AL BL CL AR BR CR := by rw [on'.bc]; exact h.boundaries
  have ha : Heat.Admissible d AL BL AR BR := ⟨h.AL_nonneg, h.BL_nonneg, h.AR_nonneg, h.BR_nonneg, by rw [on.geom]; exact h.left, h.right,
    by rw [on.geom]; exact h.tied⟩
  have hc := on.cells
  have key := system_agree on.physical on'.physical hb hb' ha (by rw [on'.cells, hc]) (by rw [on'.geom, on.geom])
    (fun i hi => by rw [on'.physical.size_eq i (by rw [on'.cells, ← hc]; exact hi), on.physical.size_eq i hi, on'.radii, on.radii])
    (fun i hi => by rw [hc] at hi; rw [on'.vol i hi, on.vol i hi]) (fun i hi => by rw [hc] at hi; rw [on'.surf i hi, on.surf i hi])
    (fun i hi => by rw [hc] at hi; rw [on'.k i hi, on.k i hi, hs i hi]) (fun i hi => by rw [hc] at hi; rw [on'.q i hi, on.q i hi]) e e'
    (t := t')
  rw [hc] at key
  obtain ⟨T0, rhs0, e0, ⟨t0, -, hu⟩, -⟩ := Heat.C47_extremum on.physical hb ha
  rw [e] at e0
  cases e0
  rw [hc] at hu
  intro i hi
  rw [hu t' (key.2 hS') i hi, hu t hS i hi]

/-- the mesh with other temperatures -/
def withTemps (g : Grid) (s : Nat → ℝ) : Grid := { g with mats := ⟨g.mats.n, fun i => { g.mats.v i with T := s i }⟩ }

theorem withTemps_heated (g : Grid) (s : Nat → ℝ) : Heated g s (withTemps g s) := ⟨rfl, rfl, rfl, rfl, rfl, rfl, rfl, fun _ _ => rfl⟩

theorem pass_exists (h : Conducting g c bc AL BL CL AR BR CR m) (hq : ∀ i, i < g.cells → 0 ≤ (g.mats.v i).q) {s : Nat → ℝ}
    (hs : ∀ i, i < g.cells → m ≤ s i) : ∃ t, Pass g c bc s t ∧ ∀ i, i < g.cells → m ≤ t i := by
  have hw := withTemps_heated g s
  obtain ⟨d, e, on, hb, ha⟩ := heat_problem (h.same hw.same) hs
  obtain ⟨T, rhs, e', ⟨t, ht, -⟩, hmin, -⟩ := Heat.C47_extremum on.physical hb ha
  have on' : HeatOn g c bc s d := on.same hw.same (fun i _ => rfl)
  have hc := on'.cells
  refine ⟨t, ⟨d, T, rhs, on', e', by rw [← hc]; exact ht⟩, fun i hi => ?_⟩
  exact hmin m t ht (fun i hi => by rw [hc] at hi; rw [on'.q i hi]; exact hq i hi) (by rw [on'.geom]; exact h.lowLeft) h.lowRight i
    (by rw [hc]; exact hi)

theorem passes_exist (h : Conducting g c bc AL BL CL AR BR CR m) (hq : ∀ i, i < g.cells → 0 ≤ (g.mats.v i).q)
    (hT : ∀ i, i < g.cells → m ≤ (g.mats.v i).T) :
    ∃ t : Nat → Nat → ℝ, (∀ i, t 0 i = (g.mats.v i).T) ∧ (∀ j, Pass g c bc (t j) (t (j + 1))) ∧ ∀ j i, i < g.cells → m ≤ t j i := by
  choose! step h1 h2 using fun s hs => pass_exists h hq (s := s) hs
  have low : ∀ j i, i < g.cells → m ≤ (step^[j] (fun i => (g.mats.v i).T)) i := by
    intro j
    induction j with
    | zero => exact hT
    | succ j ih =>
      rw [Function.iterate_succ_apply']
      exact h2 _ ih
  refine ⟨fun j => step^[j] (fun i => (g.mats.v i).T), fun i => rfl, fun j => ?_, low⟩
  beta_reduce
  rw [Function.iterate_succ_apply']
  exact h1 _ (low j)

/-! ### the loop -/

theorem heatLoop_char (h : Conducting g c bc AL BL CL AR BR CR m) (hlin : LinSolves lin) (hq : ∀ i, i < g.cells → 0 ≤ (g.mats.v i).q)
    {t : Nat → Nat → ℝ} (hp : ∀ j, Pass g c bc (t j) (t (j + 1))) (hlow : ∀ j i, i < g.cells → m ≤ t j i) (acc : ℝ) (maxIter : Int)
    (fuel : Nat) : ∀ (j : Nat) (old : Vec ℝ) (g' : Grid), Heated g (t j) g' → old.n = g.cells →
      (∀ i, i < g.cells → old.v i = if j = 0 then 1 else t j i) →
      (∀ J, j ≤ J → J < j + fuel → Calm g.cells acc t J → (∀ k, j ≤ k → k < J → ¬ Calm g.cells acc t k) →
        ∃ g'', heatLoop lin bc acc maxIter fuel old g' = ok g'' ∧ Heated g (t (J + 1)) g'') ∧
      ((∀ k, j ≤ k → k < j + fuel → ¬ Calm g.cells acc t k) → heatLoop lin bc acc maxIter fuel old g' = notConverged maxIter) := by
  induction fuel with
  | zero =>
    intro j old g' _ _ _
    exact ⟨fun J h1 h2 => by omega, fun _ => rfl⟩
  | succ fuel ih =>
    intro j old g' hg hn ho
    have hT' : ∀ i, i < g'.cells → (g'.mats.v i).T = t j i := fun i hi => by rw [hg.cells] at hi; rw [hg.mats i hi]
    have hQ' : ∀ i, i < g.cells → (g'.mats.v i).q = (g.mats.v i).q := fun i hi => by rw [hg.mats i hi]
    obtain ⟨d, s, t', g2, new, e1, e2, on, hs, -, e3, hg2, hl, e4, nn, nv⟩ := heat_pass (h.same hg.same) hlin
      (fun i hi => by rw [hT' i hi]; exact hlow j i (by rw [← hg.cells]; exact hi))
      (fun i hi => by rw [hg.cells] at hi; rw [hQ' i hi]; exact hq i hi)
    rw [hg.cells] at hs nn nv
    have ht : ∀ i, i < g.cells → t' i = t (j + 1) i := by
      refine pass_unique h (s := t j) (fun i hi => ?_) (hp j)
        (s' := fun i => (g'.mats.v i).T) ⟨d, s.1, s.2, on.same hg.same hQ', e2, hs⟩
      rw [hT' i (by rw [hg.cells]; exact hi)]
    have hg3 : Heated g (t (j + 1)) g2 := (hg.trans hg2).congr ht
    obtain ⟨M, eM, hM⟩ := maxDiff_lt (x := new) (y := old) (by rw [nn]; have := h.two; omega) (by rw [nn, hn]) acc
    have hcalm : M < acc ↔ Calm g.cells acc t j := by
      rw [hM, nn]
      cases j with
      | zero =>
        refine forall₂_congr (fun i hi => ?_)
        rw [nv i hi, ht i hi, ho i hi, if_pos rfl]
      | succ j =>
        refine forall₂_congr (fun i hi => ?_)
        rw [nv i hi, ht i hi, ho i hi, if_neg (Nat.succ_ne_zero j)]
    have eL : heatLoop lin bc acc maxIter (fuel + 1) old g' = if M < acc then ok g2 else heatLoop lin bc acc maxIter fuel new g2 := by
      conv_lhs => unfold heatLoop
      rw [e1, ok_bind, e2, ok_bind, e3, ok_bind, e4, ok_bind, eM, ok_bind]
    rw [eL]
    obtain ⟨k1, k2⟩ := ih (j + 1) new g2 hg3 nn (fun i hi => by rw [nv i hi, ht i hi, if_neg (Nat.succ_ne_zero j)])
    refine ⟨fun J hJ1 hJ2 hc hno => ?_, fun hno => ?_⟩
    · by_cases hJ : J = j
      · subst hJ
        rw [if_pos (hcalm.2 hc)]
        exact ⟨g2, rfl, hg3⟩
      · rw [if_neg (fun hlt => hno j le_rfl (by omega) (hcalm.1 hlt))]
        exact k1 J (by omega) (by omega) hc (fun k hk1 hk2 => hno k (by omega) hk2)
    · rw [if_neg (fun hlt => hno j le_rfl (by omega) (hcalm.1 hlt))]
      exact k2 (fun k hk1 hk2 => hno k (by omega) (by omega))

/-- the heat solver -/
theorem heatSolve_char {tl : Tools} {o : Settings} {p : Plant} (h : Conducting p.grid c o.bc AL BL CL AR BR CR m) (hlin : LinSolves tl.lin)
    (hq : ∀ i, i < p.grid.cells → 0 ≤ heat p i) {t : Nat → Nat → ℝ} (h0 : ∀ i, i < p.grid.cells → t 0 i = temp p i)
    (hp : ∀ j, Pass p.grid c o.bc (t j) (t (j + 1))) (hlow : ∀ j i, i < p.grid.cells → m ≤ t j i) :
    (∀ J : Nat, (J : Int) < o.maxIter → Calm p.grid.cells o.acc t J → (∀ k, k < J → ¬ Calm p.grid.cells o.acc t k) →
      ∃ g' old, heatSolve tl o p = ok ({ p with grid := g' }, old) ∧ Heated p.grid (t (J + 1)) g' ∧ old.n = p.grid.cells ∧
        ∀ i, i < p.grid.cells → old.v i = temp p i) ∧
    ((∀ k : Nat, (k : Int) < o.maxIter → ¬ Calm p.grid.cells o.acc t k) → heatSolve tl o p = notConverged o.maxIter) := by
  obtain ⟨old, eo, no, vo⟩ := temperatures_ok h.mats_n
  obtain ⟨k1, k2⟩ := heatLoop_char h hlin hq hp hlow o.acc o.maxIter o.maxIter.toNat 0 (Vec.const p.grid.cells 1) p.grid
    ⟨rfl, rfl, rfl, rfl, rfl, rfl, rfl, fun i hi => by rw [h0 i hi]; rfl⟩ rfl (fun i _ => by rw [if_pos rfl]; rfl)
  unfold heatSolve
  rw [eo, ok_bind]
  refine ⟨fun J hJ hc hno => ?_, fun hno => ?_⟩
  · obtain ⟨g', e, hg⟩ := k1 J (by omega) (by omega) hc (fun k _ hk => hno k hk)
    rw [e, ok_bind]
    exact ⟨g', old, rfl, hg, no, vo⟩
  · rw [k2 (fun k _ hk => hno k (by omega))]
    unfold notConverged
    split_ifs <;> rfl

/-- in short -/
theorem heatSolve_cases {tl : Tools} {o : Settings} {p : Plant} (h : Conducting p.grid c o.bc AL BL CL AR BR CR m) (hlin : LinSolves tl.lin)
    (hq : ∀ i, i < p.grid.cells → 0 ≤ heat p i) (hT : ∀ i, i < p.grid.cells → m ≤ temp p i) :
    (∃ g' old t, heatSolve tl o p = ok ({ p with grid := g' }, old) ∧ Heated p.grid t g' ∧ old.n = p.grid.cells ∧
      (∀ i, i < p.grid.cells → old.v i = temp p i) ∧ ∀ i, i < p.grid.cells → m ≤ t i) ∨ heatSolve tl o p = notConverged o.maxIter := by
  obtain ⟨t, h0, hp, hlow⟩ := passes_exist h hq hT
  obtain ⟨k1, k2⟩ := heatSolve_char h hlin hq (fun i _ => h0 i) hp hlow
  by_cases hex : ∃ k : Nat, (k : Int) < o.maxIter ∧ Calm p.grid.cells o.acc t k
  · left
    obtain ⟨hk, hc⟩ := Nat.find_spec hex
    obtain ⟨g', old, e, hg, hn, hv⟩ := k1 (Nat.find hex) hk hc (fun k hk' hc' => Nat.find_min hex hk' ⟨by omega, hc'⟩)
    exact ⟨g', old, _, e, hg, hn, hv, hlow _⟩
  · right
    exact k2 (fun k hk hc => hex ⟨k, hk, hc⟩)

/-- a solution of the system is what the program takes for a steady field -/
theorem conducted_of_solves (hc : Conducting g c bc AL BL CL AR BR CR m) {s t : Nat → ℝ} {d : Heat.Data}
    (on : HeatOn g c bc s d) {T : Mat ℝ} {rhs : Vec ℝ} (e : Heat.system d = ok (T, rhs)) (hS : Heat.Solves T rhs g.cells t) :
    Conducted d AL BL CL AR BR CR t ∧ (Heat.Harmless d.cells d.size.v d.k.v → Steady d AL BL CL AR BR CR t) := by
  have ha : Heat.Admissible d AL BL AR BR := ⟨hc.AL_nonneg, hc.BL_nonneg, hc.AR_nonneg, hc.BR_nonneg, by rw [on.geom]; exact hc.left, hc.right,
    by rw [on.geom]; exact hc.tied⟩
  obtain ⟨pL, pR⟩ := ha.determined on.physical
  obtain ⟨T', rhs', e', hJ⟩ := Heat.C24_cells_partial on.physical (by rw [on.bc]; exact hc.boundaries)
    (⟨fun hg => (pL hg).ne', pR.ne'⟩ : Heat.Determined d AL BL AR BR)
  rw [e] at e'
  cases e'
  rw [← on.cells] at hS
  exact ⟨(hJ t).1.1 hS, fun hm => ((hJ t).2 hm).1 hS⟩

/-- the new temperatures of a pass -/
theorem pass_conducted (hc : Conducting g c bc AL BL CL AR BR CR m) {s t : Nat → ℝ}
    (hp : Pass g c bc s t) : ∃ d, HeatOn g c bc s d ∧ Conducted d AL BL CL AR BR CR t := by
  obtain ⟨d, T, rhs, on, e, hS⟩ := hp
  exact ⟨d, on, (conducted_of_solves hc on e hS).1⟩

end

end Verif.Calc
