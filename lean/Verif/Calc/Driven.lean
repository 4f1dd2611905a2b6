import Verif.Calc.Model
import Verif.Calc.NeutronRun
import Verif.Core.Modal
import Mathlib.LinearAlgebra.Matrix.ToLinearEquiv

/-! # The source-driven calculation -/

namespace Verif

open Outcome

theorem loop_sim {σ τ : Type} {R : σ → τ → Prop} {b1 : Nat → σ → Outcome σ} {b2 : Nat → τ → Outcome τ} {n : Nat} {x x' : σ} {y : τ}
    (hs : ∀ i x y x', i < n → R x y → b1 i x = ok x' → ∃ y', b2 i y = ok y' ∧ R x' y') (h0 : R x y) (h : loop b1 n x = ok x') :
    ∃ y', loop b2 n y = ok y' ∧ R x' y' := by
  induction n generalizing x' with
  | zero => cases h; exact ⟨y, rfl, h0⟩
  | succ n ih =>
    rw [loop_succ, bind_eq_ok] at h
    obtain ⟨u, hu, hb⟩ := h
    obtain ⟨v, hv, r⟩ := ih (fun i x y x' hi => hs i x y x' (Nat.lt_succ_of_lt hi)) hu
    obtain ⟨y', e, r'⟩ := hs n u v x' (Nat.lt_succ_self n) r hb
    exact ⟨y', by rw [loop_succ, hv]; exact e, r'⟩

end Verif

namespace Verif.Calc

open Verif Outcome Finset Mesh

/-! ### strength -/

/-- `b` is `S` times `a` as far as `a` is a number -/
def Times (S : ℝ) (a b : Fl) : Prop := ∀ u, a = .fin u → b = .fin (S * u)

theorem Times.term {S : ℝ} {a b r r' c f : Fl} (h : Times S a b) (hr : Times S r r') :
    Times S (a.add ((c.mul r).mul f)) (b.add ((c.mul r').mul f)) := by
  intro u e
  obtain ⟨x, y, rfl, e2, rfl⟩ := Fl.add_fin e
  obtain ⟨z, w, e3, rfl, rfl⟩ := Fl.mul_fin e2
  obtain ⟨c, r, rfl, rfl, rfl⟩ := Fl.mul_fin e3
  rw [h _ rfl, hr _ rfl]
  simp only [Fl.mul_of_fin, Fl.add_of_fin, Fl.fin.injEq]
  ring

/-- all entries of `y` are `S` times those of `x` as far as these are numbers -/
def Scaled (S : ℝ) (x y : Mat Fl) : Prop := y.r = x.r ∧ y.c = x.c ∧ ∀ e m, Times S (x.m e m) (y.m e m)

theorem totalFluxes_scaled {S : ℝ} {k : List Fl} {r r' : Vec Fl} {fwd : Box Fl} {t : Mat Fl} (hn : r'.n = r.n)
    (hr : ∀ n, n < r.n → Times S (r.v n) (r'.v n)) (h : totalFluxes k r fwd = ok t) :
    ∃ t', totalFluxes k r' fwd = ok t' ∧ Scaled S t t' := by
  refine loop_sim (R := Scaled S)
    (b2 := fun e => loop (fun m => loop (fun n (x : Mat Fl) => do
      let kn ← at? k n
      let r ← r'.get n
      let f ← fwd.get e m n
      let y ← x.get e m
      x.set e m (y.add (((kn.div ((Fl.fin 1).sub kn)).mul r).mul f))) fwd.c) fwd.b) (y := ⟨fwd.a, fwd.b, fun _ _ => .fin 0⟩)
    (fun e x y x' _ R0 he => loop_sim (R := Scaled S) (fun m x y x' _ R0 hm => loop_sim (R := Scaled S) (fun n x y x' _ R0 h => ?_) R0 hm) R0 he) ?_ h
  · obtain ⟨er, ec, R0⟩ := R0
    obtain ⟨kn, h1, h⟩ := bind_eq_ok.1 h
    obtain ⟨rn, h2, h⟩ := bind_eq_ok.1 h
    obtain ⟨f, h3, h⟩ := bind_eq_ok.1 h
    obtain ⟨z, h4, h⟩ := bind_eq_ok.1 h
    have l2 : n < r.n := by
      by_contra hc
      rw [Vec.get_ub hc] at h2
      cases h2
    rw [Vec.get_ok l2] at h2
    cases h2
    have l4 : e < x.r ∧ m < x.c := by
      by_contra hc
      rw [Mat.get_ub hc] at h4
      cases h4
    rw [Mat.get_ok l4.1 l4.2] at h4
    cases h4
    rw [Mat.set, if_pos l4] at h
    cases h
    refine ⟨⟨y.r, y.c, fun p q => if p = e ∧ q = m then (y.m e m).add (((kn.div ((Fl.fin 1).sub kn)).mul (r'.v n)).mul f) else y.m p q⟩,
      ?_, er, ec, fun p q => ?_⟩
    · rw [h1, ok_bind, Vec.get_ok (by omega), ok_bind, h3, ok_bind, Mat.get_ok (by omega) (by omega), ok_bind, Mat.set,
        if_pos ⟨by omega, by omega⟩]
    · dsimp only
      by_cases hpq : p = e ∧ q = m
      · rw [if_pos hpq, if_pos hpq]
        exact (R0 e m).term (hr n l2)
      · rw [if_neg hpq, if_neg hpq]
        exact R0 p q
  · exact ⟨rfl, rfl, fun _ _ u hu => by cases hu; rw [mul_zero]⟩

theorem totalFluxes_size {k : List Fl} {r : Vec Fl} {fwd : Box Fl} {t : Mat Fl} (h : totalFluxes k r fwd = ok t) :
    t.r = fwd.a ∧ t.c = fwd.b := by
  refine loop_inv_of_ok (fun _ (x : Mat Fl) => x.r = fwd.a ∧ x.c = fwd.b) ⟨rfl, rfl⟩ (fun e x x' _ i1 h1 => ?_) h
  refine loop_inv_of_ok (fun _ (x : Mat Fl) => x.r = fwd.a ∧ x.c = fwd.b) i1 (fun m x x' _ i2 h2 => ?_) h1
  refine loop_inv_of_ok (fun _ (x : Mat Fl) => x.r = fwd.a ∧ x.c = fwd.b) i2 (fun n x x' _ i3 h => ?_) h2
  obtain ⟨kn, h1, h⟩ := bind_eq_ok.1 h
  obtain ⟨rn, h2, h⟩ := bind_eq_ok.1 h
  obtain ⟨f, h3, h⟩ := bind_eq_ok.1 h
  obtain ⟨z, h4, h⟩ := bind_eq_ok.1 h
  unfold Mat.set at h
  split at h
  · cases h
    exact i3
  · cases h

theorem box_size {read : Material → Mat Fl} {n : Nat} {M : Grid} {x : Box Fl} (h : modeBox read n M = ok x) :
    x.a = M.energies ∧ x.b = M.cells ∧ x.c = n := by
  refine loop_inv_of_ok (fun _ (x : Box Fl) => x.a = M.energies ∧ x.b = M.cells ∧ x.c = n) ⟨rfl, rfl, rfl⟩ (fun m x x' _ i1 h1 => ?_) h
  obtain ⟨mat, -, h1⟩ := bind_eq_ok.1 h1
  refine loop_inv_of_ok (fun _ (x : Box Fl) => x.a = M.energies ∧ x.b = M.cells ∧ x.c = n) i1 (fun k x x' _ i2 h2 => ?_) h1
  refine loop_inv_of_ok (fun _ (x : Box Fl) => x.a = M.energies ∧ x.b = M.cells ∧ x.c = n) i2 (fun i x x' _ i3 h => ?_) h2
  obtain ⟨y, -, h⟩ := bind_eq_ok.1 h
  unfold Box.set at h
  split at h
  · cases h
    exact i3
  · cases h

theorem setTotals_ok {M : Grid} {t : Mat Fl} (hc : t.c = M.cells) (hn : M.cells ≤ M.mats.n) :
    ∃ M', setTotals t M = ok M' ∧ Changed (fun i m => { m with total := ⟨t.r, fun g => t.m g i⟩ }) M.cells M M' :=
  changes_ok _ M.cells M hn (fun i hi M' => by unfold column; rw [if_pos (by omega), ok_bind])

theorem setTotals_cells {M M' : Grid} {t : Mat Fl} (hc : t.c = M.cells) (h : setTotals t M = ok M') : M.cells ≤ M.mats.n := by
  by_contra hn
  have := changes_ub (body := fun m M => do
    let x ← column t m
    change (fun mat => { mat with total := x }) m M) (fun i m => { m with total := ⟨t.r, fun g => t.m g i⟩ }) M.cells M (by omega)
    (fun i hi M' => by unfold column; rw [if_pos (by omega), ok_bind])
  rw [setTotals, this] at h
  cases h

theorem toUnsigned_ok {s : ℝ} (h : -1 < s) (h' : s < 4294967296) : toUnsigned s = ok ⌊s⌋₊ := if_pos ⟨h, h'⟩

/-- The flux of a source is proportional to its strength, cut to a whole number. -/
theorem driven_scaled {p p1 : Plant} {a b : Nat} {f : Nat → Nat → ℝ} {s : ℝ} (h1 : driven { p with source := (1, a, b) } = ok p1)
    (hf : FluxIs p1 f) (hs : -1 < s) (hs' : s < 4294967296) :
    ∃ p', driven { p with source := (s, a, b) } = ok p' ∧ SameModes p1 p' ∧ p'.source = (s, a, b) ∧
      FluxIs p' (fun e i => ⌊s⌋₊ * f e i) := by
  unfold driven at h1
  rw [toUnsigned_ok (by norm_num) (by norm_num), ok_bind] at h1
  obtain ⟨vol, e1, h1⟩ := bind_eq_ok.1 h1
  obtain ⟨adj, e2, h1⟩ := bind_eq_ok.1 h1
  obtain ⟨q, e3, h1⟩ := bind_eq_ok.1 h1
  obtain ⟨fwd, e4, h1⟩ := bind_eq_ok.1 h1
  obtain ⟨P, e5, h1⟩ := bind_eq_ok.1 h1
  obtain ⟨x, e6, h1⟩ := bind_eq_ok.1 h1
  obtain ⟨r, e7, h1⟩ := bind_eq_ok.1 h1
  obtain ⟨t, e8, h1⟩ := bind_eq_ok.1 h1
  obtain ⟨g, e9, h1⟩ := bind_eq_ok.1 h1
  cases h1
  dsimp only at e1 e2 e3 e4 e5 e6 e7 e8 e9
  unfold adjointSource at e3
  split at e3
  case isFalse => cases e3
  rename_i hin
  obtain ⟨v, ev, e3⟩ := bind_eq_ok.1 e3
  cases e3
  unfold quotients at e7
  split at e7
  case isFalse => cases e7
  rename_i hx
  cases e7
  have hb := box_size e4
  have ht := totalFluxes_size e8
  have hcells := setTotals_cells (ht.2.trans hb.2.1) e9
  have key := fun r' hn hr => totalFluxes_scaled (S := (⌊s⌋₊ : ℝ)) (r' := r') hn hr e8
  obtain ⟨t', e8', hr', hc', ht'⟩ := key
    ⟨adj.c, fun n => ((Fl.fin ((⌊s⌋₊ : ℝ) * v)).mul (adj.v (decrement b) (decrement a) n)).div (x.v n)⟩ rfl (fun n hn u hu => by
      dsimp only at hu ⊢
      obtain ⟨y, hy, h⟩ := Fl.div_fin hu
      obtain ⟨c, d, hc, hd, rfl⟩ := Fl.mul_fin hy
      cases hc
      rw [hd, Fl.mul_of_fin]
      rcases h with ⟨z, hz, h0, rfl⟩ | ⟨⟨z, hz⟩, rfl⟩
      · rw [hz, Fl.div_of_fin h0]
        congr 1
        rw [show (⌊(1 : ℝ)⌋₊ : ℝ) = 1 by norm_num]
        ring
      · rw [hz, mul_zero]
        rfl)
  obtain ⟨g1, e9', h⟩ := setTotals_ok (ht.2.trans hb.2.1) hcells
  rw [e9'] at e9
  cases e9
  obtain ⟨g', e9'', h'⟩ := setTotals_ok (t := t') ((hc'.trans ht.2).trans hb.2.1) hcells
  obtain ⟨c1, c2, c3, c4, c5, c6, c7, c8⟩ := h
  obtain ⟨d1, d2, d3, d4, d5, d6, d7, d8⟩ := h'
  refine ⟨{ p with source := (s, a, b), grid := g' }, ?_, ⟨rfl, rfl, rfl, rfl, d1.trans c1.symm, d2.trans c2.symm, d3.trans c3.symm, d4.trans c4.symm,
    d5.trans c5.symm, d6.trans c6.symm, d7.trans c7.symm, fun i hi => ?_⟩, rfl, fun i hi => ?_⟩
  · unfold driven
    rw [toUnsigned_ok hs hs', ok_bind, e1, ok_bind, e2, ok_bind]
    dsimp only
    rw [adjointSource, if_pos hin, ev]
    simp only [ok_bind]
    rw [e4, ok_bind, e5, ok_bind, e6, ok_bind, quotients, if_pos hx, ok_bind]
    dsimp only at e8' ⊢
    rw [e8', ok_bind, e9'', ok_bind]
  · dsimp only at hi
    rw [c8 i, d8 i, if_pos (by omega), if_pos (by omega)]
    exact ⟨_, rfl⟩
  · dsimp only at hi ⊢
    obtain ⟨f1, f2⟩ := hf i (by dsimp only; omega)
    dsimp only at f1 f2
    rw [c8 i, if_pos (by omega)] at f1 f2
    rw [d8 i, if_pos (by omega)]
    dsimp only at f1 f2 ⊢
    exact ⟨by omega, fun e he => ht' e i _ (f2 e (by omega))⟩

theorem diffusionSolve_source {t : Tools} {o : Settings} {p p' : Plant} {old : Vec ℝ} (h : diffusionSolve t o p = ok (p', old))
    (s : ℝ × Nat × Nat) : diffusionSolve t o { p with source := s } = ok ({ p' with source := s }, old) := by
  unfold diffusionSolve at h
  obtain ⟨a, e1, h⟩ := bind_eq_ok.1 h
  obtain ⟨d, e2, h⟩ := bind_eq_ok.1 h
  obtain ⟨vol, e3, h⟩ := bind_eq_ok.1 h
  obtain ⟨st, e4, h⟩ := bind_eq_ok.1 h
  dsimp only at h
  unfold diffusionSolve
  dsimp only
  rw [e1, ok_bind, e2, ok_bind, e3, ok_bind, e4, ok_bind]
  have hw : ∀ {p1 : Plant}, writeForward st o.energies p = ok p1 → writeForward st o.energies { p with source := s } = ok { p1 with source := s } := by
    intro p1 e
    unfold writeForward at e ⊢
    obtain ⟨g, e6, e⟩ := bind_eq_ok.1 e
    obtain ⟨g', e7, e⟩ := bind_eq_ok.1 e
    cases e
    dsimp only
    rw [e6, ok_bind, e7, ok_bind]
  have ha : ∀ {p1 : Plant}, writeAdjoint st o.energies p = ok p1 → writeAdjoint st o.energies { p with source := s } = ok { p1 with source := s } := by
    intro p1 e
    unfold writeAdjoint at e ⊢
    obtain ⟨g, e6, e⟩ := bind_eq_ok.1 e
    cases e
    dsimp only
    rw [e6, ok_bind]
  cases hd : o.direction with
  | adjoint =>
    rw [hd] at h
    dsimp only at h ⊢
    obtain ⟨p1, e5, h⟩ := bind_eq_ok.1 h
    cases h
    rw [ha e5, ok_bind]
  | forward =>
    rw [hd] at h
    dsimp only at h ⊢
    obtain ⟨p1, e5, h⟩ := bind_eq_ok.1 h
    cases h
    rw [hw e5, ok_bind]
  | undefined =>
    rw [hd] at h
    dsimp only at h ⊢
    obtain ⟨p1, e5, h⟩ := bind_eq_ok.1 h
    cases h
    rw [hw e5, ok_bind]

theorem ads_scaled {tl : Tools} {o : Settings} {p p1 : Plant} {a b : Nat} {f : Nat → Nat → ℝ} {s : ℝ}
    (h1 : ads tl o { p with source := (1, a, b) } = ok p1) (hf : FluxIs p1 f) (hs : -1 < s) (hs' : s < 4294967296) :
    ∃ p', ads tl o { p with source := (s, a, b) } = ok p' ∧ SameModes p1 p' ∧ p'.source = (s, a, b) ∧ FluxIs p' (fun e i => ⌊s⌋₊ * f e i) := by
  unfold ads at h1
  obtain ⟨⟨x, ox⟩, e1, h1⟩ := bind_eq_ok.1 h1
  obtain ⟨⟨y, oy⟩, e2, h1⟩ := bind_eq_ok.1 h1
  have hy : ∀ {q q' : Plant} {o : Settings} {z}, diffusionSolve tl o q = ok (q', z) → q'.source = q.source := by
    intro q q' o z h
    have := diffusionSolve_source h q.source
    rw [show ({ q with source := q.source } : Plant) = q from rfl, h] at this
    injection this with this
    injection this with this
    rw [this]
  have y1 : y = { y with source := (1, a, b) } := by
    have : y.source = (1, a, b) := (hy e2).trans (hy e1)
    rw [← this]
  dsimp only at h1
  rw [y1] at h1
  obtain ⟨p', h2, h3⟩ := driven_scaled h1 hf hs hs'
  refine ⟨p', ?_, h3⟩
  unfold ads
  have e1' := diffusionSolve_source e1 (s, a, b)
  dsimp only at e1'
  rw [e1', ok_bind]
  dsimp only
  have e2' := diffusionSolve_source e2 (s, a, b)
  rw [e2', ok_bind]
  exact h2

/-! ### value -/

/-- entry `q` of `x` is the number `c`, all others are those of `t` -/
def At (N q : Nat) (t : Vec Fl) (c : ℝ) (x : Vec Fl) : Prop := x.n = N ∧ x.v q = .fin c ∧ ∀ q', q' ≠ q → x.v q' = t.v q'

theorem At.loop {N q : Nat} {t : Vec Fl} {f : Nat → ℝ} {body : Nat → Vec Fl → Outcome (Vec Fl)} {n : Nat}
    (hb : ∀ i c x, i < n → At N q t c x → ∃ x', body i x = ok x' ∧ At N q t (c + f i) x') {c : ℝ} {x : Vec Fl} (h : At N q t c x) :
    ∃ x', loop body n x = ok x' ∧ At N q t (c + ∑ i ∈ range n, f i) x' := by
  refine loop_inv (fun j y => At N q t (c + ∑ i ∈ range j, f i) y) (by simpa using h) (fun i y hi hy => ?_)
  obtain ⟨y', e, h'⟩ := hb i _ y hi hy
  exact ⟨y', e, by rw [sum_range_succ, ← add_assoc]; exact h'⟩

theorem At.set {N q : Nat} {t x : Vec Fl} {c : ℝ} (h : At N q t c x) (hq : q < N) (f : ℝ) :
    ∃ x', x.set q ((x.v q).add (.fin f)) = ok x' ∧ At N q t (c + f) x' := by
  obtain ⟨h1, h2, h3⟩ := h
  refine ⟨_, Vec.set_ok (by omega), h1, ?_, fun q' hq' => ?_⟩
  · dsimp only
    rw [Function.update_self, h2, Fl.add_of_fin]
  · dsimp only
    rw [Function.update_of_ne hq', h3 q' hq']

theorem adjointProduction_ok {P : Mat ℝ} {vol : Vec ℝ} {adj fwd : Box Fl} {E C N : Nat} {φ ψ : Nat → Nat → Nat → ℝ} (hPr : P.r = E)
    (hPc : P.c = C) (hv : vol.n = C) (ha : adj.a = E ∧ adj.b = C ∧ adj.c = N) (hf : fwd.a = E ∧ fwd.b = C ∧ fwd.c = N)
    (va : ∀ e m n, e < E → m < C → n < N → adj.v e m n = .fin (ψ n e m)) (vf : ∀ e m n, e < E → m < C → n < N → fwd.v e m n = .fin (φ n e m)) :
    GivesVec (adjointProduction P vol adj fwd) N (fun n => .fin (∑ m ∈ range C, ∑ e ∈ range E, ψ n e m * P.m e m * φ n e m * vol.v m)) := by
  obtain ⟨a1, a2, a3⟩ := ha
  obtain ⟨f1, f2, f3⟩ := hf
  unfold adjointProduction
  rw [f1, f2, f3, a3]
  refine Exists.elim (loop_inv (n := N) (s := Vec.const N (.fin 0)) (body := fun n => loop (fun m => loop (fun e (x : Vec Fl) => do
    let a ← adj.get e m n
    let p ← P.get e m
    let f ← fwd.get e m n
    let v ← vol.get m
    let y ← x.get n
    x.set n (y.add (((a.mul (.fin p)).mul f).mul (.fin v)))) E) C)
    (fun j x => x.n = N ∧ ∀ n, n < N → x.v n = if n < j then .fin (∑ m ∈ range C, ∑ e ∈ range E, ψ n e m * P.m e m * φ n e m * vol.v m) else .fin 0)
    ⟨rfl, fun n _ => by rw [if_neg (by omega)]; rfl⟩ (fun n x hn hx => ?_)) ?_
  swap
  · rintro x ⟨e, h1, h2⟩
    exact ⟨x, e, h1, fun n hn => by rw [h2 n hn, if_pos hn]⟩
  · refine Exists.elim (At.loop (N := N) (q := n) (t := x) (n := C) (c := 0) (x := x)
      (f := fun m => ∑ e ∈ range E, ψ n e m * P.m e m * φ n e m * vol.v m)
      (body := fun m => loop (fun e (x : Vec Fl) => do
        let a ← adj.get e m n
        let p ← P.get e m
        let f ← fwd.get e m n
        let v ← vol.get m
        let y ← x.get n
        x.set n (y.add (((a.mul (.fin p)).mul f).mul (.fin v)))) E)
      (fun m c y hm hy => At.loop (f := fun e => ψ n e m * P.m e m * φ n e m * vol.v m) (fun e c z he hz => ?_) hy)
      ⟨hx.1, by rw [hx.2 n hn, if_neg (by omega)], fun _ _ => rfl⟩) ?_
    swap
    · rintro x' ⟨e, g1, g2, g3⟩
      refine ⟨x', e, g1, fun n' hn' => ?_⟩
      by_cases hc : n' = n
      · subst hc
        rw [g2, if_pos (by omega), zero_add]
      · rw [g3 n' hc, hx.2 n' hn']
        by_cases hl : n' < n
        · rw [if_pos hl, if_pos (by omega)]
        · rw [if_neg hl, if_neg (by omega)]
    · obtain ⟨z', ez, hz'⟩ := hz.set hn (ψ n e m * P.m e m * φ n e m * vol.v m)
      refine ⟨z', ?_, hz'⟩
      rw [Box.get_ok (by omega) (by omega) (by omega), ok_bind, Mat.get_ok (by omega) (by omega), ok_bind,
        Box.get_ok (by omega) (by omega) (by omega), ok_bind, Vec.get_ok (by omega), ok_bind, Vec.get_ok (by rw [hz.1]; exact hn), ok_bind,
        va e m n he hm hn, vf e m n he hm hn, Fl.mul_of_fin, Fl.mul_of_fin, Fl.mul_of_fin]
      exact ez

theorem totalFluxes_ok {kf : List Fl} {r : Vec Fl} {fwd : Box Fl} {E C N : Nat} {k ρ : Nat → ℝ} {φ : Nat → Nat → Nat → ℝ}
    (hf : fwd.a = E ∧ fwd.b = C ∧ fwd.c = N) (hr : r.n = N) (hk : ∀ n, n < N → kf[n]? = some (.fin (k n))) (hk1 : ∀ n, n < N → k n ≠ 1)
    (vr : ∀ n, n < N → r.v n = .fin (ρ n)) (vf : ∀ e m n, e < E → m < C → n < N → fwd.v e m n = .fin (φ n e m)) :
    Gives (totalFluxes kf r fwd) E C (fun e m => .fin (∑ n ∈ range N, k n / (1 - k n) * ρ n * φ n e m)) := by
  obtain ⟨f1, f2, f3⟩ := hf
  unfold totalFluxes
  rw [f1, f2, f3]
  have inner : ∀ e m (x : Mat Fl), e < E → m < C → x.r = E → x.c = C → x.m e m = .fin 0 → ∃ x', loop (fun n (x : Mat Fl) => do
      let kn ← at? kf n
      let r ← r.get n
      let f ← fwd.get e m n
      let y ← x.get e m
      x.set e m (y.add (((kn.div ((Fl.fin 1).sub kn)).mul r).mul f))) N x = ok x' ∧ x'.r = E ∧ x'.c = C ∧
      x'.m e m = .fin (∑ n ∈ range N, k n / (1 - k n) * ρ n * φ n e m) ∧ ∀ p q, ¬(p = e ∧ q = m) → x'.m p q = x.m p q := by
    intro e m x he hm h1 h2 h3
    refine loop_inv (fun j (y : Mat Fl) => y.r = E ∧ y.c = C ∧ y.m e m = .fin (∑ n ∈ range j, k n / (1 - k n) * ρ n * φ n e m) ∧
      ∀ p q, ¬(p = e ∧ q = m) → y.m p q = x.m p q) ⟨h1, h2, by simpa using h3, fun _ _ _ => rfl⟩ (fun n y hn hy => ?_)
    obtain ⟨y1, y2, y3, y4⟩ := hy
    have hat : at? kf n = ok (.fin (k n)) := by unfold at?; rw [hk n hn]
    have h0 : 1 - k n ≠ 0 := sub_ne_zero.2 (Ne.symm (hk1 n hn))
    refine ⟨⟨y.r, y.c, fun p q => if p = e ∧ q = m then .fin (∑ n ∈ range (n + 1), k n / (1 - k n) * ρ n * φ n e m) else y.m p q⟩,
      ?_, y1, y2, by dsimp only; rw [if_pos ⟨rfl, rfl⟩], fun p q hpq => by dsimp only; rw [if_neg hpq, y4 p q hpq]⟩
    rw [hat, ok_bind, Vec.get_ok (by omega), ok_bind, Box.get_ok (by omega) (by omega) (by omega), ok_bind, Mat.get_ok (by omega) (by omega),
      ok_bind, y3, vr n hn, vf e m n he hm hn, Fl.sub_of_fin, Fl.div_of_fin h0, Fl.mul_of_fin, Fl.mul_of_fin, Fl.add_of_fin, ← sum_range_succ,
      Mat.set, if_pos ⟨by omega, by omega⟩]
  refine Exists.elim (loop_inv (n := E) (s := (⟨E, C, fun _ _ => .fin 0⟩ : Mat Fl)) (body := fun e => loop (fun m => loop (fun n (x : Mat Fl) => do
      let kn ← at? kf n
      let r ← r.get n
      let f ← fwd.get e m n
      let y ← x.get e m
      x.set e m (y.add (((kn.div ((Fl.fin 1).sub kn)).mul r).mul f))) N) C)
    (fun j x => x.r = E ∧ x.c = C ∧ ∀ p q, p < E → q < C → x.m p q =
      if p < j then .fin (∑ n ∈ range N, k n / (1 - k n) * ρ n * φ n p q) else .fin 0)
    ⟨rfl, rfl, fun p q _ _ => by rw [if_neg (by omega)]⟩ (fun e x he hx => ?_)) ?_
  swap
  · rintro x ⟨e, h1, h2, h3⟩
    exact ⟨x, e, h1, h2, fun p hp q hq => by rw [h3 p q hp hq, if_pos hp]⟩
  · obtain ⟨x1, x2, x3⟩ := hx
    refine Exists.elim (loop_inv (n := C) (s := x) (body := fun m => loop (fun n (x : Mat Fl) => do
      let kn ← at? kf n
      let r ← r.get n
      let f ← fwd.get e m n
      let y ← x.get e m
      x.set e m (y.add (((kn.div ((Fl.fin 1).sub kn)).mul r).mul f))) N)
      (fun j y => y.r = E ∧ y.c = C ∧ ∀ p q, p < E → q < C → y.m p q =
        if p < e ∨ (p = e ∧ q < j) then .fin (∑ n ∈ range N, k n / (1 - k n) * ρ n * φ n p q) else .fin 0)
      ⟨x1, x2, fun p q hp hq => by
        rw [x3 p q hp hq]
        by_cases hl : p < e
        · rw [if_pos hl, if_pos (Or.inl hl)]
        · rw [if_neg hl, if_neg (by omega)]⟩ (fun m y hm hy => ?_)) ?_
    swap
    · rintro x' ⟨e', g1, g2, g3⟩
      refine ⟨x', e', g1, g2, fun p q hp hq => ?_⟩
      rw [g3 p q hp hq]
      by_cases hl : p < e + 1
      · rw [if_pos hl, if_pos (by omega)]
      · rw [if_neg hl, if_neg (by omega)]
    · obtain ⟨y1, y2, y3⟩ := hy
      obtain ⟨z, ez, z1, z2, z3, z4⟩ := inner e m y he hm y1 y2 (by rw [y3 e m he hm, if_neg (by omega)])
      refine ⟨z, ez, z1, z2, fun p q hp hq => ?_⟩
      by_cases hc : p = e ∧ q = m
      · obtain ⟨rfl, rfl⟩ := hc
        rw [z3, if_pos (by omega)]
      · rw [z4 p q hc, y3 p q hp hq]
        by_cases hl : p < e ∨ (p = e ∧ q < m)
        · rw [if_pos hl, if_pos (by omega)]
        · rw [if_neg hl, if_neg (by omega)]

/-- The flux of a source as the code computes it. -/
theorem driven_ok {p : Plant} {alb : Vec ℝ} {d : Diffusion.Data} {N pos e0 : Nat} {k : Nat → ℝ} {φ ψ : Nat → Nat → ℝ} (hS : Shaped p.grid)
    (hF : Furnished p.grid) (hc : ∀ i, i < p.grid.cells → Complete (p.grid.mats.v i) p.grid.energies)
    (on : DiffusionOn p.grid alb (temp p) d) (hm : Modal p N k φ ψ) (hk : ∀ n, n < N → k n ≠ 1)
    (hw : ∀ n, n < N → weight d (φ n) (ψ n) ≠ 0) (hp : pos < p.grid.cells) (he : e0 < p.grid.energies)
    {s : ℝ} (hs : -1 < s) (hs' : s < 4294967296) (hsrc : p.source = (s, pos + 1, e0 + 1)) :
    ∃ p', driven p = ok p' ∧ SameModes p p' ∧ p'.source = p.source ∧ FluxIs p' (fun e i => ∑ n ∈ range N, k n / (1 - k n) *
      (⌊s⌋₊ * d.vol.v pos * ψ n (pos + e0 * p.grid.cells) / weight d (φ n) (ψ n)) * φ n (i + e * p.grid.cells)) := by
  obtain ⟨-, vol, ev, nv, vv, -, -⟩ := C31_volumes hS
  obtain ⟨adj, ea, a1, a2, a3, va⟩ := modeBox_ok (M := p.grid) (read := fun m => m.adj) (n := p.grid.nAdjoint)
    (f := fun e i n => .fin (ψ n (i + e * p.grid.cells))) hF.mats_n.ge (fun i hi => by
      obtain ⟨h1, h2, h3⟩ := hm.adj i hi
      rw [hm.adjoint]
      exact ⟨h1, h2, fun e he n hn => h3 e n he hn⟩)
  obtain ⟨fwd, ef, f1, f2, f3, vf⟩ := modeBox_ok (M := p.grid) (read := fun m => m.flux) (n := p.grid.nForward)
    (f := fun e i n => .fin (φ n (i + e * p.grid.cells))) hF.mats_n.ge (fun i hi => by
      obtain ⟨h1, h2, h3⟩ := hm.flux i hi
      rw [hm.forward]
      exact ⟨h1, h2, fun e he n hn => h3 e n he hn⟩)
  rw [hm.adjoint] at a3 va
  rw [hm.forward] at f3 vf
  obtain ⟨P, eP, p1, p2, vP⟩ := C39_production hF (fun i hi => (hc i hi).fiss) (fun i hi => (hc i hi).nu) (fun i hi => (hc i hi).chi)
  beta_reduce at va vf vP
  have hvol : ∀ i, i < p.grid.cells → vol.v i = d.vol.v i := fun i hi => by rw [vv i hi, on.vol i hi]
  obtain ⟨x, ex, nx, vx⟩ := adjointProduction_ok (P := P) (vol := vol) (adj := adj) (fwd := fwd) (φ := fun n e i => φ n (i + e * p.grid.cells))
    (ψ := fun n e i => ψ n (i + e * p.grid.cells)) p1 p2 nv ⟨a1, a2, a3⟩ ⟨f1, f2, f3⟩ (fun e m n h1 h2 h3 => va e h1 m h2 n h3)
    (fun e m n h1 h2 h3 => vf e h1 m h2 n h3)
  have hx : ∀ n, n < N → x.v n = .fin (weight d (φ n) (ψ n)) := by
    intro n hn
    rw [vx n hn]
    unfold weight
    rw [on.cells, on.energies]
    refine congrArg Fl.fin (sum_congr rfl (fun i hi => sum_congr rfl (fun e he => ?_)))
    have hi := mem_range.1 hi
    have he := mem_range.1 he
    have hsum : ∑ h ∈ range p.grid.energies, d.nu.m h i * d.fiss.m h i = ∑ h ∈ range p.grid.energies,
        law (p.grid.mats.v i).nu (p.grid.mats.v i).T h * law (p.grid.mats.v i).fiss (p.grid.mats.v i).T h :=
      sum_congr rfl (fun h hh => by rw [on.nu h i (mem_range.1 hh) hi, on.fiss h i (mem_range.1 hh) hi]; rfl)
    rw [vP e he i hi, hvol i hi, on.chi e i he hi, hsum]
    rfl
  obtain ⟨t, et, t1, t2, vt⟩ := totalFluxes_ok (kf := p.kForward) (r := ⟨N, fun n => ((Fl.fin (⌊s⌋₊ * vol.v pos)).mul (adj.v e0 pos n)).div (x.v n)⟩)
    (fwd := fwd) (k := k) (ρ := fun n => ⌊s⌋₊ * d.vol.v pos * ψ n (pos + e0 * p.grid.cells) / weight d (φ n) (ψ n))
    (φ := fun n e i => φ n (i + e * p.grid.cells)) ⟨f1, f2, f3⟩ rfl hm.k hk (fun n hn => by
      dsimp only
      rw [va e0 he pos hp n hn, hx n hn, Fl.mul_of_fin, Fl.div_of_fin (hw n hn), hvol pos hp])
    (fun e m n h1 h2 h3 => vf e h1 m h2 n h3)
  obtain ⟨g, eg, c1, c2, c3, c4, c5, c6, c7, c8⟩ := setTotals_ok (M := p.grid) (t := t) t2 hF.mats_n.ge
  refine ⟨{ p with grid := g }, ?_, ⟨rfl, rfl, rfl, rfl, c1, c2, c3, c4, c5, c6, c7, fun i hi => ⟨_, by rw [c8 i, if_pos hi]⟩⟩, rfl, fun i hi => ?_⟩
  · unfold driven
    rw [hsrc]
    dsimp only
    rw [toUnsigned_ok hs hs', ok_bind, ev, ok_bind, show adjoints p.grid = ok adj from ea, ok_bind, show decrement (pos + 1) = pos from rfl,
      show decrement (e0 + 1) = e0 from rfl, adjointSource, if_pos ⟨by omega, by omega⟩, Vec.get_ok (by omega)]
    simp only [ok_bind]
    rw [show fluxes p.grid = ok fwd from ef, ok_bind, eP, ok_bind, ex, ok_bind, quotients, if_pos (by dsimp only; omega)]
    simp only [ok_bind]
    rw [a3, et, ok_bind, eg, ok_bind]
  · dsimp only at hi ⊢
    rw [c8 i, if_pos (by omega)]
    dsimp only
    refine ⟨by omega, fun e he => ?_⟩
    rw [vt e (by omega) i (by omega)]

end Verif.Calc
