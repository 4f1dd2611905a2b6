import Verif.Kinetics.Transient

/-! # Lemmas: numbers of fractions and decay constants that differ -/

namespace Verif.Kinetics

open Verif Outcome Finset Poly Numeric

noncomputable section

/-- two loops whose passes correspond -/
theorem loop_sim {σ τ : Type} (f : σ → τ) (Inv : σ → Prop) {body : Nat → σ → Outcome σ} {body' : Nat → τ → Outcome τ} {n : Nat}
    (hb : ∀ i t, i < n → Inv t → body' i (f t) = (body i t >>= fun u => ok (f u))) (hi : ∀ i t u, i < n → Inv t → body i t = ok u → Inv u) {s : σ} (h0 : Inv s) :
    loop body' n (f s) = (loop body n s >>= fun u => ok (f u)) := by
  suffices H : ∀ k, k ≤ n → loop body' k (f s) = (loop body k s >>= fun u => ok (f u)) ∧ ∀ u, loop body k s = ok u → Inv u from (H n le_rfl).1
  intro k
  induction k with
  | zero =>
    intro _
    refine ⟨rfl, ?_⟩
    rintro u h
    cases h
    exact h0
  | succ k ih =>
    intro hk
    obtain ⟨h1, h2⟩ := ih (by omega)
    rw [loop_succ, loop_succ, h1]
    cases hx : loop body k s with
    | ok t =>
      rw [ok_bind, ok_bind, ok_bind]
      exact ⟨hb k t (by omega) (h2 t hx), fun u hu => hi k t u (by omega) (h2 t hx) hu⟩
    | _ => exact ⟨rfl, fun u hu => by cases hu⟩

theorem loop_congr {σ : Type} {body body' : Nat → σ → Outcome σ} {n : Nat} (h : ∀ i t, i < n → body' i t = body i t) (s : σ) : loop body' n s = loop body n s := by
  induction n with
  | zero => rfl
  | succ n ih => rw [loop_succ, loop_succ, ih fun i t hi => h i t (by omega), show body' n = body n from funext fun t => h n t (by omega)]

/-- The state with the fractions `b`. -/
def withBeta (b : Vec ℝ) (s : State) : State := { s with beta := b }

variable {n : Nat} {b : Vec ℝ} {s : State}

/-- The fractions up to the number of decay constants. -/
structure Cropped (n : Nat) (b : Vec ℝ) (s : State) : Prop where
  lam : s.lam.n = n
  beta : s.beta = ⟨n, b.v⟩

theorem cropped_get (hn : n ≤ b.n) (h : Cropped n b s) {i : Nat} (hi : i < n) : b.get i = s.beta.get i := by
  rw [h.beta, Vec.get_ok (x := b) (by omega), Vec.get_ok (x := ⟨n, b.v⟩) hi]

theorem inHourPoly_surplus (hn : n ≤ b.n) (h : Cropped n b s) (rho : ℝ) :
    inHourPoly (withBeta b s) rho = inHourPoly s (rho - ∑ i ∈ Ico n b.n, b.v i) := by
  have e1 : loop (fun i t => do
      let x ← b.get i
      ok (t + x)) b.n (0 : ℝ) = ok (∑ i ∈ range b.n, b.v i) := by
    rw [loop_sum (fun i => b.v i) b.n 0 _ (fun i t hi => by rw [Vec.get_ok hi, ok_bind]), zero_add]
  have e2 : loop (fun i t => do
      let x ← s.beta.get i
      ok (t + x)) s.beta.n (0 : ℝ) = ok (∑ i ∈ range n, b.v i) := by
    rw [h.beta]
    rw [loop_sum (fun i => b.v i) n 0 _ (fun i t hi => by rw [Vec.get_ok (x := ⟨n, b.v⟩) hi, ok_bind]), zero_add]
  have e3 : rho - ∑ i ∈ range b.n, b.v i = rho - ∑ i ∈ Ico n b.n, b.v i - ∑ i ∈ range n, b.v i := by
    rw [← sum_range_add_sum_Ico _ hn]
    ring
  have e4 : ∀ v : Vec ℝ, loop (fun i (third : Vec ℝ) => do
      let p ← prodPolyI s.lam i
      let l ← s.lam.get i
      let x ← b.get i
      vaddAssign third (vmul (vmul p l) x)) s.lam.n v = loop (fun i (third : Vec ℝ) => do
      let p ← prodPolyI s.lam i
      let l ← s.lam.get i
      let x ← s.beta.get i
      vaddAssign third (vmul (vmul p l) x)) s.lam.n v := fun v =>
    loop_congr (fun i t hi => by rw [cropped_get hn h (by rw [← h.lam]; exact hi)]) v
  unfold inHourPoly withBeta
  dsimp only
  rw [e1, e2]
  simp only [e4, ok_bind, e3]

theorem residue_surplus (hn : n ≤ b.n) (h : Cropped n b s) (r : ℝ) : residue (withBeta b s) r = residue s r := by
  unfold residue withBeta
  dsimp only
  rw [loop_congr (body := fun j (t : ℝ × ℝ × ℝ) => do
    let b ← s.beta.get j
    let l ← s.lam.get j
    let cd ← s.concDev.get j
    let x1 ← fdiv b (r + l)
    let x2 ← fdiv cd (r + l)
    let x3 ← fdiv (b * l) ((r + l) ^ 2)
    ok (t.1 + x1, t.2.1 + x2, t.2.2 + x3)) (fun i t hi => by rw [cropped_get hn h (by rw [← h.lam]; exact hi)])]

theorem step_surplus (hn : n ≤ b.n) (h : Cropped n b s) (solver : Vec ℝ → Vec ℝ) (rho dt : ℝ) :
    step solver (withBeta b s) rho dt = (step solver s (rho - ∑ i ∈ Ico n b.n, b.v i) dt >>= fun u => ok (withBeta b u)) := by
  have hT : ∀ t : ℝ, Cropped n b { s with cumTime := t } := fun t => ⟨h.lam, h.beta⟩
  have eP : inHourPoly { withBeta b s with cumTime := (withBeta b s).cumTime + dt } rho =
      inHourPoly { s with cumTime := s.cumTime + dt } (rho - ∑ i ∈ Ico n b.n, b.v i) := inHourPoly_surplus hn (hT _) rho
  have eR : ∀ r, residue { withBeta b s with cumTime := (withBeta b s).cumTime + dt } r = residue { s with cumTime := s.cumTime + dt } r := residue_surplus hn (hT _)
  unfold step
  dsimp only
  rw [eP]
  simp only [eR, bind_assoc]
  refine bind_congr fun p => bind_congr fun R => bind_congr fun x => ?_
  refine loop_sim (withBeta b) (Cropped n b) (fun i t hi ht => ?_) (fun i t u hi ht he => ?_) (s := { s with cumTime := s.cumTime + dt, power := x }) ⟨h.lam, h.beta⟩
  · have hi' : i < n := by rw [← h.lam]; exact hi
    unfold withBeta
    dsimp only
    rw [cropped_get hn ht hi']
    simp only [bind_assoc, ok_bind]
  · simp only [bind_eq_ok] at he
    obtain ⟨_, _, _, _, _, _, _, _, _, _, _, _, _, _, he⟩ := he
    cases he
    exact ⟨ht.lam, ht.beta⟩

theorem init_surplus {lam : Vec ℝ} (hn : lam.n ≤ b.n) (alpha power : ℝ) :
    init lam b alpha power = (init lam ⟨lam.n, b.v⟩ alpha power >>= fun u => ok (withBeta b u)) := by
  unfold init
  rw [loop_congr (body := fun i (conc : Vec ℝ) => do
    let x ← (⟨lam.n, b.v⟩ : Vec ℝ).get i
    let l ← lam.get i
    let c ← fdiv (x * power) (l * alpha)
    ok (conc.push c)) (fun i t hi => by
      rw [Vec.get_ok (x := b) (i := i) (by omega), Vec.get_ok (x := ⟨lam.n, b.v⟩) (i := i) hi]), bind_assoc]
  rfl

theorem history_surplus (hn : n ≤ b.n) (h : Cropped n b s) (solver : Vec ℝ → Vec ℝ) (rhos times : Vec ℝ) :
    history solver (withBeta b s) rhos times =
      (history solver s ⟨rhos.n, fun k => rhos.v k - ∑ i ∈ Ico n b.n, b.v i⟩ times >>= fun u => ok (withBeta b u.1, u.2)) := by
  unfold history
  refine loop_sim (fun u : State × Vec ℝ => (withBeta b u.1, u.2)) (fun u => Cropped n b u.1) (fun i t hi ht => ?_) (fun i t u hi ht he => ?_) (s := (s, Vec.const 0 0)) h
  · dsimp only at hi ⊢
    rw [Vec.get_ok (x := rhos) hi, Vec.get_ok (x := ⟨rhos.n, fun k => rhos.v k - ∑ i ∈ Ico n b.n, b.v i⟩) (i := i) hi]
    simp only [ok_bind, bind_assoc]
    refine bind_congr fun dt => ?_
    rw [step_surplus hn ht, bind_assoc]
    rfl
  · simp only [bind_eq_ok] at he
    obtain ⟨_, _, _, _, s', hs', he⟩ := he
    cases he
    obtain ⟨h1, h2, -⟩ := step_of_ok hs'
    exact ⟨by rw [h1]; exact ht.lam, by rw [h2]; exact ht.beta⟩

/-- with more fractions than decay constants, the surplus lowers the reactivity -/
theorem surplus_transient {solver : Vec ℝ → Vec ℝ} (hs : ExactRootFinder solver) {lam : Vec ℝ} {alpha power : ℝ} (hb : lam.n ≤ b.n)
    (hp : Physical lam.n lam.v b.v alpha) {rhos times : Vec ℝ} (hn : times.n = rhos.n) {P : Nat → ℝ → ℝ} {C : Nat → Nat → ℝ → ℝ}
    (h : Transient lam.n lam.v b.v alpha power rhos.n (fun k => rhos.v k - ∑ i ∈ Ico lam.n b.n, b.v i) times.v P C) :
    ∃ s0 s res, init lam b alpha power = ok s0 ∧ history solver s0 rhos times = ok (s, res) ∧ res.n = rhos.n ∧ ∀ k, k < rhos.n → res.v k = P k (times.v k) := by
  obtain ⟨s0, s, res, h0, h1, h2, h3⟩ := history_transient hs (lam := lam) (beta := ⟨lam.n, b.v⟩) rfl hp (rhos := ⟨rhos.n, fun k => rhos.v k - ∑ i ∈ Ico lam.n b.n, b.v i⟩) hn h
  obtain ⟨e1, e2, -⟩ := init_of_ok h0
  refine ⟨withBeta b s0, withBeta b s, res, ?_, ?_, h2, h3⟩
  · rw [init_surplus hb, h0, ok_bind]
  · rw [history_surplus hb ⟨by rw [e1], e2⟩, h1, ok_bind]

/-- with fewer fractions than decay constants, the constructor reads beyond the fractions -/
theorem init_short {lam : Vec ℝ} {alpha : ℝ} (hb : b.n < lam.n) (hl : ∀ i, i < b.n → lam.v i * alpha ≠ 0) (power : ℝ) : init lam b alpha power = ub := by
  unfold init
  obtain ⟨c, hc, -⟩ := loop_inv (n := b.n) (s := Vec.const 0 (0 : ℝ)) (body := fun i (conc : Vec ℝ) => do
    let x ← b.get i
    let l ← lam.get i
    let c ← fdiv (x * power) (l * alpha)
    ok (conc.push c)) (fun _ _ => True) trivial (fun i t hi _ => by
      refine ⟨t.push (b.v i * power / (lam.v i * alpha)), ?_, trivial⟩
      rw [Vec.get_ok hi, Vec.get_ok (x := lam) (i := i) (by omega), ok_bind, ok_bind, fdiv_ok (hl i hi), ok_bind])
  rw [loop_fail_at (x := ub) (fun _ => rfl) hb hc (by
    have : b.get b.n = ub := if_neg (by omega)
    rw [this]
    rfl)]
  rfl

end

end Verif.Kinetics
