import Verif.Kinetics.Props
import Verif.Kinetics.TransientSpec

/-! # Transients: powers with a reactivity that changes at given times -/

namespace Verif.Kinetics

open Verif Outcome Finset

noncomputable section

/-- the equations have a solution through any point -/
theorem solution_through {n : Nat} {lam beta : Nat → ℝ} {alpha : ℝ} (hp : Physical n lam beta alpha) (rho t0 P0 : ℝ) (C0 : Nat → ℝ) :
    ∃ (P : ℝ → ℝ) (C : Nat → ℝ → ℝ), PointKinetics n lam beta alpha rho P C ∧ P t0 = P0 ∧ ∀ i, i < n → C i t0 = C0 i := by
  obtain ⟨solver, hs⟩ := exists_exactRootFinder
  obtain ⟨P, C, h1, h2, h3, -⟩ := step_solution hs (n := n)
    (s := ⟨⟨n, lam⟩, ⟨n, beta⟩, ⟨n, fun i => beta i / alpha * P0 - lam i * C0 i⟩, ⟨n, C0⟩, alpha, P0, 0⟩) ⟨rfl, rfl, rfl, rfl, fun _ _ => rfl⟩ hp rho
  exact ⟨fun t => P (t - t0), fun i t => C i (t - t0),
    ⟨fun t => (h1.power (t - t0)).comp_sub_const t t0, fun i hi t => (h1.conc i hi (t - t0)).comp_sub_const t t0⟩, by simpa using h2, fun i hi => by simpa using h3 i hi⟩

/-- every transient exists -/
theorem exists_transient {n : Nat} {lam beta : Nat → ℝ} {alpha : ℝ} (hp : Physical n lam beta alpha) (power : ℝ) (m : Nat) (rhos times : Nat → ℝ) :
    ∃ P C, Transient n lam beta alpha power m rhos times P C := by
  choose F G h1 h2 h3 using solution_through hp
  let seq : Nat → (ℝ → ℝ) × (Nat → ℝ → ℝ) := fun k => Nat.rec
    (F (rhos 0) 0 power fun i => beta i * power / (lam i * alpha), G (rhos 0) 0 power fun i => beta i * power / (lam i * alpha))
    (fun k x => (F (rhos (k + 1)) (times k) (x.1 (times k)) fun i => x.2 i (times k), G (rhos (k + 1)) (times k) (x.1 (times k)) fun i => x.2 i (times k))) k
  refine ⟨fun k => (seq k).1, fun k => (seq k).2, ?_, h2 _ _ _ _, ?_, ?_⟩
  · intro k _
    cases k with
    | zero => exact h1 _ _ _ _
    | succ k => exact h1 _ _ _ _
  · intro i hi
    have e : (seq 0).2 i 0 = beta i * power / (lam i * alpha) := h3 _ _ _ _ i hi
    have := (hp.lam_pos i hi).ne'
    have := hp.alpha_pos.ne'
    rw [e]
    field_simp
    ring
  · exact fun k _ => ⟨h2 _ _ _ _, h3 _ _ _ _⟩

/-- and is unique -/
theorem Transient.unique {n : Nat} {lam beta : Nat → ℝ} {alpha power : ℝ} {m : Nat} {rhos times : Nat → ℝ} {P P' : Nat → ℝ → ℝ} {C C' : Nat → Nat → ℝ → ℝ}
    (hp : Physical n lam beta alpha) (h : Transient n lam beta alpha power m rhos times P C) (h' : Transient n lam beta alpha power m rhos times P' C') :
    ∀ k, k < m → ∀ t, P k t = P' k t ∧ ∀ i, i < n → C k i t = C' k i t := by
  intro k
  induction k with
  | zero =>
    intro hk
    refine (h.solves 0 hk).unique (h'.solves 0 hk) 0 (h.start.trans h'.start.symm) fun i hi => ?_
    have e1 := h.equilibrium i hi
    have e2 := h'.equilibrium i hi
    have := (hp.lam_pos i hi).ne'
    exact mul_left_cancel₀ this (by linarith)
  | succ k ih =>
    intro hk
    obtain ⟨i1, i2⟩ := ih (by omega) (times k)
    refine (h.solves _ hk).unique (h'.solves _ hk) (times k) ?_ fun i hi => ?_
    · rw [(h.joined k hk).1, (h'.joined k hk).1, i1]
    · rw [(h.joined k hk).2 i hi, (h'.joined k hk).2 i hi, i2 i hi]

/-- only the entries count -/
theorem Physical.congr {n : Nat} {lam lam' beta beta' : Nat → ℝ} {alpha : ℝ} (h : Physical n lam beta alpha) (hl : ∀ i, i < n → lam' i = lam i) (hb : ∀ i, i < n → beta' i = beta i) :
    Physical n lam' beta' alpha where
  alpha_pos := h.alpha_pos
  lam_pos i hi := by rw [hl i hi]; exact h.lam_pos i hi
  beta_pos i hi := by rw [hb i hi]; exact h.beta_pos i hi
  lam_inj i hi j hj e := h.lam_inj i hi j hj (by rw [← hl i hi, ← hl j hj, e])

theorem PointKinetics.congr {n : Nat} {lam lam' beta beta' : Nat → ℝ} {alpha rho : ℝ} {P : ℝ → ℝ} {C : Nat → ℝ → ℝ} (h : PointKinetics n lam beta alpha rho P C)
    (hl : ∀ i, i < n → lam' i = lam i) (hb : ∀ i, i < n → beta' i = beta i) : PointKinetics n lam' beta' alpha rho P C where
  power t := by
    rw [show ∑ i ∈ range n, beta' i = ∑ i ∈ range n, beta i from sum_congr rfl fun i hi => hb i (mem_range.1 hi), show ∑ i ∈ range n, lam' i * C i t = ∑ i ∈ range n, lam i * C i t from sum_congr rfl fun i hi => by rw [hl i (mem_range.1 hi)]]
    exact h.power t
  conc i hi t := by
    rw [hl i hi, hb i hi]
    exact h.conc i hi t

theorem Transient.congr {n : Nat} {lam lam' beta beta' : Nat → ℝ} {alpha power : ℝ} {m : Nat} {rhos rhos' times times' : Nat → ℝ} {P : Nat → ℝ → ℝ} {C : Nat → Nat → ℝ → ℝ}
    (h : Transient n lam beta alpha power m rhos times P C) (hl : ∀ i, i < n → lam' i = lam i) (hb : ∀ i, i < n → beta' i = beta i) (hr : ∀ k, k < m → rhos' k = rhos k)
    (ht : ∀ k, k < m → times' k = times k) : Transient n lam' beta' alpha power m rhos' times' P C where
  solves k hk := by rw [hr k hk]; exact (h.solves k hk).congr hl hb
  start := h.start
  equilibrium i hi := by rw [hl i hi, hb i hi]; exact h.equilibrium i hi
  joined k hk := by rw [ht k (by omega)]; exact h.joined k hk

/-- the calculation follows the transient -/
theorem history_transient {solver : Vec ℝ → Vec ℝ} (hs : ExactRootFinder solver) {lam beta : Vec ℝ} {alpha power : ℝ} (hb : beta.n = lam.n)
    (hp : Physical lam.n lam.v beta.v alpha) {rhos times : Vec ℝ} (hn : times.n = rhos.n) {P : Nat → ℝ → ℝ} {C : Nat → Nat → ℝ → ℝ}
    (h : Transient lam.n lam.v beta.v alpha power rhos.n rhos.v times.v P C) :
    ∃ s0 s res, init lam beta alpha power = ok s0 ∧ history solver s0 rhos times = ok (s, res) ∧ res.n = rhos.n ∧ ∀ k, k < rhos.n → res.v k = P k (times.v k) := by
  obtain ⟨s0, h0, -, -⟩ := C01_init power rfl hb hp
  obtain ⟨s, res, h1, h2, h3⟩ := C07_follows_solution hs rfl hb hp h0 rhos times hn.ge P C h.solves h.start (fun i hi => by
    have e := h.equilibrium i hi
    have := (hp.lam_pos i hi).ne'
    have := hp.alpha_pos.ne'
    have e' : lam.v i * C 0 i 0 = beta.v i / alpha * power := by linarith
    field_simp at e' ⊢
    linarith) (fun k hk => (h.joined k hk).1) (fun k hk => (h.joined k hk).2)
  exact ⟨s0, s, res, h0, h1, h2, h3⟩

end

end Verif.Kinetics
