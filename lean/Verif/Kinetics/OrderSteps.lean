import Verif.Kinetics.Order
import Verif.Kinetics.Lemmas

/-!
# Calls keep the order of two objects
-/

namespace Verif.Kinetics

open Verif Outcome Finset

noncomputable section

/-- Two objects with the same data, the first one with power and no negative concentrations, the second one with no less of anything. -/
structure Ordered (n : Nat) (s s' : State) : Prop where
  cons : Consistent n s
  cons' : Consistent n s'
  phys : Physical n s.lam.v s.beta.v s.alpha
  lam : s'.lam = s.lam
  beta : s'.beta = s.beta
  alpha : s'.alpha = s.alpha
  pos : 0 < s.power
  conc : ∀ i, i < n → 0 ≤ s.conc.v i
  le : s.power ≤ s'.power
  le_conc : ∀ i, i < n → s.conc.v i ≤ s'.conc.v i

theorem Ordered.step {solver : Vec ℝ → Vec ℝ} (hs : ExactRootFinder solver) {n : Nat} {s s' : State} (h : Ordered n s s') {rho rho' dt : ℝ} (hr : rho ≤ rho') (ht : 0 ≤ dt) :
    ∃ t t', step solver s rho dt = ok t ∧ step solver s' rho' dt = ok t' ∧ Ordered n t t' ∧ (s.power < s'.power ∨ (rho < rho' ∧ 0 < dt) → t.power < t'.power) := by
  obtain ⟨P, C, hode, hP, hC, hst⟩ := step_solution hs h.cons h.phys rho
  obtain ⟨P', C', hode', hP', hC', hst'⟩ := step_solution hs h.cons' (by rw [h.lam, h.beta, h.alpha]; exact h.phys) rho'
  obtain ⟨t, e1, e2, e3, e4, -, e6, e7, e8⟩ := hst dt
  obtain ⟨t', f1, f2, f3, f4, -, f6, f7, f8⟩ := hst' dt
  rw [h.lam, h.beta, h.alpha] at hode'
  have hl : ∀ i, i < n → 0 ≤ s.lam.v i := fun i hi => (h.phys.lam_pos i hi).le
  have hb : ∀ i, i < n → 0 ≤ s.beta.v i / s.alpha := fun i hi => div_nonneg (h.phys.beta_pos i hi).le h.phys.alpha_pos.le
  have pos := hode.driven.pos hl hb (fun _ _ => le_rfl) (fun _ _ _ _ => le_rfl) (by rw [hP]; exact h.pos) (fun i hi => by rw [hC i hi]; exact h.conc i hi)
  have hd := hode.sub hode'
  have hf : ∀ t, 0 ≤ t → 0 ≤ (rho' - rho) / s.alpha * P t := fun t ht => mul_nonneg (div_nonneg (by linarith) h.phys.alpha_pos.le) (pos t ht).1.le
  have hP0 : 0 ≤ P' 0 - P 0 := by rw [hP, hP']; linarith [h.le]
  have hC0 : ∀ i, i < n → 0 ≤ C' i 0 - C i 0 := fun i hi => by rw [hC i hi, hC' i hi]; linarith [h.le_conc i hi]
  have le := hd.nonneg hl hb hf hP0 hC0
  refine ⟨t, t', e1, f1, ⟨e8, f8, by rw [e2, e3, e4]; exact h.phys, ?_, ?_, ?_, ?_, fun i hi => ?_, ?_, fun i hi => ?_⟩, ?_⟩
  · rw [f2, e2, h.lam]
  · rw [f3, e3, h.beta]
  · rw [f4, e4, h.alpha]
  · rw [e6]; exact (pos dt ht).1
  · rw [e7 i hi]; exact (pos dt ht).2 i hi
  · rw [e6, f6]; linarith [(le dt ht).1]
  · rw [e7 i hi, f7 i hi]; linarith [(le dt ht).2 i hi]
  · rw [e6, f6]
    rintro (h1 | ⟨h1, h2⟩)
    · have := (hd.pos hl hb hf (fun _ _ _ _ => le_rfl) (by rw [hP, hP']; linarith) hC0 dt ht).1
      linarith
    · have h3 := grows_strictly h2 hd.power (a := (rho' - ∑ i ∈ range n, s.beta.v i) / s.alpha) (fun t ht _ => by
        have h4 : 0 ≤ ∑ i ∈ range n, s.lam.v i * (C' i t - C i t) := Finset.sum_nonneg (fun i hi => mul_nonneg (hl i (mem_range.1 hi)) ((le t ht.le).2 i (mem_range.1 hi)))
        have h5 : 0 < (rho' - rho) / s.alpha * P t := mul_pos (div_pos (by linarith) h.phys.alpha_pos) (pos t ht.le).1
        linarith)
      have h6 : 0 ≤ Real.exp ((rho' - ∑ i ∈ range n, s.beta.v i) / s.alpha * dt) * (P' 0 - P 0) := mul_nonneg (Real.exp_pos _).le hP0
      linarith

theorem Ordered.calls {solver : Vec ℝ → Vec ℝ} (hs : ExactRootFinder solver) {n : Nat} {cs cs' : List (ℝ × ℝ)} (hcs : List.Forall₂ (fun c c' => c.1 ≤ c'.1 ∧ c.2 = c'.2 ∧ 0 ≤ c.2) cs cs') :
    ∀ {s s' : State}, Ordered n s s' → ∃ t t', calls solver s cs = ok t ∧ calls solver s' cs' = ok t' ∧ Ordered n t t' ∧
      (s.power < s'.power ∨ (∃ q ∈ cs.zip cs', q.1.1 < q.2.1 ∧ 0 < q.1.2) → t.power < t'.power) := by
  induction hcs with
  | nil => exact fun {s s'} h => ⟨s, s', rfl, rfl, h, by simp⟩
  | @cons c c' cs cs' hc hcs ih =>
    intro s s' h
    obtain ⟨h1, h2, h3⟩ := hc
    obtain ⟨t, t', e1, e2, e3, e4⟩ := h.step hs h1 h3
    obtain ⟨u, u', f1, f2, f3, f4⟩ := ih e3
    refine ⟨u, u', ?_, ?_, f3, ?_⟩
    · rw [Kinetics.calls, e1]; exact f1
    · rw [Kinetics.calls, ← h2, e2]; exact f2
    · rintro (h5 | ⟨q, hq, h5⟩)
      · exact f4 (.inl (e4 (.inl h5)))
      · rw [List.zip_cons_cons, List.mem_cons] at hq
        rcases hq with rfl | hq
        · exact f4 (.inl (e4 (.inr h5)))
        · exact f4 (.inr ⟨q, hq, h5⟩)

theorem ordered_init {n : Nat} {lam beta : Vec ℝ} {alpha p p' : ℝ} (hl : lam.n = n) (hb : beta.n = n) (hphys : Physical n lam.v beta.v alpha) (hp : 0 < p) (hpp : p ≤ p') {s s' : State}
    (h : init lam beta alpha p = ok s) (h' : init lam beta alpha p' = ok s') : Ordered n s s' := by
  obtain ⟨a1, a2, a3, a4, -, -, -, -, -, a5, -⟩ := init_of_ok h
  obtain ⟨b1, b2, b3, b4, -, -, -, -, -, b5, -⟩ := init_of_ok h'
  have hc : Consistent n s := (reachable (cs := []) (solver := id) hl hb h rfl).2.2.2
  have hc' : Consistent n s' := (reachable (cs := []) (solver := id) hl hb h' rfl).2.2.2
  have hpos : ∀ i, i < n → 0 < lam.v i * alpha := fun i hi => mul_pos (hphys.lam_pos i hi) hphys.alpha_pos
  refine ⟨hc, hc', by rw [a1, a2, a3]; exact hphys, by rw [a1, b1], by rw [a2, b2], by rw [a3, b3], by rw [a4]; exact hp, fun i hi => ?_, by rw [a4, b4]; exact hpp, fun i hi => ?_⟩
  · rw [a5 i (by omega)]
    exact div_nonneg (mul_nonneg (hphys.beta_pos i hi).le hp.le) (hpos i hi).le
  · rw [a5 i (by omega), b5 i (by omega)]
    exact div_le_div_of_nonneg_right (mul_le_mul_of_nonneg_left hpp (hphys.beta_pos i hi).le) (hpos i hi).le

end

end Verif.Kinetics
