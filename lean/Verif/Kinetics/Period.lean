import Verif.Kinetics.OrderSteps
import Mathlib.Topology.Order.IntermediateValue

/-!
# The stable period
-/

namespace Verif.Kinetics

open Verif Outcome Finset

noncomputable section

/-- The right-hand side of the in-hour equation. -/
def inHour (n : Nat) (lam beta : Nat → ℝ) (alpha s : ℝ) : ℝ := alpha * s + ∑ i ∈ range n, beta i - ∑ i ∈ range n, lam i * beta i / (lam i + s)

theorem inHour_zero {n : Nat} {lam beta : Nat → ℝ} {alpha : ℝ} (h : Physical n lam beta alpha) : inHour n lam beta alpha 0 = 0 := by
  have : ∑ i ∈ range n, lam i * beta i / (lam i + 0) = ∑ i ∈ range n, beta i :=
    Finset.sum_congr rfl (fun i hi => by rw [add_zero, mul_div_cancel_left₀ _ (h.lam_pos i (mem_range.1 hi)).ne'])
  unfold inHour
  rw [this]
  ring

theorem inHour_lt {n : Nat} {lam beta : Nat → ℝ} {alpha : ℝ} (h : Physical n lam beta alpha) {s t : ℝ} (hs : ∀ i, i < n → 0 < lam i + s) (hst : s < t) :
    inHour n lam beta alpha s < inHour n lam beta alpha t := by
  have h1 : ∑ i ∈ range n, lam i * beta i / (lam i + t) ≤ ∑ i ∈ range n, lam i * beta i / (lam i + s) := Finset.sum_le_sum (fun i hi => by
    have := hs i (mem_range.1 hi)
    exact div_le_div_of_nonneg_left (mul_nonneg (h.lam_pos i (mem_range.1 hi)).le (h.beta_pos i (mem_range.1 hi)).le) this (by linarith))
  have h2 := mul_lt_mul_of_pos_left hst h.alpha_pos
  unfold inHour
  linarith

theorem inHour_unique {n : Nat} {lam beta : Nat → ℝ} {alpha : ℝ} (h : Physical n lam beta alpha) {s t : ℝ} (hs : ∀ i, i < n → 0 < lam i + s) (ht : ∀ i, i < n → 0 < lam i + t)
    (e : inHour n lam beta alpha s = inHour n lam beta alpha t) : s = t := by
  rcases lt_trichotomy s t with h1 | h1 | h1
  · exact absurd e (inHour_lt h hs h1).ne
  · exact h1
  · exact absurd e (inHour_lt h ht h1).ne'

theorem inHour_pos {n : Nat} {lam beta : Nat → ℝ} {alpha : ℝ} (h : Physical n lam beta alpha) {s : ℝ} (hs : ∀ i, i < n → 0 < lam i + s) : 0 < s ↔ 0 < inHour n lam beta alpha s := by
  constructor
  · intro h1
    have := inHour_lt h (s := 0) (fun i hi => by rw [add_zero]; exact h.lam_pos i hi) h1
    rwa [inHour_zero h] at this
  · intro h1
    by_contra h2
    rcases (not_lt.1 h2).lt_or_eq with h3 | rfl
    · have := inHour_lt h hs h3
      rw [inHour_zero h] at this
      exact lt_asymm h1 this
    · rw [inHour_zero h] at h1
      exact lt_irrefl _ h1

theorem inHour_neg {n : Nat} {lam beta : Nat → ℝ} {alpha : ℝ} (h : Physical n lam beta alpha) {s : ℝ} (hs : ∀ i, i < n → 0 < lam i + s) : s < 0 ↔ inHour n lam beta alpha s < 0 := by
  constructor
  · intro h1
    have := inHour_lt h hs h1
    rwa [inHour_zero h] at this
  · intro h1
    by_contra h2
    rcases (not_lt.1 h2).lt_or_eq with h3 | rfl
    · exact lt_asymm h1 ((inHour_pos h hs).1 h3)
    · rw [inHour_zero h] at h1
      exact lt_irrefl _ h1

theorem inHour_root {n : Nat} {lam beta : Nat → ℝ} {alpha : ℝ} (h : Physical n lam beta alpha) (rho : ℝ) : ∃ w, (∀ i, i < n → 0 < lam i + w) ∧ InHour n lam beta alpha rho w := by
  rcases Nat.eq_zero_or_pos n with rfl | hn
  · refine ⟨rho / alpha, by simp, ?_⟩
    have := h.alpha_pos.ne'
    simp only [InHour, range_zero, sum_empty]
    field_simp
    ring
  obtain ⟨m, hm, hmin⟩ : ∃ m, m < n ∧ ∀ i, i < n → lam m ≤ lam i := by
    obtain ⟨m, hm, hmin⟩ := Finset.exists_min_image (range n) lam ⟨0, mem_range.2 hn⟩
    exact ⟨m, mem_range.1 hm, fun i hi => hmin i (mem_range.2 hi)⟩
  have hlm := h.lam_pos m hm
  have hbm := h.beta_pos m hm
  have hB : 0 ≤ ∑ i ∈ range n, beta i := Finset.sum_nonneg (fun i hi => (h.beta_pos i (mem_range.1 hi)).le)
  set B := ∑ i ∈ range n, beta i with hBd
  have hD : 0 < B + |rho| + 1 := by positivity
  set δ := min (lam m) (lam m * beta m / (B + |rho| + 1)) with hδd
  have hδ : 0 < δ := lt_min hlm (div_pos (mul_pos hlm hbm) hD)
  have hδ1 : δ ≤ lam m := min_le_left _ _
  have hδ2 : B + |rho| + 1 ≤ lam m * beta m / δ := by
    rw [le_div_iff₀ hδ, mul_comm, ← le_div_iff₀ hD]
    exact min_le_right _ _
  have dom : ∀ s, -lam m + δ ≤ s → ∀ i, i < n → 0 < lam i + s := fun s hs i hi => by linarith [hmin i hi]
  have low : inHour n lam beta alpha (-lam m + δ) ≤ rho := by
    have h1 : lam m * beta m / δ ≤ ∑ i ∈ range n, lam i * beta i / (lam i + (-lam m + δ)) := by
      have := Finset.single_le_sum (f := fun i => lam i * beta i / (lam i + (-lam m + δ)))
        (fun i hi => div_nonneg (mul_nonneg (h.lam_pos i (mem_range.1 hi)).le (h.beta_pos i (mem_range.1 hi)).le) (dom _ le_rfl i (mem_range.1 hi)).le) (mem_range.2 hm)
      refine le_trans (le_of_eq ?_) this
      rw [add_neg_cancel_left]
    have h2 : alpha * (-lam m + δ) ≤ 0 := mul_nonpos_of_nonneg_of_nonpos h.alpha_pos.le (by linarith)
    unfold inHour
    rw [← hBd]
    linarith [neg_abs_le rho]
  have high : rho ≤ inHour n lam beta alpha (|rho| / alpha) := by
    have h0 : 0 ≤ |rho| / alpha := div_nonneg (abs_nonneg _) h.alpha_pos.le
    have h1 : ∑ i ∈ range n, lam i * beta i / (lam i + |rho| / alpha) ≤ B := Finset.sum_le_sum (fun i hi => by
      have := h.lam_pos i (mem_range.1 hi)
      rw [div_le_iff₀ (by linarith), mul_comm]
      exact mul_le_mul_of_nonneg_left (by linarith) (h.beta_pos i (mem_range.1 hi)).le)
    have h2 : alpha * (|rho| / alpha) = |rho| := by
      have := h.alpha_pos.ne'
      field_simp
    unfold inHour
    rw [← hBd, h2]
    linarith [le_abs_self rho]
  have h0 : 0 ≤ |rho| / alpha := div_nonneg (abs_nonneg _) h.alpha_pos.le
  have hc : ContinuousOn (inHour n lam beta alpha) (Set.Icc (-lam m + δ) (|rho| / alpha)) := by
    unfold inHour
    refine ((continuousOn_const.mul continuousOn_id).add continuousOn_const).sub (continuousOn_finsetSum _ (fun i hi => ?_))
    exact continuousOn_const.div (continuousOn_const.add continuousOn_id) (fun s hs => (dom s hs.1 i (mem_range.1 hi)).ne')
  obtain ⟨w, hw, hwr⟩ := intermediate_value_Icc (by linarith) hc ⟨low, high⟩
  exact ⟨w, dom w hw.1, hwr.symm⟩

/-- The exponential solution. -/
theorem stable_solution {n : Nat} {lam beta : Nat → ℝ} {alpha rho w : ℝ} (h : Physical n lam beta alpha) (hd : ∀ i, i < n → 0 < lam i + w) (hw : InHour n lam beta alpha rho w) (k : ℝ) :
    PointKinetics n lam beta alpha rho (fun t => k * Real.exp (w * t)) (fun i t => k * (beta i / alpha / (lam i + w)) * Real.exp (w * t)) := by
  have ha := h.alpha_pos.ne'
  have he : ∀ c t, HasDerivAt (fun t => c * Real.exp (w * t)) (c * (Real.exp (w * t) * (w * 1))) t := fun c t => (((hasDerivAt_id t).const_mul w).exp).const_mul c
  refine ⟨fun t => (he k t).congr_deriv ?_, fun i hi t => (he _ t).congr_deriv ?_⟩
  · have h1 : ∑ i ∈ range n, lam i * (k * (beta i / alpha / (lam i + w)) * Real.exp (w * t)) = k * Real.exp (w * t) / alpha * ∑ i ∈ range n, lam i * beta i / (lam i + w) := by
      rw [Finset.mul_sum]
      exact Finset.sum_congr rfl (fun i _ => by ring)
    rw [h1, show ∑ i ∈ range n, lam i * beta i / (lam i + w) = alpha * w + ∑ i ∈ range n, beta i - rho by unfold InHour at hw; linarith]
    field_simp
    ring
  · have := (hd i hi).ne'
    field_simp
    ring

/-- A reactor with power and precursors. -/
structure Alive (n : Nat) (s : State) : Prop where
  cons : Consistent n s
  phys : Physical n s.lam.v s.beta.v s.alpha
  pos : 0 < s.power
  conc : ∀ i, i < n → 0 < s.conc.v i

theorem Alive.ordered {n : Nat} {s : State} (h : Alive n s) : Ordered n s s := ⟨h.cons, h.cons, h.phys, rfl, rfl, rfl, h.pos, fun i hi => (h.conc i hi).le, le_rfl, fun _ _ => le_rfl⟩

theorem Alive.step {solver : Vec ℝ → Vec ℝ} (hs : ExactRootFinder solver) {n : Nat} {s : State} (h : Alive n s) (rho : ℝ) {dt : ℝ} (ht : 0 ≤ dt) :
    ∃ t, Kinetics.step solver s rho dt = ok t ∧ Alive n t ∧ t.lam = s.lam ∧ t.beta = s.beta ∧ t.alpha = s.alpha := by
  obtain ⟨P, C, hode, hP, hC, hst⟩ := step_solution hs h.cons h.phys rho
  obtain ⟨t, e1, e2, e3, e4, -, e6, e7, e8⟩ := hst dt
  have hb : ∀ i, i < n → 0 ≤ s.beta.v i / s.alpha := fun i hi => div_nonneg (h.phys.beta_pos i hi).le h.phys.alpha_pos.le
  have pos := hode.driven.pos (fun i hi => (h.phys.lam_pos i hi).le) hb (fun _ _ => le_rfl) (fun _ _ _ _ => le_rfl) (by rw [hP]; exact h.pos) (fun i hi => by rw [hC i hi]; exact (h.conc i hi).le)
  refine ⟨t, e1, ⟨e8, by rw [e2, e3, e4]; exact h.phys, by rw [e6]; exact (pos dt ht).1, fun i hi => ?_⟩, e2, e3, e4⟩
  have := grows (a := -s.lam.v i) ht (hode.conc i hi) (fun t h0 _ => by linarith [mul_nonneg (hb i hi) (pos t h0.le).1.le])
  rw [e7 i hi]
  exact (mul_pos (Real.exp_pos _) (by rw [hC i hi]; exact h.conc i hi)).trans_le this

theorem Alive.calls {solver : Vec ℝ → Vec ℝ} (hs : ExactRootFinder solver) {n : Nat} : ∀ {cs : List (ℝ × ℝ)}, (∀ c ∈ cs, 0 ≤ c.2) → ∀ {s : State}, Alive n s →
    ∃ t, Kinetics.calls solver s cs = ok t ∧ Alive n t ∧ t.lam = s.lam ∧ t.beta = s.beta ∧ t.alpha = s.alpha
  | [], _, s, h => ⟨s, rfl, h, rfl, rfl, rfl⟩
  | c :: cs, hcs, s, h => by
    obtain ⟨t, e1, e2, e3, e4, e5⟩ := h.step hs c.1 (hcs c (by simp))
    obtain ⟨u, f1, f2, f3, f4, f5⟩ := Alive.calls hs (cs := cs) (fun d hd => hcs d (List.mem_cons_of_mem _ hd)) e2
    exact ⟨u, by rw [Kinetics.calls, e1]; exact f1, f2, f3.trans e3, f4.trans e4, f5.trans e5⟩

theorem alive_init {n : Nat} {lam beta : Vec ℝ} {alpha p : ℝ} (hl : lam.n = n) (hb : beta.n = n) (hphys : Physical n lam.v beta.v alpha) (hp : 0 < p) {s : State}
    (h : init lam beta alpha p = ok s) : Alive n s := by
  obtain ⟨a1, a2, a3, a4, -, -, -, -, -, a5, -⟩ := init_of_ok h
  refine ⟨(reachable (cs := []) (solver := id) hl hb h rfl).2.2.2, by rw [a1, a2, a3]; exact hphys, by rw [a4]; exact hp, fun i hi => ?_⟩
  rw [a5 i (by omega)]
  exact div_pos (mul_pos (hphys.beta_pos i hi) hp) (mul_pos (hphys.lam_pos i hi) hphys.alpha_pos)

/-- Bounds at the beginning by multiples of the stable solution stay bounds. -/
theorem Alive.bounds {solver : Vec ℝ → Vec ℝ} (hs : ExactRootFinder solver) {n : Nat} {s : State} (h : Alive n s) {rho w : ℝ} (hd : ∀ i, i < n → 0 < s.lam.v i + w)
    (hw : InHour n s.lam.v s.beta.v s.alpha rho w) {dt : ℝ} (ht : 0 ≤ dt) {t : State} (hst : Kinetics.step solver s rho dt = ok t) :
    (∀ k, 0 < k → k ≤ s.power → (∀ i, i < n → k * (s.beta.v i / s.alpha / (s.lam.v i + w)) ≤ s.conc.v i) → k * Real.exp (w * dt) ≤ t.power) ∧
    (∀ K, s.power ≤ K → (∀ i, i < n → s.conc.v i ≤ K * (s.beta.v i / s.alpha / (s.lam.v i + w))) → t.power ≤ K * Real.exp (w * dt)) := by
  obtain ⟨P, C, hode, hP, hC, hst'⟩ := step_solution hs h.cons h.phys rho
  obtain ⟨t', e1, -, -, -, -, e6, -, -⟩ := hst' dt
  rw [hst] at e1
  cases e1
  have hl : ∀ i, i < n → 0 ≤ s.lam.v i := fun i hi => (h.phys.lam_pos i hi).le
  have hb : ∀ i, i < n → 0 ≤ s.beta.v i / s.alpha := fun i hi => div_nonneg (h.phys.beta_pos i hi).le h.phys.alpha_pos.le
  have hf : ∀ (Q : ℝ → ℝ) (t : ℝ), 0 ≤ t → 0 ≤ (rho - rho) / s.alpha * Q t := fun Q t _ => by simp
  constructor
  · intro k _ h1 h2
    have := ((stable_solution h.phys hd hw k).sub hode).nonneg hl hb (hf _) (by simp only [mul_zero, Real.exp_zero, mul_one]; rw [hP]; linarith)
      (fun i hi => by simp only [mul_zero, Real.exp_zero, mul_one]; rw [hC i hi]; linarith [h2 i hi]) dt ht
    rw [e6]
    linarith [this.1]
  · intro K h1 h2
    have := (hode.sub (stable_solution h.phys hd hw K)).nonneg hl hb (hf _) (by simp only [mul_zero, Real.exp_zero, mul_one]; rw [hP]; linarith)
      (fun i hi => by simp only [mul_zero, Real.exp_zero, mul_one]; rw [hC i hi]; linarith [h2 i hi]) dt ht
    rw [e6]
    linarith [this.1]

theorem Alive.constants {n : Nat} {s : State} (h : Alive n s) {w : ℝ} (hd : ∀ i, i < n → 0 < s.lam.v i + w) : ∃ k K, 0 < k ∧ k ≤ s.power ∧ s.power ≤ K ∧
    ∀ i, i < n → k * (s.beta.v i / s.alpha / (s.lam.v i + w)) ≤ s.conc.v i ∧ s.conc.v i ≤ K * (s.beta.v i / s.alpha / (s.lam.v i + w)) := by
  have hq : ∀ i, i < n → 0 < s.beta.v i / s.alpha / (s.lam.v i + w) := fun i hi => div_pos (div_pos (h.phys.beta_pos i hi) h.phys.alpha_pos) (hd i hi)
  have hr : ∀ i, i < n → 0 < s.conc.v i / (s.beta.v i / s.alpha / (s.lam.v i + w)) := fun i hi => div_pos (h.conc i hi) (hq i hi)
  obtain ⟨m, hm, hm1, hm2⟩ : ∃ m, 0 < m ∧ m ≤ s.power ∧ ∀ i, i < n → m ≤ s.conc.v i / (s.beta.v i / s.alpha / (s.lam.v i + w)) := by
    have hne : (insert s.power ((range n).image (fun i => s.conc.v i / (s.beta.v i / s.alpha / (s.lam.v i + w))))).Nonempty := insert_nonempty _ _
    refine ⟨_, ?_, min'_le _ _ (mem_insert_self _ _), fun i hi => min'_le _ _ (mem_insert_of_mem (mem_image_of_mem _ (mem_range.2 hi)))⟩
    · rcases mem_insert.1 (min'_mem _ hne) with h1 | h1
      · rw [h1]; exact h.pos
      · obtain ⟨i, hi, h2⟩ := mem_image.1 h1
        rw [← h2]; exact hr i (mem_range.1 hi)
  have hsum : 0 ≤ ∑ i ∈ range n, s.conc.v i / (s.beta.v i / s.alpha / (s.lam.v i + w)) := Finset.sum_nonneg (fun i hi => (hr i (mem_range.1 hi)).le)
  refine ⟨m, s.power + ∑ i ∈ range n, s.conc.v i / (s.beta.v i / s.alpha / (s.lam.v i + w)), hm, hm1, by linarith, fun i hi => ⟨?_, ?_⟩⟩
  · rw [← le_div_iff₀ (hq i hi)]; exact hm2 i hi
  · rw [← div_le_iff₀ (hq i hi)]
    have := Finset.single_le_sum (f := fun i => s.conc.v i / (s.beta.v i / s.alpha / (s.lam.v i + w))) (fun j hj => (hr j (mem_range.1 hj)).le) (mem_range.2 hi)
    linarith [h.pos]

end

end Verif.Kinetics
