import Verif.Kinetics.Lemmas

/-!
# Order of the groups and units
-/

namespace Verif.Kinetics

open Verif Outcome Finset

noncomputable section

/-- The second object has the groups in the order `σ`, fractions and generation time in the units `c`, times in the units `θ` and powers in the units `k` of the first. -/
structure Alike (n : Nat) (σ : Nat → Nat) (k c θ : ℝ) (s s' : State) : Prop where
  cons : Consistent n s
  cons' : Consistent n s'
  phys : Physical n s.lam.v s.beta.v s.alpha
  lam : ∀ i, i < n → s'.lam.v i = s.lam.v (σ i) / θ
  beta : ∀ i, i < n → s'.beta.v i = c * s.beta.v (σ i)
  alpha : s'.alpha = c * θ * s.alpha
  power : s'.power = k * s.power
  conc : ∀ i, i < n → s'.conc.v i = k * s.conc.v (σ i)

variable {n : Nat} {σ : Nat → Nat} {k c θ : ℝ}

theorem sum_order (hσ : Set.BijOn σ (Set.Iio n) (Set.Iio n)) (f : Nat → ℝ) : ∑ i ∈ range n, f (σ i) = ∑ i ∈ range n, f i :=
  Finset.sum_nbij σ (fun i hi => mem_range.2 (hσ.mapsTo (mem_range.1 hi))) (fun i hi j hj e => hσ.injOn (mem_range.1 hi) (mem_range.1 hj) e)
    (fun j hj => by
      obtain ⟨i, hi, e⟩ := hσ.surjOn (mem_range.1 hj : j ∈ Set.Iio n)
      exact ⟨i, mem_coe.2 (mem_range.2 hi), e⟩) (fun _ _ => rfl)

theorem physical_order (hσ : Set.BijOn σ (Set.Iio n) (Set.Iio n)) (hc : 0 < c) (hθ : 0 < θ) {lam beta lam' beta' : Nat → ℝ} {alpha alpha' : ℝ} (h : Physical n lam beta alpha)
    (hl : ∀ i, i < n → lam' i = lam (σ i) / θ) (hb : ∀ i, i < n → beta' i = c * beta (σ i)) (ha : alpha' = c * θ * alpha) : Physical n lam' beta' alpha' where
  alpha_pos := by rw [ha]; exact mul_pos (mul_pos hc hθ) h.alpha_pos
  lam_pos i hi := by rw [hl i hi]; exact div_pos (h.lam_pos _ (hσ.mapsTo hi)) hθ
  beta_pos i hi := by rw [hb i hi]; exact mul_pos hc (h.beta_pos _ (hσ.mapsTo hi))
  lam_inj i hi j hj e := by
    rw [hl i hi, hl j hj, div_left_inj' hθ.ne'] at e
    exact hσ.injOn hi hj (h.lam_inj _ (hσ.mapsTo hi) _ (hσ.mapsTo hj) e)

theorem PointKinetics.order (hσ : Set.BijOn σ (Set.Iio n) (Set.Iio n)) (hc : 0 < c) (hθ : 0 < θ) (k : ℝ) {lam beta lam' beta' : Nat → ℝ} {alpha alpha' rho : ℝ} {P : ℝ → ℝ} {C : Nat → ℝ → ℝ}
    (ha0 : alpha ≠ 0) (h : PointKinetics n lam beta alpha rho P C) (hl : ∀ i, i < n → lam' i = lam (σ i) / θ) (hb : ∀ i, i < n → beta' i = c * beta (σ i)) (ha : alpha' = c * θ * alpha) :
    PointKinetics n lam' beta' alpha' (c * rho) (fun t => k * P (t / θ)) (fun i t => k * C (σ i) (t / θ)) := by
  have hd : ∀ {f : ℝ → ℝ} {f' t : ℝ}, HasDerivAt f f' (t / θ) → HasDerivAt (fun t => k * f (t / θ)) (k * (f' * (1 / θ))) t := fun {f f' t} hf =>
    (hf.comp t ((hasDerivAt_id t).div_const θ)).const_mul k
  have hθ' := hθ.ne'
  have hc' := hc.ne'
  refine ⟨fun t => (hd (h.power (t / θ))).congr_deriv ?_, fun i hi t => (hd (h.conc (σ i) (hσ.mapsTo hi) (t / θ))).congr_deriv ?_⟩
  · have h1 : ∑ i ∈ range n, beta' i = c * ∑ i ∈ range n, beta i := by
      rw [Finset.sum_congr rfl (fun i hi => hb i (mem_range.1 hi)), ← Finset.mul_sum, sum_order hσ beta]
    have h2 : ∑ i ∈ range n, lam' i * (k * C (σ i) (t / θ)) = k / θ * ∑ i ∈ range n, lam i * C i (t / θ) := by
      rw [Finset.sum_congr rfl (fun i hi => by rw [hl i (mem_range.1 hi)]), ← sum_order hσ (fun i => lam i * C i (t / θ)), Finset.mul_sum]
      exact Finset.sum_congr rfl (fun i _ => by ring)
    rw [h1, h2, ha]
    field_simp
  · rw [hl i hi, hb i hi, ha]
    field_simp

theorem Alike.step {solver : Vec ℝ → Vec ℝ} (hs : ExactRootFinder solver) (hσ : Set.BijOn σ (Set.Iio n) (Set.Iio n)) (hc : 0 < c) (hθ : 0 < θ) {s s' : State} (h : Alike n σ k c θ s s') (rho dt : ℝ) :
    ∃ t t', Kinetics.step solver s rho dt = ok t ∧ Kinetics.step solver s' (c * rho) (θ * dt) = ok t' ∧ Alike n σ k c θ t t' := by
  have hphys' := physical_order hσ hc hθ h.phys h.lam h.beta h.alpha
  obtain ⟨P, C, hode, hP, hC, hst⟩ := step_solution hs h.cons h.phys rho
  obtain ⟨P', C', hode', hP', hC', hst'⟩ := step_solution hs h.cons' hphys' (c * rho)
  obtain ⟨t, e1, e2, e3, e4, -, e6, e7, e8⟩ := hst dt
  obtain ⟨t', f1, f2, f3, f4, -, f6, f7, f8⟩ := hst' (θ * dt)
  obtain ⟨u1, u2⟩ := hode'.unique (hode.order hσ hc hθ k h.phys.alpha_pos.ne' h.lam h.beta h.alpha) 0 (by simp only [zero_div]; rw [hP, hP', h.power])
    (fun i hi => by simp only [zero_div]; rw [hC' i hi, hC _ (hσ.mapsTo hi), h.conc i hi]) (θ * dt)
  simp only [mul_div_cancel_left₀ dt hθ.ne'] at u1 u2
  refine ⟨t, t', e1, f1, e8, f8, by rw [e2, e3, e4]; exact h.phys, ?_, ?_, ?_, by rw [e6, f6, u1], fun i hi => ?_⟩
  · rw [e2, f2]; exact h.lam
  · rw [e3, f3]; exact h.beta
  · rw [e4, f4]; exact h.alpha
  · rw [e7 _ (hσ.mapsTo hi), f7 i hi, u2 i hi]

theorem Alike.calls {solver : Vec ℝ → Vec ℝ} (hs : ExactRootFinder solver) (hσ : Set.BijOn σ (Set.Iio n) (Set.Iio n)) (hc : 0 < c) (hθ : 0 < θ) : ∀ (cs : List (ℝ × ℝ)) {s s' : State}, Alike n σ k c θ s s' →
    ∃ t t', Kinetics.calls solver s cs = ok t ∧ Kinetics.calls solver s' (cs.map (fun x => (c * x.1, θ * x.2))) = ok t' ∧ Alike n σ k c θ t t'
  | [], s, s', h => ⟨s, s', rfl, rfl, h⟩
  | x :: cs, s, s', h => by
    obtain ⟨t, t', e1, e2, e3⟩ := h.step hs hσ hc hθ x.1 x.2
    obtain ⟨u, u', f1, f2, f3⟩ := Alike.calls hs hσ hc hθ cs e3
    exact ⟨u, u', by rw [Kinetics.calls, e1]; exact f1, by rw [List.map_cons, Kinetics.calls, e2]; exact f2, f3⟩

theorem alike_init (hσ : Set.BijOn σ (Set.Iio n) (Set.Iio n)) (hc : 0 < c) (hθ : 0 < θ) {lam beta lam' beta' : Vec ℝ} {alpha p : ℝ} (hn : lam.n = n) (hbn : beta.n = n) (hn' : lam'.n = n) (hbn' : beta'.n = n)
    (hphys : Physical n lam.v beta.v alpha) (hl : ∀ i, i < n → lam'.v i = lam.v (σ i) / θ) (hb : ∀ i, i < n → beta'.v i = c * beta.v (σ i)) {s s' : State}
    (h : init lam beta alpha p = ok s) (h' : init lam' beta' (c * θ * alpha) (k * p) = ok s') : Alike n σ k c θ s s' := by
  obtain ⟨a1, a2, a3, a4, -, -, -, -, -, a5, -⟩ := init_of_ok h
  obtain ⟨b1, b2, b3, b4, -, -, -, -, -, b5, -⟩ := init_of_ok h'
  refine ⟨(reachable (cs := []) (solver := id) hn hbn h rfl).2.2.2, (reachable (cs := []) (solver := id) hn' hbn' h' rfl).2.2.2, by rw [a1, a2, a3]; exact hphys, by rw [a1, b1]; exact hl, by rw [a2, b2]; exact hb,
    by rw [a3, b3], by rw [a4, b4], fun i hi => ?_⟩
  have hi' : σ i < n := hσ.mapsTo hi
  have h1 := (hphys.lam_pos _ hi').ne'
  have h2 := hphys.alpha_pos.ne'
  have h3 := hc.ne'
  have h4 := hθ.ne'
  rw [a5 _ (by omega), b5 i (by omega), hl i hi, hb i hi]
  field_simp

end

end Verif.Kinetics
