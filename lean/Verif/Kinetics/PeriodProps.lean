import Verif.Kinetics.Period
import Verif.Kinetics.Props

/-!
# Property theorems: the stable period (C110)
-/

namespace Verif.Kinetics

open Verif Outcome Finset

noncomputable section

/-- A rate at which no group of precursors dies out faster. -/
def Slow (n : Nat) (lam : Nat → ℝ) (w : ℝ) : Prop := ∀ i, i < n → -lam i < w

/-- **C110.** Whatever has happened to a reactor that started in equilibrium with positive power, under a constant reactivity its power follows `exp (w t)` up to constant factors: `w` is the only solution of the in-hour equation
above all `-lambda_i`, every other solution of the equation is smaller, and `w` has the sign of the reactivity. -/
theorem C110 {solver : Vec ℝ → Vec ℝ} (hsolver : ExactRootFinder solver) {n : Nat} {lam beta : Vec ℝ} {alpha p : ℝ} (hl : lam.n = n) (hb : beta.n = n)
    (hphys : Physical n lam.v beta.v alpha) (hp : 0 < p) {cs : List (ℝ × ℝ)} (hcs : ∀ c ∈ cs, 0 ≤ c.2) (rho : ℝ) :
    ∃ s0 s w k K, init lam beta alpha p = ok s0 ∧ calls solver s0 cs = ok s ∧ Slow n lam.v w ∧ InHour n lam.v beta.v alpha rho w ∧
      (∀ z, InHour n lam.v beta.v alpha rho z → z ≠ w → z < w ∧ ¬ Slow n lam.v z) ∧ (0 < w ↔ 0 < rho) ∧ (w < 0 ↔ rho < 0) ∧ 0 < k ∧
      ∀ dt, 0 ≤ dt → ∃ t, step solver s rho dt = ok t ∧ k * Real.exp (w * dt) ≤ t.power ∧ t.power ≤ K * Real.exp (w * dt) := by
  obtain ⟨s0, h0, -⟩ := C01_init (lam := lam) (beta := beta) p hl hb hphys
  have hA := alive_init hl hb hphys hp h0
  obtain ⟨a1, a2, a3, -⟩ := init_of_ok h0
  obtain ⟨s, e1, e2, e3, e4, e5⟩ := hA.calls hsolver hcs
  rw [a1] at e3
  rw [a2] at e4
  rw [a3] at e5
  obtain ⟨w, hd, hw⟩ := inHour_root hphys rho
  have hd' : ∀ i, i < n → 0 < s.lam.v i + w := by rw [e3]; exact hd
  have hw' : InHour n s.lam.v s.beta.v s.alpha rho w := by rw [e3, e4, e5]; exact hw
  have hr : inHour n lam.v beta.v alpha w = rho := hw.symm
  obtain ⟨k, K, k1, k2, k3, k4⟩ := e2.constants hd'
  refine ⟨s0, s, w, k, K, h0, e1, fun i hi => by linarith [hd i hi], hw, fun z hz hne => ?_, ?_, ?_, k1, fun dt ht => ?_⟩
  · have hns : ¬ Slow n lam.v z := fun hs => hne (inHour_unique hphys (fun i hi => by linarith [hs i hi]) hd (hz.symm.trans hw))
    refine ⟨?_, hns⟩
    unfold Slow at hns
    push Not at hns
    obtain ⟨i, hi, h1⟩ := hns
    linarith [hd i hi]
  · rw [inHour_pos hphys hd, hr]
  · rw [inHour_neg hphys hd, hr]
  · obtain ⟨t, f1, -⟩ := e2.step hsolver rho ht
    have := e2.bounds hsolver hd' hw' ht f1
    exact ⟨t, f1, this.1 k k1 k2 (fun i hi => (k4 i hi).1), this.2 K k3 (fun i hi => (k4 i hi).2)⟩

/-- **C110, in the long run.** After any history the power gets arbitrarily large under a positive reactivity and arbitrarily small, though never zero, under a negative one, and it stays so. -/
theorem C110_limits {solver : Vec ℝ → Vec ℝ} (hsolver : ExactRootFinder solver) {n : Nat} {lam beta : Vec ℝ} {alpha p : ℝ} (hl : lam.n = n) (hb : beta.n = n)
    (hphys : Physical n lam.v beta.v alpha) (hp : 0 < p) {cs : List (ℝ × ℝ)} (hcs : ∀ c ∈ cs, 0 ≤ c.2) (rho : ℝ) :
    ∃ s0 s, init lam beta alpha p = ok s0 ∧ calls solver s0 cs = ok s ∧
      (0 < rho → ∀ M, ∃ T, 0 ≤ T ∧ ∀ dt, T ≤ dt → ∃ t, step solver s rho dt = ok t ∧ M < t.power) ∧
      (rho < 0 → ∀ e, 0 < e → ∃ T, 0 ≤ T ∧ ∀ dt, T ≤ dt → ∃ t, step solver s rho dt = ok t ∧ 0 < t.power ∧ t.power < e) := by
  obtain ⟨s0, s, w, k, K, h0, h1, -, -, -, hpos, hneg, hk, h2⟩ := C110 hsolver hl hb hphys hp hcs rho
  have hK : 0 < K := by
    obtain ⟨t, -, g2, g3⟩ := h2 0 le_rfl
    simp only [mul_zero, Real.exp_zero, mul_one] at g2 g3
    linarith
  refine ⟨s0, s, h0, h1, fun hr M => ?_, fun hr e he => ?_⟩
  · have hw := hpos.2 hr
    refine ⟨|M| / (k * w), by positivity, fun dt hdt => ?_⟩
    have h3 : 0 ≤ dt := le_trans (by positivity) hdt
    obtain ⟨t, g1, g2, -⟩ := h2 dt h3
    refine ⟨t, g1, lt_of_lt_of_le ?_ g2⟩
    have h4 := Real.add_one_le_exp (w * dt)
    have h5 : |M| ≤ dt * (k * w) := (div_le_iff₀ (by positivity)).1 hdt
    nlinarith [le_abs_self M, mul_le_mul_of_nonneg_left h4 hk.le]
  · have hw := hneg.2 hr
    have hw' : 0 < -w := by linarith
    refine ⟨K / (e * -w), by positivity, fun dt hdt => ?_⟩
    have h3 : 0 ≤ dt := le_trans (by positivity) hdt
    obtain ⟨t, g1, g2, g3⟩ := h2 dt h3
    refine ⟨t, g1, lt_of_lt_of_le (mul_pos hk (Real.exp_pos _)) g2, lt_of_le_of_lt g3 ?_⟩
    have h4 := Real.add_one_le_exp (-(w * dt))
    have h5 : K ≤ dt * (e * -w) := (div_le_iff₀ (by positivity)).1 hdt
    rw [show w * dt = -(-(w * dt)) by ring, Real.exp_neg, ← div_eq_mul_inv, div_lt_iff₀ (Real.exp_pos _)]
    nlinarith [mul_le_mul_of_nonneg_left h4 he.le]

/-- **C110, from equilibrium.** After a step of reactivity from equilibrium the power is never on the wrong side of the exponential with the stable period: the prompt jump goes in the direction of the reactivity. -/
theorem C110_jump {solver : Vec ℝ → Vec ℝ} (hsolver : ExactRootFinder solver) {n : Nat} {lam beta : Vec ℝ} {alpha p : ℝ} (hl : lam.n = n) (hb : beta.n = n)
    (hphys : Physical n lam.v beta.v alpha) (hp : 0 < p) {rho w : ℝ} (hslow : Slow n lam.v w) (hw : InHour n lam.v beta.v alpha rho w) :
    ∃ s0, init lam beta alpha p = ok s0 ∧ ∀ dt, 0 ≤ dt → ∃ t, step solver s0 rho dt = ok t ∧
      (0 ≤ rho → p * Real.exp (w * dt) ≤ t.power) ∧ (rho ≤ 0 → t.power ≤ p * Real.exp (w * dt)) := by
  obtain ⟨s0, h0, -⟩ := C01_init (lam := lam) (beta := beta) p hl hb hphys
  have hA := alive_init hl hb hphys hp h0
  obtain ⟨a1, a2, a3, a4, -, -, -, -, -, a5, -⟩ := init_of_ok h0
  have hd : ∀ i, i < n → 0 < lam.v i + w := fun i hi => by linarith [hslow i hi]
  have hr : inHour n lam.v beta.v alpha w = rho := hw.symm
  have ha := hphys.alpha_pos
  refine ⟨s0, h0, fun dt ht => ?_⟩
  obtain ⟨t, f1, -⟩ := hA.step hsolver rho ht
  have hB := hA.bounds hsolver (rho := rho) (w := w) (by rw [a1]; exact hd) (by rw [a1, a2, a3]; exact hw) ht f1
  rw [a1, a2, a3, a4] at hB
  refine ⟨t, f1, fun h1 => hB.1 p hp le_rfl (fun i hi => ?_), fun h1 => hB.2 p le_rfl (fun i hi => ?_)⟩
  · have h2 : 0 ≤ w := by
      by_contra h3
      have := (inHour_neg hphys hd).1 (not_le.1 h3)
      linarith
    rw [a5 i (by omega), div_div, mul_comm alpha, ← mul_div_assoc, mul_comm p]
    have := hphys.lam_pos i hi
    exact div_le_div_of_nonneg_left (mul_nonneg (hphys.beta_pos i hi).le hp.le) (mul_pos this ha) (mul_le_mul_of_nonneg_right (by linarith) ha.le)
  · have h2 : w ≤ 0 := by
      by_contra h3
      have := (inHour_pos hphys hd).1 (not_le.1 h3)
      linarith
    rw [a5 i (by omega), div_div, mul_comm alpha, ← mul_div_assoc, mul_comm p]
    exact div_le_div_of_nonneg_left (mul_nonneg (hphys.beta_pos i hi).le hp.le) (mul_pos (hd i hi) ha) (mul_le_mul_of_nonneg_right (by linarith) ha.le)

/-! ### examples -/

/-- Two groups, after an excursion: the reactor shut down by a tenth of a percent dies out. -/
example : ∃ solver, ExactRootFinder solver ∧ ∃ s0 s, init exLam exBeta (1 / 10000) 5 = ok s0 ∧ calls solver s0 [(1 / 1000, 3), (0, 2)] = ok s ∧
    ∃ T, 0 ≤ T ∧ ∀ dt, T ≤ dt → ∃ t, step solver s (-1 / 1000) dt = ok t ∧ 0 < t.power ∧ t.power < 1 / 1000000 := by
  obtain ⟨solver, hs⟩ := exists_exactRootFinder
  obtain ⟨s0, s, h0, h1, -, h2⟩ := C110_limits hs exLam_n exBeta_n exPhysical (p := 5) (by norm_num) (cs := [(1 / 1000, 3), (0, 2)]) (by simp) (-1 / 1000)
  exact ⟨solver, hs, s0, s, h0, h1, h2 (by norm_num) _ (by norm_num)⟩

/-- Two groups, reactivity 0.0016: the stable period is one second. -/
example : ∃ solver, ExactRootFinder solver ∧ ∃ s0, init exLam exBeta (1 / 10000) 5 = ok s0 ∧ ∀ dt, 0 ≤ dt → ∃ t, step solver s0 (16 / 10000) dt = ok t ∧ 5 * Real.exp dt ≤ t.power := by
  obtain ⟨solver, hs⟩ := exists_exactRootFinder
  obtain ⟨s0, h0, h1⟩ := C110_jump hs exLam_n exBeta_n exPhysical (p := 5) (by norm_num) (rho := 16 / 10000) (w := 1)
    (fun i hi => by interval_cases i <;> norm_num [exLam]) (by norm_num [InHour, exLam, exBeta, Finset.sum_range_succ])
  refine ⟨solver, hs, s0, h0, fun dt ht => ?_⟩
  obtain ⟨t, g1, g2, -⟩ := h1 dt ht
  rw [one_mul] at g2
  exact ⟨t, g1, g2 (by norm_num)⟩

end

end Verif.Kinetics
