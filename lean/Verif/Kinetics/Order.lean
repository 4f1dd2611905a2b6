import Verif.Kinetics.Spec
import Mathlib.Analysis.Calculus.Deriv.MeanValue
import Mathlib.Analysis.SpecialFunctions.ExpDeriv

/-!
# The point-kinetics equations keep the order of their solutions
-/

namespace Verif.Kinetics

open Finset

/-- A function that grows faster than at the rate `a` stays above its beginning. -/
theorem grows {F : ℝ → ℝ} {F' : ℝ → ℝ} {a T : ℝ} (hT : 0 ≤ T) (hF : ∀ t, HasDerivAt F (F' t) t) (h : ∀ t, 0 < t → t < T → a * F t ≤ F' t) : Real.exp (a * T) * F 0 ≤ F T := by
  have hd : ∀ t, HasDerivAt (fun t => Real.exp (-(a * t)) * F t) (Real.exp (-(a * t)) * (F' t - a * F t)) t := fun t => by
    have h1 : HasDerivAt (fun t => Real.exp (-(a * t))) (Real.exp (-(a * t)) * -(a * 1)) t := (((hasDerivAt_id t).const_mul a).neg).exp
    have h2 := h1.mul (hF t)
    refine h2.congr_deriv ?_
    ring
  have hm : MonotoneOn (fun t => Real.exp (-(a * t)) * F t) (Set.Icc 0 T) := by
    refine monotoneOn_of_deriv_nonneg (convex_Icc 0 T) (fun t _ => (hd t).continuousAt.continuousWithinAt) (fun t _ => (hd t).differentiableAt.differentiableWithinAt) (fun t ht => ?_)
    rw [interior_Icc] at ht
    rw [(hd t).deriv]
    exact mul_nonneg (Real.exp_pos _).le (by linarith [h t ht.1 ht.2])
  have := hm (Set.left_mem_Icc.2 hT) (Set.right_mem_Icc.2 hT) hT
  simp only [mul_zero, neg_zero, Real.exp_zero, one_mul] at this
  have h3 := mul_le_mul_of_nonneg_left this (Real.exp_pos (a * T)).le
  rwa [← mul_assoc, ← Real.exp_add, add_neg_cancel, Real.exp_zero, one_mul] at h3

/-- … and strictly, if it grows strictly faster. -/
theorem grows_strictly {F : ℝ → ℝ} {F' : ℝ → ℝ} {a T : ℝ} (hT : 0 < T) (hF : ∀ t, HasDerivAt F (F' t) t) (h : ∀ t, 0 < t → t < T → a * F t < F' t) : Real.exp (a * T) * F 0 < F T := by
  have hd : ∀ t, HasDerivAt (fun t => Real.exp (-(a * t)) * F t) (Real.exp (-(a * t)) * (F' t - a * F t)) t := fun t => by
    have h1 : HasDerivAt (fun t => Real.exp (-(a * t))) (Real.exp (-(a * t)) * -(a * 1)) t := (((hasDerivAt_id t).const_mul a).neg).exp
    have h2 := h1.mul (hF t)
    refine h2.congr_deriv ?_
    ring
  have hm : StrictMonoOn (fun t => Real.exp (-(a * t)) * F t) (Set.Icc 0 T) := by
    refine strictMonoOn_of_deriv_pos (convex_Icc 0 T) (fun t _ => (hd t).continuousAt.continuousWithinAt) (fun t ht => ?_)
    rw [interior_Icc] at ht
    rw [(hd t).deriv]
    exact mul_pos (Real.exp_pos _) (by linarith [h t ht.1 ht.2])
  have := hm (Set.left_mem_Icc.2 hT.le) (Set.right_mem_Icc.2 hT.le) hT
  simp only [mul_zero, neg_zero, Real.exp_zero, one_mul] at this
  have h3 := mul_lt_mul_of_pos_left this (Real.exp_pos (a * T))
  rwa [← mul_assoc, ← Real.exp_add, add_neg_cancel, Real.exp_zero, one_mul] at h3

/-- The equations with additional sources `f` and `g`. -/
structure Driven (n : Nat) (lam b : Nat → ℝ) (a : ℝ) (f : ℝ → ℝ) (g : Nat → ℝ → ℝ) (P : ℝ → ℝ) (C : Nat → ℝ → ℝ) : Prop where
  power : ∀ t, HasDerivAt P (a * P t + ∑ i ∈ range n, lam i * C i t + f t) t
  conc : ∀ i, i < n → ∀ t, HasDerivAt (C i) (b i * P t - lam i * C i t + g i t) t

theorem Driven.pos {n : Nat} {lam b : Nat → ℝ} {a : ℝ} {f : ℝ → ℝ} {g : Nat → ℝ → ℝ} {P : ℝ → ℝ} {C : Nat → ℝ → ℝ} (h : Driven n lam b a f g P C) (hl : ∀ i, i < n → 0 ≤ lam i)
    (hb : ∀ i, i < n → 0 ≤ b i) (hf : ∀ t, 0 ≤ t → 0 ≤ f t) (hg : ∀ i, i < n → ∀ t, 0 ≤ t → 0 ≤ g i t) (hP : 0 < P 0) (hC : ∀ i, i < n → 0 ≤ C i 0) :
    ∀ t, 0 ≤ t → 0 < P t ∧ ∀ i, i < n → 0 ≤ C i t := by
  have conc : ∀ T, 0 ≤ T → (∀ t, 0 < t → t < T → 0 < P t) → ∀ i, i < n → 0 ≤ C i T := fun T hT hPT i hi => by
    have := grows (a := -lam i) hT (h.conc i hi) (fun t h0 h1 => by linarith [mul_nonneg (hb i hi) (hPT t h0 h1).le, hg i hi t h0.le])
    exact (mul_nonneg (Real.exp_pos _).le (hC i hi)).trans this
  have power : ∀ T, 0 ≤ T → (∀ t, 0 < t → t < T → 0 < P t) → 0 < P T := fun T hT hPT => by
    have := grows (a := a) hT h.power (fun t h0 h1 => by
      have h2 : 0 ≤ ∑ i ∈ range n, lam i * C i t := Finset.sum_nonneg (fun i hi =>
        mul_nonneg (hl i (mem_range.1 hi)) (conc t h0.le (fun s hs hs' => hPT s hs (hs'.trans h1)) i (mem_range.1 hi)))
      linarith [hf t h0.le])
    exact (mul_pos (Real.exp_pos _) hP).trans_le this
  have all : ∀ t, 0 ≤ t → 0 < P t := by
    by_contra hn
    simp only [not_forall, not_lt] at hn
    obtain ⟨t1, ht1, hP1⟩ := hn
    have hcont : Continuous P := continuous_iff_continuousAt.2 (fun t => (h.power t).continuousAt)
    have hS : IsClosed {t | 0 ≤ t ∧ P t ≤ 0} := (isClosed_le continuous_const continuous_id).inter (isClosed_le hcont continuous_const)
    have hm := hS.csInf_mem ⟨t1, ht1, hP1⟩ ⟨0, fun t ht => ht.1⟩
    have := power _ hm.1 (fun t h0 h1 => by
      by_contra hn
      exact absurd (csInf_le ⟨0, fun t ht => ht.1⟩ (show t ∈ {t | 0 ≤ t ∧ P t ≤ 0} from ⟨h0.le, not_lt.1 hn⟩)) (not_le.2 h1))
    exact absurd hm.2 (not_le.2 this)
  exact fun t ht => ⟨all t ht, conc t ht (fun s hs _ => all s hs.le)⟩

theorem Driven.nonneg {n : Nat} {lam b : Nat → ℝ} {a : ℝ} {f : ℝ → ℝ} {P : ℝ → ℝ} {C : Nat → ℝ → ℝ} (h : Driven n lam b a f (fun _ _ => 0) P C) (hl : ∀ i, i < n → 0 ≤ lam i)
    (hb : ∀ i, i < n → 0 ≤ b i) (hf : ∀ t, 0 ≤ t → 0 ≤ f t) (hP : 0 ≤ P 0) (hC : ∀ i, i < n → 0 ≤ C i 0) : ∀ t, 0 ≤ t → 0 ≤ P t ∧ ∀ i, i < n → 0 ≤ C i t := by
  obtain ⟨K, hK1, hK2⟩ : ∃ K : ℝ, a + ∑ i ∈ range n, lam i ≤ K ∧ ∀ i, i < n → b i ≤ K := by
    refine ⟨max (a + ∑ i ∈ range n, lam i) (∑ i ∈ range n, b i), le_max_left _ _, fun i hi => le_max_of_le_right ?_⟩
    exact Finset.single_le_sum (f := b) (fun j hj => hb j (mem_range.1 hj)) (mem_range.2 hi)
  have key : ∀ ε, 0 < ε → ∀ t, 0 ≤ t → 0 < P t + ε * Real.exp (K * t) ∧ ∀ i, i < n → 0 ≤ C i t + ε * Real.exp (K * t) := by
    intro ε hε
    have he : ∀ t, HasDerivAt (fun t => ε * Real.exp (K * t)) (ε * (Real.exp (K * t) * (K * 1))) t := fun t => (((hasDerivAt_id t).const_mul K).exp).const_mul ε
    have hd : Driven n lam b a (fun t => f t + ε * Real.exp (K * t) * (K - a - ∑ i ∈ range n, lam i)) (fun i t => ε * Real.exp (K * t) * (K - b i + lam i))
        (fun t => P t + ε * Real.exp (K * t)) (fun i t => C i t + ε * Real.exp (K * t)) := by
      refine ⟨fun t => ((h.power t).add (he t)).congr_deriv ?_, fun i hi t => ((h.conc i hi t).add (he t)).congr_deriv ?_⟩
      · simp only [mul_add, Finset.sum_add_distrib, ← Finset.sum_mul]
        ring
      · ring
    refine hd.pos hl hb (fun t ht => add_nonneg (hf t ht) (mul_nonneg (by positivity) (by linarith))) (fun i hi t _ => mul_nonneg (by positivity) (by linarith [hK2 i hi, hl i hi])) ?_ ?_
    · simp only [mul_zero, Real.exp_zero, mul_one]; linarith
    · intro i hi; simp only [mul_zero, Real.exp_zero, mul_one]; linarith [hC i hi]
  have lim : ∀ (x : ℝ) (t : ℝ), (∀ ε, 0 < ε → 0 ≤ x + ε * Real.exp (K * t)) → 0 ≤ x := fun x t hx => by
    by_contra hn
    rw [not_le] at hn
    have h1 := hx (-x / (2 * Real.exp (K * t))) (div_pos (by linarith) (by positivity))
    have h2 : -x / (2 * Real.exp (K * t)) * Real.exp (K * t) = -x / 2 := by
      have := (Real.exp_pos (K * t)).ne'
      field_simp
    rw [h2] at h1
    linarith
  exact fun t ht => ⟨lim _ t (fun ε hε => (key ε hε t ht).1.le), fun i hi => lim _ t (fun ε hε => (key ε hε t ht).2 i hi)⟩

/-- The difference of two solutions. -/
theorem PointKinetics.sub {n : Nat} {lam beta : Nat → ℝ} {alpha rho rho' : ℝ} {P P' : ℝ → ℝ} {C C' : Nat → ℝ → ℝ} (h : PointKinetics n lam beta alpha rho P C)
    (h' : PointKinetics n lam beta alpha rho' P' C') : Driven n lam (fun i => beta i / alpha) ((rho' - ∑ i ∈ range n, beta i) / alpha) (fun t => (rho' - rho) / alpha * P t) (fun _ _ => 0)
      (fun t => P' t - P t) (fun i t => C' i t - C i t) := by
  refine ⟨fun t => ((h'.power t).sub (h.power t)).congr_deriv ?_, fun i hi t => ((h'.conc i hi t).sub (h.conc i hi t)).congr_deriv ?_⟩
  · simp only [mul_sub, Finset.sum_sub_distrib]
    ring
  · ring

theorem PointKinetics.driven {n : Nat} {lam beta : Nat → ℝ} {alpha rho : ℝ} {P : ℝ → ℝ} {C : Nat → ℝ → ℝ} (h : PointKinetics n lam beta alpha rho P C) :
    Driven n lam (fun i => beta i / alpha) ((rho - ∑ i ∈ range n, beta i) / alpha) (fun _ => 0) (fun _ _ => 0) P C :=
  ⟨fun t => (h.power t).congr_deriv (by ring), fun i hi t => (h.conc i hi t).congr_deriv (by ring)⟩

end Verif.Kinetics
