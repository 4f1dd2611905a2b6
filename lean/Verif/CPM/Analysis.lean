import Verif.CPM.Spec
import Mathlib.Analysis.SpecialFunctions.Integrals.Basic
import Mathlib.MeasureTheory.Integral.IntervalIntegral.FundThmCalculus
import Mathlib.Tactic.Linarith
import Mathlib.Tactic.FieldSimp
import Mathlib.Tactic.Positivity

/-! Helper lemmas: the exponential integral, the Bickley function, and averages of exponentials over a cell of a slab. -/

namespace Verif.CPM

open MeasureTheory intervalIntegral Set

theorem intervalIntegrable_of_bounded {a b C : ℝ} (hab : a ≤ b) {f : ℝ → ℝ} (hm : Measurable f)
    (hb : ∀ x ∈ Ioc a b, |f x| ≤ C) : IntervalIntegrable f volume a b := by
  rw [intervalIntegrable_iff_integrableOn_Ioc_of_le hab]
  refine Measure.integrableOn_of_bounded (M := C) (by simp) hm.aestronglyMeasurable ?_
  exact (ae_restrict_iff' measurableSet_Ioc).2 (Filter.Eventually.of_forall (fun x hx => by
    rw [Real.norm_eq_abs]; exact hb x hx))

theorem exp_neg_div_le_one {x μ : ℝ} (hx : 0 ≤ x) (hμ : 0 ≤ μ) : Real.exp (-x / μ) ≤ 1 := by
  rw [Real.exp_le_one_iff]
  exact div_nonpos_of_nonpos_of_nonneg (by linarith) hμ

/-- A weighted average of the exponentials `exp (-x / c t)` is a transmission function. -/
theorem transmission_of {a b C : ℝ} (hab : a ≤ b) {w c : ℝ → ℝ} (hw : Measurable w) (hc : Measurable c)
    (hw0 : ∀ t ∈ Icc a b, 0 ≤ w t) (hwC : ∀ t ∈ Icc a b, w t ≤ C) (hc0 : ∀ t ∈ Icc a b, 0 ≤ c t) {K : ℝ → ℝ}
    (hK : ∀ x, K x = ∫ t in a..b, w t * Real.exp (-x / c t)) :
    Transmission K ∧ ∀ x, 0 ≤ x → IntervalIntegrable (fun t => w t * Real.exp (-x / c t)) volume a b := by
  have hC : 0 ≤ C := (hw0 a (left_mem_Icc.2 hab)).trans (hwC a (left_mem_Icc.2 hab))
  have hint : ∀ x, 0 ≤ x → IntervalIntegrable (fun t => w t * Real.exp (-x / c t)) volume a b := by
    intro x hx
    refine intervalIntegrable_of_bounded (C := C) hab (by fun_prop) ?_
    intro t ht
    have ht' := Ioc_subset_Icc_self ht
    rw [abs_of_nonneg (mul_nonneg (hw0 t ht') (Real.exp_pos _).le)]
    calc w t * Real.exp (-x / c t) ≤ w t * 1 :=
          mul_le_mul_of_nonneg_left (exp_neg_div_le_one hx (hc0 t ht')) (hw0 t ht')
      _ ≤ C := by rw [mul_one]; exact hwC t ht'
  refine ⟨⟨?_, ?_, ?_⟩, hint⟩
  · intro x _
    rw [hK]
    exact integral_nonneg hab (fun t ht => mul_nonneg (hw0 t ht) (Real.exp_pos _).le)
  · intro x s hx hs
    rw [hK, hK]
    refine integral_mono_on hab (hint _ (by linarith)) (hint _ hx) (fun t ht => ?_)
    refine mul_le_mul_of_nonneg_left (Real.exp_le_exp.2 ?_) (hw0 t ht)
    exact div_le_div_of_nonneg_right (by linarith) (hc0 t ht)
  · intro x s u hx hs hu
    have e : K x - K (x + s) - K (x + u) + K (x + s + u) = ∫ t in a..b,
        (w t * Real.exp (-x / c t) - w t * Real.exp (-(x + s) / c t) - w t * Real.exp (-(x + u) / c t)
          + w t * Real.exp (-(x + s + u) / c t)) := by
      have i1 := hint x hx
      have i2 := hint (x + s) (by linarith)
      have i3 := hint (x + u) (by linarith)
      have i4 := hint (x + s + u) (by linarith)
      rw [integral_add ((i1.sub i2).sub i3) i4, integral_sub (i1.sub i2) i3, integral_sub i1 i2, ← hK, ← hK, ← hK, ← hK]
    rw [e]
    refine integral_nonneg hab (fun t ht => ?_)
    have f1 : Real.exp (-(x + s) / c t) = Real.exp (-x / c t) * Real.exp (-s / c t) := by
      rw [← Real.exp_add]; congr 1; ring
    have f2 : Real.exp (-(x + u) / c t) = Real.exp (-x / c t) * Real.exp (-u / c t) := by
      rw [← Real.exp_add]; congr 1; ring
    have f3 : Real.exp (-(x + s + u) / c t) = Real.exp (-x / c t) * Real.exp (-s / c t) * Real.exp (-u / c t) := by
      rw [← Real.exp_add, ← Real.exp_add]; congr 1; ring
    rw [f1, f2, f3]
    have g1 := exp_neg_div_le_one hs (hc0 t ht)
    have g2 := exp_neg_div_le_one hu (hc0 t ht)
    have : w t * Real.exp (-x / c t) * ((1 - Real.exp (-s / c t)) * (1 - Real.exp (-u / c t))) ≥ 0 :=
      mul_nonneg (mul_nonneg (hw0 t ht) (Real.exp_pos _).le) (mul_nonneg (by linarith) (by linarith))
    nlinarith [this]

theorem E3_facts : Transmission E3 ∧ ∀ x, 0 ≤ x → IntervalIntegrable (fun μ => μ * Real.exp (-x / μ)) volume 0 1 :=
  transmission_of (C := 1) zero_le_one measurable_id measurable_id (fun _ h => h.1) (fun _ h => h.2) (fun _ h => h.1)
    (fun _ => rfl)

theorem E3_zero : E3 0 = 1 / 2 := by
  have : E3 0 = ∫ μ in (0 : ℝ)..1, μ := by unfold E3; simp
  rw [this, integral_id]; norm_num

theorem E3_le {x : ℝ} (hx : 0 ≤ x) : E3 x ≤ Real.exp (-x) / 2 := by
  have h1 : E3 x ≤ ∫ μ in (0 : ℝ)..1, μ * Real.exp (-x) := by
    refine integral_mono_on zero_le_one (E3_facts.2 x hx) (by apply Continuous.intervalIntegrable; fun_prop) ?_
    intro μ hμ
    rcases eq_or_lt_of_le hμ.1 with h | h
    · rw [← h]; simp
    · refine mul_le_mul_of_nonneg_left (Real.exp_le_exp.2 ?_) hμ.1
      rw [div_le_iff₀ h]
      nlinarith [hμ.2]
  rw [intervalIntegral.integral_mul_const, integral_id] at h1
  linarith

theorem Ki3_facts : Transmission Ki3 := by
  have hpi := Real.pi_pos
  refine (transmission_of (C := 1) (a := 0) (b := Real.pi / 2) (w := fun t => Real.sin t * Real.sin t) (c := Real.sin)
    (by linarith) (by fun_prop) (by fun_prop) ?_ ?_ ?_ ?_).1
  · intro t _; exact mul_self_nonneg _
  · intro t _; nlinarith [Real.sin_sq_add_cos_sq t, sq_nonneg (Real.cos t)]
  · intro t ht; exact Real.sin_nonneg_of_nonneg_of_le_pi ht.1 (by linarith [ht.2])
  · intro x
    unfold Ki3
    congr 1
    ext t
    ring

theorem Ki3_zero : Ki3 0 = Real.pi / 4 := by
  have : Ki3 0 = ∫ t in (0 : ℝ)..(Real.pi / 2), Real.sin t ^ 2 := by
    unfold Ki3
    congr 1
    ext t
    simp [sq]
  rw [this, integral_sin_sq]
  simp
  ring

theorem exp_facts : Transmission (fun x => Real.exp (-x)) where
  nonneg _ _ := (Real.exp_pos _).le
  decr a s _ hs := Real.exp_le_exp.2 (by linarith)
  conv a s t _ hs ht := by
    have e1 : Real.exp (-(a + s)) = Real.exp (-a) * Real.exp (-s) := by rw [← Real.exp_add]; congr 1; ring
    have e2 : Real.exp (-(a + t)) = Real.exp (-a) * Real.exp (-t) := by rw [← Real.exp_add]; congr 1; ring
    have e3 : Real.exp (-(a + s + t)) = Real.exp (-a) * Real.exp (-s) * Real.exp (-t) := by
      rw [← Real.exp_add, ← Real.exp_add]; congr 1; ring
    rw [e1, e2, e3]
    have g1 : Real.exp (-s) ≤ 1 := Real.exp_le_one_iff.2 (by linarith)
    have g2 : Real.exp (-t) ≤ 1 := Real.exp_le_one_iff.2 (by linarith)
    have := mul_nonneg (Real.exp_pos (-a)).le (mul_nonneg (sub_nonneg.2 g1) (sub_nonneg.2 g2))
    nlinarith [this]

/-- integral of an exponential -/
theorem integral_exp_lin {a b p q : ℝ} (hp : p ≠ 0) :
    ∫ x in a..b, Real.exp (p * x + q) = (Real.exp (p * b + q) - Real.exp (p * a + q)) / p := by
  rw [intervalIntegral.integral_comp_mul_add (fun x => Real.exp x) hp q, integral_exp, smul_eq_mul]
  field_simp

/-- Average over a cell of the survival up to a face behind which lies the optical distance `c`. -/
theorem average_right' {l r s c : ℝ} (hlr : l < r) (hs : 0 < s) (hc : 0 ≤ c) :
    (1 / 2 * ∫ μ in (0 : ℝ)..1, 1 / (r - l) * ∫ x in l..r, Real.exp (-(s * (r - x) + c) / μ)) =
      1 / (2 * ((r - l) * s)) * (E3 c - E3 (c + (r - l) * s)) ∧
    IntervalIntegrable (fun μ => 1 / (r - l) * ∫ x in l..r, Real.exp (-(s * (r - x) + c) / μ)) volume 0 1 := by
  have hrl : 0 < r - l := sub_pos.2 hlr
  have hin : ∀ μ ∈ Ioc (0 : ℝ) 1, 1 / (r - l) * ∫ x in l..r, Real.exp (-(s * (r - x) + c) / μ) =
      1 / ((r - l) * s) * (μ * Real.exp (-c / μ) - μ * Real.exp (-(c + (r - l) * s) / μ)) := by
    intro μ hμ
    have h0 : s / μ ≠ 0 := (div_pos hs hμ.1).ne'
    have e : (fun x => Real.exp (-(s * (r - x) + c) / μ)) = fun x => Real.exp (s / μ * x + (-(s * r + c) / μ)) := by
      ext x; congr 1; ring
    rw [e, integral_exp_lin h0]
    have e1 : s / μ * r + (-(s * r + c) / μ) = -c / μ := by ring
    have e2 : s / μ * l + (-(s * r + c) / μ) = -(c + (r - l) * s) / μ := by ring
    rw [e1, e2]
    have := hμ.1.ne'
    field_simp
  have hcong : (∫ μ in (0 : ℝ)..1, 1 / (r - l) * ∫ x in l..r, Real.exp (-(s * (r - x) + c) / μ)) =
      ∫ μ in (0 : ℝ)..1, 1 / ((r - l) * s) * (μ * Real.exp (-c / μ) - μ * Real.exp (-(c + (r - l) * s) / μ)) := by
    refine integral_congr_ae (Filter.Eventually.of_forall (fun μ hμ => ?_))
    rw [uIoc_of_le zero_le_one] at hμ
    exact hin μ hμ
  have hcr : 0 ≤ c + (r - l) * s := by positivity
  refine ⟨?_, (((E3_facts.2 c hc).sub (E3_facts.2 _ hcr)).const_mul (1 / ((r - l) * s))).congr_ae ?_⟩
  swap
  · refine (ae_restrict_iff' measurableSet_uIoc).2 (Filter.Eventually.of_forall (fun μ hμ => ?_))
    rw [uIoc_of_le zero_le_one] at hμ
    exact (hin μ hμ).symm
  rw [hcong, intervalIntegral.integral_const_mul, integral_sub (E3_facts.2 c hc) (E3_facts.2 _ hcr)]
  change 1 / 2 * (1 / ((r - l) * s) * (E3 c - E3 (c + (r - l) * s))) = _
  field_simp

/-- The same for the left face. -/
theorem average_left' {l r s c : ℝ} (hlr : l < r) (hs : 0 < s) (hc : 0 ≤ c) :
    (1 / 2 * ∫ μ in (0 : ℝ)..1, 1 / (r - l) * ∫ x in l..r, Real.exp (-(s * (x - l) + c) / μ)) =
      1 / (2 * ((r - l) * s)) * (E3 c - E3 (c + (r - l) * s)) ∧
    IntervalIntegrable (fun μ => 1 / (r - l) * ∫ x in l..r, Real.exp (-(s * (x - l) + c) / μ)) volume 0 1 := by
  have e : (fun μ => 1 / (r - l) * ∫ x in l..r, Real.exp (-(s * (x - l) + c) / μ)) =
      fun μ => 1 / (r - l) * ∫ x in l..r, Real.exp (-(s * (r - x) + c) / μ) := by
    ext μ
    congr 1
    have := intervalIntegral.integral_comp_sub_left (a := l) (b := r) (fun x => Real.exp (-(s * (x - l) + c) / μ)) (l + r)
    rw [add_sub_cancel_right, add_sub_cancel_left] at this
    rw [← this]
    congr 1
    ext x
    congr 2
    ring
  rw [e]
  exact average_right' hlr hs hc

/-! ### averages over a cell -/

theorem oneSided_sub {d : Data} {i : Nat} {p q : ℝ → ℝ → ℝ} (hp : ∀ μ, Continuous (p μ)) (hq : ∀ μ, Continuous (q μ))
    (ip : IntervalIntegrable (fun μ => 1 / (d.radii.v (i + 1) - d.radii.v i) *
      ∫ x in (d.radii.v i)..(d.radii.v (i + 1)), p μ x) volume 0 1)
    (iq : IntervalIntegrable (fun μ => 1 / (d.radii.v (i + 1) - d.radii.v i) *
      ∫ x in (d.radii.v i)..(d.radii.v (i + 1)), q μ x) volume 0 1) :
    oneSided d i (fun μ x => p μ x - q μ x) = oneSided d i p - oneSided d i q := by
  unfold oneSided
  rw [← mul_sub, ← integral_sub ip iq]
  congr 2
  ext μ
  rw [integral_sub ((hp μ).intervalIntegrable _ _) ((hq μ).intervalIntegrable _ _), mul_sub]

theorem oneSided_one {d : Data} {i : Nat} (h : d.radii.v i < d.radii.v (i + 1)) :
    oneSided d i (fun _ _ => 1) = 1 / 2 ∧
    IntervalIntegrable (fun _ : ℝ => 1 / (d.radii.v (i + 1) - d.radii.v i) *
      ∫ _ in (d.radii.v i)..(d.radii.v (i + 1)), (1 : ℝ)) volume 0 1 := by
  have h0 : d.radii.v (i + 1) - d.radii.v i ≠ 0 := (sub_pos.2 h).ne'
  refine ⟨?_, intervalIntegrable_const⟩
  unfold oneSided
  rw [intervalIntegral.integral_const, intervalIntegral.integral_const]
  simp only [smul_eq_mul, mul_one, sub_zero, one_mul]
  field_simp

theorem oneSided_right {d : Data} {h i j : Nat} (hr : d.radii.v i < d.radii.v (i + 1)) (ht : 0 < d.tot.m h i)
    (hc : 0 ≤ ∑ k ∈ Finset.Ico (i + 1) j, thick d h k) :
    oneSided d i (fun μ x => Real.exp (-toRight d h i x j / μ)) =
      1 / (2 * thick d h i) * (E3 (∑ k ∈ Finset.Ico (i + 1) j, thick d h k) -
        E3 ((∑ k ∈ Finset.Ico (i + 1) j, thick d h k) + thick d h i)) ∧
    IntervalIntegrable (fun μ => 1 / (d.radii.v (i + 1) - d.radii.v i) *
      ∫ x in (d.radii.v i)..(d.radii.v (i + 1)), Real.exp (-toRight d h i x j / μ)) volume 0 1 :=
  average_right' hr ht hc

theorem oneSided_left {d : Data} {h i j : Nat} (hr : d.radii.v i < d.radii.v (i + 1)) (ht : 0 < d.tot.m h i)
    (hc : 0 ≤ ∑ k ∈ Finset.Ico j i, thick d h k) :
    oneSided d i (fun μ x => Real.exp (-toLeft d h i x j / μ)) =
      1 / (2 * thick d h i) * (E3 (∑ k ∈ Finset.Ico j i, thick d h k) -
        E3 ((∑ k ∈ Finset.Ico j i, thick d h k) + thick d h i)) ∧
    IntervalIntegrable (fun μ => 1 / (d.radii.v (i + 1) - d.radii.v i) *
      ∫ x in (d.radii.v i)..(d.radii.v (i + 1)), Real.exp (-toLeft d h i x j / μ)) volume 0 1 :=
  average_left' hr ht hc

theorem toRight_cont (d : Data) (h i j : Nat) (μ : ℝ) : Continuous (fun x => Real.exp (-toRight d h i x j / μ)) := by
  unfold toRight; fun_prop

theorem toLeft_cont (d : Data) (h i j : Nat) (μ : ℝ) : Continuous (fun x => Real.exp (-toLeft d h i x j / μ)) := by
  unfold toLeft; fun_prop

end Verif.CPM
