import Verif.CPM.Gas

/-! Helper lemmas: rods of one cell. -/

namespace Verif.CPM

open Verif Outcome Finset

noncomputable section

theorem seenCylinder_nonneg {d : Data} (mesh : RoundMesh d) {i : Nat} (hi : i < d.cells) : 0 ≤ seenCylinder d i := by
  unfold seenCylinder
  refine mul_nonneg (by norm_num) (sum_nonneg fun m hm => sum_nonneg fun k hk => ?_)
  rw [mem_range] at hm hk
  have h1 : 0 ≤ shares k := by interval_cases k <;> norm_num [shares]
  exact mul_nonneg (mul_nonneg h1 (sub_nonneg.2 (mesh.incr m (by omega)).le)) (sub_nonneg.2 (halfChord_mono (radii_nonneg mesh hi.le) (mesh.incr i hi).le))

theorem rod_ray (d : Data) (h0 : d.radii.v 0 = 0) (hR : 0 < d.radii.v 1) {k : Nat} {x b : ℝ} (hx : places k = x) (hb : 0 ≤ b) (h : 1 - (1 - x ^ 2) ^ 2 ≤ b ^ 2) :
    rayLength d 0 0 k ≤ d.radii.v 1 * b := by
  unfold rayLength rayAt
  rw [hx, zero_add, h0, sub_zero]
  have h1 : 0 ≤ halfChord 0 (d.radii.v 1 - d.radii.v 1 * x ^ 2) := by
    unfold halfChord
    split
    · exact Real.sqrt_nonneg _
    · exact le_rfl
  have h2 : halfChord (d.radii.v 1) (d.radii.v 1 - d.radii.v 1 * x ^ 2) ≤ d.radii.v 1 * b := by
    refine halfChord_le (mul_nonneg hR.le hb) ?_
    have := mul_le_mul_of_nonneg_left h (sq_nonneg (d.radii.v 1))
    nlinarith
  linarith

theorem rod_seen {d : Data} (h0 : d.radii.v 0 = 0) (hR : 0 < d.radii.v 1) : seenCylinder d 0 ≤ 3.1415926541 * d.radii.v 1 ^ 2 := by
  have a0 := rod_ray d h0 hR (k := 0) (x := 0.0446339553) (b := 0.06309049937) rfl (by norm_num) (by norm_num)
  have a1 := rod_ray d h0 hR (k := 1) (x := 0.1443662570) (b := 0.20309815203) rfl (by norm_num) (by norm_num)
  have a2 := rod_ray d h0 hR (k := 2) (x := 0.2868247571) (b := 0.39720119101) rfl (by norm_num) (by norm_num)
  have a3 := rod_ray d h0 hR (k := 3) (x := 0.4548133152) (b := 0.60903304475) rfl (by norm_num) (by norm_num)
  have a4 := rod_ray d h0 hR (k := 4) (x := 0.6280678354) (b := 0.79582187540) rfl (by norm_num) (by norm_num)
  have a5 := rod_ray d h0 hR (k := 5) (x := 0.7856915206) (b := 0.92387729488) rfl (by norm_num) (by norm_num)
  have a6 := rod_ray d h0 hR (k := 6) (x := 0.9086763921) (b := 0.98469131966) rfl (by norm_num) (by norm_num)
  have a7 := rod_ray d h0 hR (k := 7) (x := 0.9822200849) (b := 0.99937874766) rfl (by norm_num) (by norm_num)
  unfold seenCylinder
  simp only [sum_range_succ, range_zero, sum_empty, zero_add]
  rw [h0, sub_zero]
  have s0 : shares 0 = 0.0032951914 := rfl
  have s1 : shares 1 = 0.0178429027 := rfl
  have s2 : shares 2 = 0.0454393195 := rfl
  have s3 : shares 3 = 0.0791995995 := rfl
  have s4 : shares 4 = 0.1060473594 := rfl
  have s5 : shares 5 = 0.1125057995 := rfl
  have s6 : shares 6 = 0.0911190236 := rfl
  have s7 : shares 7 = 0.0445508044 := rfl
  rw [s0, s1, s2, s3, s4, s5, s6, s7]
  have m0 := mul_le_mul_of_nonneg_left a0 hR.le
  have m1 := mul_le_mul_of_nonneg_left a1 hR.le
  have m2 := mul_le_mul_of_nonneg_left a2 hR.le
  have m3 := mul_le_mul_of_nonneg_left a3 hR.le
  have m4 := mul_le_mul_of_nonneg_left a4 hR.le
  have m5 := mul_le_mul_of_nonneg_left a5 hR.le
  have m6 := mul_le_mul_of_nonneg_left a6 hR.le
  have m7 := mul_le_mul_of_nonneg_left a7 hR.le
  have hs := sq_nonneg (d.radii.v 1)
  norm_num at m0 m1 m2 m3 m4 m5 m6 m7 ⊢
  nlinarith

theorem rod_resolved {d : Data} (h0 : d.radii.v 0 = 0) (hR : 0 < d.radii.v 1) (hV : d.vol.v 0 = Real.pi * d.radii.v 1 ^ 2) {h : Nat}
    (ht : 1 / 10 ^ 8 ≤ d.tot.m h 0 * d.radii.v 1) (hpos : 0 ≤ seenCylinder d 0) : Resolved d .cylinder h 0 := by
  right
  rw [hV]
  have h1 := rod_seen h0 hR
  rw [zero_add]
  by_cases h2 : seenCylinder d 0 < Real.pi * d.radii.v 1 ^ 2
  · refine h2.trans_le ?_
    have : 0 ≤ d.tot.m h 0 * seenCylinder d 0 / (8 * d.radii.v 1) := by
      refine div_nonneg (mul_nonneg ?_ hpos) (by linarith)
      by_contra hn
      push Not at hn
      have := mul_neg_of_neg_of_pos hn hR
      norm_num at ht
      linarith
    nlinarith [mul_nonneg (mul_nonneg Real.pi_pos.le (sq_nonneg (d.radii.v 1))) this]
  · push Not at h2
    have h3 : Real.pi * d.radii.v 1 ^ 2 * (d.tot.m h 0 * seenCylinder d 0 / (8 * d.radii.v 1)) = Real.pi * (d.tot.m h 0 * d.radii.v 1) * seenCylinder d 0 / 8 := by
      field_simp
    rw [mul_add, mul_one, h3]
    have p3 := Real.pi_gt_three
    have h4 : 3 * (1 / 10 ^ 8) * (3 * d.radii.v 1 ^ 2) ≤ Real.pi * (d.tot.m h 0 * d.radii.v 1) * seenCylinder d 0 := by
      refine mul_le_mul (mul_le_mul p3.le ht (by norm_num) (by linarith)) ?_ (by positivity) ?_
      · refine le_trans ?_ h2
        nlinarith [sq_nonneg (d.radii.v 1)]
      · norm_num at ht
        have : 0 ≤ d.tot.m h 0 * d.radii.v 1 := by linarith
        exact mul_nonneg (by linarith) this
    have p6 := Real.pi_gt_d20
    have h5 : 0 < d.radii.v 1 ^ 2 := by positivity
    have h6 := mul_lt_mul_of_pos_right p6 h5
    norm_num at h1 h4 h6 ⊢
    nlinarith

end

end Verif.CPM
