import Verif.CPM.Rays
import Verif.CPM.Props
import Mathlib.Analysis.Real.Pi.Bounds

/-! Helper lemmas: a rod of one centimetre with a layer of a tenth of a millimetre around it, as the rays see it. -/

namespace Verif.CPM

open Verif Outcome Finset

noncomputable section

/-- A rod of radius 1 cm in a layer of 0.1 mm, two groups, neutrons of the first one scattered into the second one in the layer; nothing comes back from outside. -/
def gas (t : Mat ℝ) : Data where
  cells := 2
  energies := 2
  albedo := ⟨1, fun _ => 0⟩
  radii := ⟨3, fun i => if i = 0 then 0 else if i = 1 then 1 else 1.01⟩
  vol := ⟨2, fun i => if i = 0 then Real.pi else 0.0201 * Real.pi⟩
  surface := 2.02 * Real.pi
  tot := t
  fiss := ⟨2, 2, fun _ _ => 0⟩
  nu := ⟨2, 2, fun _ _ => 0⟩
  chi := ⟨2, 2, fun _ _ => 0⟩
  scatt := fun g h i => if g = 0 ∧ h = 1 ∧ i = 1 then 1 / 2 else 0

theorem halfChord_ge {a R z : ℝ} (ha : 0 ≤ a) (hz : z < R) (h : a ^ 2 ≤ R ^ 2 - z ^ 2) : a ≤ halfChord R z := by
  unfold halfChord
  rw [if_pos hz]
  exact Real.le_sqrt_of_sq_le h

theorem halfChord_le {b R z : ℝ} (hb : 0 ≤ b) (h : R ^ 2 - z ^ 2 ≤ b ^ 2) : halfChord R z ≤ b := by
  unfold halfChord
  split
  · exact Real.sqrt_le_iff.2 ⟨hb, h⟩
  · exact hb

theorem gas_inner (t : Mat ℝ) {k : Nat} {x q a b : ℝ} (hx : places k = x) (hq : q = a - b) (ha : 0 ≤ a) (hb : 0 ≤ b) (h0 : x ^ 2 ≤ 1 ∧ 0 ≤ x ^ 2) (h1 : a ^ 2 ≤ 1.0201 - (1 - x ^ 2) ^ 2)
    (h2 : 1 - (1 - x ^ 2) ^ 2 ≤ b ^ 2) : q ≤ rayLength (gas t) 1 0 k := by
  unfold rayLength rayAt
  rw [hx]
  show q ≤ halfChord 1.01 (1 - (1 - 0) * x ^ 2) - halfChord 1 (1 - (1 - 0) * x ^ 2)
  have g1 : a ≤ halfChord 1.01 (1 - (1 - 0) * x ^ 2) := halfChord_ge ha (by norm_num; linarith) (by norm_num; norm_num at h1; linarith)
  have g2 : halfChord 1 (1 - (1 - 0) * x ^ 2) ≤ b := halfChord_le hb (by norm_num; linarith)
  rw [hq]
  exact sub_le_sub g1 g2

theorem gas_outer (t : Mat ℝ) {k : Nat} {x a : ℝ} (hx : places k = x) (ha : 0 ≤ a) (h0 : 0 < x ^ 2 ∧ x ^ 2 ≤ 1) (h1 : a ^ 2 ≤ 1.0201 - (1.01 - 0.01 * x ^ 2) ^ 2) :
    a ≤ rayLength (gas t) 1 1 k := by
  unfold rayLength rayAt
  rw [hx]
  show a ≤ halfChord 1.01 (1.01 - (1.01 - 1) * x ^ 2) - halfChord 1 (1.01 - (1.01 - 1) * x ^ 2)
  have g1 : a ≤ halfChord 1.01 (1.01 - (1.01 - 1) * x ^ 2) := halfChord_ge ha (by norm_num; linarith) (by norm_num; norm_num at h1; linarith)
  have g2 : halfChord 1 (1.01 - (1.01 - 1) * x ^ 2) = 0 := if_neg (by norm_num; linarith)
  rw [g2]
  linarith

theorem gas_0_0 (t : Mat ℝ) : 0.092088142 ≤ rayLength (gas t) 1 0 0 :=
  gas_inner t (x := 0.0446339553) (a := 0.155178642) (b := 0.063090500) rfl (by norm_num) (by norm_num) (by norm_num) (by norm_num) (by norm_num) (by norm_num)

theorem gas_0_1 (t : Mat ℝ) : 0.044588865 ≤ rayLength (gas t) 1 0 1 :=
  gas_inner t (x := 0.1443662570) (a := 0.247687018) (b := 0.203098153) rfl (by norm_num) (by norm_num) (by norm_num) (by norm_num) (by norm_num) (by norm_num)

theorem gas_0_2 (t : Mat ℝ) : 0.024543738 ≤ rayLength (gas t) 1 0 2 :=
  gas_inner t (x := 0.2868247571) (a := 0.421744930) (b := 0.397201192) rfl (by norm_num) (by norm_num) (by norm_num) (by norm_num) (by norm_num) (by norm_num)

theorem gas_0_3 (t : Mat ℝ) : 0.016283874 ≤ rayLength (gas t) 1 0 3 :=
  gas_inner t (x := 0.4548133152) (a := 0.625316919) (b := 0.609033045) rfl (by norm_num) (by norm_num) (by norm_num) (by norm_num) (by norm_num) (by norm_num)

theorem gas_0_4 (t : Mat ℝ) : 0.012529815 ≤ rayLength (gas t) 1 0 4 :=
  gas_inner t (x := 0.6280678354) (a := 0.808351691) (b := 0.795821876) rfl (by norm_num) (by norm_num) (by norm_num) (by norm_num) (by norm_num) (by norm_num)

theorem gas_0_5 (t : Mat ℝ) : 0.010814769 ≤ rayLength (gas t) 1 0 5 :=
  gas_inner t (x := 0.7856915206) (a := 0.934692064) (b := 0.923877295) rfl (by norm_num) (by norm_num) (by norm_num) (by norm_num) (by norm_num) (by norm_num)

theorem gas_0_6 (t : Mat ℝ) : 0.010153891 ≤ rayLength (gas t) 1 0 6 :=
  gas_inner t (x := 0.9086763921) (a := 0.994845211) (b := 0.984691320) rfl (by norm_num) (by norm_num) (by norm_num) (by norm_num) (by norm_num) (by norm_num)

theorem gas_0_7 (t : Mat ℝ) : 0.010006154 ≤ rayLength (gas t) 1 0 7 :=
  gas_inner t (x := 0.9822200849) (a := 1.009384902) (b := 0.999378748) rfl (by norm_num) (by norm_num) (by norm_num) (by norm_num) (by norm_num) (by norm_num)

theorem gas_1_0 (t : Mat ℝ) : 0.006343645 ≤ rayLength (gas t) 1 1 0 :=
  gas_outer t (x := 0.0446339553) rfl (by norm_num) (by norm_num) (by norm_num)

theorem gas_1_1 (t : Mat ℝ) : 0.020517241 ≤ rayLength (gas t) 1 1 1 :=
  gas_outer t (x := 0.1443662570) rfl (by norm_num) (by norm_num) (by norm_num)

theorem gas_1_2 (t : Mat ℝ) : 0.040757155 ≤ rayLength (gas t) 1 1 2 :=
  gas_outer t (x := 0.2868247571) rfl (by norm_num) (by norm_num) (by norm_num)

theorem gas_1_3 (t : Mat ℝ) : 0.064608011 ≤ rayLength (gas t) 1 1 3 :=
  gas_outer t (x := 0.4548133152) rfl (by norm_num) (by norm_num) (by norm_num)

theorem gas_1_4 (t : Mat ℝ) : 0.089178009 ≤ rayLength (gas t) 1 1 4 :=
  gas_outer t (x := 0.6280678354) rfl (by norm_num) (by norm_num) (by norm_num)

theorem gas_1_5 (t : Mat ℝ) : 0.111496987 ≤ rayLength (gas t) 1 1 5 :=
  gas_outer t (x := 0.7856915206) rfl (by norm_num) (by norm_num) (by norm_num)

theorem gas_1_6 (t : Mat ℝ) : 0.128882960 ≤ rayLength (gas t) 1 1 6 :=
  gas_outer t (x := 0.9086763921) rfl (by norm_num) (by norm_num) (by norm_num)

theorem gas_1_7 (t : Mat ℝ) : 0.139265938 ≤ rayLength (gas t) 1 1 7 :=
  gas_outer t (x := 0.9822200849) rfl (by norm_num) (by norm_num) (by norm_num)


theorem gas_seen (t : Mat ℝ) : 0.063147953 ≤ seenCylinder (gas t) 1 := by
  have e0 : (gas t).radii.v (0 + 1) - (gas t).radii.v 0 = 1 := by show (1 : ℝ) - 0 = 1; norm_num
  have e1 : (gas t).radii.v (1 + 1) - (gas t).radii.v 1 = 0.01 := by show (1.01 : ℝ) - 1 = 0.01; norm_num
  unfold seenCylinder
  simp only [sum_range_succ, range_zero, sum_empty, zero_add, e1]
  rw [show (gas t).radii.v 1 - (gas t).radii.v 0 = 1 from e0]
  have s0 : shares 0 = 0.0032951914 := rfl
  have s1 : shares 1 = 0.0178429027 := rfl
  have s2 : shares 2 = 0.0454393195 := rfl
  have s3 : shares 3 = 0.0791995995 := rfl
  have s4 : shares 4 = 0.1060473594 := rfl
  have s5 : shares 5 = 0.1125057995 := rfl
  have s6 : shares 6 = 0.0911190236 := rfl
  have s7 : shares 7 = 0.0445508044 := rfl
  have e2 : (gas t).radii.v 2 - (gas t).radii.v 1 = 0.01 := e1
  rw [s0, s1, s2, s3, s4, s5, s6, s7]
  have a0 := gas_0_0 t
  have a1 := gas_0_1 t
  have a2 := gas_0_2 t
  have a3 := gas_0_3 t
  have a4 := gas_0_4 t
  have a5 := gas_0_5 t
  have a6 := gas_0_6 t
  have a7 := gas_0_7 t
  have b0 := gas_1_0 t
  have b1 := gas_1_1 t
  have b2 := gas_1_2 t
  have b3 := gas_1_3 t
  have b4 := gas_1_4 t
  have b5 := gas_1_5 t
  have b6 := gas_1_6 t
  have b7 := gas_1_7 t
  norm_num at *
  linarith

/-- the square of a length between two circles is at most the difference of the squares of their radii -/
theorem length_sq {R R' : ℝ} (hR : 0 ≤ R) (h : R ≤ R') {y : ℝ} (hy : 0 ≤ y) : (halfChord R' y - halfChord R y) ^ 2 ≤ R' ^ 2 - R ^ 2 := by
  unfold halfChord
  have hq : 0 ≤ R' ^ 2 - R ^ 2 := by nlinarith
  by_cases h1 : y < R
  · rw [if_pos h1, if_pos (h1.trans_le h)]
    have h2 : 0 ≤ R ^ 2 - y ^ 2 := by nlinarith
    have h3 : 0 ≤ R' ^ 2 - y ^ 2 := by linarith
    have h4 : Real.sqrt (R ^ 2 - y ^ 2) ≤ Real.sqrt (R' ^ 2 - y ^ 2) := Real.sqrt_le_sqrt (by linarith)
    have h5 := Real.sq_sqrt h2
    have h6 := Real.sq_sqrt h3
    nlinarith [mul_nonneg (Real.sqrt_nonneg (R ^ 2 - y ^ 2)) (sub_nonneg.2 h4)]
  · rw [if_neg h1]
    push Not at h1
    split
    · rename_i h2
      rw [sub_zero, Real.sq_sqrt (by nlinarith)]
      nlinarith
    · simpa using hq

theorem gas_mesh (t : Mat ℝ) : RoundMesh (gas t) where
  first := le_rfl
  incr i hi := by
    change i < 2 at hi
    interval_cases i
    · show (0 : ℝ) < 1; norm_num
    · show (1 : ℝ) < 1.01; norm_num

/-- whatever the rod and the other group, the layer is refused its own neutrons if it is thin enough -/
theorem gas_negative {t : Mat ℝ} (wf : WellFormed (gas t)) (pos : Positive (gas t)) {h : Nat} (hh : h < 2) (hs : t.m h 1 ≤ 1 / 10 ^ 5) {G : Ten3}
    (e : vacuumCPs (gas t) E3 Ki3 .cylinder = ok G) : G.v (1, 1, h) < 0 := by
  have mesh := gas_mesh t
  have ch := chords_cyl mesh Ki3
  have hi : 1 < (gas t).cells := one_lt_two
  refine self_negative (R := cylinder Ki3) wf pos mesh two_pos Ki3_facts Ki3_falls (by show (0 : ℝ) < 4; norm_num) ch e hh hi ?_
  have h1 : chordSum rays (zray (gas t)) (wray (gas t) (cylinder Ki3)) 1 (fun y => (halfChord ((gas t).radii.v (1 + 1)) y - halfChord ((gas t).radii.v 1) y) ^ 2) ≤
      0.0201 * (1.01 / 2) := by
    have h2 : ∑ m ∈ range (1 + 1), ∑ k ∈ range rays, wray (gas t) (cylinder Ki3) m k = 1.01 / 2 := by
      rw [sum_congr rfl (fun m _ => cyl_weight Ki3 m), ← sum_div, sum_range_sub]
      show ((1.01 : ℝ) - 0) / 2 = _
      norm_num
    rw [← h2, mul_sum]
    unfold chordSum
    refine sum_le_sum (fun m hm => ?_)
    rw [mul_sum]
    refine sum_le_sum (fun k hk => ?_)
    rw [mem_range] at hm hk
    rw [mul_comm]
    have hm' : m < (gas t).cells := by show m < 2; omega
    refine mul_le_mul_of_nonneg_right ?_ (ch.weight m hm' k hk)
    refine (length_sq (radii_nonneg mesh hi.le) (mesh.incr 1 hi).le ((radii_nonneg mesh hm'.le).trans (zray_bounds mesh hm' hk).1)).trans ?_
    show (1.01 : ℝ) ^ 2 - 1 ^ 2 ≤ _
    norm_num
  have h0 : 0 ≤ chordSum rays (zray (gas t)) (wray (gas t) (cylinder Ki3)) 1 (fun y => (halfChord ((gas t).radii.v (1 + 1)) y - halfChord ((gas t).radii.v 1) y) ^ 2) :=
    chordSum_nonneg ch hi (fun y => sq_nonneg _)
  rw [seen_cylinder]
  refine lt_of_lt_of_le ?_ (gas_seen t)
  have hp := Real.pi_lt_d6
  have hp0 := Real.pi_pos
  have ht : 0 < t.m h 1 := pos.tot_pos h hh 1 hi
  show 0.0201 * Real.pi + 4 * (Real.pi / 4) * 4 * t.m h 1 * _ < _
  have h3 : 4 * (Real.pi / 4) * 4 * t.m h 1 ≤ 4 * (3.141593 / 4) * 4 * (1 / 10 ^ 5) := by
    refine mul_le_mul ?_ hs ht.le (by norm_num)
    linarith
  have h4 := mul_le_mul h3 h1 h0 (by norm_num)
  norm_num at h4 ⊢
  norm_num at hp
  linarith

end

end Verif.CPM
