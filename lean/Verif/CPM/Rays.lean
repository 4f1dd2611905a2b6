import Verif.CPM.RaySpec
import Verif.CPM.Strict
import Mathlib.Analysis.Calculus.Deriv.MeanValue
import Mathlib.Analysis.SpecialFunctions.ExpDeriv

/-! Helper lemmas: the probability of a collision in the cell itself, from the volume the rays see. -/

namespace Verif.CPM

open Verif Outcome Finset

noncomputable section

/-! ### how fast the transmission falls -/

theorem exp_drop {y : ℝ} (hy : 0 ≤ y) : 1 - Real.exp (-y) ≤ y / (1 + y / 2) := by
  have hd : ∀ x : ℝ, HasDerivAt (fun x => Real.exp (-x) * (1 + x / 2) - 1 + x / 2) (1 / 2 * (1 - Real.exp (-x) * (1 + x))) x := fun x => by
    have h1 : HasDerivAt (fun x : ℝ => Real.exp (-x)) (Real.exp (-x) * -1) x := (hasDerivAt_neg x).exp
    have h2 : HasDerivAt (fun x : ℝ => x / 2) (1 / 2) x := (hasDerivAt_id x).div_const 2
    have := ((h1.mul (h2.const_add 1)).sub_const 1).add h2
    refine this.congr_deriv ?_
    ring
  have hm : MonotoneOn (fun x => Real.exp (-x) * (1 + x / 2) - 1 + x / 2) (Set.Ici 0) := by
    refine monotoneOn_of_deriv_nonneg (convex_Ici 0) (fun x _ => (hd x).continuousAt.continuousWithinAt) (fun x _ => (hd x).differentiableAt.differentiableWithinAt) (fun x _ => ?_)
    rw [(hd x).deriv]
    have h1 := Real.add_one_le_exp x
    have h2 : Real.exp (-x) * Real.exp x = 1 := by rw [← Real.exp_add, neg_add_cancel, Real.exp_zero]
    nlinarith [mul_le_mul_of_nonneg_left h1 (Real.exp_pos (-x)).le]
  have h0 := hm (Set.mem_Ici.2 le_rfl) (Set.mem_Ici.2 hy) hy
  norm_num at h0
  rw [le_div_iff₀ (by linarith)]
  nlinarith

theorem exp_deep {y : ℝ} (hy : 0 ≤ y) : y - y ^ 2 / 2 ≤ 1 - Real.exp (-y) := by
  have h1 := Real.quadratic_le_exp_of_nonneg hy
  have h2 : Real.exp (-y) * Real.exp y = 1 := by rw [← Real.exp_add, neg_add_cancel, Real.exp_zero]
  have h3 : Real.exp (-y) * (1 + y + y ^ 2 / 2) ≤ 1 := by
    exact (mul_le_mul_of_nonneg_left h1 (Real.exp_pos _).le).trans h2.le
  have h4 : 0 < 1 + y + y ^ 2 / 2 := by positivity
  have h5 : (1 - y + y ^ 2 / 2) * (1 + y + y ^ 2 / 2) = 1 + y ^ 4 / 4 := by ring
  have h6 : 0 ≤ y ^ 4 := by positivity
  by_contra hn
  push Not at hn
  have : (1 - y + y ^ 2 / 2) * (1 + y + y ^ 2 / 2) < Real.exp (-y) * (1 + y + y ^ 2 / 2) := mul_lt_mul_of_pos_right (by linarith) h4
  linarith

/-- How fast a transmission function falls from zero on, with `c` a bound for its curvature. -/
structure Falls (K : ℝ → ℝ) (c : ℝ) : Prop where
  drop : ∀ x, 0 ≤ x → K 0 - K x ≤ x / (1 + x / 2)
  deep : ∀ x, 0 ≤ x → x - c * x ^ 2 ≤ K 0 - K x
  bend : ∀ a s, 0 ≤ a → 0 ≤ s → K a - 2 * K (a + s) + K (a + 2 * s) ≤ K 0 - 2 * K s + K (2 * s)

theorem exp_bend {a s : ℝ} (ha : 0 ≤ a) : Real.exp (-a) - 2 * Real.exp (-(a + s)) + Real.exp (-(a + 2 * s)) ≤
    1 - 2 * Real.exp (-s) + Real.exp (-(2 * s)) := by
  have e1 : Real.exp (-(a + s)) = Real.exp (-a) * Real.exp (-s) := by rw [← Real.exp_add]; congr 1; ring
  have e2 : Real.exp (-(2 * s)) = Real.exp (-s) ^ 2 := by rw [sq, ← Real.exp_add]; congr 1; ring
  have e3 : Real.exp (-(a + 2 * s)) = Real.exp (-a) * Real.exp (-s) ^ 2 := by rw [← e2, ← Real.exp_add]; congr 1; ring
  rw [e1, e2, e3]
  have h1 : Real.exp (-a) ≤ 1 := Real.exp_le_one_iff.2 (by linarith)
  nlinarith [mul_nonneg (sub_nonneg.2 h1) (sq_nonneg (1 - Real.exp (-s)))]

theorem exp_falls : Falls (fun x => Real.exp (-x)) (1 / 2) where
  drop x hx := by simpa using exp_drop hx
  deep x hx := by
    have := exp_deep hx
    simp only [neg_zero, Real.exp_zero]
    linarith
  bend a s ha _ := by simpa using exp_bend (s := s) ha

open MeasureTheory in
theorem Ki3_int {x : ℝ} (hx : 0 ≤ x) : IntervalIntegrable (fun t => Real.sin t * Real.sin t * Real.exp (-x / Real.sin t)) volume 0 (Real.pi / 2) := by
  have hpi := Real.pi_pos
  refine (transmission_of (C := 1) (a := 0) (b := Real.pi / 2) (w := fun t => Real.sin t * Real.sin t) (c := Real.sin)
    (by linarith) (by fun_prop) (by fun_prop) ?_ ?_ ?_ (K := fun x => ∫ t in (0 : ℝ)..(Real.pi / 2), Real.sin t * Real.sin t * Real.exp (-x / Real.sin t)) fun _ => rfl).2 x hx
  · intro t _; exact mul_self_nonneg _
  · intro t _; nlinarith [Real.sin_sq_add_cos_sq t, sq_nonneg (Real.cos t)]
  · intro t ht; exact Real.sin_nonneg_of_nonneg_of_le_pi ht.1 (by linarith [ht.2])

theorem Ki3_eq (x : ℝ) : Ki3 x = ∫ t in (0 : ℝ)..(Real.pi / 2), Real.sin t * Real.sin t * Real.exp (-x / Real.sin t) := by
  unfold Ki3
  congr 1
  ext t
  ring

theorem sin_quarter {t : ℝ} (ht : t ∈ Set.Icc 0 (Real.pi / 2)) : 0 ≤ Real.sin t ∧ Real.sin t ≤ 1 :=
  ⟨Real.sin_nonneg_of_nonneg_of_le_pi ht.1 (by linarith [ht.2, Real.pi_pos]), Real.sin_le_one t⟩

theorem Ki3_falls : Falls Ki3 (Real.pi / 4) where
  drop x hx := by
    have hpi := Real.pi_pos
    have i0 := Ki3_int (x := 0) le_rfl
    have i1 := Ki3_int hx
    rw [Ki3_eq, Ki3_eq, ← intervalIntegral.integral_sub i0 i1]
    have h1 : ∫ t in (0 : ℝ)..(Real.pi / 2), Real.sin t * (x / (1 + x / 2)) = x / (1 + x / 2) := by
      rw [intervalIntegral.integral_mul_const, integral_sin]
      simp
    rw [← h1]
    refine intervalIntegral.integral_mono_on (by linarith) (i0.sub i1) ((by fun_prop : Continuous fun t => Real.sin t * (x / (1 + x / 2))).intervalIntegrable _ _) (fun t ht => ?_)
    obtain ⟨h2, h3⟩ := sin_quarter ht
    rcases h2.eq_or_lt with h4 | h4
    · rw [← h4]; simp
    · have h5 := exp_drop (div_nonneg hx h2)
      rw [neg_div, neg_div, zero_div, neg_zero, Real.exp_zero, ← mul_sub, mul_assoc]
      refine mul_le_mul_of_nonneg_left ?_ h2
      refine (mul_le_mul_of_nonneg_left h5 h2).trans ?_
      rw [mul_div_assoc', mul_div_cancel₀ _ h4.ne']
      refine div_le_div_of_nonneg_left hx (by linarith) ?_
      have : x ≤ x / Real.sin t := by rw [le_div_iff₀ h4]; nlinarith
      linarith
  deep x hx := by
    have hpi := Real.pi_pos
    have i0 := Ki3_int (x := 0) le_rfl
    have i1 := Ki3_int hx
    rw [Ki3_eq, Ki3_eq, ← intervalIntegral.integral_sub i0 i1]
    have h1 : ∫ t in (0 : ℝ)..(Real.pi / 2), (Real.sin t * x - x ^ 2 / 2) = x - Real.pi / 4 * x ^ 2 := by
      rw [intervalIntegral.integral_sub ((by fun_prop : Continuous fun t => Real.sin t * x).intervalIntegrable _ _) (by simp), intervalIntegral.integral_mul_const, integral_sin,
        intervalIntegral.integral_const]
      simp
      ring
    rw [← h1]
    refine intervalIntegral.integral_mono_on (by linarith) ((by fun_prop : Continuous fun t => Real.sin t * x - x ^ 2 / 2).intervalIntegrable _ _) (i0.sub i1) (fun t ht => ?_)
    obtain ⟨h2, h3⟩ := sin_quarter ht
    rcases h2.eq_or_lt with h4 | h4
    · rw [← h4]
      simp
      positivity
    · have h5 := exp_deep (div_nonneg hx h2)
      rw [neg_div, neg_div, zero_div, neg_zero, Real.exp_zero, ← mul_sub]
      refine le_trans (le_of_eq ?_) (mul_le_mul_of_nonneg_left h5 (mul_nonneg h2 h2))
      field_simp
  bend a s ha hs := by
    have hpi := Real.pi_pos
    have i0 := Ki3_int (x := 0) le_rfl
    have i1 := Ki3_int hs
    have i2 := Ki3_int (x := 2 * s) (by linarith)
    have j0 := Ki3_int ha
    have j1 := Ki3_int (x := a + s) (by linarith)
    have j2 := Ki3_int (x := a + 2 * s) (by linarith)
    simp only [Ki3_eq]
    rw [← intervalIntegral.integral_const_mul, ← intervalIntegral.integral_sub j0 (j1.const_mul 2), ← intervalIntegral.integral_add (j0.sub (j1.const_mul 2)) j2,
      ← intervalIntegral.integral_const_mul, ← intervalIntegral.integral_sub i0 (i1.const_mul 2), ← intervalIntegral.integral_add (i0.sub (i1.const_mul 2)) i2]
    refine intervalIntegral.integral_mono_on (by linarith) ((j0.sub (j1.const_mul 2)).add j2) ((i0.sub (i1.const_mul 2)).add i2) (fun t ht => ?_)
    have h2 := (sin_quarter ht).1
    have h3 := exp_bend (s := s / Real.sin t) (div_nonneg ha h2)
    have h4 := mul_le_mul_of_nonneg_left h3 (mul_nonneg h2 h2)
    have e1 : a / Real.sin t + s / Real.sin t = (a + s) / Real.sin t := by ring
    have e2 : a / Real.sin t + 2 * (s / Real.sin t) = (a + 2 * s) / Real.sin t := by ring
    have e3 : 2 * (s / Real.sin t) = 2 * s / Real.sin t := by ring
    rw [e2, e1, e3] at h4
    simp only [neg_div, zero_div, neg_zero, Real.exp_zero]
    linarith

/-! ### flights out of a ring -/

variable {d : Data} {K : ℝ → ℝ} {c : ℝ} {h : Nat}

/-- the part of the half path in ring `i` -/
theorem path_part (d : Data) (h : Nat) (y : ℝ) (i : Nat) : halfPath d h y (i + 1) - halfPath d h y i =
    (halfChord (d.radii.v (i + 1)) y - halfChord (d.radii.v i) y) * d.tot.m h i := by
  rw [halfPath_succ]
  ring

theorem rayOut_forms (d : Data) (K : ℝ → ℝ) (h : Nat) (y : ℝ) (i : Nat) : rayOut d K h y i =
    2 * (K 0 - K (halfPath d h y (i + 1) - halfPath d h y i)) - (K (2 * halfPath d h y i) -
      2 * K (2 * halfPath d h y i + (halfPath d h y (i + 1) - halfPath d h y i)) + K (2 * halfPath d h y i + 2 * (halfPath d h y (i + 1) - halfPath d h y i))) := by
  unfold rayOut leave hop
  have e1 : 2 * halfPath d h y i = halfPath d h y i - -halfPath d h y i := by ring
  have e2 : 2 * halfPath d h y i + (halfPath d h y (i + 1) - halfPath d h y i) = halfPath d h y i - -halfPath d h y (i + 1) := by ring
  have e3 : halfPath d h y (i + 1) - -halfPath d h y i = halfPath d h y i - -halfPath d h y (i + 1) := by ring
  have e4 : 2 * halfPath d h y i + 2 * (halfPath d h y (i + 1) - halfPath d h y i) =
    halfPath d h y (i + 1) - -halfPath d h y (i + 1) := by ring
  rw [e4, e2, e1, e3, sub_self]
  ring

theorem rayOut_bounds (mesh : RoundMesh d) (ht : ∀ i, i < d.cells → 0 < d.tot.m h i) (hK : Transmission K) (hF : Falls K c) (y : ℝ) {i : Nat} (hi : i < d.cells) :
    let δ := (halfChord (d.radii.v (i + 1)) y - halfChord (d.radii.v i) y) * d.tot.m h i
    0 ≤ δ ∧ rayOut d K h y i ≤ 2 * (δ / (1 + δ / 2)) ∧ 2 * δ - 4 * c * δ ^ 2 ≤ rayOut d K h y i := by
  intro δ
  have a0 := halfPath_nonneg mesh ht y (show i ≤ d.cells by omega)
  have a1 := halfPath_step mesh ht y hi
  have hδ : halfPath d h y (i + 1) - halfPath d h y i = δ := path_part d h y i
  have h0 : 0 ≤ δ := by rw [← hδ]; linarith
  rw [rayOut_forms, hδ]
  have h1 := hF.drop δ h0
  have h2 := hF.deep (2 * δ) (by linarith)
  have h3 := hF.bend (2 * halfPath d h y i) δ (by linarith) h0
  have h4 := hK.conv (2 * halfPath d h y i) δ δ (by linarith) h0 h0
  rw [add_assoc, ← two_mul δ] at h4
  refine ⟨h0, by linarith, ?_⟩
  nlinarith

/-! ### the volume the rays see -/

theorem places_eq {k : Nat} (hk : k < 8) : places k = abscissa.v k := by
  interval_cases k <;> rfl

theorem shares_eq {k : Nat} (hk : k < 8) : shares k = weights.v k := by
  interval_cases k <;> rfl

theorem rayAt_eq {m k : Nat} (hk : k < 8) : rayAt d m k = zray d m k := by
  unfold rayAt zray
  rw [places_eq hk]

/-- twice the weights times the lengths -/
def seen (d : Data) (R : Shape) (i : Nat) : ℝ :=
  2 * R.pre * chordSum rays (zray d) (wray d R) i (fun y => halfChord (d.radii.v (i + 1)) y - halfChord (d.radii.v i) y)

theorem seen_cylinder (ki3 : ℝ → ℝ) (i : Nat) : seen d (cylinder ki3) i = seenCylinder d i := by
  unfold seen seenCylinder chordSum
  show 2 * (4 : ℝ) * _ = _
  rw [show (2 : ℝ) * 4 = 8 by norm_num]
  congr 1
  refine sum_congr rfl (fun m _ => sum_congr rfl (fun k hk => ?_))
  rw [mem_range] at hk
  unfold rayLength
  rw [rayAt_eq hk, shares_eq hk]
  unfold wray cylinder
  ring

theorem seen_sphere (i : Nat) : seen d sphere i = seenSphere d i := by
  unfold seen seenSphere chordSum
  show 2 * (Real.pi * 4) * _ = _
  rw [show 2 * (Real.pi * 4) = 8 * Real.pi by ring]
  congr 1

/-- the tangent of a concave function -/
theorem tangent {x x0 : ℝ} (hx : 0 ≤ x) (h0 : 0 ≤ x0) : x / (1 + x / 2) ≤ x0 / (1 + x0 / 2) + (x - x0) / (1 + x0 / 2) ^ 2 := by
  have h1 : 0 < 1 + x / 2 := by linarith
  have h2 : 0 < 1 + x0 / 2 := by linarith
  have e : x0 / (1 + x0 / 2) + (x - x0) / (1 + x0 / 2) ^ 2 - x / (1 + x / 2) = (x - x0) ^ 2 / (2 * ((1 + x / 2) * (1 + x0 / 2) ^ 2)) := by
    field_simp
    ring
  have : 0 ≤ (x - x0) ^ 2 / (2 * ((1 + x / 2) * (1 + x0 / 2) ^ 2)) := by positivity
  linarith

theorem chordSum_le (ch : Chords d n z w) {i : Nat} (hi : i < d.cells) {f g : ℝ → ℝ} (hf : ∀ y, f y ≤ g y) :
    chordSum n z w i f ≤ chordSum n z w i g := by
  unfold chordSum
  refine sum_le_sum (fun m hm => sum_le_sum (fun k hk => ?_))
  rw [mem_range] at hm hk
  exact mul_le_mul_of_nonneg_left (hf _) (ch.weight m (by omega) k hk)

theorem chordSum_affine (n : Nat) (z w : Nat → Nat → ℝ) (i : Nat) (a b : ℝ) (f : ℝ → ℝ) :
    chordSum n z w i (fun y => a + b * f y) = a * (∑ m ∈ range (i + 1), ∑ k ∈ range n, w m k) + b * chordSum n z w i f := by
  unfold chordSum
  rw [mul_sum, mul_sum, ← sum_add_distrib]
  refine sum_congr rfl (fun m _ => ?_)
  rw [mul_sum, mul_sum, ← sum_add_distrib]
  exact sum_congr rfl (fun k _ => by ring)

/-- the probability of a collision in the cell itself is positive if the rays do not see too large a volume -/
theorem self_seen (wf : WellFormed d) (pos : Positive d) (mesh : RoundMesh d) (hc : 0 < d.cells) {R : Shape}
    (hK : Transmission R.K) (hF : Falls R.K c) (hpre : 0 < R.pre) (ch : Chords d rays (zray d) (wray d R)) {G : Ten3}
    (e : (roundTracks d >>= roundCPs d R) = ok G) {i : Nat} (hh : h < d.energies) (hi : i < d.cells) {W : ℝ} (hW : 0 < W)
    (hw : ∑ m ∈ range (i + 1), ∑ k ∈ range rays, wray d R m k ≤ W)
    (hseen : seen d R i < d.vol.v i * (1 + d.tot.m h i * seen d R i / (4 * R.pre * W))) : 0 < G.v (i, i, h) := by
  obtain ⟨G', e', -, v, -⟩ := round_vacuum wf pos mesh hc R ch
  rw [e] at e'
  cases e'
  rw [v h i i hh hi hi]
  unfold roundProb
  rw [if_neg (lt_irrefl i), if_pos rfl]
  have ht := pos.tot_pos h hh i hi
  have hV := pos.vol_pos i hi
  have hq : 0 < d.vol.v i * d.tot.m h i := mul_pos hV ht
  set L := chordSum rays (zray d) (wray d R) i (fun y => halfChord (d.radii.v (i + 1)) y - halfChord (d.radii.v i) y) with hL
  have hs : seen d R i = 2 * R.pre * L := rfl
  have hL0 : 0 ≤ L := chordSum_nonneg ch hi (fun y => sub_nonneg.2 (halfChord_mono (radii_nonneg mesh hi.le) (mesh.incr i hi).le))
  set x0 := d.tot.m h i * L / W with hx0
  have h0 : 0 ≤ x0 := div_nonneg (mul_nonneg ht.le hL0) hW.le
  have hx : x0 * W = d.tot.m h i * L := by rw [hx0]; field_simp
  have h1 : chordSum rays (zray d) (wray d R) i (fun y => rayOut d R.K h y i) ≤ chordSum rays (zray d) (wray d R) i
      (fun y => 2 * (x0 / (1 + x0 / 2) - x0 / (1 + x0 / 2) ^ 2) + 2 * d.tot.m h i / (1 + x0 / 2) ^ 2 *
        (halfChord (d.radii.v (i + 1)) y - halfChord (d.radii.v i) y)) := by
    refine chordSum_le ch hi (fun y => ?_)
    obtain ⟨g0, g1, -⟩ := rayOut_bounds mesh (pos.tot_pos h hh) hK hF y hi
    refine g1.trans ?_
    have := tangent g0 h0
    refine (mul_le_mul_of_nonneg_left this zero_le_two).trans (le_of_eq ?_)
    ring
  rw [chordSum_affine, ← hL] at h1
  have hp : 0 < 1 + x0 / 2 := by linarith
  have h2 : 0 ≤ 2 * (x0 / (1 + x0 / 2) - x0 / (1 + x0 / 2) ^ 2) := by
    have : x0 / (1 + x0 / 2) ^ 2 ≤ x0 / (1 + x0 / 2) := div_le_div_of_nonneg_left h0 hp (by nlinarith)
    linarith
  have h3 := mul_le_mul_of_nonneg_left hw h2
  have h4 : 2 * (x0 / (1 + x0 / 2) - x0 / (1 + x0 / 2) ^ 2) * W + 2 * d.tot.m h i / (1 + x0 / 2) ^ 2 * L = 2 * (d.tot.m h i * L) / (1 + x0 / 2) := by
    have e1 : 2 * d.tot.m h i / (1 + x0 / 2) ^ 2 * L = 2 * (x0 * W) / (1 + x0 / 2) ^ 2 := by rw [hx]; ring
    rw [e1, ← hx]
    ring
  have h5 : chordSum rays (zray d) (wray d R) i (fun y => rayOut d R.K h y i) ≤ 2 * (d.tot.m h i * L) / (1 + x0 / 2) := by linarith
  rw [sub_pos, div_mul_eq_mul_div, div_lt_one hq]
  refine lt_of_le_of_lt (mul_le_mul_of_nonneg_left h5 hpre.le) ?_
  rw [mul_div_assoc', div_lt_iff₀ hp]
  have h6 : d.tot.m h i * seen d R i / (4 * R.pre * W) = x0 / 2 := by
    rw [hs, hx0]
    field_simp
    ring
  rw [h6, hs] at hseen
  have := mul_lt_mul_of_pos_right hseen ht
  nlinarith

theorem resolved_pos (wf : WellFormed d) (pos : Positive d) {g : Diffusion.Geom} (mesh : MeshFor d g) (hc : 0 < d.cells) {G : Ten3} (e : vacuumCPs d E3 Ki3 g = ok G)
    {i : Nat} (hh : h < d.energies) (hi : i < d.cells) (hr : Resolved d g h i) : 0 < G.v (i, i, h) := by
  cases g with
  | undefined => exact hr.elim
  | slab => exact (vacuum_strict wf pos mesh hc e hh hi hi).2 rfl
  | cylinder =>
    rcases hr with hr | hr
    · exact self_cylinder_pos wf pos mesh hc e hh hi hr
    have hR : 0 < d.radii.v (i + 1) := (radii_nonneg (d := d) mesh hi.le).trans_lt (RoundMesh.incr mesh i hi)
    refine self_seen (R := cylinder Ki3) (W := d.radii.v (i + 1) / 2) wf pos mesh hc Ki3_facts Ki3_falls (by show (0 : ℝ) < 4; norm_num) (chords_cyl mesh Ki3) e hh hi (by linarith) ?_ ?_
    · rw [sum_congr rfl (fun m _ => cyl_weight Ki3 m), ← sum_div, sum_range_sub]
      have := RoundMesh.first (d := d) mesh
      linarith
    · rw [seen_cylinder, show 4 * (cylinder Ki3).pre * (d.radii.v (i + 1) / 2) = 8 * d.radii.v (i + 1) by show 4 * (4 : ℝ) * _ = _; ring]
      exact hr
  | sphere =>
    rcases hr with hr | hr
    · exact self_sphere_pos wf pos mesh hc e hh hi hr
    have hR : 0 < d.radii.v (i + 1) := (radii_nonneg (d := d) mesh hi.le).trans_lt (RoundMesh.incr mesh i hi)
    refine self_seen (R := sphere) (W := d.radii.v (i + 1) ^ 2 * (1 / 4) * (1 + 1 / 10 ^ 9)) wf pos mesh hc exp_facts exp_falls (by show 0 < Real.pi * 4; positivity) (chords_sph mesh) e hh hi
      (by positivity) ?_ ?_
    · refine (sum_le_sum (fun m hm => sph_weight_le mesh (by rw [mem_range] at hm; omega))).trans ?_
      rw [← sum_mul, sum_range_sub (fun m => d.radii.v m ^ 2)]
      nlinarith [sq_nonneg (d.radii.v 0), sq_nonneg (d.radii.v (i + 1))]
    · rw [seen_sphere, show 4 * sphere.pre * (d.radii.v (i + 1) ^ 2 * (1 / 4) * (1 + 1 / 10 ^ 9)) = 4 * Real.pi * d.radii.v (i + 1) ^ 2 * (1 + 1 / 10 ^ 9) by
        show 4 * (Real.pi * 4) * _ = _; ring]
      exact hr

/-- it is negative if the rays see too large a volume and the ring is thin enough -/
theorem self_negative (wf : WellFormed d) (pos : Positive d) (mesh : RoundMesh d) (hc : 0 < d.cells) {R : Shape}
    (hK : Transmission R.K) (hF : Falls R.K c) (hpre : 0 < R.pre) (ch : Chords d rays (zray d) (wray d R)) {G : Ten3}
    (e : (roundTracks d >>= roundCPs d R) = ok G) {i : Nat} (hh : h < d.energies) (hi : i < d.cells)
    (hseen : d.vol.v i + 4 * c * R.pre * d.tot.m h i *
      chordSum rays (zray d) (wray d R) i (fun y => (halfChord (d.radii.v (i + 1)) y - halfChord (d.radii.v i) y) ^ 2) < seen d R i) : G.v (i, i, h) < 0 := by
  obtain ⟨G', e', -, v, -⟩ := round_vacuum wf pos mesh hc R ch
  rw [e] at e'
  cases e'
  rw [v h i i hh hi hi]
  unfold roundProb
  rw [if_neg (lt_irrefl i), if_pos rfl]
  have ht := pos.tot_pos h hh i hi
  have hV := pos.vol_pos i hi
  have hq : 0 < d.vol.v i * d.tot.m h i := mul_pos hV ht
  have h1 : chordSum rays (zray d) (wray d R) i (fun y => 2 * d.tot.m h i * (halfChord (d.radii.v (i + 1)) y - halfChord (d.radii.v i) y) +
      -(4 * c * d.tot.m h i ^ 2) * (halfChord (d.radii.v (i + 1)) y - halfChord (d.radii.v i) y) ^ 2) ≤
      chordSum rays (zray d) (wray d R) i (fun y => rayOut d R.K h y i) := by
    refine chordSum_le ch hi (fun y => ?_)
    refine le_trans (le_of_eq ?_) (rayOut_bounds mesh (pos.tot_pos h hh) hK hF y hi).2.2
    ring
  rw [chordSum_add] at h1
  have lin : ∀ (a : ℝ) (f : ℝ → ℝ), chordSum rays (zray d) (wray d R) i (fun y => a * f y) = a * chordSum rays (zray d) (wray d R) i f := fun a f => by
    have := chordSum_affine rays (zray d) (wray d R) i 0 a f
    simpa using this
  rw [lin, lin (-(4 * c * d.tot.m h i ^ 2)) (fun y => (halfChord (d.radii.v (i + 1)) y - halfChord (d.radii.v i) y) ^ 2)] at h1
  unfold seen at hseen
  rw [sub_neg, div_mul_eq_mul_div, one_lt_div hq]
  refine lt_of_lt_of_le ?_ (mul_le_mul_of_nonneg_left h1 hpre.le)
  have := mul_lt_mul_of_pos_right hseen ht
  nlinarith

end

end Verif.CPM
