import Verif.CPM.Boundary

/-! Helper lemmas: strict positivity of the collision probabilities. -/

namespace Verif.CPM

open Verif Outcome Finset

noncomputable section

/-- Strictly positive second differences. -/
def Spreads (K : ℝ → ℝ) : Prop := ∀ x s u, 0 ≤ x → 0 < s → 0 < u → 0 < K x - K (x + s) - K (x + u) + K (x + s + u)

open MeasureTheory in
theorem spreads_of {a b : ℝ} (hab : a < b) {w c : ℝ → ℝ} {K : ℝ → ℝ}
    (hw0 : ∀ t ∈ Set.Ioo a b, 0 < w t) (hc0 : ∀ t ∈ Set.Ioo a b, 0 < c t)
    (hK : ∀ x, K x = ∫ t in a..b, w t * Real.exp (-x / c t))
    (hint : ∀ x, 0 ≤ x → IntervalIntegrable (fun t => w t * Real.exp (-x / c t)) volume a b) : Spreads K := by
  intro x s u hx hs hu
  have i1 := hint x hx
  have i2 := hint (x + s) (by linarith)
  have i3 := hint (x + u) (by linarith)
  have i4 := hint (x + s + u) (by linarith)
  have e : K x - K (x + s) - K (x + u) + K (x + s + u) = ∫ t in a..b,
      (w t * Real.exp (-x / c t) - w t * Real.exp (-(x + s) / c t) - w t * Real.exp (-(x + u) / c t)
        + w t * Real.exp (-(x + s + u) / c t)) := by
    rw [intervalIntegral.integral_add ((i1.sub i2).sub i3) i4, intervalIntegral.integral_sub (i1.sub i2) i3,
      intervalIntegral.integral_sub i1 i2, ← hK, ← hK, ← hK, ← hK]
  rw [e]
  refine intervalIntegral.intervalIntegral_pos_of_pos_on (((i1.sub i2).sub i3).add i4) (fun t ht => ?_) hab
  have f1 : Real.exp (-(x + s) / c t) = Real.exp (-x / c t) * Real.exp (-s / c t) := by
    rw [← Real.exp_add]; congr 1; ring
  have f2 : Real.exp (-(x + u) / c t) = Real.exp (-x / c t) * Real.exp (-u / c t) := by
    rw [← Real.exp_add]; congr 1; ring
  have f3 : Real.exp (-(x + s + u) / c t) = Real.exp (-x / c t) * Real.exp (-s / c t) * Real.exp (-u / c t) := by
    rw [← Real.exp_add, ← Real.exp_add]; congr 1; ring
  rw [f1, f2, f3]
  have lt1 : ∀ v, 0 < v → Real.exp (-v / c t) < 1 := fun v hv => by
    rw [← Real.exp_zero]
    exact Real.exp_lt_exp.2 (div_neg_of_neg_of_pos (by linarith) (hc0 t ht))
  have := mul_pos (mul_pos (hw0 t ht) (Real.exp_pos (-x / c t)))
    (mul_pos (sub_pos.2 (lt1 s hs)) (sub_pos.2 (lt1 u hu)))
  linarith

theorem E3_spreads : Spreads E3 :=
  spreads_of zero_lt_one (w := fun t => t) (c := fun t => t) (fun _ h => h.1) (fun _ h => h.1) (fun _ => rfl) E3_facts.2

theorem Ki3_spreads : Spreads Ki3 := by
  have hpi := Real.pi_pos
  have hK : ∀ x, Ki3 x = ∫ t in (0 : ℝ)..(Real.pi / 2), (Real.sin t * Real.sin t) * Real.exp (-x / Real.sin t) := by
    intro x
    unfold Ki3
    congr 1
    ext t
    ring
  have hpos : ∀ t ∈ Set.Ioo (0 : ℝ) (Real.pi / 2), 0 < Real.sin t := fun t ht =>
    Real.sin_pos_of_pos_of_lt_pi ht.1 (by linarith [ht.2])
  refine spreads_of (by linarith) (fun t ht => mul_pos (hpos t ht) (hpos t ht)) hpos hK ?_
  refine (transmission_of (C := 1) (a := 0) (b := Real.pi / 2) (w := fun t => Real.sin t * Real.sin t) (c := Real.sin)
    (by linarith) (by fun_prop) (by fun_prop) ?_ ?_ ?_ hK).2
  · intro t _; exact mul_self_nonneg _
  · intro t _; nlinarith [Real.sin_sq_add_cos_sq t, sq_nonneg (Real.cos t)]
  · intro t ht; exact Real.sin_nonneg_of_nonneg_of_le_pi ht.1 (by linarith [ht.2])

theorem exp_spreads : Spreads (fun x => Real.exp (-x)) := by
  intro x s u _ hs hu
  have f1 : Real.exp (-(x + s)) = Real.exp (-x) * Real.exp (-s) := by
    rw [← Real.exp_add]; congr 1; ring
  have f2 : Real.exp (-(x + u)) = Real.exp (-x) * Real.exp (-u) := by
    rw [← Real.exp_add]; congr 1; ring
  have f3 : Real.exp (-(x + s + u)) = Real.exp (-x) * Real.exp (-s) * Real.exp (-u) := by
    rw [← Real.exp_add, ← Real.exp_add]; congr 1; ring
  have lt1 : ∀ v, 0 < v → Real.exp (-v) < 1 := fun v hv => by
    rw [← Real.exp_zero]
    exact Real.exp_lt_exp.2 (by linarith)
  have := mul_pos (Real.exp_pos (-x)) (mul_pos (sub_pos.2 (lt1 s hs)) (sub_pos.2 (lt1 u hu)))
  show 0 < Real.exp (-x) - Real.exp (-(x + s)) - Real.exp (-(x + u)) + Real.exp (-(x + s + u))
  rw [f1, f2, f3]
  linarith

/-! ### slab -/

variable {d : Data}

theorem upper_pos (hr : ∀ i, i < d.cells → d.radii.v i < d.radii.v (i + 1)) {h : Nat}
    (ht : ∀ i, i < d.cells → 0 < d.tot.m h i) {i j : Nat} (hij : i < j) (hj : j < d.cells) : 0 < upper d E3 h i j := by
  have p1 := thick_pos (hr i (by omega)) (ht i (by omega))
  have p2 := thick_pos (hr j hj) (ht j hj)
  unfold upper
  rw [if_neg hij.ne]
  refine mul_pos (by positivity) ?_
  have := E3_spreads (∑ k ∈ Ico (i + 1) j, thick d h k) (thick d h i) (thick d h j) (gap_nonneg hr ht (by omega)) p1 p2
  rw [add_right_comm] at this
  exact this

/-- the chance to be hit grows with the length of the flight -/
theorem E3_slope {x : ℝ} (hx : 0 < x) : 1 - 2 * E3 x < 2 * x := by
  have e : ∫ μ in (0 : ℝ)..1, (μ - x) = 1 / 2 - x := by
    rw [intervalIntegral.integral_sub (f := fun μ : ℝ => μ) (continuous_id.intervalIntegrable _ _) (continuous_const.intervalIntegrable _ _), integral_id,
      intervalIntegral.integral_const]
    norm_num
  have i1 := E3_facts.2 x hx.le
  have i2 : IntervalIntegrable (fun μ : ℝ => μ - x) MeasureTheory.volume 0 1 := by
    apply Continuous.intervalIntegrable; fun_prop
  have h2 : 0 < E3 x - (1 / 2 - x) := by
    rw [← e]
    unfold E3
    rw [← intervalIntegral.integral_sub i1 i2]
    refine intervalIntegral.intervalIntegral_pos_of_pos_on (i1.sub i2) (fun μ hμ => ?_) zero_lt_one
    have h3 := Real.add_one_lt_exp (x := -x / μ) (div_ne_zero (by linarith) hμ.1.ne')
    have h4 := mul_lt_mul_of_pos_left h3 hμ.1
    have h5 : μ * (-x / μ + 1) = μ - x := by
      have := hμ.1.ne'
      field_simp
      ring
    linarith
  linarith

theorem slabProb_pos (hr : ∀ i, i < d.cells → d.radii.v i < d.radii.v (i + 1)) {h : Nat}
    (ht : ∀ i, i < d.cells → 0 < d.tot.m h i) {i j : Nat} (hi : i < d.cells) (hj : j < d.cells) : 0 < slabProb d h i j := by
  rcases lt_trichotomy i j with hij | rfl | hij
  · rw [slabProb_right hr ht hij hj]
    exact upper_pos hr ht hij hj
  · rw [slabProb_self hr ht hi]
    have p1 := thick_pos (hr i hi) (ht i hi)
    have := E3_slope p1
    unfold upper
    rw [if_pos rfl, sub_pos, div_mul_eq_mul_div, one_mul, div_lt_one (by linarith)]
    exact this
  · rw [slabProb_left hr ht hij hi]
    have p1 := thick_pos (hr i hi) (ht i hi)
    have p2 := thick_pos (hr j hj) (ht j hj)
    exact mul_pos (by positivity) (upper_pos hr ht hij hi)

/-! ### chords -/

variable {K : ℝ → ℝ} {c : ℝ} {h : Nat}

theorem halfChord_pos {R y : ℝ} (h0 : 0 ≤ y) (hy : y < R) : 0 < halfChord R y := by
  unfold halfChord
  rw [if_pos hy]
  exact Real.sqrt_pos.2 (by nlinarith)

/-- a chord that meets cell `m` crosses every cell from `m` on -/
theorem halfPath_strict (mesh : RoundMesh d) (ht : ∀ i, i < d.cells → 0 < d.tot.m h i) {y : ℝ} (h0 : 0 ≤ y) {j : Nat}
    (hj : j < d.cells) (hy : y < d.radii.v (j + 1)) : halfPath d h y j < halfPath d h y (j + 1) := by
  rw [halfPath_succ]
  have h1 : halfChord (d.radii.v j) y < halfChord (d.radii.v (j + 1)) y := by
    by_cases hc : y < d.radii.v j
    · unfold halfChord
      rw [if_pos hc, if_pos hy]
      have := mesh.incr j hj
      have := radii_nonneg mesh hj.le
      exact Real.sqrt_lt_sqrt (by nlinarith) (by nlinarith)
    · have : halfChord (d.radii.v j) y = 0 := if_neg hc
      rw [this]
      exact halfChord_pos h0 hy
  have := mul_pos (sub_pos.2 h1) (ht j hj)
  linarith

theorem rayHit_pos (mesh : RoundMesh d) (ht : ∀ i, i < d.cells → 0 < d.tot.m h i) (hK : Transmission K) (hS : Spreads K) {y : ℝ}
    (h0 : 0 ≤ y) {i j : Nat} (hij : i < j) (hj : j < d.cells) (hy : y < d.radii.v (i + 1)) : 0 < rayHit d K h y i j := by
  have a0 := halfPath_nonneg mesh ht y (show i ≤ d.cells by omega)
  have a1 := halfPath_strict mesh ht h0 (show i < d.cells by omega) hy
  have a2 := halfPath_mono mesh ht y (show i + 1 ≤ j by omega) (by omega)
  have a3 := halfPath_strict mesh ht h0 hj (hy.trans_le (radii_mono mesh (by omega) (by omega)))
  have c1 := hS (halfPath d h y j - halfPath d h y (i + 1)) (halfPath d h y (i + 1) - halfPath d h y i)
    (halfPath d h y (j + 1) - halfPath d h y j) (by linarith) (by linarith) (by linarith)
  have c2 := hK.conv (halfPath d h y j + halfPath d h y i) (halfPath d h y (i + 1) - halfPath d h y i)
    (halfPath d h y (j + 1) - halfPath d h y j) (by linarith) (by linarith) (by linarith)
  unfold rayHit hop
  simp only [sub_neg_eq_add]
  have e1 : ∀ a b e : ℝ, a - b + (b - e) = a - e := fun _ _ _ => by ring
  have e2 : ∀ a b e : ℝ, a - b + (e - a) = e - b := fun _ _ _ => by ring
  have e3 : ∀ a b e : ℝ, a + b + (e - b) = a + e := fun _ _ _ => by ring
  have e4 : ∀ a b e : ℝ, a + b + (e - a) = e + b := fun _ _ _ => by ring
  rw [e1, e2, show halfPath d h y j - halfPath d h y i + (halfPath d h y (j + 1) - halfPath d h y j) =
    halfPath d h y (j + 1) - halfPath d h y i by ring] at c1
  rw [e3, e4, show halfPath d h y j + halfPath d h y (i + 1) + (halfPath d h y (j + 1) - halfPath d h y j) =
    halfPath d h y (j + 1) + halfPath d h y (i + 1) by ring] at c2
  linarith

theorem chordSum_pos (mesh : RoundMesh d) {R : Shape} (hray : ∀ y, 0 < y → 0 < R.ray y) (ch : Chords d rays (zray d) (wray d R))
    {i : Nat} (hi : i < d.cells) {f : ℝ → ℝ} (hf : ∀ y, 0 ≤ f y) (hp : ∀ y, 0 ≤ y → y < d.radii.v (i + 1) → 0 < f y) :
    0 < chordSum rays (zray d) (wray d R) i f := by
  unfold chordSum
  have nn : ∀ m ∈ range (i + 1), 0 ≤ ∑ k ∈ range rays, wray d R m k * f (zray d m k) := fun m hm =>
    sum_nonneg (fun k hk => mul_nonneg (ch.weight m (by rw [mem_range] at hm; omega) k (mem_range.1 hk)) (hf _))
  refine lt_of_lt_of_le ?_ (single_le_sum nn (a := i) (mem_range.2 (by omega)))
  have hk : 0 < rays := by unfold rays; norm_num
  refine lt_of_lt_of_le ?_ (single_le_sum (fun k hk => mul_nonneg (ch.weight i hi k (mem_range.1 hk)) (hf _)) (mem_range.2 hk))
  have hz := zray_lt mesh hi hk
  exact mul_pos (wray_pos mesh hray hi hk) (hp _ ((radii_nonneg mesh hi.le).trans hz.1.le) hz.2)

theorem roundProb_pos (mesh : RoundMesh d) (ht : ∀ i, i < d.cells → 0 < d.tot.m h i) (hV : ∀ i, i < d.cells → 0 < d.vol.v i)
    {R : Shape} (hK : Transmission R.K) (hS : Spreads R.K) (hc : 0 < c) (hray : ∀ y, 0 < y → 0 < R.ray y)
    (ch : Chords d rays (zray d) (wray d R)) {i j : Nat} (hi : i < d.cells) (hj : j < d.cells) (hij : i ≠ j) :
    0 < roundProb d R.K c rays (zray d) (wray d R) h i j := by
  have hq : 0 < c / (d.vol.v i * d.tot.m h i) := div_pos hc (mul_pos (hV i hi) (ht i hi))
  unfold roundProb
  rcases lt_or_gt_of_ne hij with h1 | h1
  · rw [if_pos h1]
    exact mul_pos hq (chordSum_pos mesh hray ch hi (fun y => rayHit_nonneg mesh ht hK y h1 hj)
      (fun y h0 hy => rayHit_pos mesh ht hK hS h0 h1 hj hy))
  · rw [if_neg (by omega), if_neg hij]
    exact mul_pos hq (chordSum_pos mesh hray ch hj (fun y => rayHit_nonneg mesh ht hK y h1 hi)
      (fun y h0 hy => rayHit_pos mesh ht hK hS h0 h1 hi hy))

/-- every cell sees every other cell, and in a slab also itself -/
theorem vacuum_strict (wf : WellFormed d) (pos : Positive d) {g : Diffusion.Geom} (mesh : MeshFor d g) (hc : 0 < d.cells) {G : Ten3}
    (e : vacuumCPs d E3 Ki3 g = ok G) {h i j : Nat} (hh : h < d.energies) (hi : i < d.cells) (hj : j < d.cells) :
    (i ≠ j → 0 < G.v (i, j, h)) ∧ (g = .slab → 0 < G.v (i, j, h)) := by
  have round : ∀ R : Shape, RoundMesh d → (roundTracks d >>= roundCPs d R) = ok G → Transmission R.K → Spreads R.K →
      0 < R.pre → (∀ y, 0 < y → 0 < R.ray y) → Chords d rays (zray d) (wray d R) → i ≠ j → 0 < G.v (i, j, h) := by
    intro R mesh e hK hS hp hray ch hij
    obtain ⟨G', e', -, v, -⟩ := round_vacuum wf pos mesh hc R ch
    rw [e] at e'
    cases e'
    rw [v h i j hh hi hj]
    exact roundProb_pos mesh (pos.tot_pos h hh) pos.vol_pos hK hS hp hray ch hi hj hij
  cases g with
  | undefined => exact mesh.elim
  | cylinder =>
    exact ⟨round (cylinder Ki3) mesh e Ki3_facts Ki3_spreads (by show (0 : ℝ) < 4; norm_num) (fun _ _ => one_pos)
      (chords_cyl mesh Ki3), fun h => by cases h⟩
  | sphere =>
    exact ⟨round sphere mesh e exp_facts exp_spreads (by show 0 < Real.pi * 4; positivity) (fun _ h => h)
      (chords_sph mesh), fun h => by cases h⟩
  | slab =>
    obtain ⟨G', e', -, v, -⟩ := slab_vacuum wf pos mesh Ki3
    rw [e] at e'
    cases e'
    rw [v h i j hh hi hj]
    have := slabProb_pos (SlabMesh.incr mesh) (pos.tot_pos h hh) hi hj
    exact ⟨fun _ => this, fun _ => this⟩

/-! ### collisions in the cell itself -/

theorem rayOut_lt (mesh : RoundMesh d) (ht : ∀ i, i < d.cells → 0 < d.tot.m h i) (hK : Transmission K)
    (hS : ∀ x s, 0 ≤ x → 0 < s → K (x + s) < K x) (y : ℝ) {i : Nat} (hi : i < d.cells) : rayOut d K h y i < 2 * K 0 := by
  have a0 := halfPath_nonneg mesh ht y (show i ≤ d.cells by omega)
  have a1 := halfPath_step mesh ht y hi
  unfold rayOut leave hop
  rw [sub_self]
  have c1 := hK.conv (2 * halfPath d h y i) (halfPath d h y (i + 1) - halfPath d h y i)
    (halfPath d h y (i + 1) - halfPath d h y i) (by linarith) (by linarith) (by linarith)
  have c2 : 0 < K (halfPath d h y (i + 1) - halfPath d h y i) :=
    (hK.nonneg _ (by linarith)).trans_lt (hS _ 1 (by linarith) one_pos)
  have e1 : 2 * halfPath d h y i = halfPath d h y i - -halfPath d h y i := by ring
  have e2 : 2 * halfPath d h y i + (halfPath d h y (i + 1) - halfPath d h y i) = halfPath d h y i - -halfPath d h y (i + 1) := by ring
  have e3 : halfPath d h y (i + 1) - -halfPath d h y i = halfPath d h y i - -halfPath d h y (i + 1) := by ring
  have e4 : 2 * halfPath d h y i + (halfPath d h y (i + 1) - halfPath d h y i) + (halfPath d h y (i + 1) - halfPath d h y i) =
    halfPath d h y (i + 1) - -halfPath d h y (i + 1) := by ring
  rw [e4, e2, e1] at c1
  rw [e3]
  linarith

/-- the probability of a collision in the cell itself is positive if the chords through the cell carry little enough weight -/
theorem self_pos (wf : WellFormed d) (pos : Positive d) (mesh : RoundMesh d) (hc : 0 < d.cells) {R : Shape}
    (hK : Transmission R.K) (hS : ∀ x s, 0 ≤ x → 0 < s → R.K (x + s) < R.K x) (hpre : 0 < R.pre)
    (hray : ∀ y, 0 < y → 0 < R.ray y) (ch : Chords d rays (zray d) (wray d R)) {G : Ten3}
    (e : (roundTracks d >>= roundCPs d R) = ok G) {h i : Nat} (hh : h < d.energies) (hi : i < d.cells)
    (hthick : R.pre * (2 * R.K 0 * ∑ m ∈ range (i + 1), ∑ k ∈ range rays, wray d R m k) ≤ d.vol.v i * d.tot.m h i) :
    0 < G.v (i, i, h) := by
  obtain ⟨G', e', -, v, -⟩ := round_vacuum wf pos mesh hc R ch
  rw [e] at e'
  cases e'
  rw [v h i i hh hi hi]
  unfold roundProb
  rw [if_neg (lt_irrefl i), if_pos rfl]
  have hq : 0 < d.vol.v i * d.tot.m h i := mul_pos (pos.vol_pos i hi) (pos.tot_pos h hh i hi)
  have h1 : 0 < chordSum rays (zray d) (wray d R) i (fun y => 2 * R.K 0 - rayOut d R.K h y i) :=
    chordSum_pos mesh hray ch hi (fun y => (sub_pos.2 (rayOut_lt mesh (pos.tot_pos h hh) hK hS y hi)).le)
      (fun y _ _ => sub_pos.2 (rayOut_lt mesh (pos.tot_pos h hh) hK hS y hi))
  have h2 : chordSum rays (zray d) (wray d R) i (fun y => 2 * R.K 0 - rayOut d R.K h y i) =
      2 * R.K 0 * (∑ m ∈ range (i + 1), ∑ k ∈ range rays, wray d R m k) -
        chordSum rays (zray d) (wray d R) i (fun y => rayOut d R.K h y i) := by
    unfold chordSum
    rw [mul_sum, ← sum_sub_distrib]
    refine sum_congr rfl (fun m _ => ?_)
    rw [mul_sum, ← sum_sub_distrib]
    refine sum_congr rfl (fun k _ => ?_)
    ring
  rw [sub_pos, div_mul_eq_mul_div, div_lt_one hq]
  refine lt_of_lt_of_le (mul_lt_mul_of_pos_left ?_ hpre) hthick
  linarith

theorem self_cylinder_pos (wf : WellFormed d) (pos : Positive d) (mesh : RoundMesh d) (hc : 0 < d.cells) {G : Ten3}
    (e : vacuumCPs d E3 Ki3 .cylinder = ok G) {h i : Nat} (hh : h < d.energies) (hi : i < d.cells)
    (hthick : Real.pi * d.radii.v (i + 1) ≤ d.vol.v i * d.tot.m h i) : 0 < G.v (i, i, h) := by
  refine self_pos (R := cylinder Ki3) wf pos mesh hc Ki3_facts Ki3_strict (by show (0 : ℝ) < 4; norm_num) (fun _ _ => one_pos)
    (chords_cyl mesh Ki3) e hh hi ?_
  rw [sum_congr rfl (fun m _ => cyl_weight Ki3 m), ← sum_div, sum_range_sub]
  show 4 * (2 * Ki3 0 * _) ≤ _
  rw [Ki3_zero]
  have := mul_nonneg Real.pi_pos.le mesh.first
  linarith

theorem sph_weight (m : Nat) : ∑ k ∈ range rays, wray d sphere m k = (d.radii.v (m + 1) - d.radii.v m) *
    (d.radii.v (m + 1) / 2 - (d.radii.v (m + 1) - d.radii.v m) * ∑ k ∈ range rays, weights.v k * abscissa.v k ^ 2) := by
  rw [← mul_one_div (d.radii.v (m + 1)), ← weights_sum, mul_sum, mul_sum, ← sum_sub_distrib, mul_sum]
  refine sum_congr rfl (fun k _ => ?_)
  unfold wray sphere zray
  ring

theorem sph_weight_le (mesh : RoundMesh d) {m : Nat} (hm : m < d.cells) : ∑ k ∈ range rays, wray d sphere m k ≤
    (d.radii.v (m + 1) ^ 2 - d.radii.v m ^ 2) * (1 / 4 + 1 / 10 ^ 10) := by
  have hmom := moments 2 (by norm_num)
  rw [abs_le] at hmom
  rw [sph_weight]
  have hi := mesh.incr m hm
  have hn := radii_nonneg mesh hm.le
  have hm1 := hmom.1
  norm_num at hm1
  have h4 : 0 ≤ (d.radii.v (m + 1) - d.radii.v m) ^ 2 := sq_nonneg _
  have h5 : (d.radii.v (m + 1) - d.radii.v m) ^ 2 ≤ d.radii.v (m + 1) ^ 2 - d.radii.v m ^ 2 := by nlinarith
  have h6 : (d.radii.v (m + 1) - d.radii.v m) ^ 2 * (1 / 4 - 1 / 10 ^ 10) ≤
      (d.radii.v (m + 1) - d.radii.v m) ^ 2 * ∑ k ∈ range rays, weights.v k * abscissa.v k ^ 2 :=
    mul_le_mul_of_nonneg_left (by linarith) h4
  nlinarith

theorem self_sphere_pos (wf : WellFormed d) (pos : Positive d) (mesh : RoundMesh d) (hc : 0 < d.cells) {G : Ten3} {e3 ki3 : ℝ → ℝ}
    (e : vacuumCPs d e3 ki3 .sphere = ok G) {h i : Nat} (hh : h < d.energies) (hi : i < d.cells)
    (hthick : 2 * Real.pi * d.radii.v (i + 1) ^ 2 * (1 + 1 / 10 ^ 9) ≤ d.vol.v i * d.tot.m h i) : 0 < G.v (i, i, h) := by
  refine self_pos (R := sphere) wf pos mesh hc exp_facts (fun x s _ hs => Real.exp_lt_exp.2 (by linarith))
    (by show 0 < Real.pi * 4; positivity) (fun _ h => h) (chords_sph mesh) e hh hi ?_
  have hK : sphere.K 0 = 1 := by show Real.exp (-0) = 1; simp
  have hpre : sphere.pre = Real.pi * 4 := rfl
  have h1 : ∑ m ∈ range (i + 1), ∑ k ∈ range rays, wray d sphere m k ≤ d.radii.v (i + 1) ^ 2 * (1 / 4 + 1 / 10 ^ 10) := by
    refine (sum_le_sum (fun m hm => sph_weight_le mesh (by rw [mem_range] at hm; omega))).trans ?_
    rw [← sum_mul, sum_range_sub (fun m => d.radii.v m ^ 2)]
    nlinarith [sq_nonneg (d.radii.v 0)]
  rw [hK, hpre]
  have h2 := mul_le_mul_of_nonneg_left h1 (show (0 : ℝ) ≤ Real.pi * 4 * 2 by positivity)
  have h3 : (0 : ℝ) ≤ Real.pi * d.radii.v (i + 1) ^ 2 := by positivity
  norm_num at h2 hthick ⊢
  nlinarith

end

end Verif.CPM
