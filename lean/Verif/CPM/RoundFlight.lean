import Verif.CPM.RoundSum

/-! Helper lemmas: escape, sign and crossing of the chord sums; strict decrease of the transmission functions. -/

namespace Verif.CPM

open Verif Outcome Finset

noncomputable section

/-! ### strict decrease -/

open MeasureTheory in
theorem strict_of {a b : ℝ} (hab : a < b) {w c : ℝ → ℝ} {K : ℝ → ℝ}
    (hw0 : ∀ t ∈ Set.Ioo a b, 0 < w t) (hc0 : ∀ t ∈ Set.Ioo a b, 0 < c t)
    (hK : ∀ x, K x = ∫ t in a..b, w t * Real.exp (-x / c t))
    (hint : ∀ x, 0 ≤ x → IntervalIntegrable (fun t => w t * Real.exp (-x / c t)) volume a b) :
    ∀ x s, 0 ≤ x → 0 < s → K (x + s) < K x := by
  intro x s hx hs
  have i1 := hint x hx
  have i2 := hint (x + s) (by linarith)
  have e : K x - K (x + s) = ∫ t in a..b, (w t * Real.exp (-x / c t) - w t * Real.exp (-(x + s) / c t)) := by
    rw [intervalIntegral.integral_sub i1 i2, ← hK, ← hK]
  have : 0 < K x - K (x + s) := by
    rw [e]
    refine intervalIntegral.intervalIntegral_pos_of_pos_on (i1.sub i2) (fun t ht => ?_) hab
    rw [← mul_sub]
    refine mul_pos (hw0 t ht) (sub_pos.2 (Real.exp_lt_exp.2 ?_))
    exact div_lt_div_of_pos_right (by linarith) (hc0 t ht)
  linarith

theorem E3_strict : ∀ x s, 0 ≤ x → 0 < s → E3 (x + s) < E3 x :=
  strict_of zero_lt_one (w := fun t => t) (c := fun t => t) (fun _ h => h.1) (fun _ h => h.1) (fun _ => rfl) E3_facts.2

theorem Ki3_strict : ∀ x s, 0 ≤ x → 0 < s → Ki3 (x + s) < Ki3 x := by
  have hpi := Real.pi_pos
  have hK : ∀ x, Ki3 x = ∫ t in (0 : ℝ)..(Real.pi / 2), (Real.sin t * Real.sin t) * Real.exp (-x / Real.sin t) := by
    intro x
    unfold Ki3
    congr 1
    ext t
    ring
  have hpos : ∀ t ∈ Set.Ioo (0 : ℝ) (Real.pi / 2), 0 < Real.sin t := fun t ht =>
    Real.sin_pos_of_pos_of_lt_pi ht.1 (by linarith [ht.2])
  refine strict_of (by linarith) (fun t ht => mul_pos (hpos t ht) (hpos t ht)) hpos hK ?_
  refine (transmission_of (C := 1) (a := 0) (b := Real.pi / 2) (w := fun t => Real.sin t * Real.sin t) (c := Real.sin)
    (by linarith) (by fun_prop) (by fun_prop) ?_ ?_ ?_ hK).2
  · intro t _; exact mul_self_nonneg _
  · intro t _; nlinarith [Real.sin_sq_add_cos_sq t, sq_nonneg (Real.cos t)]
  · intro t ht; exact Real.sin_nonneg_of_nonneg_of_le_pi ht.1 (by linarith [ht.2])

theorem slabEscape_strict {d : Data} (hr : ∀ i, i < d.cells → d.radii.v i < d.radii.v (i + 1)) {h : Nat}
    (ht : ∀ i, i < d.cells → 0 < d.tot.m h i) {i : Nat} (hi : i < d.cells)
    (heq : slabEscape d h i = 1 / (2 * thick d h i) *
      (E3 (∑ k ∈ Ico (i + 1) d.cells, thick d h k) - E3 ((∑ k ∈ Ico (i + 1) d.cells, thick d h k) + thick d h i) +
        E3 (∑ k ∈ Ico 0 i, thick d h k) - E3 ((∑ k ∈ Ico 0 i, thick d h k) + thick d h i)))
    (g1 : 0 ≤ ∑ k ∈ Ico (i + 1) d.cells, thick d h k) (g2 : 0 ≤ ∑ k ∈ Ico 0 i, thick d h k) : 0 < slabEscape d h i := by
  rw [heq]
  have p1 := thick_pos (hr i hi) (ht i hi)
  have h1 := E3_strict _ _ g1 p1
  have h2 := E3_strict _ _ g2 p1
  exact mul_pos (by positivity) (by linarith)

/-! ### chords -/

variable {d : Data} {K : ℝ → ℝ} {c : ℝ} {n : Nat} {z w : Nat → Nat → ℝ} {h : Nat}

theorem rayHit_nonneg (mesh : RoundMesh d) (ht : ∀ i, i < d.cells → 0 < d.tot.m h i) (hK : Transmission K) (y : ℝ) {i j : Nat}
    (hij : i < j) (hj : j < d.cells) : 0 ≤ rayHit d K h y i j := by
  have a0 := halfPath_nonneg mesh ht y (show i ≤ d.cells by omega)
  have a1 := halfPath_step mesh ht y (show i < d.cells by omega)
  have a2 := halfPath_mono mesh ht y (show i + 1 ≤ j by omega) (by omega)
  have a3 := halfPath_step mesh ht y hj
  have c1 := hK.conv (halfPath d h y j - halfPath d h y (i + 1)) (halfPath d h y (i + 1) - halfPath d h y i)
    (halfPath d h y (j + 1) - halfPath d h y j) (by linarith) (by linarith) (by linarith)
  have c2 := hK.conv (halfPath d h y j + halfPath d h y i) (halfPath d h y (i + 1) - halfPath d h y i)
    (halfPath d h y (j + 1) - halfPath d h y j) (by linarith) (by linarith) (by linarith)
  unfold rayHit hop
  simp only [sub_neg_eq_add]
  have e1 : ∀ a b e : ℝ, a - b + (b - e) = a - e := fun _ _ _ => by ring
  have e2 : ∀ a b e : ℝ, a - b + (e - a) = e - b := fun _ _ _ => by ring
  have e3 : ∀ a b e : ℝ, a + b + (e - b) = a + e := fun _ _ _ => by ring
  have e4 : ∀ a b e : ℝ, a + b + (e - a) = e + b := fun _ _ _ => by ring
  rw [e1, e2, show halfPath d h y j - halfPath d h y i + (halfPath d h y (j + 1) - halfPath d h y j) =
    halfPath d h y (j + 1) - halfPath d h y i by ring] at c1
  rw [e3, e4, show halfPath d h y j + halfPath d h y (i + 1) + (halfPath d h y (j + 1) - halfPath d h y j) =
    halfPath d h y (j + 1) + halfPath d h y (i + 1) by ring] at c2
  linarith

theorem rayEscape_nonneg (mesh : RoundMesh d) (ht : ∀ i, i < d.cells → 0 < d.tot.m h i) (hK : Transmission K) (y : ℝ) {i : Nat}
    (hi : i < d.cells) : 0 ≤ rayEscape d K h y i := by
  have a0 := halfPath_nonneg mesh ht y (show i ≤ d.cells by omega)
  have a1 := halfPath_step mesh ht y hi
  have a2 := halfPath_mono mesh ht y (show i + 1 ≤ d.cells by omega) le_rfl
  have c1 := hK.decr (halfPath d h y d.cells - halfPath d h y (i + 1)) (halfPath d h y (i + 1) - halfPath d h y i)
    (by linarith) (by linarith)
  have c2 := hK.decr (halfPath d h y d.cells + halfPath d h y i) (halfPath d h y (i + 1) - halfPath d h y i)
    (by linarith) (by linarith)
  rw [show halfPath d h y d.cells - halfPath d h y (i + 1) + (halfPath d h y (i + 1) - halfPath d h y i) =
    halfPath d h y d.cells - halfPath d h y i by ring] at c1
  rw [show halfPath d h y d.cells + halfPath d h y i + (halfPath d h y (i + 1) - halfPath d h y i) =
    halfPath d h y d.cells + halfPath d h y (i + 1) by ring] at c2
  unfold rayEscape leave
  simp only [sub_neg_eq_add]
  linarith

theorem chordSum_nonneg (ch : Chords d n z w) {i : Nat} (hi : i < d.cells) {f : ℝ → ℝ} (hf : ∀ y, 0 ≤ f y) :
    0 ≤ chordSum n z w i f := by
  refine sum_nonneg (fun m hm => sum_nonneg (fun k hk => mul_nonneg (ch.weight m ?_ k (mem_range.1 hk)) (hf _)))
  rw [mem_range] at hm; omega

theorem roundProb_nonneg (mesh : RoundMesh d) (ht : ∀ i, i < d.cells → 0 < d.tot.m h i) (hV : ∀ i, i < d.cells → 0 < d.vol.v i)
    (hK : Transmission K) (hc : 0 ≤ c) (ch : Chords d n z w) {i j : Nat} (hi : i < d.cells) (hj : j < d.cells) (hij : i ≠ j) :
    0 ≤ roundProb d K c n z w h i j := by
  have hq : 0 ≤ c / (d.vol.v i * d.tot.m h i) := div_nonneg hc (mul_pos (hV i hi) (ht i hi)).le
  unfold roundProb
  rcases lt_or_gt_of_ne hij with h1 | h1
  · rw [if_pos h1]
    exact mul_nonneg hq (chordSum_nonneg ch hi (fun y => rayHit_nonneg mesh ht hK y h1 hj))
  · rw [if_neg (by omega), if_neg hij]
    exact mul_nonneg hq (chordSum_nonneg ch hj (fun y => rayHit_nonneg mesh ht hK y h1 hi))

/-- chords that do not meet cell `j` do not contribute -/
theorem rayHit_zero (mesh : RoundMesh d) {y : ℝ} {j i : Nat} (hj : j < d.cells) (hy : d.radii.v (j + 1) ≤ y) :
    rayHit d K h y j i = 0 := by
  have h1 := halfPath_zero mesh h (show j ≤ d.cells by omega) ((mesh.incr j hj).le.trans hy)
  have h2 := halfPath_zero mesh h (show j + 1 ≤ d.cells by omega) hy
  unfold rayHit hop
  rw [h1, h2]
  ring

theorem chordSum_extend (mesh : RoundMesh d) (ch : Chords d n z w) {i j l : Nat} (hij : j ≤ i) (hi : i < d.cells) :
    chordSum n z w i (fun y => rayHit d K h y j l) = chordSum n z w j (fun y => rayHit d K h y j l) := by
  unfold chordSum
  simp only [range_eq_Ico]
  rw [← sum_Ico_consecutive _ (Nat.zero_le (j + 1)) (show j + 1 ≤ i + 1 by omega), add_eq_left]
  refine sum_eq_zero (fun m hm => sum_eq_zero (fun k hk => ?_))
  rw [mem_Ico] at hm
  have hm' : m < d.cells := by omega
  have := (ch.inside m hm' k (by simpa using hk)).1
  rw [rayHit_zero mesh (show j < d.cells by omega) ((radii_mono mesh hm.1 hm'.le).trans this), mul_zero]

theorem rayHit_hh (d : Data) (K : ℝ → ℝ) (h : Nat) (y : ℝ) (i j : Nat) : rayHit d K h y i j =
    (hh d K h y (i + 1) j - hh d K h y i j) - (hh d K h y (i + 1) (j + 1) - hh d K h y i (j + 1)) := by
  unfold hh rayHit hop
  simp only [sub_neg_eq_add]
  ring

theorem ray_balance (d : Data) (K : ℝ → ℝ) (h : Nat) (y : ℝ) {i : Nat} (hi : i < d.cells) :
    rayOut d K h y i = (∑ j ∈ range i, rayHit d K h y j i) + (∑ j ∈ Ico (i + 1) d.cells, rayHit d K h y i j) +
      rayEscape d K h y i := by
  have s1 : ∀ b, ∑ j ∈ range b, rayHit d K h y j i = hh d K h y b i - hh d K h y b (i + 1) := by
    intro b
    induction b with
    | zero =>
      have h0 : halfPath d h y 0 = 0 := by simp [halfPath]
      simp [hh, h0]
    | succ b ih => rw [sum_range_succ, ih, rayHit_hh]; ring
  have s2 : ∀ b, i + 1 ≤ b → ∑ j ∈ Ico (i + 1) b, rayHit d K h y i j =
      (hh d K h y (i + 1) (i + 1) - hh d K h y i (i + 1)) - (hh d K h y (i + 1) b - hh d K h y i b) := by
    intro b hb
    induction b, hb using Nat.le_induction with
    | base => simp
    | succ b hb ih => rw [sum_Ico_succ_top hb, ih, rayHit_hh]; ring
  rw [s1, s2 _ (by omega), ← ray2_out, ray2]
  have : rayEscape d K h y i = hh d K h y (i + 1) d.cells - hh d K h y i d.cells := by
    unfold rayEscape leave hh
    simp only [sub_neg_eq_add]
    ring
  rw [this]
  ring

theorem chordSum_sum (n : Nat) (z w : Nat → Nat → ℝ) (i : Nat) (s : Finset ℕ) (f : ℕ → ℝ → ℝ) :
    ∑ j ∈ s, chordSum n z w i (f j) = chordSum n z w i (fun y => ∑ j ∈ s, f j y) := by
  unfold chordSum
  rw [sum_comm]
  refine sum_congr rfl (fun m _ => ?_)
  rw [sum_comm]
  refine sum_congr rfl (fun k _ => ?_)
  rw [mul_sum]

theorem chordSum_add (n : Nat) (z w : Nat → Nat → ℝ) (i : Nat) (f g : ℝ → ℝ) :
    chordSum n z w i (fun y => f y + g y) = chordSum n z w i f + chordSum n z w i g := by
  unfold chordSum
  simp only [mul_add, sum_add_distrib]

/-- what is left over by the collision probabilities is the flow out of the body -/
theorem round_row (mesh : RoundMesh d) (ch : Chords d n z w) {i : Nat} (hi : i < d.cells) :
    1 - ∑ j ∈ range d.cells, roundProb d K c n z w h i j =
      c / (d.vol.v i * d.tot.m h i) * chordSum n z w i (fun y => rayEscape d K h y i) := by
  have e1 : ∑ j ∈ Ico 0 i, roundProb d K c n z w h i j =
      c / (d.vol.v i * d.tot.m h i) * chordSum n z w i (fun y => ∑ j ∈ range i, rayHit d K h y j i) := by
    rw [← chordSum_sum, mul_sum, range_eq_Ico]
    refine sum_congr rfl (fun j hj => ?_)
    rw [mem_Ico] at hj
    rw [chordSum_extend mesh ch hj.2.le hi]
    unfold roundProb
    rw [if_neg (by omega), if_neg (by omega)]
  have e2 : ∑ j ∈ Ico (i + 1) d.cells, roundProb d K c n z w h i j =
      c / (d.vol.v i * d.tot.m h i) * chordSum n z w i (fun y => ∑ j ∈ Ico (i + 1) d.cells, rayHit d K h y i j) := by
    rw [← chordSum_sum, mul_sum]
    refine sum_congr rfl (fun j hj => ?_)
    rw [mem_Ico] at hj
    unfold roundProb
    rw [if_pos (by omega)]
  have e3 : roundProb d K c n z w h i i = 1 - c / (d.vol.v i * d.tot.m h i) *
      (chordSum n z w i (fun y => ∑ j ∈ range i, rayHit d K h y j i) +
        chordSum n z w i (fun y => ∑ j ∈ Ico (i + 1) d.cells, rayHit d K h y i j) +
        chordSum n z w i (fun y => rayEscape d K h y i)) := by
    unfold roundProb
    rw [if_neg (by omega), if_pos rfl, ← chordSum_add, ← chordSum_add]
    congr 3
    funext y
    exact ray_balance d K h y hi
  rw [range_eq_Ico, ← sum_Ico_consecutive _ (Nat.zero_le i) hi.le, sum_eq_sum_Ico_succ_bot hi, e1, e2, e3]
  ring

/-- all flights out of the body, summed over the cells -/
theorem escape_total (mesh : RoundMesh d) (ch : Chords d n z w) :
    ∑ i ∈ range d.cells, chordSum n z w i (fun y => rayEscape d K h y i) =
      ∑ m ∈ range d.cells, ∑ k ∈ range n, w m k * (K 0 - K (2 * halfPath d h (z m k) d.cells)) := by
  have tel : ∀ y m, m ≤ d.cells → ∑ i ∈ Ico m d.cells, rayEscape d K h y i = hh d K h y d.cells d.cells - hh d K h y m d.cells := by
    intro y m hm
    have : ∀ b, m ≤ b → ∑ i ∈ Ico m b, rayEscape d K h y i = hh d K h y b d.cells - hh d K h y m d.cells := by
      intro b hb
      induction b, hb using Nat.le_induction with
      | base => simp
      | succ b hb ih =>
        rw [sum_Ico_succ_top hb, ih]
        unfold rayEscape leave hh
        simp only [sub_neg_eq_add]
        ring
    exact this _ hm
  have swap : ∑ i ∈ range d.cells, chordSum n z w i (fun y => rayEscape d K h y i) =
      ∑ m ∈ range d.cells, ∑ i ∈ Ico m d.cells, ∑ k ∈ range n, w m k * rayEscape d K h (z m k) i := by
    unfold chordSum
    refine sum_comm' (fun i m => ?_)
    simp only [mem_range, mem_Ico]
    omega
  rw [swap]
  refine sum_congr rfl (fun m hm => ?_)
  rw [mem_range] at hm
  rw [sum_comm]
  refine sum_congr rfl (fun k hk => ?_)
  rw [← mul_sum, tel _ _ hm.le]
  have h0 := halfPath_zero mesh h hm.le (ch.inside m hm k (mem_range.1 hk)).1
  unfold hh
  rw [h0, sub_self, sub_zero, add_zero, sub_self, sub_zero, two_mul]

/-! ### the chords of the code -/

theorem chords_cyl (mesh : RoundMesh d) (ki3 : ℝ → ℝ) : Chords d rays (zray d) (wray d (cylinder ki3)) where
  inside m hm k hk := zray_bounds mesh hm hk
  weight m hm k hk := by
    unfold wray cylinder
    exact mul_nonneg (mul_nonneg (weights_nonneg hk) (sub_pos.2 (mesh.incr m hm)).le) zero_le_one

theorem chords_sph (mesh : RoundMesh d) : Chords d rays (zray d) (wray d sphere) where
  inside m hm k hk := zray_bounds mesh hm hk
  weight m hm k hk := by
    unfold wray sphere
    exact mul_nonneg (mul_nonneg (weights_nonneg hk) (sub_pos.2 (mesh.incr m hm)).le)
      ((radii_nonneg mesh hm.le).trans (zray_bounds mesh hm hk).1)

theorem cyl_weight (ki3 : ℝ → ℝ) (m : Nat) : ∑ k ∈ range rays, wray d (cylinder ki3) m k = (d.radii.v (m + 1) - d.radii.v m) / 2 := by
  unfold wray cylinder
  simp only [mul_one]
  rw [← sum_mul, weights_sum]
  ring

/-- the outermost cell is seen from outside -/
theorem last_escape_pos (mesh : RoundMesh d) (ht : ∀ i, i < d.cells → 0 < d.tot.m h i) (hV : ∀ i, i < d.cells → 0 < d.vol.v i)
    (hK : Transmission K) (hS : ∀ x s, 0 ≤ x → 0 < s → K (x + s) < K x) (hc : 0 < c) (ch : Chords d n z w) (hn : 0 < d.cells)
    {k : Nat} (hk : k < n) (hz : z (d.cells - 1) k < d.radii.v d.cells) (hw : 0 < w (d.cells - 1) k) :
    0 < c / (d.vol.v (d.cells - 1) * d.tot.m h (d.cells - 1)) *
      chordSum n z w (d.cells - 1) (fun y => rayEscape d K h y (d.cells - 1)) := by
  have hl : d.cells - 1 < d.cells := by omega
  refine mul_pos (div_pos hc (mul_pos (hV _ hl) (ht _ hl))) ?_
  have nn : ∀ m ∈ range (d.cells - 1 + 1), 0 ≤ ∑ k ∈ range n, w m k * rayEscape d K h (z m k) (d.cells - 1) := fun m hm =>
    sum_nonneg (fun k hk => mul_nonneg (ch.weight m (by rw [mem_range] at hm; omega) k (mem_range.1 hk)) (rayEscape_nonneg mesh ht hK _ hl))
  refine lt_of_lt_of_le ?_ (single_le_sum nn (a := d.cells - 1) (mem_range.2 (by omega)))
  refine lt_of_lt_of_le ?_ (single_le_sum (fun k hk => mul_nonneg (ch.weight (d.cells - 1) hl k (mem_range.1 hk))
    (rayEscape_nonneg mesh ht hK _ hl)) (mem_range.2 hk))
  refine mul_pos hw ?_
  have b := (ch.inside _ hl k hk).1
  have h0 := halfPath_zero mesh h hl.le b
  have h1 := halfPath_succ d h (z (d.cells - 1) k) (d.cells - 1)
  rw [h0, show d.cells - 1 + 1 = d.cells by omega] at h1
  have h2 : halfChord (d.radii.v (d.cells - 1)) (z (d.cells - 1) k) = 0 := if_neg (not_lt.2 b)
  have z0 : 0 ≤ z (d.cells - 1) k := (radii_nonneg mesh hl.le).trans b
  have h3 : 0 < halfChord (d.radii.v d.cells) (z (d.cells - 1) k) := by
    unfold halfChord
    rw [if_pos hz]
    exact Real.sqrt_pos.2 (by nlinarith)
  have h4 : 0 < halfPath d h (z (d.cells - 1) k) d.cells := by
    rw [h1, h2]
    have := mul_pos h3 (ht _ hl)
    linarith
  unfold rayEscape leave
  rw [h0, show d.cells - 1 + 1 = d.cells by omega]
  have := hS 0 (2 * halfPath d h (z (d.cells - 1) k) d.cells) le_rfl (by linarith)
  simp only [sub_neg_eq_add, sub_self, neg_zero, sub_zero]
  rw [zero_add, two_mul] at this
  linarith

theorem zray_lt (mesh : RoundMesh d) {m k : Nat} (hm : m < d.cells) (hk : k < rays) : d.radii.v m < zray d m k ∧ zray d m k < d.radii.v (m + 1) := by
  have h1 := sub_pos.2 (mesh.incr m hm)
  have h2 : 0 < abscissa.v k ∧ abscissa.v k < 1 := by
    unfold rays at hk
    interval_cases k <;> norm_num [abscissa, Vec.ofList]
  have h4 : abscissa.v k ^ 2 < 1 := by nlinarith
  have h5 : 0 < abscissa.v k ^ 2 := by nlinarith
  unfold zray
  constructor <;> nlinarith

theorem weights_pos {k : Nat} (hk : k < rays) : 0 < weights.v k := by
  unfold rays at hk
  interval_cases k <;> norm_num [weights, Vec.ofList]

end

end Verif.CPM
