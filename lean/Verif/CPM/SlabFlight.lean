import Verif.CPM.SlabLemmas

/-! Helper lemmas: the closed form of the slab probabilities is the flight probability of the specification. -/

namespace Verif.CPM

open Verif Outcome Finset

noncomputable section

theorem gap_nonneg {d : Data} (hr : ∀ i, i < d.cells → d.radii.v i < d.radii.v (i + 1)) {h : Nat}
    (ht : ∀ i, i < d.cells → 0 < d.tot.m h i) {a b : Nat} (hb : b ≤ d.cells) : 0 ≤ ∑ k ∈ Ico a b, thick d h k := by
  refine sum_nonneg (fun k hk => ?_)
  rw [mem_Ico] at hk
  exact (thick_pos (hr k (by omega)) (ht k (by omega))).le

theorem slabProb_right {d : Data} (hr : ∀ i, i < d.cells → d.radii.v i < d.radii.v (i + 1)) {h : Nat}
    (ht : ∀ i, i < d.cells → 0 < d.tot.m h i) {i j : Nat} (hij : i < j) (hj : j < d.cells) :
    slabProb d h i j = upper d E3 h i j := by
  unfold slabProb upper
  rw [if_pos hij, if_neg hij.ne]
  have hi : i < d.cells := by omega
  have r1 := oneSided_right (j := j) (hr i hi) (ht i hi) (gap_nonneg hr ht (by omega))
  have r2 := oneSided_right (j := j + 1) (hr i hi) (ht i hi) (gap_nonneg hr ht (by omega))
  rw [oneSided_sub (toRight_cont d h i j) (toRight_cont d h i (j + 1)) r1.2 r2.2, r1.1, r2.1,
    sum_Ico_succ_top (by omega : i + 1 ≤ j)]
  ring

theorem slabProb_left {d : Data} (hr : ∀ i, i < d.cells → d.radii.v i < d.radii.v (i + 1)) {h : Nat}
    (ht : ∀ i, i < d.cells → 0 < d.tot.m h i) {i j : Nat} (hij : j < i) (hi : i < d.cells) :
    slabProb d h i j = thick d h j / thick d h i * upper d E3 h j i := by
  unfold slabProb upper
  rw [if_neg (by omega), if_neg (by omega), if_neg (by omega)]
  have hj : j < d.cells := by omega
  have r1 := oneSided_left (j := j + 1) (hr i hi) (ht i hi) (gap_nonneg (a := j + 1) hr ht (by omega))
  have r2 := oneSided_left (j := j) (hr i hi) (ht i hi) (gap_nonneg (a := j) hr ht (by omega))
  have p1 := thick_pos (hr i hi) (ht i hi)
  have p2 := thick_pos (hr j hj) (ht j hj)
  rw [oneSided_sub (toLeft_cont d h i (j + 1)) (toLeft_cont d h i j) r1.2 r2.2, r1.1, r2.1,
    sum_eq_sum_Ico_succ_bot (by omega : j < i)]
  have e1 : thick d h j + ∑ k ∈ Ico (j + 1) i, thick d h k = (∑ k ∈ Ico (j + 1) i, thick d h k) + thick d h j := by ring
  have e2 : (∑ k ∈ Ico (j + 1) i, thick d h k) + thick d h j + thick d h i =
      (∑ k ∈ Ico (j + 1) i, thick d h k) + thick d h i + thick d h j := by ring
  rw [e1, e2]
  field_simp
  ring

theorem slabProb_self {d : Data} (hr : ∀ i, i < d.cells → d.radii.v i < d.radii.v (i + 1)) {h : Nat}
    (ht : ∀ i, i < d.cells → 0 < d.tot.m h i) {i : Nat} (hi : i < d.cells) :
    slabProb d h i i = upper d E3 h i i := by
  unfold slabProb upper
  rw [if_neg (by omega), if_pos rfl, if_pos rfl]
  have r1 := oneSided_right (j := i + 1) (hr i hi) (ht i hi) (gap_nonneg hr ht (by omega))
  have r2 := oneSided_left (j := i) (hr i hi) (ht i hi) (gap_nonneg hr ht (by omega))
  have o := oneSided_one (hr i hi)
  have p1 := thick_pos (hr i hi) (ht i hi)
  rw [oneSided_sub (p := fun _ _ => 1) (fun _ => continuous_const) (toRight_cont d h i (i + 1)) o.2 r1.2,
    oneSided_sub (p := fun _ _ => 1) (fun _ => continuous_const) (toLeft_cont d h i i) o.2 r2.2, o.1, r1.1, r2.1]
  rw [Ico_self, Ico_self, sum_empty, zero_add, E3_zero]
  field_simp
  ring

theorem slabVal_eq {d : Data} (m : SlabMesh d) {h : Nat} (ht : ∀ i, i < d.cells → 0 < d.tot.m h i) {i j : Nat}
    (hi : i < d.cells) (hj : j < d.cells) : slabVal d E3 h i j = slabProb d h i j := by
  unfold slabVal
  by_cases hij : i ≤ j
  · rw [if_pos hij]
    rcases eq_or_lt_of_le hij with rfl | h1
    · exact (slabProb_self m.incr ht hi).symm
    · exact (slabProb_right m.incr ht h1 hj).symm
  · rw [if_neg hij, slabProb_left m.incr ht (by omega) hi, m.vol_eq j hj, m.vol_eq i hi]
    have p1 := sub_pos.2 (m.incr i hi)
    have p2 := ht i hi
    unfold thick
    field_simp

theorem slabEscape_eq {d : Data} (hr : ∀ i, i < d.cells → d.radii.v i < d.radii.v (i + 1)) {h : Nat}
    (ht : ∀ i, i < d.cells → 0 < d.tot.m h i) {i : Nat} (hi : i < d.cells) :
    slabEscape d h i = 1 / (2 * thick d h i) *
      (E3 (∑ k ∈ Ico (i + 1) d.cells, thick d h k) - E3 ((∑ k ∈ Ico (i + 1) d.cells, thick d h k) + thick d h i) +
        E3 (∑ k ∈ Ico 0 i, thick d h k) - E3 ((∑ k ∈ Ico 0 i, thick d h k) + thick d h i)) := by
  unfold slabEscape
  rw [(oneSided_right (hr i hi) (ht i hi) (gap_nonneg hr ht le_rfl)).1,
    (oneSided_left (hr i hi) (ht i hi) (gap_nonneg hr ht (by omega))).1]
  ring

theorem slabEscape_pos {d : Data} (hr : ∀ i, i < d.cells → d.radii.v i < d.radii.v (i + 1)) {h : Nat}
    (ht : ∀ i, i < d.cells → 0 < d.tot.m h i) {i : Nat} (hi : i < d.cells) : 0 ≤ slabEscape d h i := by
  rw [slabEscape_eq hr ht hi]
  have p1 := thick_pos (hr i hi) (ht i hi)
  have h1 := E3_facts.1.decr _ _ (gap_nonneg (a := i + 1) hr ht le_rfl) p1.le
  have h2 := E3_facts.1.decr _ _ (gap_nonneg (a := 0) (b := i) hr ht (by omega)) p1.le
  exact mul_nonneg (by positivity) (by linarith)

/-- sums over the cells to the right telescope -/
theorem sum_right {d : Data} (hr : ∀ i, i < d.cells → d.radii.v i < d.radii.v (i + 1)) {h : Nat}
    (ht : ∀ i, i < d.cells → 0 < d.tot.m h i) {i : Nat} (hi : i < d.cells) (n : Nat) (hn : n ≤ d.cells) (hin : i < n) :
    ∑ j ∈ Ico (i + 1) n, slabProb d h i j = 1 / (2 * thick d h i) *
      (E3 0 - E3 (thick d h i) - E3 (∑ k ∈ Ico (i + 1) n, thick d h k) + E3 ((∑ k ∈ Ico (i + 1) n, thick d h k) + thick d h i)) := by
  induction n with
  | zero => omega
  | succ n ih =>
    by_cases hin' : i < n
    · rw [sum_Ico_succ_top (by omega), ih (by omega) hin', slabProb_right hr ht hin' (by omega), upper, if_neg (by omega),
        sum_Ico_succ_top (by omega : i + 1 ≤ n)]
      ring
    · have : n = i := by omega
      subst this
      simp

/-- sums over the cells to the left telescope -/
theorem sum_left {d : Data} (hr : ∀ i, i < d.cells → d.radii.v i < d.radii.v (i + 1)) {h : Nat}
    (ht : ∀ i, i < d.cells → 0 < d.tot.m h i) {i : Nat} (hi : i < d.cells) (m : Nat) (hm : m ≤ i) :
    ∑ j ∈ Ico m i, slabProb d h i j = 1 / (2 * thick d h i) *
      (E3 0 - E3 (thick d h i) - E3 (∑ k ∈ Ico m i, thick d h k) + E3 ((∑ k ∈ Ico m i, thick d h k) + thick d h i)) := by
  obtain ⟨n, rfl⟩ : ∃ n, m = i - n := ⟨i - m, by omega⟩
  induction n with
  | zero => simp
  | succ n ih =>
    by_cases hn : n < i
    · rw [sum_eq_sum_Ico_succ_bot (by omega : i - (n + 1) < i), show i - (n + 1) + 1 = i - n by omega, ih (by omega),
        slabProb_left hr ht (by omega) hi, upper, if_neg (by omega), show i - (n + 1) + 1 = i - n by omega,
        sum_eq_sum_Ico_succ_bot (by omega : i - (n + 1) < i) (fun k => thick d h k), show i - (n + 1) + 1 = i - n by omega]
      have p1 := thick_pos (hr i hi) (ht i hi)
      have p2 := thick_pos (hr (i - (n + 1)) (by omega)) (ht (i - (n + 1)) (by omega))
      rw [add_comm (thick d h (i - (n + 1))) (∑ k ∈ Ico (i - n) i, thick d h k),
        add_right_comm (∑ k ∈ Ico (i - n) i, thick d h k) (thick d h i) (thick d h (i - (n + 1)))]
      field_simp
      ring
    · rw [show i - (n + 1) = i - n by omega]
      exact ih (by omega)

theorem slab_row {d : Data} (hr : ∀ i, i < d.cells → d.radii.v i < d.radii.v (i + 1)) {h : Nat}
    (ht : ∀ i, i < d.cells → 0 < d.tot.m h i) {i : Nat} (hi : i < d.cells) :
    1 - ∑ j ∈ range d.cells, slabProb d h i j = slabEscape d h i := by
  rw [range_eq_Ico, ← sum_Ico_consecutive _ (Nat.zero_le i) hi.le, sum_eq_sum_Ico_succ_bot hi,
    sum_left hr ht hi 0 (Nat.zero_le i), sum_right hr ht hi d.cells le_rfl hi, slabProb_self hr ht hi, upper, if_pos rfl,
    slabEscape_eq hr ht hi, E3_zero]
  have p1 := thick_pos (hr i hi) (ht i hi)
  field_simp
  ring

theorem upper_nonneg {d : Data} (hr : ∀ i, i < d.cells → d.radii.v i < d.radii.v (i + 1)) {h : Nat}
    (ht : ∀ i, i < d.cells → 0 < d.tot.m h i) {i j : Nat} (hij : i < j) (hj : j < d.cells) : 0 ≤ upper d E3 h i j := by
  have p1 := thick_pos (hr i (by omega)) (ht i (by omega))
  have p2 := thick_pos (hr j hj) (ht j hj)
  unfold upper
  rw [if_neg hij.ne]
  refine mul_nonneg (by positivity) ?_
  have := E3_facts.1.conv (∑ k ∈ Ico (i + 1) j, thick d h k) (thick d h i) (thick d h j) (gap_nonneg hr ht (by omega)) p1.le p2.le
  rw [add_right_comm] at this
  exact this

theorem oneSided_mono_one {d : Data} {i : Nat} {p : ℝ → ℝ → ℝ} (h0 : d.radii.v i < d.radii.v (i + 1))
    (hp : ∀ μ, Continuous (p μ)) (h1 : ∀ μ ∈ Set.Ioo (0 : ℝ) 1, ∀ x ∈ Set.Icc (d.radii.v i) (d.radii.v (i + 1)), 0 ≤ p μ x) :
    0 ≤ oneSided d i p := by
  unfold oneSided
  refine mul_nonneg (by norm_num) ?_
  rw [intervalIntegral.integral_of_le zero_le_one, MeasureTheory.integral_Ioc_eq_integral_Ioo]
  refine MeasureTheory.setIntegral_nonneg measurableSet_Ioo (fun μ hμ => ?_)
  exact mul_nonneg (one_div_nonneg.2 (sub_nonneg.2 h0.le)) (intervalIntegral.integral_nonneg h0.le (fun x hx => h1 μ hμ x hx))

theorem slabProb_nonneg {d : Data} (hr : ∀ i, i < d.cells → d.radii.v i < d.radii.v (i + 1)) {h : Nat}
    (ht : ∀ i, i < d.cells → 0 < d.tot.m h i) {i j : Nat} (hi : i < d.cells) (hj : j < d.cells) : 0 ≤ slabProb d h i j := by
  rcases lt_trichotomy i j with hij | rfl | hij
  · rw [slabProb_right hr ht hij hj]
    exact upper_nonneg hr ht hij hj
  · unfold slabProb
    rw [if_neg (by omega), if_pos rfl]
    refine add_nonneg (oneSided_mono_one (hr i hi) (fun μ => continuous_const.sub (toRight_cont d h i (i + 1) μ)) ?_)
      (oneSided_mono_one (hr i hi) (fun μ => continuous_const.sub (toLeft_cont d h i i μ)) ?_)
    · intro μ hμ x hx
      refine sub_nonneg.2 (exp_neg_div_le_one ?_ hμ.1.le)
      unfold toRight
      rw [Ico_self, sum_empty, add_zero]
      exact mul_nonneg (ht i hi).le (sub_nonneg.2 hx.2)
    · intro μ hμ x hx
      refine sub_nonneg.2 (exp_neg_div_le_one ?_ hμ.1.le)
      unfold toLeft
      rw [Ico_self, sum_empty, add_zero]
      exact mul_nonneg (ht i hi).le (sub_nonneg.2 hx.1)
  · rw [slabProb_left hr ht hij hi]
    have p1 := thick_pos (hr i hi) (ht i hi)
    have p2 := thick_pos (hr j hj) (ht j hj)
    exact mul_nonneg (by positivity) (upper_nonneg hr ht hij hi)

end

end Verif.CPM
