import Verif.Gen.Lemmas
import Mathlib.Tactic.LinearCombination

/-! # Parabolas between their points -/

namespace Verif.Gen

open Verif Input Finset

noncomputable section

theorem along_three {c : List ℝ} (h : c.length ≤ 3) : ∃ a0 a1 a2 : ℝ, ∀ x, along c x = a0 + a1 * x + a2 * x ^ 2 := by
  refine ⟨c.getD 0 0, c.getD 1 0, c.getD 2 0, fun x => ?_⟩
  have : along c x = ∑ i ∈ range 3, c.getD i 0 * x ^ i := by
    unfold along
    refine Finset.sum_subset (range_subset_range.2 h) (fun i _ hi => ?_)
    have : c.length ≤ i := by simpa using hi
    simp [List.getD_eq_getElem?_getD, this]
  rw [this]
  simp [Finset.sum_range_succ]

theorem newton {p q r : ℝ × ℝ} {c : List ℝ} (h12 : p.1 < q.1) (h23 : q.1 < r.1) (hl : c.length ≤ 3) (hp : along c p.1 = p.2) (hq : along c q.1 = q.2) (hr : along c r.1 = r.2) :
    ∃ s m : ℝ, (∀ x, along c x = p.2 + s * (x - p.1) + m * (x - p.1) * (x - q.1)) ∧ s = (q.2 - p.2) / (q.1 - p.1) ∧ (r.2 - q.2) / (r.1 - q.1) = s + m * (r.1 - p.1) := by
  obtain ⟨a0, a1, a2, ha⟩ := along_three hl
  rw [ha] at hp hq hr
  have e12 : q.1 - p.1 ≠ 0 := by linarith
  have e23 : r.1 - q.1 ≠ 0 := by linarith
  refine ⟨a1 + a2 * (p.1 + q.1), a2, fun x => ?_, ?_, ?_⟩
  · rw [ha, ← hp]; ring
  · rw [← hp, ← hq]; field_simp; ring
  · rw [← hq, ← hr]; field_simp; ring

/-- A quadratic function stays between its values at the ends just if its slopes there have the same sign. -/
theorem amid_iff {f : ℝ → ℝ} {u v D m : ℝ} (huv : u < v) (hf : ∀ x, f x = f u + (x - u) * (D + m * (x - u))) :
    (∀ x, u ≤ x → x ≤ v → Amid (f u) (f v) (f x)) ↔ 0 ≤ D * (D + 2 * m * (v - u)) := by
  have diff : ∀ x y, f y - f x = (y - x) * (D + m * (x + y - 2 * u)) := fun x y => by rw [hf x, hf y]; ring
  have slope : ∀ x y, u ≤ x → x ≤ y → y ≤ v → ∃ w w' : ℝ, 0 ≤ w ∧ 0 ≤ w' ∧ D + m * (x + y - 2 * u) = w * D + w' * (D + 2 * m * (v - u)) := by
    intro x y h1 h2 h3
    have e : v - u ≠ 0 := by linarith
    refine ⟨(2 * v - x - y) / (2 * (v - u)), (x + y - 2 * u) / (2 * (v - u)), ?_, ?_, ?_⟩
    · exact div_nonneg (by linarith) (by linarith)
    · exact div_nonneg (by linarith) (by linarith)
    · field_simp; ring
  constructor
  · intro h
    by_contra hn
    rw [not_le] at hn
    -- the function turns in between
    have hm : m ≠ 0 := by
      rintro rfl
      nlinarith [mul_self_nonneg D]
    have ht : 0 < -D / (2 * m) ∧ -D / (2 * m) < v - u := by
      rcases lt_or_gt_of_ne hm with hm | hm
      · have hD : 0 < D := by
          by_contra hD
          rw [not_lt] at hD
          nlinarith [mul_nonneg_of_nonpos_of_nonpos hD (show D + 2 * m * (v - u) ≤ 0 by nlinarith)]
        have hD' : D + 2 * m * (v - u) < 0 := by
          by_contra h'
          rw [not_lt] at h'
          linarith [mul_nonneg hD.le h']
        rw [show -D / (2 * m) = D / (2 * -m) by rw [← neg_div_neg_eq]; ring_nf]
        exact ⟨div_pos hD (by linarith), by rw [div_lt_iff₀ (by linarith)]; linarith⟩
      · have hD : D < 0 := by
          by_contra hD
          rw [not_lt] at hD
          nlinarith [mul_nonneg hD (show 0 ≤ D + 2 * m * (v - u) by nlinarith)]
        have hD' : 0 < D + 2 * m * (v - u) := by
          by_contra h'
          rw [not_lt] at h'
          linarith [mul_nonneg_of_nonpos_of_nonpos hD.le h']
        exact ⟨div_pos (by linarith) (by linarith), by rw [div_lt_iff₀ (by linarith)]; linarith⟩
    obtain ⟨h1, h2⟩ := ht
    set t := -D / (2 * m) with htd
    have hDt : D = -(2 * m * t) := by rw [htd]; field_simp
    have h3 := h (u + t) (by linarith) (by linarith)
    have e1 : f (u + t) = f u - m * t ^ 2 := by rw [hf (u + t), hDt]; ring
    have e2 : f (u + t) = f v - m * (v - u - t) ^ 2 := by rw [hf (u + t), hf v, hDt]; ring
    have p1 : 0 < t ^ 2 := by positivity
    have p2 : 0 < (v - u - t) ^ 2 := by have : 0 < v - u - t := by linarith
                                        positivity
    rcases lt_or_gt_of_ne hm with hm | hm
    · have : max (f u) (f v) < f (u + t) := max_lt (by rw [e1]; nlinarith) (by rw [e2]; nlinarith)
      exact absurd h3.2 (not_le.2 this)
    · have : f (u + t) < min (f u) (f v) := lt_min (by rw [e1]; nlinarith) (by rw [e2]; nlinarith)
      exact absurd h3.1 (not_le.2 this)
  · intro h
    rcases mul_nonneg_iff.1 h with ⟨h1, h3⟩ | ⟨h1, h3⟩
    · have mono : ∀ x y, u ≤ x → x ≤ y → y ≤ v → f x ≤ f y := fun x y a b d => by
        obtain ⟨w, w', hw, hw', e⟩ := slope x y a b d
        have : 0 ≤ f y - f x := by
          rw [diff, e]
          exact mul_nonneg (by linarith) (add_nonneg (mul_nonneg hw h1) (mul_nonneg hw' h3))
        linarith
      exact fun x a b => ⟨min_le_of_left_le (mono _ _ le_rfl a b), le_max_of_le_right (mono _ _ a b le_rfl)⟩
    · have mono : ∀ x y, u ≤ x → x ≤ y → y ≤ v → f y ≤ f x := fun x y a b d => by
        obtain ⟨w, w', hw, hw', e⟩ := slope x y a b d
        have : f y - f x ≤ 0 := by
          rw [diff, e]
          exact mul_nonpos_of_nonneg_of_nonpos (by linarith) (add_nonpos (mul_nonpos_of_nonneg_of_nonpos hw h1) (mul_nonpos_of_nonneg_of_nonpos hw' h3))
        linarith
      exact fun x a b => ⟨min_le_of_right_le (mono _ _ a b le_rfl), le_max_of_le_left (mono _ _ le_rfl a b)⟩

theorem tame_iff {p q r : ℝ × ℝ} {c : List ℝ} (h12 : p.1 < q.1) (h23 : q.1 < r.1) (hl : c.length ≤ 3) (hp : along c p.1 = p.2) (hq : along c q.1 = q.2) (hr : along c r.1 = r.2) :
    Tame p q r ↔ ∀ x, (p.1 ≤ x → x ≤ q.1 → Amid p.2 q.2 (along c x)) ∧ (q.1 ≤ x → x ≤ r.1 → Amid q.2 r.2 (along c x)) := by
  obtain ⟨s, m, hx, hs, hs'⟩ := newton h12 h23 hl hp hq hr
  have e13 : r.1 - p.1 ≠ 0 := by linarith
  have hj : (s + m * (r.1 - p.1) - s) * ((q.1 - p.1) / (r.1 - p.1)) = m * (q.1 - p.1) := by field_simp; ring
  have hj' : (s + m * (r.1 - p.1) - s) * (1 - (q.1 - p.1) / (r.1 - p.1)) = m * (r.1 - q.1) := by field_simp; ring
  have h1 := amid_iff (f := along c) (D := s - m * (q.1 - p.1)) (m := m) h12 (fun x => by rw [hx x, hx p.1]; ring)
  have h2 := amid_iff (f := along c) (D := s + m * (q.1 - p.1)) (m := m) h23 (fun x => by rw [hx x, hx q.1]; ring)
  rw [hp, hq] at h1
  rw [hq, hr] at h2
  unfold Tame
  dsimp only
  rw [hs', ← hs, hj, hj']
  have a1 : s - m * (q.1 - p.1) + 2 * m * (q.1 - p.1) = s + m * (q.1 - p.1) := by ring
  have a2 : s + m * (q.1 - p.1) + 2 * m * (r.1 - q.1) = s + m * (r.1 - p.1) + m * (r.1 - q.1) := by ring
  rw [a1] at h1
  rw [a2] at h2
  rw [← h1, ← h2]
  exact ⟨fun h x => ⟨h.1 x, h.2 x⟩, fun h => ⟨fun x => (h x).1, fun x => (h x).2⟩⟩

end

end Verif.Gen
