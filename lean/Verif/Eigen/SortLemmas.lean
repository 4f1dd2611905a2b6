import Verif.Eigen.Lemmas
import Mathlib.Data.List.Basic
import Mathlib.Data.List.Nodup

/-! Helper lemmas for the list of eigenmodes. -/

namespace Verif.Eigen

open Outcome Fl Finset

noncomputable section

theorem greater_iff (a : Fl) : flGreater a (fin 0) ↔ Above a := by
  unfold flGreater
  cases a with
  | nan => simp [add, lt, Above]
  | fin x => simp [add, lt, Above, Numeric.tol]
  | inf b => simp [add, lt, Above]

theorem above_ne_nan {a : Fl} (h : Above a) : a ≠ nan := by
  rintro rfl
  exact h

/-- column `i` exists and its value is kept -/
def KeptAt (evals : List (Fl × Fl)) (i : Nat) : Prop := ∃ z, evals[i]? = some z ∧ Above z.1

theorem keptAt_left {l : List (Fl × Fl)} {z : Fl × Fl} {i : Nat} (h : i < l.length) : KeptAt (l ++ [z]) i = KeptAt l i := by
  unfold KeptAt
  rw [List.getElem?_append_left h]

theorem keptAt_last {l : List (Fl × Fl)} {z : Fl × Fl} : KeptAt (l ++ [z]) l.length ↔ Above z.1 := by
  unfold KeptAt
  rw [List.getElem?_concat_length]
  constructor
  · rintro ⟨y, h, hy⟩
    cases h
    exact hy
  · exact fun h => ⟨z, rfl, h⟩

open Classical in
/-- the columns kept, by their numbers -/
def kept (evals : List (Fl × Fl)) : List Nat := (List.range evals.length).filter (fun i => decide (KeptAt evals i))

theorem mem_kept {evals : List (Fl × Fl)} {i : Nat} : i ∈ kept evals ↔ KeptAt evals i := by
  classical
  unfold kept
  rw [List.mem_filter, List.mem_range, decide_eq_true_iff]
  refine ⟨fun h => h.2, fun h => ⟨?_, h⟩⟩
  obtain ⟨z, h, -⟩ := h
  by_contra hl
  rw [List.getElem?_eq_none (by omega)] at h
  cases h

theorem kept_nodup (evals : List (Fl × Fl)) : (kept evals).Nodup := List.Nodup.filter _ List.nodup_range

/-- the value of column `i` -/
def valueOf (evals : List (Fl × Fl)) (i : Nat) : Fl := (evals.getD i (nan, nan)).1

theorem valueOf_of {evals : List (Fl × Fl)} {i : Nat} {z : Fl × Fl} (h : evals[i]? = some z) : valueOf evals i = z.1 := by
  unfold valueOf
  rw [List.getD_eq_getElem?_getD, h]
  rfl

theorem keep_eq (n : Nat) (V : Nat → Nat → ℝ) (evals : List (Fl × Fl)) :
    keep n V evals = (kept evals).map (fun i => (valueOf evals i, mode n V i)) := by
  classical
  unfold keep kept
  induction evals using List.reverseRecOn with
  | nil => rfl
  | append_singleton l z ih =>
    rw [List.zipIdx_append, List.filterMap_append, ih, List.length_append, List.length_singleton, List.range_succ,
      List.filter_append, List.map_append]
    congr 1
    · have : (List.filter (fun i => decide (KeptAt (l ++ [z]) i)) (List.range l.length)) =
          List.filter (fun i => decide (KeptAt l i)) (List.range l.length) := by
        refine List.filter_congr (fun i hi => ?_)
        rw [decide_eq_decide, keptAt_left (List.mem_range.1 hi)]
      rw [this]
      refine List.map_congr_left (fun i hi => ?_)
      have hi' := List.mem_range.1 (List.mem_filter.1 hi).1
      unfold valueOf
      rw [List.getD_eq_getElem?_getD, List.getD_eq_getElem?_getD, List.getElem?_append_left hi']
    · simp only [Nat.zero_add, List.zipIdx_cons, List.zipIdx_nil, List.filterMap_cons, List.filterMap_nil]
      have hv : valueOf (l ++ [z]) l.length = z.1 := valueOf_of (List.getElem?_concat_length)
      by_cases hz : Above z.1
      · rw [if_pos ⟨above_ne_nan hz, (greater_iff _).2 hz⟩, List.filter_singleton, decide_eq_true (keptAt_last.2 hz)]
        simp [hv]
      · rw [if_neg (fun h => hz ((greater_iff _).1 h.2)), List.filter_singleton, decide_eq_false (fun h => hz (keptAt_last.1 h))]
        simp

theorem mode_normalised {n : Nat} {V : Nat → Nat → ℝ} {i : Nat} (h : ∃ p, p < n ∧ V p i ≠ 0) : Normalised n (fun p => V p i) (mode n V i) := by
  obtain ⟨p0, hp0, h0⟩ := h
  set S := ∑ p ∈ range n, V p i with hS
  set T := ∑ p ∈ range n, |V p i| with hT
  have hTpos : 0 < T := sum_pos' (fun p _ => abs_nonneg _) ⟨p0, mem_range.2 hp0, abs_pos.2 h0⟩
  have e1 : sumTo (fun p => fin (V p i)) n = fin S := sumTo_of_fin (fun p _ => rfl)
  have e2 : sumTo (fun p => Fl.abs (fin (V p i))) n = fin T := sumTo_of_fin (fun p _ => rfl)
  refine ⟨rfl, (if S < 0 then -1 else 1) / T, ?_, ?_, ?_, ?_⟩
  · refine div_ne_zero ?_ hTpos.ne'
    split <;> norm_num
  · intro p _
    simp only [mode, e1, e2, mul_of_fin]
    rw [div_of_fin hTpos.ne']
    congr 1
    ring
  · have : ∀ p, |(if S < 0 then (-1 : ℝ) else 1) / T * V p i| = |V p i| / T := by
      intro p
      rw [abs_mul, abs_div, abs_of_pos hTpos]
      split <;> simp <;> ring
    simp only [this]
    rw [← sum_div, div_self hTpos.ne']
  · rw [← mul_sum]
    show 0 ≤ (if S < 0 then (-1 : ℝ) else 1) / T * S
    split
    · rename_i hs
      exact mul_nonneg_of_nonpos_of_nonpos (div_nonpos_of_nonpos_of_nonneg (by norm_num) hTpos.le) hs.le
    · rename_i hs
      exact mul_nonneg (div_nonneg zero_le_one hTpos.le) (not_lt.1 hs)

theorem mode_zero {n : Nat} {V : Nat → Nat → ℝ} {i : Nat} (h : ∀ p, p < n → V p i = 0) {p : Nat} (hp : p < n) :
    (mode n V i).v p = nan := by
  have e1 : sumTo (fun p => fin (V p i)) n = fin 0 := by
    rw [sumTo_of_fin (g := fun _ => 0) (fun p hp => by rw [h p hp]), sum_const_zero]
  have e2 : sumTo (fun p => Fl.abs (fin (V p i))) n = fin 0 := by
    rw [sumTo_of_fin (g := fun _ => 0) (fun p hp => by rw [h p hp]; simp [Fl.abs]), sum_const_zero]
  simp only [mode, e1, e2, h p hp, mul_of_fin, mul_zero, div_zero_zero]

end

end Verif.Eigen
