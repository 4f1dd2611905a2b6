import Verif.Gen.Spec
import Mathlib.LinearAlgebra.Lagrange
import Mathlib.Tactic.Linarith
import Mathlib.Tactic.Ring
import Mathlib.Tactic.FieldSimp

/-! # Polynomials through points are unique -/

namespace Verif.Gen

open Verif Input Finset

noncomputable section

/-- The polynomial with the coefficients `c`. -/
def poly (c : List ℝ) : Polynomial ℝ := ∑ i ∈ range c.length, Polynomial.C (c.getD i 0) * Polynomial.X ^ i

theorem poly_eval (c : List ℝ) (x : ℝ) : (poly c).eval x = along c x := by
  simp [poly, along, Polynomial.eval_finsetSum]

theorem poly_degree (c : List ℝ) : (poly c).degree < c.length := by
  rcases Nat.eq_zero_or_pos c.length with h | h
  · simp [poly, h]
  · refine (Polynomial.degree_sum_le _ _).trans_lt ?_
    rw [Finset.sup_lt_iff (by exact WithBot.bot_lt_coe _)]
    intro i hi
    exact (Polynomial.degree_C_mul_X_pow_le i _).trans_lt (by exact_mod_cast mem_range.1 hi)

/-- A combination of polynomials through points with the same nodes is the polynomial through the combined points. -/
theorem combine {ι : Type} {fs : List (ℝ × List Universe)} (hn : (fs.map Prod.fst).Nodup) {w : Text} (s : Finset ι) (a : ι → ℝ) (f : ι → Universe → ℝ) (c : ι → List ℝ)
    (hc : ∀ j ∈ s, Fitted (points fs w (f j)) (c j)) {y : ℝ × List Universe → ℝ} {d : List ℝ} (hd : d.length ≤ fs.length) (hy : ∀ q ∈ fs, along d q.1 = y q)
    (h : ∀ q ∈ fs, ∑ j ∈ s, a j * ((q.2.find? (fun u => u.name = w)).map (f j)).getD 0 = y q) (x : ℝ) : ∑ j ∈ s, a j * along (c j) x = along d x := by
  have hcard : (fs.map Prod.fst).toFinset.card = fs.length := by rw [List.toFinset_card_of_nodup hn, List.length_map]
  have key : ∑ j ∈ s, Polynomial.C (a j) * poly (c j) = poly d := by
    refine Polynomial.eq_of_degrees_lt_of_eval_finset_eq (fs.map Prod.fst).toFinset ?_ ?_ ?_
    · rw [hcard]
      refine (Polynomial.degree_sum_le _ _).trans_lt ?_
      rw [Finset.sup_lt_iff (by exact WithBot.bot_lt_coe _)]
      intro j hj
      have h1 : (poly (c j)).degree < (fs.length : WithBot ℕ) := (poly_degree _).trans_le (by
        have := (hc j hj).few
        simp only [points, List.length_map] at this
        exact_mod_cast this)
      have h2 : (Polynomial.C (a j) * poly (c j)).degree ≤ (poly (c j)).degree := by
        have := Polynomial.degree_mul_le (Polynomial.C (a j)) (poly (c j))
        refine this.trans ?_
        calc (Polynomial.C (a j)).degree + (poly (c j)).degree ≤ 0 + (poly (c j)).degree := by gcongr; exact Polynomial.degree_C_le
          _ = _ := zero_add _
      exact h2.trans_lt h1
    · rw [hcard]
      exact (poly_degree d).trans_le (by exact_mod_cast hd)
    · intro t ht
      obtain ⟨q, hq, rfl⟩ := List.mem_map.1 (List.mem_toFinset.1 ht)
      rw [Polynomial.eval_finsetSum, poly_eval, hy q hq, ← h q hq]
      refine Finset.sum_congr rfl (fun j hj => ?_)
      rw [Polynomial.eval_mul, Polynomial.eval_C, poly_eval, (hc j hj).through (q.1, _) (List.mem_map.2 ⟨q, hq, rfl⟩)]
  have := congrArg (Polynomial.eval x) key
  rw [Polynomial.eval_finsetSum, poly_eval] at this
  rw [← this]
  exact Finset.sum_congr rfl (fun j _ => by rw [Polynomial.eval_mul, Polynomial.eval_C, poly_eval])

/-- Between two nodes the polynomial lies between the two values. -/
theorem between {p q : ℝ × ℝ} {c : List ℝ} (h : Fitted [p, q] c) {x : ℝ} (hx : p.1 ≤ x) (hx' : x ≤ q.1) :
    min p.2 q.2 ≤ along c x ∧ along c x ≤ max p.2 q.2 := by
  have hp := h.through p (by simp)
  have hq := h.through q (by simp)
  have hf := h.few
  obtain ⟨a, b, hab⟩ : ∃ a b, ∀ y, along c y = a + b * y := by
    match c, h.some with
    | [a], _ => exact ⟨a, 0, fun y => by simp [along]⟩
    | [a, b], _ => exact ⟨a, b, fun y => by simp [along, Finset.sum_range_succ]⟩
    | a :: b :: d :: l, _ => simp at hf
  rw [hab] at hp hq ⊢
  rw [← hp, ← hq]
  constructor
  · rcases le_total 0 b with h0 | h0
    · exact (min_le_left _ _).trans (by nlinarith)
    · exact (min_le_right _ _).trans (by nlinarith)
  · rcases le_total 0 b with h0 | h0
    · exact le_trans (by nlinarith) (le_max_right _ _)
    · exact le_trans (by nlinarith) (le_max_left _ _)

/-! ### a library that interpolates -/

/-- The coefficients of Lagrange's polynomial. -/
def coefs (xs ys : List ℝ) : List ℝ :=
  (List.range xs.length).map (fun k => (Lagrange.interpolate Finset.univ (fun i : Fin xs.length => xs.get i) (fun i => ys.getD i 0)).coeff k)

theorem coefs_fitted {xs ys : List ℝ} (hn : xs.Nodup) (hl : xs.length = ys.length) (h0 : xs ≠ []) : Fitted (xs.zip ys) (coefs xs ys) := by
  have hinj : Set.InjOn (fun i : Fin xs.length => xs.get i) (Finset.univ : Finset (Fin xs.length)) := fun i _ j _ h => (List.nodup_iff_injective_get.1 hn) h
  have hal : ∀ x, along (coefs xs ys) x = (Lagrange.interpolate Finset.univ (fun i : Fin xs.length => xs.get i) (fun i => ys.getD i 0)).eval x := by
    intro x
    rw [Polynomial.eval_eq_sum_range' (n := xs.length)]
    · have hlen : (coefs xs ys).length = xs.length := by simp [coefs]
      rw [along, hlen]
      refine Finset.sum_congr rfl (fun i hi => ?_)
      congr 1
      simp [coefs, List.getD_eq_getElem?_getD, mem_range.1 hi]
    · have := Lagrange.degree_interpolate_lt (fun i : Fin xs.length => ys.getD i 0) hinj
      rw [Finset.card_univ, Fintype.card_fin] at this
      have hpos : xs.length ≠ 0 := by simpa using h0
      rcases eq_or_ne (Lagrange.interpolate Finset.univ (fun i : Fin xs.length => xs.get i) (fun i => ys.getD i 0)) 0 with h | h
      · rw [h, Polynomial.natDegree_zero]; exact Nat.pos_of_ne_zero hpos
      · exact (Polynomial.natDegree_lt_iff_degree_lt h).2 this
  refine ⟨by simp [coefs, h0], by simp [coefs, hl], fun q hq => ?_⟩
  obtain ⟨i, hi, rfl⟩ := List.mem_iff_getElem.1 hq
  rw [hal]
  have hi' : i < xs.length := by simp at hi; omega
  have := Lagrange.eval_interpolate_at_node (fun i : Fin xs.length => ys.getD i 0) hinj (Finset.mem_univ ⟨i, hi'⟩)
  simp only [List.get_eq_getElem] at this
  rw [List.getElem_zip]
  simp only [List.get_eq_getElem]
  rw [this]
  simp [List.getD_eq_getElem?_getD, hl ▸ hi']

end

end Verif.Gen
