import Verif.Poly.Model
import Verif.Poly.Spec
import Mathlib.Tactic.Ring
import Mathlib.Tactic.LinearCombination

/-! Helper lemmas for the polynomial theorems. -/

namespace Verif.Poly

open Polynomial Finset Outcome

variable {K : Type} [CommRing K]

theorem den_update {n k : Nat} {v : Nat → K} (hk : k < n) (z : K) :
    den ⟨n, Function.update v k (v k + z)⟩ = den ⟨n, v⟩ + C z * X ^ k := by
  have hmem : k ∈ range n := mem_range.2 hk
  unfold den
  rw [← add_sum_erase _ _ hmem, ← add_sum_erase (range n) (fun i => C (v i) * X ^ i) hmem]
  have : ∑ x ∈ (range n).erase k, C (Function.update v k (v k + z) x) * X ^ x
      = ∑ x ∈ (range n).erase k, C (v x) * X ^ x := by
    apply sum_congr rfl
    intro x hx
    rw [Function.update_of_ne (ne_of_mem_erase hx)]
  simp only at this ⊢
  rw [this]
  simp only [Function.update_self, map_add]
  ring

theorem den_const_zero (n : Nat) : den (Vec.const n (0 : K)) = 0 := by
  simp [den, Vec.const]

theorem den_const_one : den (Vec.const 1 (1 : K)) = 1 := by
  simp [den, Vec.const]

theorem den_linear (a : K) : den (linear a) = C a + X := by
  simp [den, linear, sum_range_succ]

theorem multiplyPoly_spec (a b : Vec K) (h : a.n + b.n ≠ 0) :
    ∃ p, multiplyPoly a b = ok p ∧ p.n = a.n + b.n - 1 ∧ den p = den a * den b := by
  unfold multiplyPoly
  rw [if_neg h]
  obtain ⟨p, hp, hn, hd⟩ := loop_inv
    (body := fun i res =>
      loop (fun j res => do
        let x ← a.get i
        let y ← b.get j
        let r ← res.get (i + j)
        res.set (i + j) (r + x * y)) b.n res) (n := a.n) (s := Vec.const (a.n + b.n - 1) (0 : K))
    (fun i res => res.n = a.n + b.n - 1 ∧
      den res = ∑ i' ∈ range i, C (a.v i') * X ^ i' * den b)
    ⟨rfl, by simp [den_const_zero]⟩
    (by
      rintro i t hi ⟨htn, htd⟩
      obtain ⟨p, hp, hn, hd⟩ := loop_inv
        (body := fun j (res : Vec K) => do
          let x ← a.get i
          let y ← b.get j
          let r ← res.get (i + j)
          res.set (i + j) (r + x * y)) (n := b.n) (s := t)
        (fun j res => res.n = a.n + b.n - 1 ∧
          den res = den t + ∑ j' ∈ range j, C (a.v i) * X ^ i * (C (b.v j') * X ^ j'))
        ⟨htn, by simp⟩
        (by
          rintro j r hj ⟨hrn, hrd⟩
          have hlt : i + j < r.n := by omega
          refine ⟨⟨r.n, Function.update r.v (i + j) (r.v (i + j) + a.v i * b.v j)⟩,
            by simp [Vec.get_ok hi, Vec.get_ok hj, Vec.get_ok hlt, Vec.set_ok hlt], hrn, ?_⟩
          rw [den_update hlt]
          change den r + _ = _
          rw [hrd, sum_range_succ]
          simp only [map_mul, pow_add]
          ring)
      refine ⟨p, hp, hn, ?_⟩
      rw [hd, htd, sum_range_succ]
      congr 1
      rw [← mul_sum]
      rfl)
  refine ⟨p, hp, hn, ?_⟩
  rw [hd, ← sum_mul]
  rfl

theorem prodPoly_spec (a : Vec K) :
    ∃ p, prodPoly a = ok p ∧ p.n = a.n + 1 ∧ den p = ∏ k ∈ range a.n, (C (a.v k) + X) := by
  obtain ⟨p, hp, hn, hd⟩ := loop_inv
    (body := fun j res => do
      let x ← a.get j
      multiplyPoly res (linear x)) (n := a.n) (s := Vec.const 1 (1 : K))
    (fun j res => res.n = j + 1 ∧ den res = ∏ k ∈ range j, (C (a.v k) + X))
    ⟨rfl, by simp [den_const_one]⟩
    (by
      rintro j t hj ⟨htn, htd⟩
      obtain ⟨p, hp, hn, hd⟩ := multiplyPoly_spec t (linear (a.v j)) (by simp [linear])
      refine ⟨p, by simp [Vec.get_ok hj, hp], by simp [hn, htn, linear], ?_⟩
      rw [hd, htd, den_linear, prod_range_succ])
  exact ⟨p, hp, hn, hd⟩

theorem prodPolyI_spec (a : Vec K) (i : Nat) (hi : i < a.n) :
    ∃ p, prodPolyI a i = ok p ∧ p.n = a.n ∧ den p = ∏ k ∈ (range a.n).erase i, (C (a.v k) + X) := by
  obtain ⟨p, hp, hn, hd⟩ := loop_inv
    (body := fun j res =>
      if j = i then ok res
      else do
        let x ← a.get j
        multiplyPoly res (linear x)) (n := a.n) (s := Vec.const 1 (1 : K))
    (fun j res => res.n = (if j ≤ i then j + 1 else j) ∧
      den res = ∏ k ∈ (range j).erase i, (C (a.v k) + X))
    ⟨by simp [Vec.const], by simp [den_const_one]⟩
    (by
      rintro j t hj ⟨htn, htd⟩
      by_cases hji : j = i
      · subst hji
        refine ⟨t, by simp, by simpa using htn, ?_⟩
        rw [htd, range_add_one, erase_insert notMem_range_self]
        rw [erase_eq_of_notMem notMem_range_self]
      · obtain ⟨p, hp, hn, hd⟩ := multiplyPoly_spec t (linear (a.v j)) (by simp [linear])
        refine ⟨p, by simp [hji, Vec.get_ok hj, hp], ?_, ?_⟩
        · rw [hn, htn]; simp only [linear]; split_ifs <;> omega
        · rw [hd, htd, den_linear, range_add_one, erase_insert_of_ne hji,
            prod_insert (by simp), mul_comm])
  refine ⟨p, hp, ?_, hd⟩
  rw [hn, if_neg (by omega)]

end Verif.Poly
