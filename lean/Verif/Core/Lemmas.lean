import Verif.Core.Outcome
import Mathlib.Algebra.BigOperators.Group.Finset.Basic
import Mathlib.Algebra.BigOperators.Fin

/-! Generic lemmas about counted loops. -/

namespace Verif

open Outcome Finset

variable {K : Type}

/-- A loop that rewrites entry `i` in step `i`. -/
theorem loop_map (f : Nat → K → K) (a : Vec K) (body : Nat → Vec K → Outcome (Vec K))
    (hb : ∀ i t, i < a.n → t.n = a.n → t.v i = a.v i →
      body i t = ok ⟨t.n, Function.update t.v i (f i (a.v i))⟩) :
    ∃ p, loop body a.n a = ok p ∧ p.n = a.n ∧ ∀ i, i < a.n → p.v i = f i (a.v i) := by
  obtain ⟨p, hp, hn, hd, -⟩ := loop_inv (body := body) (n := a.n) (s := a)
    (fun i t => t.n = a.n ∧ (∀ j, j < i → t.v j = f j (a.v j)) ∧ ∀ j, i ≤ j → t.v j = a.v j)
    ⟨rfl, by simp, by simp⟩
    (by
      rintro i t hi ⟨htn, h1, h2⟩
      refine ⟨_, hb i t hi htn (h2 i le_rfl), htn, ?_, ?_⟩
      · intro j hj
        by_cases hji : j = i
        · subst hji; simp
        · simp only [Function.update_of_ne hji]; exact h1 j (by omega)
      · intro j hj
        have hji : j ≠ i := by omega
        simp only [Function.update_of_ne hji]; exact h2 j (by omega))
  exact ⟨p, hp, hn, hd⟩

/-- A loop that accumulates a sum. -/
theorem loop_sum [AddCommMonoid K] (f : Nat → K) (n : Nat) (s : K) (body : Nat → K → Outcome K)
    (hb : ∀ i t, i < n → body i t = ok (t + f i)) :
    loop body n s = ok (s + ∑ i ∈ range n, f i) := by
  apply loop_ok (fun k => s + ∑ i ∈ range k, f i) (by simp)
  intro i hi
  rw [hb i _ hi, sum_range_succ, add_assoc]

/-- a loop that fills a vector entry by entry -/
theorem loop_fill (val : Nat → K) (n : Nat) (z : K) (body : Nat → Vec K → Outcome (Vec K))
    (hb : ∀ i (t : Vec K), i < n → t.n = n → body i t = t.set i (val i)) :
    ∃ p, loop body n (Vec.const n z) = ok p ∧ p.n = n ∧ ∀ i, i < n → p.v i = val i := by
  exact loop_map (fun i _ => val i) (Vec.const n z) body (fun i t hi hn _ => by
    have hi' : i < n := hi
    have hn' : t.n = n := hn
    rw [hb i t hi' hn', Vec.set_ok (by omega)])

/-- a loop stops at the first pass that does not end normally -/
theorem loop_fail_at {σ : Type} {body : Nat → σ → Outcome σ} {n k : Nat} {s t : σ} {x : Outcome σ}
    (hx : ∀ f : σ → Outcome σ, (x >>= f) = x) (hk : k < n) (h1 : loop body k s = ok t) (h2 : body k t = x) :
    loop body n s = x := by
  induction n with
  | zero => omega
  | succ n ih =>
    rw [loop_succ]
    by_cases h : k = n
    · subst h; rw [h1, ok_bind, h2]
    · rw [ih (by omega), hx]

end Verif
