import Verif.Input.TextLemmas
import Mathlib.Tactic.FieldSimp
import Mathlib.Tactic.Ring
import Mathlib.Tactic.Linarith
import Mathlib.Algebra.Order.BigOperators.Group.List

/-!
# Lemmas on numbers and on the expansion of lists
-/

namespace Verif.Input

open Verif Outcome Finset

noncomputable section

/-! ### counts -/

theorem digitChar_isDigit {i : Nat} (h : i < 10) : i.digitChar.isDigit = true ∧ i.digitChar.toNat - 48 = i ∧ i.digitChar ≠ '.' := by
  interval_cases i <;> decide

theorem numeral_facts {w : Text} {n : Nat} (h : Numeral w n) : w ≠ [] ∧ (∀ c ∈ w, c.isDigit = true) ∧ ofDigits w = n := by
  induction h with
  | digit h =>
    obtain ⟨h1, h2, -⟩ := digitChar_isDigit h
    refine ⟨by simp, ?_, ?_⟩
    · intro c hc
      rw [List.mem_singleton.1 hc]
      exact h1
    · simp [ofDigits, h2]
  | @snoc w n i hw hi ih =>
    obtain ⟨h1, h2, -⟩ := digitChar_isDigit hi
    refine ⟨by simp, ?_, ?_⟩
    · intro c hc
      rcases List.mem_append.1 hc with hc | hc
      · exact ih.2.1 c hc
      · rw [List.mem_singleton.1 hc]
        exact h1
    · have := ih.2.2
      unfold ofDigits at this ⊢
      rw [List.foldl_append, this]
      simp [h2]

theorem isDigit_not_space {c : Char} (h : c.isDigit = true) : isSpace c = false ∧ c ≠ '-' ∧ c ≠ '+' := by
  have h := isDigit_iff.1 h
  unfold Digit at h
  simp only [List.mem_cons, List.not_mem_nil, or_false] at h
  rcases h with rfl | rfl | rfl | rfl | rfl | rfl | rfl | rfl | rfl | rfl <;> decide

theorem stoi_numeral {w : Text} {n : Nat} (h : Numeral w n) (hn : n ≤ 2147483647) : stoi w = ok (n : Int) := by
  obtain ⟨h1, h2, h3⟩ := numeral_facts h
  match w, h1, h2, h3 with
  | c :: w, _, h2, h3 =>
    obtain ⟨s1, s2, s3⟩ := isDigit_not_space (h2 c (by simp))
    have e1 : (c :: w).dropWhile isSpace = c :: w := by
      rw [List.dropWhile_cons, if_neg (by simp [s1])]
    have e2 : sign (c :: w) = (false, c :: w) := by
      unfold sign
      split
      · rename_i e
        injection e with e
        exact absurd e s2
      · rename_i e
        injection e with e
        exact absurd e s3
      · rfl
    have e3 : (c :: w).takeWhile Char.isDigit = c :: w := List.takeWhile_eq_self_iff.2 h2
    unfold stoi
    rw [e1, e2]
    simp only [e3, h3]
    simp only [List.isEmpty_cons, Bool.false_eq_true, if_false]
    rw [if_pos (by constructor <;> omega)]

theorem toUns_nat {n : Nat} (h : n ≤ 2147483647) : toUns (n : Int) = n := by
  unfold toUns
  omega

theorem total_small {l : List Nat} (h : l.sum ≤ 2147483647) : total l = (l.sum : Int) := by
  unfold total
  rw [Nat.mod_eq_of_lt (by omega), if_pos (by omega)]

theorem numeral_not_float {w : Text} {n : Nat} (h : Numeral w n) : isFloat w = ok false := by
  apply isFloat_none
  intro hd
  have := (numeral_facts h).2.1 _ hd
  revert this
  decide

/-! ### evenly spaced values -/

theorem fdiv_nat {a : ℝ} {n : Nat} (h : 0 < n) : fdiv a (n : ℝ) = ok (a / n) :=
  fdiv_ok (by
    have : (0 : ℝ) < n := by exact_mod_cast h
    exact this.ne')

section

variable {L : Nat} {n : Nat → Nat} {d : Nat → ℝ}

theorem partial_mono (_ : ∀ k, k < L → 0 < n k) {a b : Nat} (hab : a < b) (hb : b ≤ L) :
    ∑ i ∈ range a, n i + n a ≤ ∑ i ∈ range b, n i := by
  rw [← sum_range_succ]
  exact sum_le_sum_of_subset (by
    intro x hx
    simp only [mem_range] at *
    omega)

/-- The same boundary described from two regions has the same value. -/
theorem spread_consistent (hpos : ∀ k, k < L → 0 < n k) {k k' j j' : Nat} (hk : k < L) (hk' : k' < L) (hj : j ≤ n k) (hj' : j' ≤ n k')
    (e : ∑ i ∈ range k, n i + j = ∑ i ∈ range k', n i + j') :
    ∑ i ∈ range k, d i + j * d k / n k = ∑ i ∈ range k', d i + j' * d k' / n k' := by
  have key : ∀ {k k' j j' : Nat}, k < L → k' < L → j ≤ n k → j' ≤ n k' → ∑ i ∈ range k, n i + j = ∑ i ∈ range k', n i + j' → k < k' →
      ∑ i ∈ range k, d i + j * d k / n k = ∑ i ∈ range k', d i + j' * d k' / n k' := by
    intro k k' j j' hk hk' hj hj' e hlt
    have h1 := partial_mono hpos hlt (by omega)
    have hkk : k' = k + 1 := by
      by_contra hne
      have h2 := partial_mono hpos (a := k + 1) (b := k') (by omega) (by omega)
      have h3 := partial_mono hpos (a := k) (b := k + 1) (by omega) (by omega)
      have h4 := hpos (k + 1) (by omega)
      omega
    subst hkk
    rw [sum_range_succ] at e
    have hj0 : j' = 0 := by omega
    have hjn : j = n k := by omega
    rw [hj0, hjn, sum_range_succ]
    have : (n k : ℝ) ≠ 0 := by
      have := hpos k hk
      have : (0 : ℝ) < n k := by exact_mod_cast this
      exact this.ne'
    field_simp
    simp
  rcases Nat.lt_trichotomy k k' with h | h | h
  · exact key hk hk' hj hj' e h
  · subst h
    have : j = j' := by omega
    rw [this]
  · exact (key hk' hk hj' hj e.symm h).symm

theorem ramp_ok (hL : 0 < L) {counts : Vec Nat} {ends x : Vec ℝ} (hpos : ∀ k, k < L → 0 < n k) (hc : counts.n = L + 1)
    (hcv : ∀ k, k < L → counts.v (k + 1) = n k) (he : ends.n = L + 1) (hev : ∀ k, k < L → ends.v (k + 1) = d k)
    (hx : x.n = ∑ i ∈ range L, n i + 1) :
    ∃ y, ramp counts ends x = ok y ∧ y.n = ∑ i ∈ range L, n i + 1 ∧
      ∀ k, k < L → ∀ j, j ≤ n k → y.v (∑ i ∈ range k, n i + j) = ∑ i ∈ range k, d i + j * d k / n k := by
  let last : Nat → Nat := fun k => if k = L then 1 else 0
  let Good : Nat → Vec ℝ → Prop := fun m x => ∀ k, k < L → ∀ j, j ≤ n k → ∑ i ∈ range k, n i + j < m →
    x.v (∑ i ∈ range k, n i + j) = ∑ i ∈ range k, d i + j * d k / n k
  let Inv : Nat → Vec ℝ × Nat × ℝ → Prop := fun k s =>
    s.1.n = ∑ i ∈ range L, n i + 1 ∧ s.2.1 = ∑ i ∈ range k, n i + last k ∧ s.2.2 = ∑ i ∈ range k, d i ∧ Good s.2.1 s.1
  have hloop : ∃ s, loop (fun k (s : Vec ℝ × Nat × ℝ) => do
    let n ← counts.get (k + 1)
    let s ← loop (fun j (s : Vec ℝ × Nat × ℝ) => do
      let d ← ends.get (k + 1)
      let y ← fdiv (j * d) (n : ℝ)
      let x ← s.1.set s.2.1 (y + s.2.2)
      ok (x, s.2.1 + 1, s.2.2)) (n + if k + 1 = counts.n - 1 then 1 else 0) s
    let d ← ends.get (k + 1)
    ok (s.1, s.2.1, s.2.2 + d)) (counts.n - 1) (x, 0, 0) = ok s ∧ Inv (counts.n - 1) s := by
    refine loop_inv Inv ⟨hx, ?_, by simp, ?_⟩ ?_
    · simp only [last, sum_range_zero]
      rw [if_neg (by omega)]
    · intro k hk j hj hlt
      exact absurd hlt (by simp)
    · rintro k s hk ⟨i1, i2, i3, i4⟩
      have hkL : k < L := by omega
      have hl0 : last k = 0 := if_neg (by omega)
      rw [hl0, Nat.add_zero] at i2
      have hcL : counts.n - 1 = L := by omega
      obtain ⟨s', hs', j1, j2, j3, j4⟩ := loop_inv (body := fun j (s : Vec ℝ × Nat × ℝ) => do
          let d ← ends.get (k + 1)
          let y ← fdiv (j * d) (n k : ℝ)
          let x ← s.1.set s.2.1 (y + s.2.2)
          ok (x, s.2.1 + 1, s.2.2)) (n := n k + if k + 1 = counts.n - 1 then 1 else 0) (s := s)
        (fun j s => s.1.n = ∑ i ∈ range L, n i + 1 ∧ s.2.1 = ∑ i ∈ range k, n i + j ∧ s.2.2 = ∑ i ∈ range k, d i ∧ Good s.2.1 s.1)
        ⟨i1, i2, i3, i4⟩ (by
          rintro j s hj ⟨j1, j2, j3, j4⟩
          have hmono := partial_mono hpos hkL (Nat.le_refl L)
          have hjn : j ≤ n k ∧ (j = n k → k + 1 = L) := by
            by_cases hlast : k + 1 = counts.n - 1
            · rw [if_pos hlast] at hj
              exact ⟨by omega, fun _ => by omega⟩
            · rw [if_neg hlast] at hj
              exact ⟨by omega, fun _ => by omega⟩
          have hlt : s.2.1 < s.1.n := by rw [j1, j2]; omega
          refine ⟨(⟨s.1.n, Function.update s.1.v s.2.1 (j * d k / n k + s.2.2)⟩, s.2.1 + 1, s.2.2), ?_, j1, by
            show s.2.1 + 1 = _
            omega, j3, ?_⟩
          · rw [Vec.get_ok (by omega), ok_bind, hev k hkL, fdiv_nat (hpos k hkL), ok_bind, Vec.set_ok hlt, ok_bind]
          · intro k' hk' j' hj' hm
            show Function.update s.1.v s.2.1 _ _ = _
            by_cases heq : ∑ i ∈ range k', n i + j' = s.2.1
            · rw [heq, Function.update_self, j3, add_comm]
              rw [j2] at heq
              exact spread_consistent hpos hkL hk' hjn.1 hj' heq.symm
            · rw [Function.update_of_ne heq]
              have hm' : ∑ i ∈ range k', n i + j' < s.2.1 + 1 := hm
              exact j4 k' hk' j' hj' (by omega))
      refine ⟨(s'.1, s'.2.1, s'.2.2 + d k), ?_, j1, ?_, ?_, j4⟩
      · rw [Vec.get_ok (by omega), ok_bind, hcv k hkL]
        rw [hs', ok_bind, Vec.get_ok (by omega), ok_bind, hev k hkL]
      · show s'.2.1 = _
        rw [j2, sum_range_succ, hcL, Nat.add_assoc]
      · show s'.2.2 + d k = _
        rw [j3, sum_range_succ]
  obtain ⟨s, hs, h1, h2, -, h4⟩ := hloop
  refine ⟨s.1, ?_, h1, ?_⟩
  · unfold ramp
    rw [hs, ok_bind]
  · intro k hk j hj
    refine h4 k hk j hj ?_
    have hcL : counts.n - 1 = L := by omega
    have hmono := partial_mono hpos hk (Nat.le_refl L)
    rw [h2, hcL, show last L = 1 from if_pos rfl]
    omega

end

theorem getD_get {α : Type} {l : List α} (z : α) {i : Nat} (h : i < l.length) : l.getD i z = l[i] := by
  simp [List.getD, h]

theorem before_eq {α M : Type} [AddCommMonoid M] (f : α → M) (l : List α) (z : α) {k : Nat} (hk : k ≤ l.length) :
    before f l k = ∑ i ∈ range k, f (l.getD i z) := by
  induction k with
  | zero => simp [before]
  | succ k ih =>
    have hlt : k < l.length := by omega
    rw [sum_range_succ, ← ih (by omega)]
    unfold before
    rw [List.take_succ_eq_append_getElem hlt, List.map_append, List.sum_append, getD_get _ hlt]
    simp

theorem ramp_list {rs : List (Nat × ℝ)} (h0 : rs ≠ []) (hpos : ∀ r ∈ rs, 1 ≤ r.1) {x : Vec ℝ} (hx : x.n = (rs.map Prod.fst).sum + 1) :
    ∃ y, ramp (Vec.ofList (0 :: rs.map Prod.fst)) (Vec.ofList (0 :: rs.map Prod.snd)) x = ok y ∧ Spread rs y := by
  have hsum : (rs.map Prod.fst).sum = ∑ i ∈ range rs.length, (rs.getD i (0, 0)).1 := by
    rw [← before_eq Prod.fst rs (0, 0) (Nat.le_refl _)]
    simp [before]
  obtain ⟨y, hy, h1, h2⟩ := ramp_ok (L := rs.length) (n := fun i => (rs.getD i (0, 0)).1) (d := fun i => (rs.getD i (0, 0)).2)
    (counts := Vec.ofList (0 :: rs.map Prod.fst)) (ends := Vec.ofList (0 :: rs.map Prod.snd)) (x := x)
    (List.length_pos_iff.2 h0) (fun k hk => by
      rw [getD_get _ hk]
      exact hpos _ (List.getElem_mem hk)) (by simp [Vec.ofList]) (fun k hk => by
      show (0 :: rs.map Prod.fst).getD (k + 1) default = _
      simp [List.getD, hk]) (by simp [Vec.ofList]) (fun k hk => by
      show (0 :: rs.map Prod.snd).getD (k + 1) default = _
      simp [List.getD, hk]) (by rw [hx, hsum])
  refine ⟨y, hy, by rw [h1, hsum], fun k hk j hj => ?_⟩
  have := h2 k hk j (by
    rw [getD_get _ hk]
    exact hj)
  rw [before_eq Prod.fst rs (0, 0) hk.le, before_eq Prod.snd rs (0, 0) hk.le, this, getD_get _ hk]

/-! ### repeated values -/

theorem repeatLoop_ok {l : List (ℝ × Nat)} {x : Vec ℝ} (hx : x.n = (l.map Prod.snd).sum) :
    ∃ y, repeatLoop (Vec.ofList (l.map Prod.snd)) (Vec.ofList (l.map Prod.fst)) x = ok y ∧ y.n = (l.map Prod.snd).sum ∧
      ∀ k (h : k < l.length), ∀ j, j < l[k].2 → y.v (before Prod.snd l k + j) = l[k].1 := by
  have hmono : ∀ {a b : Nat} (ha : a < l.length), a < b → b ≤ l.length → before Prod.snd l a + l[a].2 ≤ before Prod.snd l b := by
    intro a b ha hab hb
    have e : before Prod.snd l (a + 1) = before Prod.snd l a + l[a].2 := by
      unfold before
      rw [List.take_succ_eq_append_getElem ha, List.map_append, List.sum_append]
      simp
    rw [← e, before_eq _ _ (0, 0) (by omega), before_eq _ _ (0, 0) hb]
    exact sum_le_sum_of_subset (by
      intro x hx
      simp only [mem_range] at *
      omega)
  have htot : before Prod.snd l l.length = (l.map Prod.snd).sum := by simp [before]
  let Good : Nat → Vec ℝ → Prop := fun m x => ∀ k (h : k < l.length), ∀ j, j < l[k].2 → before Prod.snd l k + j < m →
    x.v (before Prod.snd l k + j) = l[k].1
  have hsucc : ∀ k (h : k < l.length), before Prod.snd l (k + 1) = before Prod.snd l k + l[k].2 := by
    intro k hk
    unfold before
    rw [List.take_succ_eq_append_getElem hk, List.map_append, List.sum_append]
    simp
  have hloop : ∃ s, loop (fun i (s : Vec ℝ × Nat) => do
      let n ← (Vec.ofList (l.map Prod.snd)).get i
      loop (fun _ (s : Vec ℝ × Nat) => do
        let v ← (Vec.ofList (l.map Prod.fst)).get i
        let x ← s.1.set s.2 v
        ok (x, s.2 + 1)) n s) (Vec.ofList (l.map Prod.snd)).n (x, 0) = ok s ∧
      (s.1.n = (l.map Prod.snd).sum ∧ s.2 = before Prod.snd l (Vec.ofList (l.map Prod.snd)).n ∧ Good s.2 s.1) := by
    refine loop_inv (fun k (s : Vec ℝ × Nat) => s.1.n = (l.map Prod.snd).sum ∧ s.2 = before Prod.snd l k ∧ Good s.2 s.1) ⟨hx, by simp [before], ?_⟩ ?_
    · intro k hk j hj hm
      exact absurd hm (by simp)
    · rintro k s hk ⟨i1, i2, i3⟩
      have hkl : k < l.length := by simpa [Vec.ofList] using hk
      have g1 : (Vec.ofList (l.map Prod.snd)).get k = ok l[k].2 := by
        rw [Vec.get_ok hk]
        simp [Vec.ofList, hkl]
      have g2 : (Vec.ofList (l.map Prod.fst)).get k = ok l[k].1 := by
        rw [Vec.get_ok (by simpa [Vec.ofList] using hkl)]
        simp [Vec.ofList, hkl]
      rw [g1, ok_bind]
      obtain ⟨s', e, j1, j2, j3⟩ := loop_inv (body := fun _ (s : Vec ℝ × Nat) => do
          let v ← (Vec.ofList (l.map Prod.fst)).get k
          let x ← s.1.set s.2 v
          ok (x, s.2 + 1)) (n := l[k].2) (s := s)
        (fun j s => s.1.n = (l.map Prod.snd).sum ∧ s.2 = before Prod.snd l k + j ∧ Good s.2 s.1) ⟨i1, i2, i3⟩ (by
          rintro j s hj ⟨j1, j2, j3⟩
          have hm := hmono hkl hkl (Nat.le_refl _)
          have hlt : s.2 < s.1.n := by rw [j1, j2, ← htot]; omega
          refine ⟨(⟨s.1.n, Function.update s.1.v s.2 l[k].1⟩, s.2 + 1), ?_, j1, by show s.2 + 1 = _; omega, ?_⟩
          · rw [g2, ok_bind, Vec.set_ok hlt, ok_bind]
          · intro k' hk' j' hj' hm'
            show Function.update s.1.v s.2 _ _ = _
            by_cases heq : before Prod.snd l k' + j' = s.2
            · rw [heq, Function.update_self]
              have : k = k' := by
                rw [j2] at heq
                rcases Nat.lt_trichotomy k k' with c | c | c
                · have := hmono hkl c (by omega)
                  omega
                · exact c
                · have := hmono hk' c (by omega)
                  omega
              subst this
              rfl
            · rw [Function.update_of_ne heq]
              have hm'' : before Prod.snd l k' + j' < s.2 + 1 := hm'
              exact j3 k' hk' j' hj' (by omega))
      exact ⟨s', e, j1, by rw [j2, hsucc k hkl], j3⟩
  obtain ⟨s, hs, h1, h2, h3⟩ := hloop
  refine ⟨s.1, ?_, h1, ?_⟩
  · unfold repeatLoop
    rw [hs, ok_bind]
  · intro k hk j hj
    refine h3 k hk j hj ?_
    have hm := hmono hk hk (Nat.le_refl _)
    rw [h2]
    have : (Vec.ofList (l.map Prod.snd)).n = l.length := by simp [Vec.ofList]
    rw [this]
    omega

end

end Verif.Input
