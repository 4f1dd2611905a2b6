import Verif.Input.TextLemmas

/-!
# Lemmas on blocks
-/

namespace Verif.Input

open Verif Outcome

noncomputable section

/-- One step of the search for a block, with the line number. -/
def blockAcc (one two : Text) (s : (Nat × Nat) × Nat) (l : Text) : (Nat × Nat) × Nat := (blockStep (lower one) (lower two) (lower l) s.2 s.1, s.2 + 1)

theorem blockFrom_fold {lib : Lib} {one two : Text} {ls : List Text} (hc : Clean lib ls) (n : Nat) (b : Nat × Nat) :
    blockFrom lib one two n b ls = ok ((active ls).foldl (blockAcc one two) (b, n)).1 := by
  induction ls generalizing n b with
  | nil => rfl
  | cons a ls ih =>
    unfold blockFrom
    rcases comment_clean hc with ⟨h1, h2⟩ | ⟨h1, h2⟩
    · rw [h1, ok_bind]
      simp only [if_true]
      obtain ⟨r, rfl⟩ : ∃ r, a = '%' :: r := by
        cases a with
        | nil => simp at h2
        | cons x r => simp at h2; exact ⟨r, by rw [h2]⟩
      rw [active_cons_comment]
      exact ih (clean_cons hc) n b
    · rw [h1, ok_bind, active_cons h2]
      simp only [Bool.false_eq_true, if_false]
      rw [ih (clean_cons hc), List.foldl_cons]
      rfl

theorem blockFrom_sound {lib : Lib} (hs : Sane lib) {one two : Text} {ls : List Text} (n : Nat) (b x : Nat × Nat)
    (h : blockFrom lib one two n b ls = ok x) : x = ((active ls).foldl (blockAcc one two) (b, n)).1 := by
  induction ls generalizing n b with
  | nil =>
    cases h
    rfl
  | cons a ls ih =>
    unfold blockFrom at h
    obtain ⟨c, hc, h⟩ := bind_eq_ok.1 h
    rcases comment_cases hs a with ⟨h1, h2⟩ | ⟨h1, h2⟩ | ⟨h1, h2⟩
    · rw [h1] at hc
      cases hc
      simp only [if_true] at h
      obtain ⟨r, rfl⟩ : ∃ r, a = '%' :: r := by
        cases a with
        | nil => simp at h2
        | cons x r => simp at h2; exact ⟨r, by rw [h2]⟩
      rw [active_cons_comment]
      exact ih n b h
    · rw [h1] at hc
      cases hc
      simp only [Bool.false_eq_true, if_false] at h
      rw [active_cons h2, List.foldl_cons]
      exact ih _ _ h
    · exact absurd (h1 ▸ hc) (comment_not_ok h2 c)

/-- `key` occurs in line `i` of `A`. -/
def At (A : List Text) (key : Text) (i : Nat) : Prop := ∃ m, A[i]? = some m ∧ small key <:+: small m

theorem at_snoc {A : List Text} {l key : Text} {i : Nat} : At (A ++ [l]) key i ↔ At A key i ∨ (i = A.length ∧ small key <:+: small l) := by
  unfold At
  constructor
  · rintro ⟨m, h1, h2⟩
    rcases Nat.lt_trichotomy i A.length with h | h | h
    · rw [List.getElem?_append_left h] at h1
      exact Or.inl ⟨m, h1, h2⟩
    · subst h
      rw [List.getElem?_append_right (Nat.le_refl _)] at h1
      simp at h1
      exact Or.inr ⟨rfl, h1 ▸ h2⟩
    · rw [List.getElem?_eq_none (by simp; omega)] at h1
      cases h1
  · rintro (⟨m, h1, h2⟩ | ⟨rfl, h2⟩)
    · exact ⟨m, by rw [List.getElem?_append_left (List.getElem?_eq_some_iff.1 h1).1]; exact h1, h2⟩
    · exact ⟨l, by simp, h2⟩

theorem at_lt {A : List Text} {key : Text} {i : Nat} (h : At A key i) : i < A.length := by
  obtain ⟨m, h1, -⟩ := h
  exact (List.getElem?_eq_some_iff.1 h1).1

theorem small_header (one two : Text) : lower one ++ " ".toList ++ lower two = lower (header one two) := by
  unfold header lower
  rw [List.map_append, List.map_append]
  rfl

theorem ite_has {α : Type} (key l : Text) (x y : α) : (if has (lower key) (lower l) = true then x else y) = if small key <:+: small l then x else y := by
  by_cases h : small key <:+: small l
  · exact (if_pos (has_iff.2 h)).trans (if_pos h).symm
  · exact (if_neg (fun e => h (has_iff.1 e))).trans (if_neg h).symm

theorem blockStep_spec (one two l : Text) (n : Nat) (b : Nat × Nat) :
    blockStep (lower one) (lower two) (lower l) n b =
      (if small (header one two) <:+: small l then n else b.1, if small one <:+: small l then (if b.1 ≠ 0 then n else 4294967295) else b.2) := by
  unfold blockStep
  rw [small_header, ite_has, ite_has]
  rfl

/-- What the search for a block computes. -/
theorem fold_spec (one two : Text) (A : List Text) :
    let r := A.foldl (blockAcc one two) ((0, 0), 0)
    r.2 = A.length ∧
    ((At A (header one two) r.1.1 ∧ ∀ j, At A (header one two) j → j ≤ r.1.1) ∨ (r.1.1 = 0 ∧ ∀ j, ¬ At A (header one two) j)) ∧
    ((∃ q, At A one q ∧ (∀ j, At A one j → j ≤ q) ∧
      ((r.1.2 = q ∧ ∃ p, 0 < p ∧ p < q ∧ At A (header one two) p) ∨ (r.1.2 = 4294967295 ∧ ∀ p, 0 < p → p < q → ¬ At A (header one two) p))) ∨
      (r.1.2 = 0 ∧ ∀ j, ¬ At A one j)) := by
  induction A using List.reverseRecOn with
  | nil =>
    refine ⟨rfl, Or.inr ⟨rfl, fun j h => ?_⟩, Or.inr ⟨rfl, fun j h => ?_⟩⟩ <;> exact absurd (at_lt h) (by simp)
  | append_singleton A l ih =>
    simp only [List.foldl_append, List.foldl_cons, List.foldl_nil] at ih ⊢
    generalize A.foldl (blockAcc one two) ((0, 0), 0) = r at ih ⊢
    obtain ⟨h1, h2, h3⟩ := ih
    unfold blockAcc
    rw [blockStep_spec]
    refine ⟨by simp [h1], ?_, ?_⟩
    · show (At _ _ (if _ then r.2 else r.1.1) ∧ _) ∨ _
      by_cases hh : small (header one two) <:+: small l
      · simp only [if_pos hh]
        left
        refine ⟨at_snoc.2 (Or.inr ⟨h1, hh⟩), fun j hj => ?_⟩
        rcases at_snoc.1 hj with hj | ⟨hj, -⟩
        · have := at_lt hj
          omega
        · omega
      · simp only [if_neg hh]
        rcases h2 with ⟨a, b⟩ | ⟨a, b⟩
        · left
          refine ⟨at_snoc.2 (Or.inl a), fun j hj => ?_⟩
          rcases at_snoc.1 hj with hj | ⟨-, hj⟩
          · exact b j hj
          · exact absurd hj hh
        · right
          refine ⟨a, fun j hj => ?_⟩
          rcases at_snoc.1 hj with hj | ⟨-, hj⟩
          · exact b j hj
          · exact absurd hj hh
    · by_cases hh : small one <:+: small l
      · simp only [if_pos hh]
        left
        refine ⟨A.length, at_snoc.2 (Or.inr ⟨rfl, hh⟩), fun j hj => ?_, ?_⟩
        · rcases at_snoc.1 hj with hj | ⟨hj, -⟩
          · exact (at_lt hj).le
          · omega
        · by_cases h0 : r.1.1 = 0
          · right
            refine ⟨by simp [h0], fun p hp hlt hat => ?_⟩
            rcases at_snoc.1 hat with hat | ⟨e, -⟩
            · rcases h2 with ⟨-, b⟩ | ⟨-, b⟩
              · have := b p hat
                omega
              · exact b p hat
            · omega
          · left
            refine ⟨by simp [h0, h1], r.1.1, Nat.pos_of_ne_zero h0, ?_, ?_⟩
            · rcases h2 with ⟨a, -⟩ | ⟨a, -⟩
              · exact at_lt a
              · exact absurd a h0
            · rcases h2 with ⟨a, -⟩ | ⟨a, -⟩
              · exact at_snoc.2 (Or.inl a)
              · exact absurd a h0
      · simp only [if_neg hh]
        have hone : ∀ j, At (A ++ [l]) one j ↔ At A one j := fun j => by
          rw [at_snoc]
          exact ⟨fun h => h.elim id (fun h => absurd h.2 hh), Or.inl⟩
        rcases h3 with ⟨q, a, b, c⟩ | ⟨a, b⟩
        · left
          refine ⟨q, (hone q).2 a, fun j hj => b j ((hone j).1 hj), ?_⟩
          have hq := at_lt a
          rcases c with ⟨c1, p, c2, c3, c4⟩ | ⟨c1, c2⟩
          · exact Or.inl ⟨c1, p, c2, c3, at_snoc.2 (Or.inl c4)⟩
          · refine Or.inr ⟨c1, fun p hp hlt hat => ?_⟩
            rcases at_snoc.1 hat with hat | ⟨e, -⟩
            · exact c2 p hp hlt hat
            · omega
        · right
          exact ⟨a, fun j hj => b j ((hone j).1 hj)⟩

theorem at_iff {ls : List Text} {key : Text} {i : Nat} : At (active ls) key i ↔ ∃ m, Speaks ls key i m := Iff.rfl

theorem header_section {one two m : Text} (h : small (header one two) <:+: small m) : small one <:+: small m := by
  refine List.IsInfix.trans ?_ h
  unfold header small
  rw [List.map_append, List.map_append, List.append_assoc]
  exact (List.prefix_append _ _).isInfix

theorem last_unique {ls : List Text} {key : Text} {i j : Nat} (h : Last ls key i) (h' : Last ls key j) : i = j := by
  obtain ⟨m, hm⟩ := h.1
  obtain ⟨m', hm'⟩ := h'.1
  exact Nat.le_antisymm (h'.2 i m hm) (h.2 j m' hm')

theorem block_fold (ls : List Text) (one two : Text) :
    Block ls one two ((active ls).foldl (blockAcc one two) ((0, 0), 0)).1.1 ((active ls).foldl (blockAcc one two) ((0, 0), 0)).1.2 := by
  obtain ⟨-, h2, h3⟩ := fold_spec one two (active ls)
  refine ⟨?_, ?_⟩
  · rcases h2 with ⟨h, h'⟩ | ⟨h, h'⟩
    · exact Or.inl ⟨h, fun j m hm => h' j ⟨m, hm⟩⟩
    · exact Or.inr ⟨h, fun i m hm => h' i ⟨m, hm⟩⟩
  · rcases h3 with ⟨q, h, h', c⟩ | ⟨h, h'⟩
    · refine Or.inl ⟨q, ⟨h, fun j m hm => h' j ⟨m, hm⟩⟩, ?_⟩
      rcases c with ⟨c1, p, c2, c3, ⟨m, c4⟩⟩ | ⟨c1, c2⟩
      · exact Or.inl ⟨c1, p, m, c2, c3, c4⟩
      · exact Or.inr ⟨c1, fun i m h1 h2 hm => c2 i h1 h2 ⟨m, hm⟩⟩
    · exact Or.inr ⟨h, fun i m hm => h' i ⟨m, hm⟩⟩

theorem block_unique {ls : List Text} {one two : Text} {a b a' b' : Nat} (h : Block ls one two a b) (h' : Block ls one two a' b') : a = a' ∧ b = b' := by
  obtain ⟨h1, h2⟩ := h
  obtain ⟨h1', h2'⟩ := h'
  constructor
  · rcases h1 with h1 | ⟨h1, n1⟩ <;> rcases h1' with h1' | ⟨h1', n1'⟩
    · exact last_unique h1 h1'
    · obtain ⟨m, hm⟩ := h1.1
      exact absurd hm (n1' _ m)
    · obtain ⟨m, hm⟩ := h1'.1
      exact absurd hm (n1 _ m)
    · rw [h1, h1']
  · rcases h2 with ⟨q, hq, c⟩ | ⟨h2, n2⟩ <;> rcases h2' with ⟨q', hq', c'⟩ | ⟨h2', n2'⟩
    · cases last_unique hq hq'
      rcases c with ⟨c1, i, m, x, y, z⟩ | ⟨c1, n⟩ <;> rcases c' with ⟨c1', i', m', x', y', z'⟩ | ⟨c1', n'⟩
      · rw [c1, c1']
      · exact absurd z (n' i m x y)
      · exact absurd z' (n i' m' x' y')
      · rw [c1, c1']
    · obtain ⟨m, hm⟩ := hq.1
      exact absurd hm (n2' _ m)
    · obtain ⟨m, hm⟩ := hq'.1
      exact absurd hm (n2 _ m)
    · rw [h2, h2']

theorem findBlock_sound {lib : Lib} (hs : Sane lib) {ls : List Text} {one two : Text} {b : Nat × Nat} (h : findBlock lib ls one two = ok b) :
    Block ls one two b.1 b.2 := by
  rw [blockFrom_sound hs _ _ _ h]
  exact block_fold ls one two

theorem findBlock_block {lib : Lib} {ls : List Text} (hc : Clean lib ls) {one two : Text} {a b : Nat} (h : Block ls one two a b) :
    findBlock lib ls one two = ok (a, b) := by
  unfold findBlock
  rw [blockFrom_fold hc]
  obtain ⟨h1, h2⟩ := block_unique h (block_fold ls one two)
  rw [h1, h2]

/-- The block of a header that occurs once and not in the first line. -/
theorem block_once {ls : List Text} {one two : Text} {s q : Nat} {m : Text} (hs : Speaks ls (header one two) s m)
    (hu : ∀ j m', Speaks ls (header one two) j m' → j = s) (h0 : 0 < s) (hq : Last ls one q) :
    Block ls one two s (if s = q then 4294967295 else q) := by
  have hsq : s ≤ q := hq.2 s m ⟨hs.1, header_section hs.2⟩
  refine ⟨Or.inl ⟨⟨m, hs⟩, fun j m' h => (hu j m' h).le⟩, Or.inl ⟨q, hq, ?_⟩⟩
  by_cases h : s = q
  · rw [if_pos h]
    refine Or.inr ⟨rfl, fun i m' _ hi hS => ?_⟩
    have := hu i m' hS
    omega
  · rw [if_neg h]
    exact Or.inl ⟨rfl, s, m, h0, by omega, hs⟩

end

end Verif.Input
