import Verif.Input.LayoutSpec
import Verif.Input.Frame
import Verif.Input.Complete

/-!
# Lemmas: the reader sees only the content of a file
-/

namespace Verif.Input

open Verif Outcome

noncomputable section

variable {lib : Lib}

/-! ### texts of lines -/

theorem small_small (l : Text) : small (small l) = small l := by
  unfold small
  rw [List.map_map]
  apply List.map_congr_left
  intro c _
  show c.toLower.toLower = c.toLower
  unfold Char.toLower
  split
  · rename_i h
    rw [dif_neg]
    rintro ⟨h1, h2⟩
    obtain ⟨h3, h4⟩ := h
    simp only [ge_iff_le, UInt32.le_iff_toNat_le, UInt32.toNat_add] at h1 h2 h3 h4
    have : c.val.toNat < 2 ^ 32 := UInt32.toNat_lt _
    have a1 : 'A'.val.toNat = 65 := rfl
    have a2 : 'Z'.val.toNat = 90 := rfl
    have a3 : ('a'.val - 'A'.val).toNat = 32 := rfl
    omega
  · rfl

/-- What a search may look for. -/
structure Key (k : Text) : Prop where
  percent : '%' ∉ small k
  last : ∃ a c, small k = a ++ [c] ∧ ¬ White c
  word : ∃ w ∈ vocabulary, w.toList <:+: small k

theorem white_percent : ¬ White '%' := by unfold White; decide

theorem cut_unique {l m m' : Text} (h : Cut l m) (h' : Cut l m') : m = m' := by rw [← cut_iff.1 h, ← cut_iff.1 h']

theorem trim_unique {t s t' s' : Text} (h : t ++ s = t' ++ s') (hs : ∀ c ∈ s, White c) (hs' : ∀ c ∈ s', White c) (ht : ∀ c ∈ t.getLast?, ¬ White c)
    (ht' : ∀ c ∈ t'.getLast?, ¬ White c) : t = t' := by
  have key : ∀ {t s t' s' : Text}, t ++ s = t' ++ s' → (∀ c ∈ s, White c) → (∀ c ∈ t'.getLast?, ¬ White c) → t.length ≤ t'.length → t = t' := by
    intro t s t' s' h hs ht' hl
    rcases List.append_eq_append_iff.1 h with ⟨u, hu, hv⟩ | ⟨u, hu, hv⟩
    · rcases List.eq_nil_or_concat u with rfl | ⟨u, c, rfl⟩
      · rw [hu, List.append_nil]
      · exfalso
        refine ht' c ?_ (hs c ?_)
        · rw [hu, List.concat_eq_append, ← List.append_assoc]
          simp
        · rw [hv, List.concat_eq_append]
          simp
    · have := congrArg List.length hu
      rw [List.length_append] at this
      have : u = [] := List.length_eq_zero_iff.1 (by omega)
      rw [hu, this, List.append_nil]
  rcases Nat.le_total t.length t'.length with hl | hl
  · exact key h hs ht' hl
  · exact (key h.symm hs' ht hl).symm

theorem gist_unique {l t t' : Text} (h : Gist l t) (h' : Gist l t') : t = t' := by
  obtain ⟨s, c, w, e⟩ := h
  obtain ⟨s', c', w', e'⟩ := h'
  exact trim_unique (cut_unique c c') w w' e e'

theorem wordsFrom_end {t s : Text} (hs : ∀ c ∈ s, White c) (w : Text) : wordsFrom w (t ++ s) = wordsFrom w t := by
  induction t generalizing w with
  | nil =>
    induction s generalizing w with
    | nil => rfl
    | cons c s ih =>
      have hs' : ∀ d ∈ s, White d := fun d hd => hs d (List.mem_cons_of_mem _ hd)
      have h0 : ∀ v, wordsFrom v s = wordsFrom v [] := ih hs'
      show wordsFrom w (c :: s) = _
      have hc := isSpace_iff.2 (hs c List.mem_cons_self)
      by_cases hw : w.isEmpty = true
      · simp [wordsFrom, hw, hc, h0]
      · simp [wordsFrom, hw, hc, h0]
  | cons c t ih => simp only [List.cons_append, wordsFrom, ih]

theorem gist_words {l t : Text} (h : Gist l t) : splitLine (small l) = wordsFrom [] t := by
  obtain ⟨s, c, w, -⟩ := h
  unfold splitLine
  rw [cut_iff.1 c, wordsFrom_end w]

theorem infix_percent {k a r : Text} (hk : '%' ∉ k) (hr : ∀ c ∈ r.head?, c = '%') (h : k <:+: a ++ r) : k <:+: a ∨ k <:+: r := by
  obtain ⟨u, v, h⟩ := h
  rcases List.append_eq_append_iff.1 h with ⟨x, hx, -⟩ | ⟨x, hx, hv⟩
  · left
    exact ⟨u, x, hx.symm⟩
  · rcases List.append_eq_append_iff.1 hx with ⟨y, hy, hz⟩ | ⟨y, hy, hz⟩
    · match x, hz, hv with
      | [], hz, _ =>
        left
        rw [List.append_nil] at hz
        exact ⟨u, [], by rw [List.append_nil, hy, hz]⟩
      | c :: x, hz, hv =>
        exfalso
        have : c = '%' := hr c (by rw [hv]; rfl)
        refine hk ?_
        rw [hz, ← this]
        simp
    · right
      rw [hv, hz]
      exact ⟨y, v, rfl⟩

theorem infix_trim {k t s : Text} (hk : ∃ a c, k = a ++ [c] ∧ ¬ White c) (hs : ∀ c ∈ s, White c) (h : k <:+: t ++ s) : k <:+: t := by
  obtain ⟨u, v, h⟩ := h
  obtain ⟨a, c, rfl, hc⟩ := hk
  rcases List.append_eq_append_iff.1 h with ⟨x, hx, -⟩ | ⟨x, hx, hv⟩
  · exact ⟨u, x, hx.symm⟩
  · rcases List.eq_nil_or_concat x with rfl | ⟨x, d, rfl⟩
    · exact ⟨u, [], by rw [List.append_nil, hx, List.append_nil]⟩
    · exfalso
      rw [List.concat_eq_append, ← List.append_assoc, ← List.append_assoc] at hx
      have := List.append_inj' hx rfl
      obtain ⟨-, e⟩ := this
      injection e with e
      subst e
      exact hc (hs c (by rw [hv, List.concat_eq_append]; simp))

theorem lower_percent {c : Char} (hc : c.toLower = '%') : c = '%' := by
  unfold Char.toLower at hc
  split at hc
  · rename_i hh
    exfalso
    have := congrArg Char.val hc
    have := congrArg UInt32.toNat this
    simp only [UInt32.le_iff_toNat_le] at hh
    have h32 : c.val.toNat < 2 ^ 32 := UInt32.toNat_lt _
    simp at this hh
    omega
  · exact hc

theorem cut_small {l m r : Text} (hm : '%' ∉ m) (hr : ∀ c ∈ r.head?, c = '%') (h : small l = m ++ r) : ∃ m' r', Cut l m' ∧ l = m' ++ r' ∧ small r' = r := by
  refine ⟨l.take m.length, l.drop m.length, ?_, (List.take_append_drop _ _).symm, ?_⟩
  · have hd : small (l.drop m.length) = r := by
      unfold small at *
      rw [List.map_drop, h, List.drop_left]
    have ht : small (l.take m.length) = m := by
      unfold small at *
      rw [List.map_take, h, List.take_left]
    refine ⟨fun hm' => hm ?_, l.drop m.length, (List.take_append_drop _ _).symm, fun c hc => ?_⟩
    · rw [← ht]
      exact List.mem_map.2 ⟨'%', hm', by decide⟩
    · apply lower_percent
      apply hr
      rw [← hd]
      unfold small
      rw [List.head?_map, hc]
      rfl
  · unfold small at *
    rw [List.map_drop, h, List.drop_left]

/-- A keyword is in a line with a harmless comment exactly if it is in its text. -/
theorem gist_key {l t k : Text} (hk : Key k) (hh : ∀ m r, Cut l m → l = m ++ r → ∀ w ∈ vocabulary, ¬ w.toList <:+: small r) (h : Gist l t) :
    small k <:+: small l ↔ small k <:+: t := by
  obtain ⟨s, ⟨c, r, e, hr⟩, w, -⟩ := h
  constructor
  · intro hi
    rw [e] at hi
    rcases infix_percent hk.percent hr hi with hi | hi
    · exact infix_trim hk.last w hi
    · exfalso
      obtain ⟨v, hv, hvk⟩ := hk.word
      obtain ⟨m', r', h1, h2, h3⟩ := cut_small c hr e
      exact hh m' r' h1 h2 v hv (h3.symm ▸ hvk.trans hi)
  · intro hi
    rw [e, List.append_assoc]
    exact hi.trans (List.prefix_append _ _).isInfix

theorem key_ne {k : Text} (hk : Key k) : small k ≠ [] := by
  obtain ⟨a, c, h, -⟩ := hk.last
  rw [h]
  simp

/-! ### lines that belong together -/

/-- `P` joins the lines of two lists that have the same text. -/
structure Paired (A A' : List Text) (P : Nat → Nat → Prop) : Prop where
  mate : ∀ {i i'}, P i i' → ∃ l l' t, A[i]? = some l ∧ A'[i']? = some l' ∧ t ≠ [] ∧ Gist l t ∧ Gist l' t
  left : ∀ {i l}, A[i]? = some l → (∃ i', P i i') ∨ Gist l []
  right : ∀ {i' l'}, A'[i']? = some l' → (∃ i, P i i') ∨ Gist l' []
  mono : ∀ {i i' j j'}, P i i' → P j j' → (i ≤ j ↔ i' ≤ j')

theorem Paired.symm {A A' : List Text} {P : Nat → Nat → Prop} (h : Paired A A' P) : Paired A' A (fun i i' => P i' i) where
  mate hp := by
    obtain ⟨l, l', t, a, b, c, d, e⟩ := h.mate hp
    exact ⟨l', l, t, b, a, c, e, d⟩
  left hl := h.right hl
  right hl := h.left hl
  mono hp hq := (h.mono hp hq).symm

theorem paired_skip {l : Text} {A A' : List Text} {P : Nat → Nat → Prop} (hl : Gist l []) (h : Paired A A' P) :
    Paired (l :: A) A' (fun i i' => ∃ j, i = j + 1 ∧ P j i') where
  mate := by
    rintro i i' ⟨j, rfl, hp⟩
    exact h.mate hp
  left := by
    intro i m hm
    match i, hm with
    | 0, hm =>
      cases hm
      exact Or.inr hl
    | i + 1, hm =>
      rcases h.left (i := i) hm with ⟨i', hp⟩ | hg
      · exact Or.inl ⟨i', i, rfl, hp⟩
      · exact Or.inr hg
  right := by
    intro i' m hm
    rcases h.right hm with ⟨i, hp⟩ | hg
    · exact Or.inl ⟨i + 1, i, rfl, hp⟩
    · exact Or.inr hg
  mono := by
    rintro i i' j j' ⟨k, rfl, hp⟩ ⟨k', rfl, hq⟩
    rw [← h.mono hp hq]
    omega

theorem paired_line {l l' t : Text} {A A' : List Text} {P : Nat → Nat → Prop} (ht : t ≠ []) (hl : Gist l t) (hl' : Gist l' t) (h : Paired A A' P) :
    Paired (l :: A) (l' :: A') (fun i i' => (i = 0 ∧ i' = 0) ∨ ∃ j j', i = j + 1 ∧ i' = j' + 1 ∧ P j j') where
  mate := by
    rintro i i' (⟨rfl, rfl⟩ | ⟨j, j', rfl, rfl, hp⟩)
    · exact ⟨l, l', t, rfl, rfl, ht, hl, hl'⟩
    · exact h.mate hp
  left := by
    intro i m hm
    match i, hm with
    | 0, _ => exact Or.inl ⟨0, Or.inl ⟨rfl, rfl⟩⟩
    | i + 1, hm =>
      rcases h.left (i := i) hm with ⟨i', hp⟩ | hg
      · exact Or.inl ⟨i' + 1, Or.inr ⟨i, i', rfl, rfl, hp⟩⟩
      · exact Or.inr hg
  right := by
    intro i m hm
    match i, hm with
    | 0, _ => exact Or.inl ⟨0, Or.inl ⟨rfl, rfl⟩⟩
    | i + 1, hm =>
      rcases h.right (i' := i) hm with ⟨i', hp⟩ | hg
      · exact Or.inl ⟨i' + 1, Or.inr ⟨i', i, rfl, rfl, hp⟩⟩
      · exact Or.inr hg
  mono := by
    rintro i i' j j' (⟨rfl, rfl⟩ | ⟨k, k', rfl, rfl, hp⟩) (⟨rfl, rfl⟩ | ⟨m, m', rfl, rfl, hq⟩)
    · omega
    · omega
    · omega
    · have := h.mono hp hq
      omega

theorem content_nil {A c : List Text} (h : Content A c) (hc : c = []) {i : Nat} {l : Text} (hl : A[i]? = some l) : Gist l [] := by
  induction h generalizing i with
  | nil => simp at hl
  | skip hg _ ih =>
    match i, hl with
    | 0, hl =>
      cases hl
      exact hg
    | i + 1, hl => exact ih hc hl
  | line => cases hc

theorem content_paired {A c : List Text} (h : Content A c) : ∀ {A' : List Text}, Content A' c → ∃ P, Paired A A' P := by
  induction h with
  | nil =>
    intro A' h'
    exact ⟨fun _ _ => False, ⟨fun h => h.elim, fun h => (by simp at h), fun hl => Or.inr (content_nil h' rfl hl), fun h => h.elim⟩⟩
  | skip hg _ ih =>
    intro A' h'
    obtain ⟨P, hP⟩ := ih h'
    exact ⟨_, paired_skip hg hP⟩
  | @line l t ls ts hl ht _ ih =>
    intro A' h'
    generalize he : t :: ts = c at h'
    induction h' with
    | nil => cases he
    | skip hg _ ih' =>
      obtain ⟨P, hP⟩ := ih' he
      exact ⟨_, (paired_skip hg hP.symm).symm⟩
    | line hl' ht' h' _ =>
      cases he
      obtain ⟨P, hP⟩ := ih h'
      exact ⟨_, paired_line ht hl hl' hP⟩

theorem gist_comment (r : Text) : Gist ('%' :: r) [] := ⟨[], ⟨by simp, small ('%' :: r), by simp, fun c hc => by cases hc; rfl⟩, by simp, by simp⟩

theorem content_active {ls c : List Text} (h : Content ls c) : Content (active ls) c := by
  induction h with
  | nil => exact Content.nil
  | @skip l ls ts hl _ ih =>
    by_cases hh : l.head? = some '%'
    · match l, hh with
      | _ :: r, hh =>
        cases hh
        rw [active_cons_comment]
        exact ih
    · rw [active_cons hh]
      exact Content.skip hl ih
  | @line l t ls ts hl ht _ ih =>
    by_cases hh : l.head? = some '%'
    · match l, hh with
      | _ :: r, hh =>
        cases hh
        exact absurd (gist_unique hl (gist_comment r)) ht
    · rw [active_cons hh]
      exact Content.line hl ht ih

/-- Joined lines have the number zero together. -/
theorem paired_zero {A A' : List Text} {P : Nat → Nat → Prop} (h : Paired A A' P)
    (ho : (∃ l t, A.head? = some l ∧ Gist l t ∧ t ≠ []) → ∃ l t, A'.head? = some l ∧ Gist l t ∧ t ≠ []) {i' : Nat} (hp : P 0 i') : i' = 0 := by
  obtain ⟨l, l', t, a, b, c, d, e⟩ := h.mate hp
  obtain ⟨m, u, f, g, k⟩ := ho ⟨l, t, by rw [List.head?_eq_getElem?]; exact a, d, c⟩
  rw [List.head?_eq_getElem?] at f
  rcases h.right f with ⟨j, hj⟩ | hg
  · have := (h.mono hp hj).1 (Nat.zero_le _)
    omega
  · exact absurd (gist_unique g hg) k

/-! ### the searches -/

/-- Two files whose lines are joined by `P`. -/
structure Twins (ls ls' : List Text) (P : Nat → Nat → Prop) : Prop where
  pair : Paired (active ls) (active ls') P
  zero : ∀ {i i'}, P i i' → (i = 0 ↔ i' = 0)
  harm : Harmless ls
  harm' : Harmless ls'
  len : ls.length ≤ 4294967296
  len' : ls'.length ≤ 4294967296

theorem Twins.symm {ls ls' : List Text} {P : Nat → Nat → Prop} (h : Twins ls ls' P) : Twins ls' ls (fun i i' => P i' i) :=
  ⟨h.pair.symm, fun hp => (h.zero hp).symm, h.harm', h.harm, h.len', h.len⟩

/-- The first lines to search correspond. -/
def Low (P : Nat → Nat → Prop) (a a' : Nat) : Prop := ∀ {i i'}, P i i' → (a ≤ i ↔ a' ≤ i')

/-- The last lines to search correspond. -/
def Top (P : Nat → Nat → Prop) (b b' : Nat) : Prop := ∀ {i i'}, P i i' → (i ≤ b ↔ i' ≤ b')

theorem mem_active {ls : List Text} {i : Nat} {l : Text} (h : (active ls)[i]? = some l) : l ∈ active ls := List.mem_of_getElem? h

theorem speaks_mate {ls ls' : List Text} {P : Nat → Nat → Prop} (h : Twins ls ls' P) {key : Text} (hk : Key key) {i : Nat} {m : Text} (hs : Speaks ls key i m) :
    ∃ i' m', P i i' ∧ Speaks ls' key i' m' ∧ splitLine (small m) = splitLine (small m') := by
  rcases h.pair.left hs.1 with ⟨i', hp⟩ | hg
  · obtain ⟨l, l', t, a, b, c, d, e⟩ := h.pair.mate hp
    have : m = l := by
      have := hs.1.symm.trans a
      injection this
    subst this
    refine ⟨i', l', hp, ⟨b, ?_⟩, by rw [gist_words d, gist_words e]⟩
    rw [gist_key hk (h.harm' l' (mem_active b)) e]
    exact (gist_key hk (h.harm m (mem_active a)) d).1 hs.2
  · exfalso
    have := (gist_key hk (h.harm m (mem_active hs.1)) hg).1 hs.2
    exact key_ne hk (List.infix_nil.1 this)

theorem first_mate {ls ls' : List Text} {P : Nat → Nat → Prop} (h : Twins ls ls' P) {key : Text} (hk : Key key) {a b a' b' : Nat} (hl : Low P a a')
    (ht : Top P b b') {i : Nat} {m : Text} (hf : First ls key a b i m) :
    ∃ i' m', First ls' key a' b' i' m' ∧ splitLine (small m) = splitLine (small m') := by
  obtain ⟨i', m', hp, hs, e⟩ := speaks_mate h hk hf.1
  refine ⟨i', m', ⟨hs, (hl hp).1 hf.2.1, (ht hp).1 hf.2.2.1, fun j' n' hj hj' hS => ?_⟩, e⟩
  obtain ⟨j, n, hq, hT, -⟩ := speaks_mate h.symm hk hS
  refine hf.2.2.2 j n ((hl hq).2 hj) ?_ hT
  have := h.pair.mono hp hq
  omega

theorem silent_mate {ls ls' : List Text} {P : Nat → Nat → Prop} (h : Twins ls ls' P) {key : Text} (hk : Key key) {a b a' b' : Nat} (hl : Low P a a')
    (ht : Top P b b') (hf : Silent ls key a b) : Silent ls' key a' b' := by
  intro i' m' ha hb hS
  obtain ⟨i, m, hp, hs, -⟩ := speaks_mate h.symm hk hS
  exact hf i m ((hl hp).2 ha) ((ht hp).2 hb) hs

theorem last_mate {ls ls' : List Text} {P : Nat → Nat → Prop} (h : Twins ls ls' P) {key : Text} (hk : Key key) {i : Nat} (hf : Last ls key i) :
    ∃ i', P i i' ∧ Last ls' key i' := by
  obtain ⟨⟨m, hs⟩, hm⟩ := hf
  obtain ⟨i', m', hp, hs', -⟩ := speaks_mate h hk hs
  refine ⟨i', hp, ⟨m', hs'⟩, fun j' n' hS => ?_⟩
  obtain ⟨j, n, hq, hT, -⟩ := speaks_mate h.symm hk hS
  exact (h.pair.mono hq hp).1 (hm j n hT)

theorem none_mate {ls ls' : List Text} {P : Nat → Nat → Prop} (h : Twins ls ls' P) {key : Text} (hk : Key key) (hn : ∀ i m, ¬ Speaks ls key i m) (i : Nat) (m : Text) :
    ¬ Speaks ls' key i m := fun hS => by
  obtain ⟨j, n, -, hT, -⟩ := speaks_mate h.symm hk hS
  exact hn j n hT

theorem top_max {ls ls' : List Text} {P : Nat → Nat → Prop} (h : Twins ls ls' P) : Top P 4294967295 4294967295 := by
  intro i i' hp
  obtain ⟨l, l', t, a, b, -⟩ := h.pair.mate hp
  have h1 := (List.getElem?_eq_some_iff.1 a).1
  have h2 := (List.getElem?_eq_some_iff.1 b).1
  have h3 : (active ls).length ≤ ls.length := List.length_filter_le _ _
  have h4 : (active ls').length ≤ ls'.length := List.length_filter_le _ _
  have := h.len
  have := h.len'
  constructor <;> intro <;> omega

theorem block_mate {ls ls' : List Text} {P : Nat → Nat → Prop} (h : Twins ls ls' P) {one two : Text} (h1 : Key one) (h2 : Key (header one two)) {a b : Nat}
    (hb : Block ls one two a b) : ∃ a' b', Block ls' one two a' b' ∧ Low P a a' ∧ Top P b b' := by
  obtain ⟨ha, hb⟩ := hb
  have ka : ∃ a', (Last ls' (header one two) a' ∨ (a' = 0 ∧ ∀ i m, ¬ Speaks ls' (header one two) i m)) ∧ Low P a a' := by
    rcases ha with ha | ⟨rfl, ha⟩
    · obtain ⟨a', hp, hl⟩ := last_mate h h2 ha
      exact ⟨a', Or.inl hl, fun hq => h.pair.mono hp hq⟩
    · exact ⟨0, Or.inr ⟨rfl, none_mate h h2 ha⟩, fun _ => by simp⟩
  have kb : ∃ b', ((∃ q, Last ls' one q ∧ ((b' = q ∧ ∃ i m, 0 < i ∧ i < q ∧ Speaks ls' (header one two) i m) ∨
      (b' = 4294967295 ∧ ∀ i m, 0 < i → i < q → ¬ Speaks ls' (header one two) i m))) ∨ (b' = 0 ∧ ∀ i m, ¬ Speaks ls' one i m)) ∧ Top P b b' := by
    rcases hb with ⟨q, hq, c⟩ | ⟨rfl, hb⟩
    · obtain ⟨q', hp, hl⟩ := last_mate h h1 hq
      rcases c with ⟨rfl, i, m, x, y, z⟩ | ⟨rfl, c⟩
      · obtain ⟨i', m', hi, hs, -⟩ := speaks_mate h h2 z
        refine ⟨q', Or.inl ⟨q', hl, Or.inl ⟨rfl, i', m', ?_, ?_, hs⟩⟩, fun hq => h.pair.mono hq hp⟩
        · have := h.zero hi
          omega
        · have := h.pair.mono hp hi
          omega
      · refine ⟨4294967295, Or.inl ⟨q', hl, Or.inr ⟨rfl, fun i' m' x y hS => ?_⟩⟩, top_max h⟩
        obtain ⟨i, m, hi, hs, -⟩ := speaks_mate h.symm h2 hS
        refine c i m ?_ ?_ hs
        · have := h.zero hi
          omega
        · have := h.pair.mono hp hi
          omega
    · refine ⟨0, Or.inr ⟨rfl, none_mate h h1 hb⟩, fun hp => ?_⟩
      have := h.zero hp
      omega
  obtain ⟨a', x, y⟩ := ka
  obtain ⟨b', z, w⟩ := kb
  exact ⟨a', b', ⟨x, z⟩, y, w⟩

/-- The words found by a search. -/
def look (lib : Lib) (ls : List Text) (key : Text) (a b : Nat) (opt : Bool) : Outcome (List Text) := do
  let l ← findKeyword lib ls key a b opt
  ok (splitLine l)

theorem look_mate {ls ls' : List Text} {P : Nat → Nat → Prop} (h : Twins ls ls' P) (hc : Clean lib ls) (hc' : Clean lib ls') {key : Text} (hk : Key key)
    {a b a' b' : Nat} (hl : Low P a a') (ht : Top P b b') (opt : Bool) : look lib ls key a b opt = look lib ls' key a' b' opt := by
  unfold look
  by_cases hS : Silent ls key a b
  · rw [findKeyword_silent hc opt hS, findKeyword_silent hc' opt (silent_mate h hk hl ht hS)]
  · have : ∃ i m, First ls key a b i m := by
      rcases findFrom_total hc (key := key) (low := a) (top := b) (opt := false) (n := 0) with ⟨l, hl⟩ | ⟨-, -, e⟩
      · rcases findKeyword_sound hc.1 hl with ⟨j, m', h', -⟩ | ⟨e, -⟩
        · exact ⟨j, m', h'⟩
        · cases e
      · exfalso
        refine hS (fun i m x y z => e i m ?_ ?_ z.1 z.2)
        · omega
        · omega
    obtain ⟨i, m, hf⟩ := this
    obtain ⟨i', m', hf', e⟩ := first_mate h hk hl ht hf
    rw [findKeyword_first hc opt hf, findKeyword_first hc' opt hf', ok_bind, ok_bind, e]

/-- Two files in which every search finds the same words. -/
structure Agree (lib : Lib) (ls ls' : List Text) : Prop where
  card : ∀ {key}, Key key → ∀ opt, look lib ls key 0 maxU opt = look lib ls' key 0 maxU opt
  block : ∀ {one two}, Key one → Key (header one two) → ∃ b b', findBlock lib ls one two = ok b ∧ findBlock lib ls' one two = ok b' ∧
    ∀ {key}, Key key → look lib ls key b.1 b.2 false = look lib ls' key b'.1 b'.2 false

theorem twins_agree {ls ls' : List Text} {P : Nat → Nat → Prop} (h : Twins ls ls' P) (hc : Clean lib ls) (hc' : Clean lib ls') : Agree lib ls ls' where
  card hk opt := look_mate h hc hc' hk (fun _ => by simp) (top_max h) opt
  block h1 h2 := by
    obtain ⟨a', b', hb, hl, ht⟩ := block_mate h h1 h2 (block_fold ls _ _)
    exact ⟨_, (a', b'), findBlock_block hc (block_fold ls _ _), findBlock_block hc' hb, fun hk => look_mate h hc hc' hk hl ht false⟩

theorem content_agree {ls ls' c : List Text} (hc : Clean lib ls) (hc' : Clean lib ls') (h : Content ls c) (h' : Content ls' c) (hh : Harmless ls) (hh' : Harmless ls')
    (ho : Opens ls ↔ Opens ls') (hl : ls.length ≤ 4294967296) (hl' : ls'.length ≤ 4294967296) : Agree lib ls ls' := by
  obtain ⟨P, hP⟩ := content_paired (content_active h) (content_active h')
  refine twins_agree ⟨hP, fun {i i'} hp => ⟨?_, ?_⟩, hh, hh', hl, hl'⟩ hc hc'
  · rintro rfl
    exact paired_zero hP ho.1 hp
  · rintro rfl
    exact paired_zero hP.symm ho.2 hp

end

end Verif.Input
