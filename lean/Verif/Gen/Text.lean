import Verif.Gen.Spec
import Verif.Input.TextLemmas
import Verif.Input.CompleteProps
import Mathlib.Data.List.Basic

/-! # Lemmas about lines of text: keywords with brackets, and the data of a material -/

namespace Verif.Gen

open Verif Input Finset

noncomputable section

/-! ### the lines of a material in a file -/

theorem speaks_split {lines L R : List Text} {h : Text} (hA : active lines = L ++ h :: R) {key : Text} : (small key <:+: small h) → Speaks lines key L.length h :=
  fun hk => ⟨by rw [hA]; simp, hk⟩

theorem last_split (p : Text → Prop) (l : List Text) : (∀ m ∈ l, ¬ p m) ∨ ∃ a h b, l = a ++ h :: b ∧ p h ∧ ∀ m ∈ b, ¬ p m := by
  induction l with
  | nil => exact .inl (by simp)
  | cons x l ih =>
    rcases ih with ih | ⟨a, h, b, rfl, hp, hb⟩
    · by_cases hx : p x
      · exact .inr ⟨[], x, l, rfl, hx, ih⟩
      · exact .inl (by simpa [hx] using ih)
    · exact .inr ⟨x :: a, h, b, rfl, hp, hb⟩

theorem first_split (p : Text → Prop) (l : List Text) (h : ∃ m ∈ l, p m) : ∃ a x b, l = a ++ x :: b ∧ p x ∧ ∀ m ∈ a, ¬ p m := by
  induction l with
  | nil => simp at h
  | cons x l ih =>
    by_cases hx : p x
    · exact ⟨[], x, l, rfl, hx, by simp⟩
    · obtain ⟨a, y, b, rfl, hp, hb⟩ := ih (by simpa [hx] using h)
      exact ⟨x :: a, y, b, rfl, hp, by simpa [hx] using hb⟩

theorem getElem_split {α : Type} {L R : List α} {h m : α} {j : Nat} (hj : (L ++ h :: R)[j]? = some m) :
    (j < L.length ∧ m ∈ L) ∨ (j = L.length ∧ m = h) ∨ (L.length < j ∧ m ∈ R) := by
  rcases lt_trichotomy j L.length with h1 | h1 | h1
  · left
    rw [List.getElem?_append_left h1] at hj
    exact ⟨h1, List.mem_of_getElem? hj⟩
  · subst h1
    simp at hj
    exact .inr (.inl ⟨rfl, hj.symm⟩)
  · right; right
    rw [List.getElem?_append_right (by omega)] at hj
    obtain ⟨k, hk⟩ : ∃ k, j - L.length = k + 1 := ⟨j - L.length - 1, by omega⟩
    rw [hk, List.getElem?_cons_succ] at hj
    exact ⟨h1, List.mem_of_getElem? hj⟩

/-- A header, some lines about other things, and the line with the keyword: the data of the material. -/
theorem law_split {lib : Lib} {lines L1 L2 L3 : List Text} {h line w key : Text} {n : Nat} {ws : List Text} {v : Vec ℝ}
    (hA : active lines = L1 ++ h :: (L2 ++ line :: L3)) (hlen : lines.length ≤ 4294967296) (h1 : L1 ≠ []) (hh : small (header "material".toList w) <:+: small h)
    (hm : ∀ m ∈ L1 ++ (L2 ++ line :: L3), ¬ small (header "material".toList w) <:+: small m) (hk : small key <:+: small line)
    (hk2 : ∀ m ∈ h :: L2, ¬ small key <:+: small m) (hmat : ∀ m ∈ L2 ++ [line], ¬ small "material".toList <:+: small m) (hs : Says (small line) ws) (hn : n ≤ ws.length)
    (hr : Reads lib (ws.drop n) v.toList) : Law lib lines w key n v := by
  have hact : (active lines).length ≤ lines.length := List.length_filter_le _ _
  have hpre : small "material".toList <:+: small (header "material".toList w) := by
    refine ⟨[], small (" ".toList ++ w), ?_⟩
    simp [header, small]
  have hlast : Last lines (header "material".toList w) L1.length := by
    refine ⟨⟨h, speaks_split hA hh⟩, fun j m hj => ?_⟩
    rcases getElem_split (hA ▸ hj.1) with h2 | h2 | h2
    · omega
    · omega
    · exact absurd hj.2 (hm m (List.mem_append_right _ h2.2))
  have hsmall : L1.length + 1 + L2.length < (active lines).length := by rw [hA]; simp; omega
  have hline : Speaks lines key (L1.length + 1 + L2.length) line := by
    have : active lines = (L1 ++ h :: L2) ++ line :: L3 := by rw [hA]; simp
    have := speaks_split this hk
    simpa [Nat.add_assoc, Nat.add_comm, Nat.add_left_comm] using this
  have hbefore : ∀ j m', L1.length ≤ j → j < L1.length + 1 + L2.length → ¬ Speaks lines key j m' := by
    intro j m' hj1 hj2 hsp
    have hA' : active lines = (L1 ++ h :: L2) ++ line :: L3 := by rw [hA]; simp
    have hj3 := hsp.1
    rcases getElem_split (hA ▸ hsp.1) with h2 | h2 | h2
    · omega
    · exact hk2 m' (by simp [h2.2]) hsp.2
    · rw [hA', List.getElem?_append_left (by simp; omega), List.getElem?_append_right (by omega)] at hj3
      obtain ⟨k, hk⟩ : ∃ k, j - L1.length = k + 1 := ⟨j - L1.length - 1, by omega⟩
      rw [hk, List.getElem?_cons_succ] at hj3
      exact hk2 m' (by simp [List.mem_of_getElem? hj3]) hsp.2
  have hpos : 0 < L1.length := List.length_pos_iff.2 h1
  rcases last_split (fun m => small "material".toList <:+: small m) L3 with h3 | ⟨a, h', b, rfl, hp, hb⟩
  · -- the last material
    refine ⟨L1.length, 4294967295, ws, ⟨.inl hlast, .inl ⟨L1.length, ⟨⟨h, speaks_split hA (hpre.trans hh)⟩, fun j m hj => ?_⟩, .inr ⟨rfl, fun i m hi hi' hsp => ?_⟩⟩⟩,
      ⟨_, _, ⟨hline, by omega, by omega, hbefore⟩, hs⟩, hn, hr⟩
    · rcases getElem_split (hA ▸ hj.1) with h2 | h2 | h2
      · omega
      · omega
      · rcases List.mem_append.1 h2.2 with h4 | h4
        · exact absurd hj.2 (hmat m (by simp [h4]))
        · rcases List.mem_cons.1 h4 with rfl | h4
          · exact absurd hj.2 (hmat m (by simp))
          · exact absurd hj.2 (h3 m h4)
    · rcases getElem_split (hA ▸ hsp.1) with h2 | h2 | h2
      · exact hm m (List.mem_append_left _ h2.2) hsp.2
      · omega
      · omega
  · have hA' : active lines = (L1 ++ h :: (L2 ++ line :: a)) ++ h' :: b := by rw [hA]; simp
    refine ⟨L1.length, (L1 ++ h :: (L2 ++ line :: a)).length, ws, ⟨.inl hlast, .inl ⟨_, ⟨⟨h', speaks_split hA' hp⟩, fun j m hj => ?_⟩,
      .inl ⟨rfl, L1.length, h, hpos, by simp, speaks_split hA hh⟩⟩⟩, ⟨_, _, ⟨hline, by omega, by simp; omega, hbefore⟩, hs⟩, hn, hr⟩
    rcases getElem_split (hA' ▸ hj.1) with h2 | h2 | h2
    · omega
    · omega
    · exact absurd hj.2 (hb m h2.2)

/-! ### keywords with brackets -/

theorem paren {n d p q r : Text} (hp : '(' ∉ p) (hqr : '(' ∉ q ++ ')' :: r) (hd : ')' ∉ d) (hq : ')' ∉ q)
    (h : n ++ '(' :: (d ++ [')']) <:+: p ++ '(' :: (q ++ ')' :: r)) : n <:+ p ∧ d = q := by
  obtain ⟨s, t, hst⟩ := h
  have h1 : p ++ '(' :: (q ++ ')' :: r) = (s ++ n) ++ '(' :: (d ++ ')' :: t) := by rw [← hst]; simp
  obtain ⟨h2, -, h3⟩ := (List.append_cons_inj_of_notMem hp hqr).1 h1
  refine ⟨⟨s, h2.symm⟩, ?_⟩
  have key : ∀ (d q t r : Text), ')' ∉ d → ')' ∉ q → q ++ ')' :: r = d ++ ')' :: t → d = q := by
    intro d
    induction d with
    | nil =>
      intro q t r _ hq he
      cases q with
      | nil => rfl
      | cons x q => simp only [List.nil_append, List.cons_append, List.cons.injEq] at he; exact absurd (by simp [he.1]) hq
    | cons y d ih =>
      intro q t r hd hq he
      cases q with
      | nil => simp only [List.nil_append, List.cons_append, List.cons.injEq] at he; exact absurd (by simp [← he.1]) hd
      | cons x q =>
        simp only [List.cons_append, List.cons.injEq] at he
        rw [he.1]
        exact congrArg (y :: ·) (ih q t r (fun h' => hd (by simp [h'])) (fun h' => hq (by simp [h'])) he.2)
  exact key d q t r hd hq h3

theorem no_paren {n d m : Text} (h : '(' ∉ m) : ¬ n ++ '(' :: d <:+: m := fun h' => h (h'.subset (by simp))

/-! ### numbers -/

/-- The digits of a number. -/
def digits (n : Nat) : Text := (toString n).toList

theorem digits_eq (n : Nat) : digits n = Nat.toDigits 10 n := by
  unfold digits; rw [Nat.toString_eq_repr, Nat.toList_repr]

theorem digits_digit {n : Nat} {c : Char} (h : c ∈ digits n) : Digit c :=
  isDigit_iff.1 (Nat.isDigit_of_mem_toDigits (by omega) (by omega) (digits_eq n ▸ h))

theorem digits_inj {m n : Nat} (h : digits m = digits n) : m = n := by
  rw [digits_eq, digits_eq] at h
  rw [← Nat.ofDigitChars_toDigits (b := 10) (n := m) (by omega) (by omega), h, Nat.ofDigitChars_toDigits (by omega) (by omega)]

theorem digits_ne (n : Nat) : digits n ≠ [] := by
  rw [digits_eq]
  rcases Nat.lt_or_ge n 10 with h | h
  · rw [Nat.toDigits_of_lt_base h]; simp
  · rw [Nat.toDigits_of_base_le (by omega) h]; simp

/-- A character of a written number or of a word of one. -/
def Plain (c : Char) : Prop := Digit c ∨ c ∈ ['+', '-', '.', 'e']

theorem plain_lower {c : Char} (h : Plain c) : c.toLower = c := by
  unfold Plain Digit at h
  simp only [List.mem_cons, List.not_mem_nil, or_false] at h
  rcases h with (rfl | rfl | rfl | rfl | rfl | rfl | rfl | rfl | rfl | rfl) | (rfl | rfl | rfl | rfl) <;> decide

theorem plain_ne {c : Char} (h : Plain c) : ¬ White c ∧ c ≠ '%' ∧ c ≠ '(' ∧ c ≠ ')' ∧ c ≠ ',' ∧ c ≠ 'l' ∧ c ≠ 'm' := by
  unfold Plain Digit at h
  unfold White
  simp only [List.mem_cons, List.not_mem_nil, or_false] at h
  rcases h with (rfl | rfl | rfl | rfl | rfl | rfl | rfl | rfl | rfl | rfl) | (rfl | rfl | rfl | rfl) <;> decide

theorem small_plain {w : Text} (h : ∀ c ∈ w, Plain c) : small w = w := by
  exact (List.map_congr_left (f := Char.toLower) (g := id) (fun c hc => plain_lower (h c hc))).trans (List.map_id w)

theorem small_digits (n : Nat) : small (digits n) = digits n := small_plain (fun _ hc => .inl (digits_digit hc))

theorem small_append (a b : Text) : small (a ++ b) = small a ++ small b := List.map_append

theorem small_cons (c : Char) (b : Text) : small (c :: b) = c.toLower :: small b := rfl

theorem squeezed_word {w l m : Text} (hw : ∀ c ∈ w, ¬ White c) (h : Squeezed l m) : Squeezed (w ++ l) (w ++ m) := by
  induction w with
  | nil => exact h
  | cons c w ih => exact .char (hw c (by simp)) (ih (fun d hd => hw d (by simp [hd])))

theorem stored_line {l m m' : Text} (hl : ∀ c ∈ l.head?, c ≠ ' ') (hs : Squeezed l m)
    (h : (∀ c ∈ l, c.toNat < 128) ∧ ∃ s k, l = s ++ k ∧ (∀ c ∈ s, c = ' ') ∧ (∀ c ∈ k.head?, c ≠ ' ') ∧ Squeezed k m') : m' = m := by
  obtain ⟨-, s, k, rfl, hs', -, hk⟩ := h
  cases s with
  | nil => rw [← squeezed_iff.1 hs, ← squeezed_iff.1 hk]; rfl
  | cons c s => exact absurd (hs' c (by simp)) (hl c (by simp))

end

end Verif.Gen
