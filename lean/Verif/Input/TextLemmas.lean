import Verif.Input.Spec
import Verif.Input.Model
import Mathlib.Data.List.TakeWhile
import Mathlib.Tactic.IntervalCases

/-!
# Lemmas on text: keywords, words, numbers
-/

namespace Verif.Input

open Verif Outcome

noncomputable section

theorem lower_eq (l : Text) : lower l = small l := rfl

theorem has_iff {key l : Text} : has key l = true ↔ key <:+: l := by
  induction l with
  | nil => simp [has, List.isEmpty_iff]
  | cons c l ih =>
    rw [has, Bool.or_eq_true, ih, List.infix_cons_iff, List.isPrefixOf_iff_prefix]

theorem has_false {key l : Text} : has key l = false ↔ ¬ key <:+: l := by
  rw [← has_iff, Bool.not_eq_true]

theorem isSpace_iff {c : Char} : isSpace c = true ↔ White c := by
  unfold isSpace White
  simp [or_assoc]

theorem isSpace_false {c : Char} : isSpace c = false ↔ ¬ White c := by
  rw [← isSpace_iff, Bool.not_eq_true]

/-! ### comments -/

theorem active_cons_comment (r : Text) (ls : List Text) : active (('%' :: r) :: ls) = active ls := by
  unfold active
  rw [List.filter_cons]
  simp

theorem active_cons {l : Text} (h : l.head? ≠ some '%') (ls : List Text) : active (l :: ls) = l :: active ls := by
  unfold active
  rw [List.filter_cons]
  simp [h]

theorem comment_cases {lib : Lib} (hs : Sane lib) (l : Text) :
    (comment lib l = ok true ∧ l.head? = some '%') ∨ (comment lib l = ok false ∧ l.head? ≠ some '%') ∨
    (l = [] ∧ ∀ c, lib.blank ≠ ok c) := by
  match l with
  | [] =>
    cases h : lib.blank with
    | ok c =>
      refine Or.inr (Or.inl ⟨?_, by simp⟩)
      show (lib.blank >>= fun c => ok (c == '%')) = _
      rw [h, ok_bind]
      have := hs c h
      simp [this]
    | _ => exact Or.inr (Or.inr ⟨rfl, by simp⟩)
  | c :: l =>
    by_cases h : c = '%'
    · exact Or.inl ⟨by simp [comment, h], by simp [h]⟩
    · exact Or.inr (Or.inl ⟨by simp [comment, h], by simp [h]⟩)

theorem comment_not_ok {lib : Lib} (h : ∀ c, lib.blank ≠ ok c) (b : Bool) : comment lib [] ≠ ok b := by
  intro e
  obtain ⟨c, hc, -⟩ := bind_eq_ok.1 e
  exact h c hc

theorem clean_cons {lib : Lib} {l : Text} {ls : List Text} (h : Clean lib (l :: ls)) : Clean lib ls :=
  ⟨h.1, fun m => h.2 (List.mem_cons_of_mem _ m)⟩

theorem comment_clean {lib : Lib} {l : Text} {ls : List Text} (h : Clean lib (l :: ls)) :
    (comment lib l = ok true ∧ l.head? = some '%') ∨ (comment lib l = ok false ∧ l.head? ≠ some '%') := by
  rcases comment_cases h.1 l with h1 | h1 | ⟨h1, h2⟩
  · exact Or.inl h1
  · exact Or.inr h1
  · obtain ⟨c, hc⟩ := h.2 (by simp [h1])
    exact absurd hc (h2 c)

/-! ### the search for a keyword -/

theorem findFrom_ok {lib : Lib} (hs : Sane lib) {key : Text} {low top : Nat} {opt : Bool} {ls : List Text} {n : Nat} {l : Text}
    (h : findFrom lib key low top opt n ls = ok l) :
    (∃ i m, (active ls)[i]? = some m ∧ small key <:+: small m ∧ low ≤ n + i ∧ n + i ≤ top ∧
      (∀ j m', j < i → low ≤ n + j → (active ls)[j]? = some m' → ¬ small key <:+: small m') ∧ l = small m) ∨
    (opt = true ∧ l = [] ∧ ∀ i m, low ≤ n + i → n + i ≤ top → (active ls)[i]? = some m → ¬ small key <:+: small m) := by
  induction ls generalizing n with
  | nil =>
    unfold findFrom at h
    cases opt
    · simp at h
    · right
      simp only [if_true] at h
      cases h
      exact ⟨rfl, rfl, fun i m _ _ e => by simp [active] at e⟩
  | cons a ls ih =>
    unfold findFrom at h
    obtain ⟨c, hc, h⟩ := bind_eq_ok.1 h
    rcases comment_cases hs a with ⟨h1, h2⟩ | ⟨h1, h2⟩ | ⟨h1, h2⟩
    · rw [h1] at hc
      cases hc
      simp only [if_true] at h
      obtain ⟨r, rfl⟩ : ∃ r, a = '%' :: r := by
        cases a with
        | nil => simp at h2
        | cons x r => simp at h2; exact ⟨r, by rw [h2]⟩
      rw [active_cons_comment]
      exact ih h
    · rw [h1] at hc
      cases hc
      rw [active_cons h2]
      simp only [Bool.false_eq_true, if_false] at h
      split at h
      · rename_i hh
        simp only [Bool.and_eq_true, decide_eq_true_eq] at hh
        cases h
        left
        exact ⟨0, a, rfl, has_iff.1 hh.1, hh.2.1, hh.2.2, fun j _ hj => absurd hj (by omega), rfl⟩
      · rename_i hh
        have hh' : low ≤ n → n ≤ top → ¬ small key <:+: small a := by
          intro x y z
          apply hh
          simp only [Bool.and_eq_true, decide_eq_true_eq]
          exact ⟨has_iff.2 z, x, y⟩
        rcases ih h with ⟨i, m, e1, e2, e3, e4, e5, e6⟩ | ⟨e1, e2, e3⟩
        · left
          refine ⟨i + 1, m, e1, e2, by omega, by omega, ?_, e6⟩
          intro j m' hj hlow e
          cases j with
          | zero =>
            cases e
            exact hh' hlow (by omega)
          | succ j => exact e5 j m' (by omega) (by omega) e
        · right
          refine ⟨e1, e2, ?_⟩
          intro i m hlow htop e
          cases i with
          | zero =>
            cases e
            exact hh' hlow htop
          | succ i => exact e3 i m (by omega) (by omega) e
    · exact absurd (h1 ▸ hc) (comment_not_ok h2 c)

theorem findFrom_total {lib : Lib} {key : Text} {low top : Nat} {opt : Bool} {ls : List Text} (hc : Clean lib ls) {n : Nat} :
    (∃ l, findFrom lib key low top opt n ls = ok l) ∨
    (opt = false ∧ findFrom lib key low top opt n ls = exit ∧
      ∀ i m, low ≤ n + i → n + i ≤ top → (active ls)[i]? = some m → ¬ small key <:+: small m) := by
  induction ls generalizing n with
  | nil =>
    unfold findFrom
    cases opt
    · exact Or.inr ⟨rfl, rfl, fun i m _ _ e => by simp [active] at e⟩
    · exact Or.inl ⟨[], rfl⟩
  | cons a ls ih =>
    unfold findFrom
    rcases comment_clean hc with ⟨h1, h2⟩ | ⟨h1, h2⟩
    · rw [h1, ok_bind]
      simp only [if_true]
      obtain ⟨r, rfl⟩ : ∃ r, a = '%' :: r := by
        cases a with
        | nil => simp at h2
        | cons x r => simp at h2; exact ⟨r, by rw [h2]⟩
      rw [active_cons_comment]
      exact ih (clean_cons hc)
    · rw [h1, ok_bind, active_cons h2]
      simp only [Bool.false_eq_true, if_false]
      split
      · exact Or.inl ⟨_, rfl⟩
      · rename_i hh
        have hh' : low ≤ n → n ≤ top → ¬ small key <:+: small a := by
          intro x y z
          apply hh
          simp only [Bool.and_eq_true, decide_eq_true_eq]
          exact ⟨has_iff.2 z, x, y⟩
        rcases ih (clean_cons hc) (n := n + 1) with h | ⟨e1, e2, e3⟩
        · exact Or.inl h
        · refine Or.inr ⟨e1, e2, ?_⟩
          intro i m hlow htop e
          cases i with
          | zero =>
            cases e
            exact hh' hlow htop
          | succ i => exact e3 i m (by omega) (by omega) e

theorem findKeyword_sound {lib : Lib} (hs : Sane lib) {ls : List Text} {key : Text} {low top : Nat} {opt : Bool} {l : Text}
    (h : findKeyword lib ls key low top opt = ok l) :
    (∃ i m, First ls key low top i m ∧ l = small m) ∨ (opt = true ∧ l = [] ∧ Silent ls key low top) := by
  rcases findFrom_ok hs h with ⟨i, m, e1, e2, e3, e4, e5, e6⟩ | ⟨e1, e2, e3⟩
  · left
    rw [Nat.zero_add] at e3 e4
    exact ⟨i, m, ⟨⟨e1, e2⟩, e3, e4, fun j m' hj hi hS => e5 j m' hi (by omega) hS.1 hS.2⟩, e6⟩
  · right
    exact ⟨e1, e2, fun i m hl ht hS => e3 i m (by omega) (by omega) hS.1 hS.2⟩

theorem first_unique {ls : List Text} {key : Text} {a b i j : Nat} {m m' : Text} (h : First ls key a b i m) (h' : First ls key a b j m') :
    i = j ∧ m = m' := by
  have hij : i = j := by
    rcases Nat.lt_trichotomy i j with c | c | c
    · exact absurd h.1 (h'.2.2.2 i m h.2.1 c)
    · exact c
    · exact absurd h'.1 (h.2.2.2 j m' h'.2.1 c)
  subst hij
  have := h.1.1.symm.trans h'.1.1
  exact ⟨rfl, by injection this⟩

theorem findKeyword_first {lib : Lib} {ls : List Text} (hc : Clean lib ls) {key : Text} {low top : Nat} (opt : Bool) {i : Nat} {m : Text}
    (h : First ls key low top i m) : findKeyword lib ls key low top opt = ok (small m) := by
  rcases findFrom_total hc (key := key) (low := low) (top := top) (opt := opt) (n := 0) with ⟨l, hl⟩ | ⟨-, -, e⟩
  · rcases findKeyword_sound hc.1 hl with ⟨j, m', h', e⟩ | ⟨-, -, e⟩
    · rw [(first_unique h h').2, ← e]
      exact hl
    · exact absurd h.1 (e i m h.2.1 h.2.2.1)
  · exact absurd h.1.2 (e i m (by rw [Nat.zero_add]; exact h.2.1) (by rw [Nat.zero_add]; exact h.2.2.1) h.1.1)

theorem findKeyword_silent {lib : Lib} {ls : List Text} (hc : Clean lib ls) {key : Text} {low top : Nat} (opt : Bool)
    (h : Silent ls key low top) : findKeyword lib ls key low top opt = if opt then ok [] else exit := by
  rcases findFrom_total hc (key := key) (low := low) (top := top) (opt := opt) (n := 0) with ⟨l, hl⟩ | ⟨e1, e2, -⟩
  · rcases findKeyword_sound hc.1 hl with ⟨j, m', h', -⟩ | ⟨e1, e2, -⟩
    · exact absurd h'.1 (h j m' h'.2.1 h'.2.2.1)
    · rw [e1, if_pos rfl, ← e2, ← e1]
      exact hl
  · subst e1
    rw [if_neg (by simp)]
    exact e2

/-! ### words -/

theorem wordsFrom_white {s : Text} (hs : ∀ c ∈ s, White c) (l : Text) : wordsFrom [] (s ++ l) = wordsFrom [] l := by
  induction s with
  | nil => rfl
  | cons c s ih =>
    rw [List.cons_append, wordsFrom, if_pos (isSpace_iff.2 (hs c (by simp))), if_pos (by simp)]
    exact ih (fun d hd => hs d (by simp [hd]))

theorem wordsFrom_word {w : Text} (hn : ∀ c ∈ w, ¬ White c) (v l : Text) : wordsFrom v (w ++ l) = wordsFrom (v ++ w) l := by
  induction w generalizing v with
  | nil => simp
  | cons c w ih =>
    rw [List.cons_append, wordsFrom, isSpace_false.2 (hn c (by simp)), if_neg (by simp), ih (fun d hd => hn d (by simp [hd]))]
    simp

theorem wordsFrom_of_words {l : Text} {ws : List Text} (h : Words l ws) : wordsFrom [] l = ws := by
  induction h with
  | none hs =>
    have := wordsFrom_white hs []
    rw [List.append_nil] at this
    rw [this]
    rfl
  | @cons s w l ws hs hw hn hl h ih =>
    rw [wordsFrom_white hs, wordsFrom_word hn, List.nil_append]
    have hw' : w.isEmpty = false := by simpa using hw
    cases l with
    | nil =>
      have : ws = [] := by
        rw [← ih]
        rfl
      rw [this, wordsFrom, hw']
      rfl
    | cons c l =>
      have hc := isSpace_iff.2 (hl c (by simp))
      rw [wordsFrom, if_pos hc, if_pos (by rfl)] at ih
      rw [wordsFrom, if_pos hc, if_neg (by simp [hw']), ih]

theorem words_exist (v l : Text) (hv : ∀ c ∈ v, ¬ White c) : Words (v ++ l) (wordsFrom v l) := by
  induction l generalizing v with
  | nil =>
    unfold wordsFrom
    by_cases h : v = []
    · subst h
      exact Words.none (by simp)
    · rw [if_neg (by simpa using h)]
      exact Words.cons (s := []) (by simp) h hv (l := []) (by simp) (Words.none (by simp))
  | cons c l ih =>
    unfold wordsFrom
    by_cases hc : isSpace c = true
    · rw [if_pos hc]
      have hw : Words (c :: l) (wordsFrom [] l) := by
        have h := ih [] (by simp)
        rw [List.nil_append] at h
        generalize wordsFrom [] l = ws at h
        cases h with
        | none hs => exact Words.none (fun d hd => by
            rcases List.mem_cons.1 hd with rfl | hd
            · exact isSpace_iff.1 hc
            · exact hs d hd)
        | @cons s w l' ws hs hw hn hl h =>
          exact Words.cons (s := c :: s) (fun d hd => by
            rcases List.mem_cons.1 hd with rfl | hd
            · exact isSpace_iff.1 hc
            · exact hs d hd) hw hn hl h
      by_cases h : v = []
      · subst h
        rw [if_pos (by rfl)]
        exact hw
      · rw [if_neg (by simpa using h)]
        exact Words.cons (s := []) (by simp) h hv (l := c :: l) (fun d hd => by
          cases hd
          exact isSpace_iff.1 hc) hw
    · rw [if_neg hc]
      have h := ih (v ++ [c]) (fun d hd => by
        rcases List.mem_append.1 hd with hd | hd
        · exact hv d hd
        · cases List.mem_singleton.1 hd
          exact fun w => hc (isSpace_iff.2 w))
      simpa using h

theorem words_iff {l : Text} {ws : List Text} : Words l ws ↔ wordsFrom [] l = ws :=
  ⟨wordsFrom_of_words, fun h => h ▸ words_exist [] l (by simp)⟩

theorem cut_iff {l m : Text} : Cut l m ↔ l.takeWhile (fun c => c != '%') = m := by
  constructor
  · rintro ⟨h1, r, rfl, h2⟩
    rw [List.takeWhile_append_of_pos (fun c hc => by
      simp only [bne_iff_ne, ne_eq]
      rintro rfl
      exact h1 hc)]
    cases r with
    | nil => simp
    | cons c r =>
      cases h2 c rfl
      simp
  · rintro rfl
    refine ⟨fun h => ?_, l.dropWhile (fun c => c != '%'), (List.takeWhile_append_dropWhile ..).symm, ?_⟩
    · have := List.mem_takeWhile_imp h
      simp at this
    · intro c hc
      have := List.head?_dropWhile_not (fun c => c != '%') l
      have hc' : (List.dropWhile (fun c => c != '%') l).head? = some c := hc
      rw [hc'] at this
      simpa using this

theorem says_iff {l : Text} {ws : List Text} : Says l ws ↔ splitLine l = ws := by
  unfold Says splitLine
  constructor
  · rintro ⟨m, h1, h2⟩
    rw [cut_iff.1 h1]
    exact words_iff.1 h2
  · intro h
    exact ⟨_, cut_iff.2 rfl, words_iff.2 h⟩

/-! ### cards -/

theorem readOne_sound {lib : Lib} (hs : Sane lib) {ls : List Text} {key : Text} {w : Text} (h : readOne lib ls key = ok w) :
    ∃ k, CardIn ls key 0 4294967295 [k, w] := by
  obtain ⟨l, hl, h⟩ := bind_eq_ok.1 h
  rcases findKeyword_sound hs hl with ⟨i, m, hf, rfl⟩ | ⟨h0, -⟩
  · split at h
    · cases h
    · rename_i a b e
      cases h
      exact ⟨a, i, m, hf, says_iff.2 e⟩
    · cases h
  · cases h0

theorem readOne_card {lib : Lib} {ls : List Text} (hc : Clean lib ls) {key k w : Text} (h : CardIn ls key 0 4294967295 [k, w]) :
    readOne lib ls key = ok w := by
  obtain ⟨i, m, hf, hw⟩ := h
  unfold readOne
  rw [show findKeyword lib ls key = ok (small m) from findKeyword_first hc false hf, ok_bind, says_iff.1 hw]

theorem readOne_refuses {lib : Lib} {ls : List Text} (hc : Clean lib ls) {key : Text} {ws : List Text}
    (h : CardIn ls key 0 4294967295 ws) (h0 : ws ≠ []) (h2 : ws.length ≠ 2) : readOne lib ls key = exit := by
  obtain ⟨i, m, hf, hw⟩ := h
  unfold readOne
  rw [show findKeyword lib ls key = ok (small m) from findKeyword_first hc false hf, ok_bind, says_iff.1 hw]
  match ws, h0, h2 with
  | [_], _, _ => rfl
  | _ :: _ :: _ :: _, _, _ => rfl

theorem readOne_missing {lib : Lib} {ls : List Text} (hc : Clean lib ls) {key : Text} (h : Silent ls key 0 4294967295) :
    readOne lib ls key = exit := by
  unfold readOne
  rw [show findKeyword lib ls key = if false then ok [] else exit from findKeyword_silent hc false h]
  rfl

theorem readMany_sound {lib : Lib} (hs : Sane lib) {ls : List Text} {key : Text} {w : List Text} (h : readMany lib ls key = ok w) :
    (∃ k, w ≠ [] ∧ CardIn ls key 0 4294967295 (k :: w)) ∨ (w = [[]] ∧ CardIn ls key 0 4294967295 []) := by
  obtain ⟨l, hl, h⟩ := bind_eq_ok.1 h
  rcases findKeyword_sound hs hl with ⟨i, m, hf, rfl⟩ | ⟨h0, -⟩
  · split at h
    · rename_i e
      cases h
      exact Or.inr ⟨rfl, i, m, hf, says_iff.2 e⟩
    · cases h
    · rename_i a b hb e
      cases h
      exact Or.inl ⟨a, fun e => hb (by rw [e]), i, m, hf, says_iff.2 e⟩
  · cases h0

theorem readMany_card {lib : Lib} {ls : List Text} (hc : Clean lib ls) {key k : Text} {ws : List Text} (h : CardIn ls key 0 4294967295 (k :: ws))
    (h0 : ws ≠ []) : readMany lib ls key = ok ws := by
  obtain ⟨i, m, hf, hw⟩ := h
  unfold readMany
  rw [show findKeyword lib ls key 0 maxU false = ok (small m) from findKeyword_first hc false hf, ok_bind, says_iff.1 hw]
  match ws, h0 with
  | _ :: _, _ => rfl

theorem readMany_refuses {lib : Lib} {ls : List Text} (hc : Clean lib ls) {key k : Text} (h : CardIn ls key 0 4294967295 [k]) :
    readMany lib ls key = exit := by
  obtain ⟨i, m, hf, hw⟩ := h
  unfold readMany
  rw [show findKeyword lib ls key 0 maxU false = ok (small m) from findKeyword_first hc false hf, ok_bind, says_iff.1 hw]

theorem readMany_missing {lib : Lib} {ls : List Text} (hc : Clean lib ls) {key : Text} (h : Silent ls key 0 4294967295) :
    readMany lib ls key = exit := by
  unfold readMany
  rw [show findKeyword lib ls key 0 maxU false = if false then ok [] else exit from findKeyword_silent hc false h]
  rfl

/-! ### numbers -/

theorem isDigit_iff {c : Char} : c.isDigit = true ↔ Digit c := by
  unfold Char.isDigit Digit
  simp only [Bool.and_eq_true, decide_eq_true_eq, List.mem_cons, List.not_mem_nil, or_false]
  constructor
  · rintro ⟨h1, h2⟩
    have h1' : 48 ≤ c.val.toNat := h1
    have h2' : c.val.toNat ≤ 57 := h2
    have key : ∀ d : Char, c.val.toNat = d.val.toNat → c = d := fun d h => Char.ext (UInt32.toNat_inj.1 h)
    interval_cases h : c.val.toNat
    · exact Or.inl (key '0' rfl)
    · exact Or.inr (Or.inl (key '1' rfl))
    · exact Or.inr (Or.inr (Or.inl (key '2' rfl)))
    · exact Or.inr (Or.inr (Or.inr (Or.inl (key '3' rfl))))
    · exact Or.inr (Or.inr (Or.inr (Or.inr (Or.inl (key '4' rfl)))))
    · exact Or.inr (Or.inr (Or.inr (Or.inr (Or.inr (Or.inl (key '5' rfl))))))
    · exact Or.inr (Or.inr (Or.inr (Or.inr (Or.inr (Or.inr (Or.inl (key '6' rfl)))))))
    · exact Or.inr (Or.inr (Or.inr (Or.inr (Or.inr (Or.inr (Or.inr (Or.inl (key '7' rfl))))))))
    · exact Or.inr (Or.inr (Or.inr (Or.inr (Or.inr (Or.inr (Or.inr (Or.inr (Or.inl (key '8' rfl)))))))))
    · exact Or.inr (Or.inr (Or.inr (Or.inr (Or.inr (Or.inr (Or.inr (Or.inr (Or.inr (key '9' rfl)))))))))
  · rintro (rfl | rfl | rfl | rfl | rfl | rfl | rfl | rfl | rfl | rfl) <;> decide

theorem isInteger_iff {s : Text} : isInteger s = true ↔ Whole s := by
  unfold isInteger Whole
  by_cases h : s = []
  · simp [h]
  · rw [if_neg (by simpa using h), List.all_eq_true]
    simp only [isDigit_iff, ne_eq, h, not_false_eq_true, true_and]

theorem digit_ne_dot {c : Char} (h : Digit c) : c ≠ '.' := by
  rintro rfl
  unfold Digit at h
  revert h
  decide

theorem dropWhile_dot {a r : Text} (ha : '.' ∉ a) : (a ++ '.' :: r).dropWhile (fun c => c != '.') = '.' :: r ∧
    (a ++ '.' :: r).takeWhile (fun c => c != '.') = a := by
  have h : ∀ c ∈ a, (c != '.') = true := fun c hc => by
    simp only [bne_iff_ne, ne_eq]
    rintro rfl
    exact ha hc
  rw [List.dropWhile_append_of_pos h, List.takeWhile_append_of_pos h]
  simp

theorem isFloat_dot {a b : Text} {x : Char} (ha : '.' ∉ a) : isFloat (a ++ '.' :: x :: b) = ok (a.all floatChar && b.all floatChar) := by
  unfold isFloat
  rw [(dropWhile_dot ha).1, (dropWhile_dot ha).2]

theorem isFloat_last {a : Text} (ha : '.' ∉ a) : isFloat (a ++ ['.']) = ub := by
  unfold isFloat
  rw [(dropWhile_dot ha).1]

theorem isFloat_none {s : Text} (h : '.' ∉ s) : isFloat s = ok false := by
  unfold isFloat
  rw [List.dropWhile_eq_nil_iff.2 (fun c hc => by
    simp only [bne_iff_ne, ne_eq]
    rintro rfl
    exact h hc)]

theorem dot_split (s : Text) : '.' ∉ s ∨ ∃ a r, '.' ∉ a ∧ s = a ++ '.' :: r := by
  by_cases h : '.' ∈ s
  · right
    induction s with
    | nil => simp at h
    | cons c s ih =>
      by_cases hc : c = '.'
      · exact ⟨[], s, by simp, by simp [hc]⟩
      · have hs : '.' ∈ s := by
          rcases List.mem_cons.1 h with h | h
          · exact absurd h.symm hc
          · exact h
        obtain ⟨a, r, h1, h2⟩ := ih hs
        exact ⟨c :: a, r, by simp [h1, Ne.symm hc], by rw [h2]; rfl⟩
  · exact Or.inl h

theorem floatChar_ne_dot {c : Char} (h : floatChar c = true) : c ≠ '.' := by
  rintro rfl
  revert h
  decide

theorem isFloat_true {s : Text} (h : isFloat s = ok true) :
    ∃ a x b, s = a ++ '.' :: x :: b ∧ a.all floatChar = true ∧ b.all floatChar = true := by
  rcases dot_split s with h1 | ⟨a, r, h1, rfl⟩
  · rw [isFloat_none h1] at h
    cases h
  · cases r with
    | nil =>
      rw [isFloat_last h1] at h
      cases h
    | cons x b =>
      rw [isFloat_dot h1] at h
      injection h with h
      rw [Bool.and_eq_true] at h
      exact ⟨a, x, b, rfl, h.1, h.2⟩

theorem floatChar_digit {c : Char} (h : Digit c) : floatChar c = true := by
  unfold floatChar
  rw [isDigit_iff.2 h]
  rfl

end

end Verif.Input
