import Verif.Input.TextLemmas

/-!
# Properties of the text functions of the reader: keywords, words and numbers
-/

namespace Verif.Input

open Verif Outcome

noncomputable section

variable {lib : Lib} {ls : List Text}

/-! ### C34 -/

/-- **C34.** The search returns, in lower case, the first line of the range that is no comment and contains the keyword in any letter case. If there is none the
program says so and ends, or returns nothing for an optional keyword. -/
theorem C34 (hc : Clean lib ls) (key : Text) (a b : Nat) (opt : Bool) :
    (∀ i m, First ls key a b i m → findKeyword lib ls key a b opt = ok (small m)) ∧
    (Silent ls key a b → findKeyword lib ls key a b opt = if opt then ok [] else exit) :=
  ⟨fun _ _ h => findKeyword_first hc opt h, fun h => findKeyword_silent hc opt h⟩

/-- **C34.** One of the two cases applies. -/
theorem C34_cases (ls : List Text) (key : Text) (a b : Nat) : (∃ i m, First ls key a b i m) ∨ Silent ls key a b := by
  have hc : Clean ⟨fun _ => ub, ok 'x'⟩ ls := ⟨fun c e => by cases e; decide, fun _ => ⟨'x', rfl⟩⟩
  rcases findFrom_total hc (key := key) (low := a) (top := b) (opt := false) (n := 0) with ⟨l, hl⟩ | ⟨-, -, e⟩
  · rcases findKeyword_sound hc.1 hl with ⟨j, m', h', -⟩ | ⟨h0, -⟩
    · exact Or.inl ⟨j, m', h'⟩
    · cases h0
  · exact Or.inr (fun i m h1 h2 hS => e i m (by omega) (by omega) hS.1 hS.2)

/-- **C34.** Whatever the search returns is the first such line, also if empty lines may do harm. -/
theorem C34_sound (hs : Sane lib) {key : Text} {a b : Nat} {opt : Bool} {l : Text} (h : findKeyword lib ls key a b opt = ok l) :
    (∃ i m, First ls key a b i m ∧ l = small m) ∨ (opt = true ∧ l = [] ∧ Silent ls key a b) :=
  findKeyword_sound hs h

/-- **C34.** By the C++ standard an empty line is undefined behaviour, whatever is looked for behind it. -/
theorem C34_blank (hb : lib.blank = ub) {l1 l2 : List Text} (hne : ∀ l ∈ l1, l ≠ []) {key : Text} {a b : Nat} (opt : Bool)
    (h : Silent l1 key a b) : findKeyword lib (l1 ++ [] :: l2) key a b opt = ub := by
  suffices H : ∀ n, (∀ i m, a ≤ n + i → n + i ≤ b → ¬ Speaks l1 key i m) → findFrom lib key a b opt n (l1 ++ [] :: l2) = ub from
    H 0 (fun i m h1 h2 => h i m (by omega) (by omega))
  have hs : Sane lib := fun c e => by rw [hb] at e; cases e
  clear h
  induction l1 with
  | nil =>
    intro n _
    show (comment lib [] >>= _) = ub
    rw [show comment lib [] = ub by
      show (lib.blank >>= _) = ub
      rw [hb, ub_bind]]
    rfl
  | cons l l1 ih =>
    intro n h
    rw [List.cons_append, findFrom]
    rcases comment_cases hs l with ⟨h1, h2⟩ | ⟨h1, h2⟩ | ⟨h1, -⟩
    · rw [h1, ok_bind]
      simp only [if_true]
      obtain ⟨r, rfl⟩ : ∃ r, l = '%' :: r := by
        cases l with
        | nil => simp at h2
        | cons x r => simp at h2; exact ⟨r, by rw [h2]⟩
      refine ih (fun x hx => hne x (List.mem_cons_of_mem _ hx)) n (fun i m h1 h2 hS => h i m h1 h2 ?_)
      unfold Speaks at hS ⊢
      rw [active_cons_comment]
      exact hS
    · rw [h1, ok_bind]
      simp only [Bool.false_eq_true, if_false]
      rw [if_neg]
      · refine ih (fun x hx => hne x (List.mem_cons_of_mem _ hx)) (n + 1) (fun i m h1 h2' hS => h (i + 1) m (by omega) (by omega) ?_)
        unfold Speaks at hS ⊢
        rw [active_cons h2]
        exact hS
      · intro hh
        simp only [Bool.and_eq_true, decide_eq_true_eq] at hh
        refine h 0 l hh.2.1 hh.2.2 ?_
        unfold Speaks
        rw [active_cons h2]
        exact ⟨rfl, has_iff.1 hh.1⟩
    · exact absurd h1 (hne l (by simp))

/-- A file for the examples. -/
def exFile : List Text := ["% mesh".toList, "solvers heat".toList, "".toList, "Mesh 2 1.0 M1 % one material".toList, "mesh 3 1.0 M2".toList]

/-- A library for the examples: every word is the number one half, the first character of an empty string is `x`. -/
def exLib : Lib := ⟨fun _ => ok (1 / 2), ok 'x'⟩

theorem exLib_sane : Sane exLib := fun c e => by cases e; decide

theorem exLib_clean (ls : List Text) : Clean exLib ls := ⟨exLib_sane, fun _ => ⟨'x', rfl⟩⟩

example : First exFile "MESH".toList 0 100 2 "Mesh 2 1.0 M1 % one material".toList ∧
    findKeyword exLib exFile "MESH".toList 0 100 = ok "mesh 2 1.0 m1 % one material".toList := by
  have h : findKeyword exLib exFile "MESH".toList 0 100 = ok "mesh 2 1.0 m1 % one material".toList := by rfl
  refine ⟨⟨⟨rfl, has_iff.1 (by decide)⟩, by decide, by decide, ?_⟩, h⟩
  intro j m' _ hj hS
  match j, hj with
  | 0, _ =>
    obtain ⟨e, hS⟩ := hS
    cases e
    exact absurd (has_iff.2 hS) (by decide)
  | 1, _ =>
    obtain ⟨e, hS⟩ := hS
    cases e
    exact absurd (has_iff.2 hS) (by decide)

example : findKeyword exLib exFile "geometry".toList = exit ∧ findKeyword exLib exFile "plots".toList 0 maxU true = ok [] := by
  constructor <;> rfl

example : findKeyword ⟨fun _ => ub, ub⟩ exFile "mesh".toList 0 100 = ub ∧ findKeyword ⟨fun _ => ub, ub⟩ exFile "solvers".toList 0 100 = ok "solvers heat".toList := by
  constructor <;> rfl

/-! ### C36 -/

/-- **C36.** The words of a line are its pieces without white space before the first percent sign, all of them and in order. -/
theorem C36 (l : Text) (ws : List Text) : splitLine l = ws ↔ Says l ws := says_iff.symm

theorem squeeze_words : ∀ (l : Text) (a : Char) (w : Text), (isSpace a = true → w = []) →
    wordsFrom w ((squeezeFrom a l).takeWhile (fun c => c != '%')) = wordsFrom w (l.takeWhile (fun c => c != '%')) := by
  intro l
  induction l with
  | nil => intro a w _; rfl
  | cons b l ih =>
    intro a w hw
    unfold squeezeFrom
    by_cases hb : isSpace b = true
    · have hne : (b != '%') = true := by
        rw [bne_iff_ne]
        rintro rfl
        cases hb
      by_cases ha : isSpace a = true
      · rw [if_pos (by rw [ha, hb]; rfl), ih a w hw, hw ha, List.takeWhile_cons, if_pos hne, wordsFrom, if_pos hb]
        rfl
      · rw [if_neg (by simp [ha]), List.takeWhile_cons, if_pos hne, List.takeWhile_cons, if_pos hne, wordsFrom, if_pos hb, wordsFrom, if_pos hb, ih b [] (fun _ => rfl)]
    · rw [if_neg (by simp [hb]), List.takeWhile_cons, List.takeWhile_cons]
      split
      · rw [wordsFrom, if_neg hb, wordsFrom, if_neg hb, ih b _ (fun h => absurd h hb)]
      · rfl

theorem splitLine_squeeze (l : Text) : splitLine (removeExtraSpaces l) = splitLine l := by
  match l with
  | [] => rfl
  | a :: l =>
    unfold splitLine removeExtraSpaces
    rw [List.takeWhile_cons, List.takeWhile_cons]
    split
    · by_cases ha : isSpace a = true
      · rw [wordsFrom, if_pos ha, wordsFrom, if_pos ha, squeeze_words l a [] (fun _ => rfl)]
      · rw [wordsFrom, if_neg ha, wordsFrom, if_neg ha, squeeze_words l a _ (fun h => absurd h ha)]
    · rfl

theorem splitLine_blanks (l : Text) : splitLine (l.dropWhile (fun c => c == ' ')) = splitLine l := by
  induction l with
  | nil => rfl
  | cons a l ih =>
    rw [List.dropWhile_cons]
    split
    · rename_i h
      rw [beq_iff_eq] at h
      subst h
      rw [ih]
      rfl
    · rfl

/-- **C36.** Storing a line, which erases leading blanks and repeated white space, keeps its words. -/
theorem C36_stored {l m : Text} (h : storeLine l = ok m) (ws : List Text) : Says m ws ↔ Says l ws := by
  unfold storeLine at h
  split at h
  · cases h
    rw [says_iff, says_iff, splitLine_squeeze, splitLine_blanks]
  · cases h

/-- **C36.** More white space at the beginning, between words and at the end does not matter. -/
theorem C36_spaces {a b s s' : Text} (hs : ∀ c ∈ s, White c) (hs' : ∀ c ∈ s', White c) (h : s ≠ []) (h' : s' ≠ []) :
    splitLine (a ++ (s ++ b)) = splitLine (a ++ (s' ++ b)) := by
  have key : ∀ v : Text, ∀ t : Text, (∀ c ∈ t, White c) → t ≠ [] → ∀ d : Text, wordsFrom v (t ++ d) = if v = [] then wordsFrom [] d else v :: wordsFrom [] d := by
    intro v t ht hne d
    match t, ht, hne with
    | c :: t, ht, _ =>
      rw [List.cons_append, wordsFrom, if_pos (isSpace_iff.2 (ht c (by simp))), wordsFrom_white (fun d hd => ht d (by simp [hd]))]
      by_cases hv : v = []
      · simp [hv]
      · simp [hv]
  have go : ∀ x v : Text, ∀ d : Text, wordsFrom v (x ++ (s ++ d)) = wordsFrom v (x ++ (s' ++ d)) := by
    intro x
    induction x with
    | nil =>
      intro v d
      rw [List.nil_append, List.nil_append, key v s hs h, key v s' hs' h']
    | cons c x ih =>
      intro v d
      simp only [List.cons_append, wordsFrom, ih]
  have np : ∀ t : Text, (∀ c ∈ t, White c) → ∀ c ∈ t, (c != '%') = true := by
    intro t ht c hc
    simp only [bne_iff_ne, ne_eq]
    rintro rfl
    exact absurd (ht _ hc) (by unfold White; decide)
  unfold splitLine
  by_cases ha : '%' ∈ a
  · have : ∀ d : Text, (a ++ d).takeWhile (fun c => c != '%') = a.takeWhile (fun c => c != '%') := by
      intro d
      rw [List.takeWhile_append]
      rw [if_neg]
      intro e
      have : a.takeWhile (fun c => c != '%') = a := (List.takeWhile_prefix _).eq_of_length e
      rw [← this] at ha
      have := List.mem_takeWhile_imp ha
      simp at this
    rw [this, this]
  · have hp : ∀ c ∈ a, (c != '%') = true := by
      intro c hc
      simp only [bne_iff_ne, ne_eq]
      rintro rfl
      exact ha hc
    rw [List.takeWhile_append_of_pos hp, List.takeWhile_append_of_pos hp, List.takeWhile_append_of_pos (np s hs), List.takeWhile_append_of_pos (np s' hs')]
    exact go a [] _

/-- **C36.** White space at the end and whatever follows a percent sign do not matter. -/
theorem C36_end (a c : Text) {s : Text} (hs : ∀ c ∈ s, White c) : splitLine (a ++ (s ++ '%' :: c)) = splitLine a := by
  rw [C36]
  obtain ⟨m, ⟨h1, r, rfl, h2⟩, hw⟩ := (C36 a (splitLine a)).1 rfl
  by_cases hr : r = []
  · subst hr
    refine ⟨m ++ s, ⟨?_, '%' :: c, by simp, by simp⟩, ?_⟩
    · intro h
      rcases List.mem_append.1 h with h | h
      · exact h1 h
      · exact absurd (hs _ h) (by unfold White; decide)
    · generalize splitLine (m ++ []) = ws at hw
      clear h1 h2
      induction hw with
      | none ht => exact Words.none (fun d hd => by
          rcases List.mem_append.1 hd with hd | hd
          · exact ht d hd
          · exact hs d hd)
      | @cons t w l ws ht hw hn hl h ih =>
        rw [List.append_assoc, List.append_assoc]
        refine Words.cons ht hw hn ?_ ih
        intro d hd
        cases l with
        | nil =>
          cases s with
          | nil => cases hd
          | cons x s => cases hd; exact hs _ (by simp)
        | cons x l => cases hd; exact hl _ rfl
  · refine ⟨m, ⟨h1, r ++ (s ++ '%' :: c), by simp, ?_⟩, hw⟩
    cases r with
    | nil => exact absurd rfl hr
    | cons x r => exact h2

example : splitLine "  mesh 2\t 1.0  M1 % 3 4".toList = ["mesh".toList, "2".toList, "1.0".toList, "M1".toList] := by decide

example : splitLine ("mesh".toList ++ ("\t ".toList ++ "2".toList)) = splitLine ("mesh".toList ++ (" ".toList ++ "2".toList)) :=
  C36_spaces (fun c hc => isSpace_iff.1 (by revert c; decide)) (fun c hc => isSpace_iff.1 (by revert c; decide)) (by decide) (by decide)

/-! ### C38 -/

/-- **C38.** A word is classified as a whole number exactly if it consists of digits. -/
theorem C38_whole (s : Text) : isInteger s = true ↔ Whole s := isInteger_iff

/-- **C38.** A number with a decimal point is classified as such if anything follows the point. -/
theorem C38_decimal {s : Text} (h : Decimal s) (hl : s.getLast? ≠ some '.') : isFloat s = ok true := by
  obtain ⟨sg, a, b, e, rfl, hsg, ha, hb, hab, he⟩ := h
  have fsg : ∀ c ∈ sg, floatChar c = true := by
    rcases hsg with rfl | rfl | rfl
    · simp
    · decide
    · decide
  have fa : ∀ c ∈ a, floatChar c = true := fun c hc => floatChar_digit (ha c hc)
  have fb : ∀ c ∈ b, floatChar c = true := fun c hc => floatChar_digit (hb c hc)
  have fe : ∀ c ∈ e, floatChar c = true := by
    rcases he with rfl | ⟨x, sx, d, rfl, hx, hsx, -, hd⟩
    · simp
    · intro c hc
      rcases List.mem_cons.1 hc with rfl | hc
      · rcases hx with rfl | rfl <;> decide
      · rcases List.mem_append.1 hc with hc | hc
        · rcases hsx with rfl | rfl | rfl
          · cases hc
          · rw [List.mem_singleton.1 hc]; decide
          · rw [List.mem_singleton.1 hc]; decide
        · exact floatChar_digit (hd c hc)
  have f1 : ∀ c ∈ sg ++ a, floatChar c = true := fun c hc => (List.mem_append.1 hc).elim (fsg c) (fa c)
  have f2 : ∀ c ∈ b ++ e, floatChar c = true := fun c hc => (List.mem_append.1 hc).elim (fb c) (fe c)
  have hdot : '.' ∉ sg ++ a := fun hc => floatChar_ne_dot (f1 _ hc) rfl
  rw [List.append_assoc, List.cons_append] at hl ⊢
  cases hbe : b ++ e with
  | nil =>
    rw [hbe] at hl
    simp at hl
  | cons x r =>
    rw [isFloat_dot hdot, List.all_eq_true.2 f1, List.all_eq_true.2 (fun c hc => f2 c (by rw [hbe]; simp [hc]))]
    rfl

/-- **C38.** No word is both. -/
theorem C38_exclusive {s : Text} (h : isInteger s = true) : isFloat s = ok false :=
  isFloat_none (fun hd => digit_ne_dot ((isInteger_iff.1 h).2 _ hd) rfl)

/-- **C38, what is left of it.** A word classified as a number with a decimal point has one, and all its other characters are digits, signs or `e`, apart
from the one behind the point, which can be anything. Missing: that it is a number. -/
theorem C38_partial {s : Text} (h : isFloat s = ok true) :
    ∃ a x b, s = a ++ '.' :: x :: b ∧ ∀ c ∈ a ++ b, Digit c ∨ c = 'E' ∨ c = 'e' ∨ c = '+' ∨ c = '-' := by
  obtain ⟨a, x, b, e, h1, h2⟩ := isFloat_true h
  refine ⟨a, x, b, e, fun c hc => ?_⟩
  have : floatChar c = true := (List.mem_append.1 hc).elim (List.all_eq_true.1 h1 c) (List.all_eq_true.1 h2 c)
  unfold floatChar at this
  simp only [Bool.or_eq_true, isDigit_iff, beq_iff_eq, or_assoc] at this
  exact this

/-- **C38 does not hold:** `1.x` and `e.e` are classified as numbers, and the classification of `5.` is undefined behaviour. -/
theorem C38_false : isFloat "1.x".toList = ok true ∧ isFloat "e.e".toList = ok true ∧ isFloat "5.".toList = ub ∧
    ¬ Decimal "1.x".toList ∧ ¬ Decimal "e.e".toList ∧ Decimal "5.".toList := by
  refine ⟨by decide, by decide, by decide, ?_, ?_, ?_⟩
  · rintro ⟨sg, a, b, e, hs, hsg, ha, hb, -, he⟩
    have hm : 'x' ∈ sg ++ a ++ '.' :: b ++ e := hs ▸ (by decide)
    simp only [List.mem_append, List.mem_cons] at hm
    rcases hm with ((hm | hm) | hm | hm) | hm
    · rcases hsg with rfl | rfl | rfl <;> simp at hm
    · exact absurd (ha _ hm) (by unfold Digit; decide)
    · exact absurd hm (by decide)
    · exact absurd (hb _ hm) (by unfold Digit; decide)
    · rcases he with rfl | ⟨x, sx, d, rfl, hx, hsx, -, hd⟩
      · cases hm
      · rcases List.mem_cons.1 hm with hm | hm
        · rcases hx with rfl | rfl <;> exact absurd hm (by decide)
        · rcases List.mem_append.1 hm with hm | hm
          · rcases hsx with rfl | rfl | rfl <;> simp at hm
          · exact absurd (hd _ hm) (by unfold Digit; decide)
  · rintro ⟨sg, a, b, e, hs, hsg, ha, hb, hab, -⟩
    have hsg' : sg = [] := by
      rcases hsg with rfl | rfl | rfl
      · rfl
      · cases hs
      · cases hs
    subst hsg'
    have ha' : a = [] := by
      cases a with
      | nil => rfl
      | cons c a =>
        injection hs with h1 h2
        exact absurd (ha c (by simp)) (by rw [← h1]; unfold Digit; decide)
    subst ha'
    cases hs
  · exact ⟨[], ['5'], [], [], rfl, Or.inl rfl, by unfold Digit; decide, by simp, by simp, Or.inl rfl⟩

example : Decimal "-1.5e-03".toList ∧ "-1.5e-03".toList.getLast? ≠ some '.' :=
  ⟨⟨['-'], ['1'], ['5'], ['e', '-', '0', '3'], rfl, by simp, by unfold Digit; decide, by unfold Digit; decide, by simp,
    Or.inr ⟨'e', ['-'], ['0', '3'], rfl, by simp, by simp, by simp, by unfold Digit; decide⟩⟩, by decide⟩

example : isInteger "25".toList = true ∧ isFloat "25.5".toList = ok true := by decide

end

end Verif.Input
