import Verif.Output.CppVector

/-! # Properties of vectors written as C++ source -/

namespace Verif.Output

open Verif Outcome

noncomputable section

variable {fmt : Fl → Text} {x : List Fl}

/-- **C96, partial.** At least three values: the rows, one after the other, are the C++ definition of a vector with exactly these values in their order, separated by commas; there are three
values in the first row and five in each further one, as far as they reach. Missing: fewer values (`C96_false`). -/
theorem C96_partial (h : 3 ≤ x.length) : ∃ rows, cppVector fmt x = ok rows ∧
    rows.flatten = "std::vector<double> ref {".toList ++ (", ".toList).intercalate (x.map fmt) ++ "};".toList ∧ rows.length = 1 + (x.length - 3 + 4) / 5 := by
  have key : ∀ (x : List Fl), x ≠ [] → listed fmt x = (", ".toList).intercalate (x.map fmt) ++ ", ".toList := by
    intro x hx
    induction x with
    | nil => exact absurd rfl hx
    | cons y x ih =>
      cases x with
      | nil => simp [listed]
      | cons z x =>
        have := ih (by simp)
        simp only [listed, List.map_cons, List.flatten_cons, List.intercalate_cons_cons, List.append_assoc] at this ⊢
        rw [this]
  have hs := rowsAfter_so (fmt := fmt) x h
  have hrem : remaining x.length = (x.length - 3) % 5 := by
    unfold remaining
    rw [if_neg (by omega)]
  have hx : x ≠ [] := by
    rintro rfl
    simp at h
  have all : ∀ {l : List Text} {t : Text}, (l ++ [t ++ ", ".toList]).flatten = "std::vector<double> ref {".toList ++ listed fmt x →
      (l ++ [t ++ "};".toList]).flatten = "std::vector<double> ref {".toList ++ (", ".toList).intercalate (x.map fmt) ++ "};".toList := by
    intro l t e
    rw [key x hx] at e
    simp only [List.flatten_append, List.flatten_cons, List.flatten_nil, List.append_nil] at e ⊢
    rw [← List.append_assoc, ← List.append_assoc] at e
    rw [← List.append_assoc, List.append_cancel_right e]
  by_cases hk : 0 < (x.length - 3) % 5
  · have hd : x.drop (x.length - (x.length - 3) % 5) ≠ [] := by
      intro e
      have := congrArg List.length e
      simp only [List.length_drop, List.length_nil] at this
      omega
    refine ⟨_, cppVector_rows (l := (rowsAfter fmt x).done) (t := (", ".toList).intercalate ((x.drop (x.length - (x.length - 3) % 5)).map fmt)) rfl ?_, all ?_, ?_⟩
    · rw [hrem, if_pos hk, if_pos (by omega), key _ hd]
    · rw [← key _ hd, List.flatten_append, hs.done, List.flatten_cons, List.flatten_nil, List.append_nil, List.append_assoc, ← listed_append, List.take_append_drop]
    · rw [List.length_append, List.length_singleton, hs.length]
      omega
  · obtain ⟨l, t, e⟩ := hs.last
    have h0 : (x.length - 3) % 5 = 0 := by omega
    refine ⟨_, cppVector_rows (l := l) (t := t) rfl ?_, all ?_, ?_⟩
    · rw [hrem, if_neg hk, e]
    · rw [← e, hs.done, h0, Nat.sub_zero, List.take_length]
    · have := hs.length
      rw [e] at this
      simp only [List.length_append, List.length_singleton] at this ⊢
      omega

/-- seven values: a row of three and one of four -/
example (fmt : Fl → Text) : ∃ rows, cppVector fmt (List.replicate 7 (.fin 1)) = ok rows ∧
    rows.flatten = "std::vector<double> ref {".toList ++ (", ".toList).intercalate ((List.replicate 7 (.fin 1)).map fmt) ++ "};".toList ∧ rows.length = 2 :=
  C96_partial (by simp)

/-- **C96 fails** for fewer than three values: the behaviour is undefined. -/
theorem C96_false (fmt : Fl → Text) {x : List Fl} (h : x.length < 3) : cppVector fmt x = ub := by
  match x, h with
  | [], _ => rfl
  | [a], _ =>
    have e : remaining [a].length = 4 := (by decide : remaining 1 = 4)
    unfold cppVector
    rw [e]
    rfl
  | [a, b], _ =>
    have e : remaining [a, b].length = 0 := (by decide : remaining 2 = 0)
    unfold cppVector
    rw [e]
    rfl

example (fmt : Fl → Text) : cppVector fmt [.fin 1, .fin 2] = ub := C96_false fmt (by simp)

end

end Verif.Output
