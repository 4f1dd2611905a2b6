import Verif.Output.Model

/-! # Lemmas: vectors as C++ source -/

namespace Verif.Output

open Verif Outcome

noncomputable section

variable {fmt : Fl → Text}

/-- Values, each with a comma and a blank behind it. -/
def listed (fmt : Fl → Text) (x : List Fl) : Text := (x.map fun y => fmt y ++ ", ".toList).flatten

theorem listed_append (x y : List Fl) : listed fmt (x ++ y) = listed fmt x ++ listed fmt y := by
  simp [listed]

theorem listed_singleton (y : Fl) : listed fmt [y] = fmt y ++ ", ".toList := by
  simp [listed]

/-- The state of the loop after the values `x`. -/
def rowsAfter (fmt : Fl → Text) (x : List Fl) : Rows := (x.zipIdx).foldl (fun s y => rowStep fmt y.2 y.1 s) ⟨[], [], 1⟩

theorem rowsAfter_append (x : List Fl) (y : Fl) : rowsAfter fmt (x ++ [y]) = rowStep fmt x.length y (rowsAfter fmt x) := by
  unfold rowsAfter
  rw [List.zipIdx_append, List.foldl_append]
  simp

/-- What is known after at least three values. -/
structure RowsSo (fmt : Fl → Text) (x : List Fl) (s : Rows) : Prop where
  counter : s.counter = x.length - 2
  length : s.done.length = 1 + (x.length - 3) / 5
  row : s.row = listed fmt (x.drop (x.length - (x.length - 3) % 5))
  done : s.done.flatten = "std::vector<double> ref {".toList ++ listed fmt (x.take (x.length - (x.length - 3) % 5))
  last : ∃ l t, s.done = l ++ [t ++ ", ".toList]

theorem rowsAfter_so (x : List Fl) (h : 3 ≤ x.length) : RowsSo fmt x (rowsAfter fmt x) := by
  induction x using List.reverseRecOn with
  | nil => simp at h
  | append_singleton x y ih =>
    rw [List.length_append, List.length_singleton] at h
    by_cases h3 : 3 ≤ x.length
    · have hx := ih h3
      rw [rowsAfter_append]
      have hm : (x.length - 3) % 5 ≤ x.length := by omega
      unfold rowStep
      rw [if_neg (by omega), if_neg (by omega), hx.counter]
      rw [if_neg (by omega : ¬ x.length = 0)]
      by_cases hf : (x.length - 2) % 5 = 0
      · rw [if_pos hf]
        have e1 : ((x ++ [y]).length - 3) % 5 = 0 := by
          rw [List.length_append, List.length_singleton]
          omega
        refine ⟨?_, ?_, ?_, ?_, ?_⟩
        · simp only [List.length_append, List.length_singleton]
          omega
        · simp only [List.length_append, List.length_singleton, hx.length]
          omega
        · rw [e1, Nat.sub_zero, List.drop_length]
          rfl
        · rw [e1, Nat.sub_zero, List.take_length, List.flatten_append, hx.done, hx.row, listed_append, listed_singleton]
          simp only [List.flatten_cons, List.flatten_nil, List.append_nil, List.append_assoc]
          rw [← List.append_assoc (listed fmt (x.take _)), ← listed_append, List.take_append_drop]
        · exact ⟨_, _, rfl⟩
      · rw [if_neg hf]
        have e1 : (x ++ [y]).length - ((x ++ [y]).length - 3) % 5 = x.length - (x.length - 3) % 5 := by
          rw [List.length_append, List.length_singleton]
          omega
        refine ⟨?_, ?_, ?_, ?_, hx.last⟩
        · simp only [List.length_append, List.length_singleton]
          omega
        · simp only [List.length_append, List.length_singleton, hx.length]
          omega
        · rw [e1, List.drop_append_of_le_length (by omega), listed_append, listed_singleton, ← List.append_assoc, hx.row]
        · rw [e1, List.take_append_of_le_length (by omega)]
          exact hx.done
    · obtain ⟨a, b, rfl⟩ : ∃ a b, x = [a, b] := List.length_eq_two.1 (by omega)
      have e : rowsAfter fmt ([a, b] ++ [y]) =
          ⟨[("std::vector<double> ref {".toList ++ fmt a ++ ", ".toList ++ fmt b ++ ", ".toList ++ fmt y) ++ ", ".toList], [], 1⟩ := rfl
      rw [e]
      refine ⟨rfl, (by decide : 1 = 1 + (3 - 3) / 5), rfl, ?_, [], _, rfl⟩
      show [_].flatten = _ ++ listed fmt [a, b, y]
      generalize "std::vector<double> ref {".toList = h
      generalize hc : ", ".toList = c
      unfold listed
      rw [hc]
      simp only [List.flatten_cons, List.flatten_nil, List.map_cons, List.map_nil, List.append_assoc, List.append_nil]

/-- Removing the last comma and blank. -/
theorem popBack_comma (t : Text) : (popBack (t ++ ", ".toList) >>= fun a => popBack a) = ok t := by
  unfold popBack
  rw [if_neg (by simp), ok_bind, if_neg (by
    intro h
    have := congrArg List.length h
    simp at this)]
  simp [List.dropLast_append_of_ne_nil]

theorem cppVector_rows {x : List Fl} {rows : List Text} {t : Text} {l : List Text}
    (hr : rows = if 0 < remaining x.length then (rowsAfter fmt x).done ++ [listed fmt (if remaining x.length ≤ x.length then x.drop (x.length - remaining x.length) else [])]
      else (rowsAfter fmt x).done) (hl : rows = l ++ [t ++ ", ".toList]) : cppVector fmt x = ok (l ++ [t ++ "};".toList]) := by
  unfold cppVector
  show (match (if 0 < remaining x.length then (rowsAfter fmt x).done ++ [listed fmt (if remaining x.length ≤ x.length then x.drop (x.length - remaining x.length) else [])]
      else (rowsAfter fmt x).done).getLast? with
    | none => ub
    | some l' => popBack l' >>= fun a => popBack a >>= fun b => ok ((if 0 < remaining x.length then (rowsAfter fmt x).done ++ [listed fmt (if remaining x.length ≤ x.length then x.drop (x.length - remaining x.length) else [])]
      else (rowsAfter fmt x).done).dropLast ++ [b ++ "};".toList])) = _
  rw [← hr, hl, List.getLast?_concat, List.dropLast_concat]
  dsimp only
  rw [← bind_assoc, popBack_comma, ok_bind]

end

end Verif.Output
