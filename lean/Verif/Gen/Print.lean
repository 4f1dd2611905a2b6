import Verif.Gen.Lemmas
import Verif.Gen.Text

/-! # The printed lines and what a reader finds in them -/

namespace Verif.Gen

open Verif Input Finset

noncomputable section

/-- The polynomial of table `k` and group `e`. -/
def tab (r : Result) (k : Key) (e : Nat) : Coefs := (r.xs k).getD e (.scalar 0)

/-- The polynomial of the scattering from group `e` to group `f`. -/
def sca (r : Result) (e f : Nat) : Coefs := (r.scattMatrix0.getD e []).getD f (.scalar 0)

/-- The blanks after the keyword of a table. -/
def pad : Key → String
  | .ni => "         "
  | .chi => "        "
  | .total => "      "
  | .fission => "    "
  | .diffCoeff => "  "
  | .absorption => " "

/-- The printed lines of a material, with the blanks `p` after the keywords. -/
def sheet (py : Py) (solver : Solver) (E : Nat) (p : Key → String) (r : Result) : List Text :=
  ((List.range E).map (fun e => (needed solver).map (fun k => tableLine py (keyName k) (p k) e (tab r k e)) ++ [[]])).flatten ++
    ((List.range E).map (fun e => (List.range E).map (fun f => scattLine py e f (sca r e f)))).flatten

theorem getD_some {α : Type} {l : List α} {i : Nat} {a : α} (h : i < l.length) : l[i]? = some (l.getD i a) := by
  simp [List.getD_eq_getElem?_getD, h]

theorem group_ok {py : Py} {solver : Solver} {r : Result} {E i : Nat} (hx : ∀ k, (r.xs k).length = E) (hi : i < E) :
    groupLines py solver r i = .done ((needed solver).map (fun k => tableLine py (keyName k) (pad k) i (tab r k i)) ++ [[]]) := by
  have hl : ∀ k, lookup (r.xs k) i = .done (tab r k i) := fun k => lookup_ok (getD_some (by rw [hx]; exact hi))
  unfold groupLines
  rw [hl, done_bind, hl, done_bind, hl, done_bind, hl, done_bind]
  cases solver with
  | diffusion => rw [if_pos rfl, hl, done_bind, done_bind]; rfl
  | transport => rw [if_neg (by decide), done_bind]; rfl

theorem sheet_ok {py : Py} {solver : Solver} {r : Result} {E : Nat} (hx : ∀ k, (r.xs k).length = E) (hr : r.scattMatrix0.length = E)
    (hs : ∀ e f, e < E → f < E → ∃ l c, r.scattMatrix0[e]? = some l ∧ l[f]? = some c) :
    materialLines py solver E r = .done ([[], "material ".toList ++ r.matNumber, []] ++ sheet py solver E pad r) := by
  unfold materialLines
  rw [collect_ok E (fun i hi => group_ok hx hi), done_bind, collect_ok E (g := fun i => (List.range E).map (fun j => scattLine py i j (sca r i j))), done_bind]
  · simp [sheet]
  · intro i hi
    refine collect_ok E (fun j hj => ?_)
    obtain ⟨l, c, hl, hc⟩ := hs i j hi hj
    rw [lookup_ok hl, done_bind, lookup_ok hc, done_bind]
    have : sca r i j = c := by simp [sca, List.getD_eq_getElem?_getD, hl, hc]
    rw [this]

theorem print_ok {py : Py} {o : Options} {G : Nat} {fs : List (ℝ × List Universe)} {rs : List Result} (h0 : rs ≠ []) (h : ∀ r ∈ rs, Right o G fs r) :
    printAlmostOutput py o.solver rs = .done (rs.map (fun r => [[], "material ".toList ++ r.matNumber, []] ++ sheet py o.solver G pad r)).flatten := by
  obtain ⟨r0, l, rfl⟩ := List.exists_cons_of_ne_nil h0
  unfold printAlmostOutput
  rw [item_ok (a := r0) rfl, done_bind, (h r0 (by simp)).xs .total, each_ok _ (fun r hr => sheet_ok (h r hr).xs (h r hr).rows (fun e f he hf => ?_)), done_bind]
  obtain ⟨l, c, h1, h2, -⟩ := (h r hr).scatt e f he hf
  exact ⟨l, c, h1, h2⟩

theorem sheet_mem {py : Py} {solver : Solver} {E : Nat} {p : Key → String} {r : Result} {m : Text} : m ∈ sheet py solver E p r ↔
    (∃ e, e < E ∧ (m = [] ∨ ∃ k ∈ needed solver, m = tableLine py (keyName k) (p k) e (tab r k e))) ∨ ∃ e f, e < E ∧ f < E ∧ m = scattLine py e f (sca r e f) := by
  unfold sheet
  simp only [List.mem_append, List.mem_flatten, List.mem_map, List.mem_range]
  constructor
  · rintro (⟨_, ⟨e, he, rfl⟩, hm⟩ | ⟨_, ⟨e, he, rfl⟩, hm⟩)
    · rcases List.mem_append.1 hm with hm | hm
      · obtain ⟨k, hk, rfl⟩ := List.mem_map.1 hm
        exact .inl ⟨e, he, .inr ⟨k, hk, rfl⟩⟩
      · exact .inl ⟨e, he, .inl (by simpa using hm)⟩
    · obtain ⟨f, hf, rfl⟩ := List.mem_map.1 hm
      exact .inr ⟨e, f, he, List.mem_range.1 hf, rfl⟩
  · rintro (⟨e, he, rfl | ⟨k, hk, rfl⟩⟩ | ⟨e, f, he, hf, rfl⟩)
    · exact .inl ⟨_, ⟨e, he, rfl⟩, by simp⟩
    · exact .inl ⟨_, ⟨e, he, rfl⟩, List.mem_append_left _ (List.mem_map.2 ⟨k, hk, rfl⟩)⟩
    · exact .inr ⟨_, ⟨e, he, rfl⟩, List.mem_map.2 ⟨f, List.mem_range.2 hf, rfl⟩⟩

/-! ### written numbers -/

/-- The number is written with plain characters. -/
def Neat (py : Py) (x : ℝ) : Prop := py.fmt x ≠ [] ∧ ∀ c ∈ py.fmt x, Plain c

/-- All coefficients are written with plain characters. -/
def NeatAll (py : Py) (c : Coefs) : Prop := c.list ≠ [] ∧ ∀ x ∈ c.list, Neat py x

theorem flat_words {py : Py} : ∀ l : List ℝ, (∀ x ∈ l, Neat py x) → Words (' ' :: l.flatMap (fun x => py.fmt x ++ " ".toList)) (l.map py.fmt)
  | [], _ => .none (by simp [White])
  | x :: l, h => by
    have ih := flat_words l (fun y hy => h y (by simp [hy]))
    have hx := h x (by simp)
    have := Words.cons (s := [' ']) (w := py.fmt x) (by simp [White]) hx.1 (fun c hc => (plain_ne (hx.2 c hc)).1) (by simp [White]) ih
    simpa using this

theorem sci_words {py : Py} {c : Coefs} (h : NeatAll py c) : Words (' ' :: scientific py c) (c.list.map py.fmt) := by
  cases c with
  | scalar x =>
    have hx := h.2 x (by simp [Coefs.list])
    have := Words.cons (s := [' ']) (w := py.fmt x) (l := []) (by simp [White]) hx.1 (fun c hc => (plain_ne (hx.2 c hc)).1) (by simp) (.none (by simp))
    simpa [Coefs.list, scientific] using this
  | array l => exact flat_words l h.2

theorem sci_char {py : Py} {c : Coefs} (h : NeatAll py c) : ∀ x ∈ scientific py c, Plain x ∨ x = ' ' := by
  cases c with
  | scalar x => exact fun y hy => .inl ((h.2 x (by simp [Coefs.list])).2 y hy)
  | array l =>
    intro y hy
    simp only [scientific, List.mem_flatMap, List.mem_append] at hy
    obtain ⟨x, hx, h1 | h1⟩ := hy
    · exact .inl ((h.2 x hx).2 y h1)
    · exact .inr (by simpa using h1)

theorem flat_squeezed {py : Py} : ∀ l : List ℝ, (∀ x ∈ l, Neat py x) →
    Squeezed (l.flatMap (fun x => py.fmt x ++ " ".toList)) (l.flatMap (fun x => py.fmt x ++ " ".toList)) ∧
    (∀ c ∈ (l.flatMap (fun x => py.fmt x ++ " ".toList)).head?, ¬ White c)
  | [], _ => ⟨.nil, by simp⟩
  | x :: l, h => by
    have ih := flat_squeezed l (fun y hy => h y (by simp [hy]))
    have hx := h x (by simp)
    have h1 : Squeezed (' ' :: ([] ++ l.flatMap (fun x => py.fmt x ++ " ".toList))) (' ' :: l.flatMap (fun x => py.fmt x ++ " ".toList)) :=
      .white (by simp [White]) (by simp) ih.2 ih.1
    have h2 := squeezed_word (w := py.fmt x) (fun c hc => (plain_ne (hx.2 c hc)).1) h1
    refine ⟨by simpa using h2, ?_⟩
    obtain ⟨a, b, hab⟩ := List.exists_cons_of_ne_nil hx.1
    intro c hc
    simp only [List.flatMap_cons, hab, List.cons_append, List.head?_cons, Option.mem_def, Option.some.injEq] at hc
    subst hc
    exact (plain_ne (hx.2 a (by simp [hab]))).1

theorem sci_squeezed {py : Py} {c : Coefs} (h : NeatAll py c) : Squeezed (scientific py c) (scientific py c) ∧ (∀ x ∈ (scientific py c).head?, ¬ White x) := by
  cases c with
  | scalar x =>
    have hx := h.2 x (by simp [Coefs.list])
    refine ⟨by simpa [scientific] using squeezed_word (w := py.fmt x) (fun c hc => (plain_ne (hx.2 c hc)).1) .nil, fun c hc => (plain_ne (hx.2 c ?_)).1⟩
    exact List.mem_of_mem_head? hc
  | array l => exact flat_squeezed l h.2

/-! ### keywords -/

theorem key_letters (k : Key) : (∀ c ∈ (keyName k).toList, ¬ White c ∧ c ≠ '(' ∧ c ≠ '%' ∧ c ≠ ')') ∧ (keyName k).toList ≠ [] := by
  unfold White
  cases k <;> decide

theorem key_small (k : Key) : (∀ c ∈ small (keyName k).toList, ¬ White c ∧ c ≠ '(' ∧ c ≠ '%' ∧ c ≠ ')') ∧ small (keyName k).toList ≠ [] := by
  unfold White
  cases k <;> decide

theorem key_suffix : ∀ k l : Key, k ≠ .absorption → small (keyName k).toList <:+ small (keyName l).toList → k = l := by
  intro k l
  cases k <;> cases l <;> decide

theorem key_scatt : ∀ k : Key, ¬ small (keyName k).toList <:+ "scattmatrix".toList := by
  intro k
  cases k <;> decide

theorem scatt_key : ∀ k : Key, ¬ "scattmatrix".toList <:+ small (keyName k).toList := by
  intro k
  cases k <;> decide

theorem tableLine_small {py : Py} {k : Key} {p : String} {e : Nat} {c : Coefs} (hc : NeatAll py c) (hp : p = " ") :
    small (tableLine py (keyName k) p e c) = small (keyName k).toList ++ '(' :: (digits (e + 1) ++ ')' :: (' ' :: scientific py c)) := by
  subst hp
  have h1 : small (scientific py c) = scientific py c := by
    refine (List.map_congr_left (f := Char.toLower) (g := id) (fun x hx => ?_)).trans (List.map_id _)
    rcases sci_char hc x hx with h | rfl
    · exact plain_lower h
    · decide
  have hd : (toString (e + 1)).toList = digits (e + 1) := rfl
  unfold tableLine
  rw [small_append, small_append, small_append, small_append, small_append, hd, small_digits, h1]
  rfl

theorem scattLine_small {py : Py} {e f : Nat} {c : Coefs} (hc : NeatAll py c) :
    small (scattLine py e f c) = "scattmatrix".toList ++ '(' :: ((digits (e + 1) ++ ", ".toList ++ digits (f + 1)) ++ ')' :: (' ' :: scientific py c)) := by
  have h1 : small (scientific py c) = scientific py c := by
    refine (List.map_congr_left (f := Char.toLower) (g := id) (fun x hx => ?_)).trans (List.map_id _)
    rcases sci_char hc x hx with h | rfl
    · exact plain_lower h
    · decide
  have hd : ∀ e, (toString (e + 1)).toList = digits (e + 1) := fun _ => rfl
  unfold scattLine
  rw [small_append, small_append, small_append, small_append, small_append, hd, hd, small_digits, small_digits, h1]
  have a1 : small "scattMatrix(".toList = "scattmatrix".toList ++ ['('] := by decide
  have a2 : small ", ".toList = ", ".toList := by decide
  have a3 : small ") ".toList = [')', ' '] := by decide
  rw [a1, a2, a3]
  simp only [List.append_assoc, List.cons_append, List.nil_append]

theorem groupKey_small (k : Key) (e : Nat) : small (groupKey (keyName k) e) = small (keyName k).toList ++ '(' :: (digits (e + 1) ++ [')']) := by
  have hd : (toString (e + 1)).toList = digits (e + 1) := rfl
  unfold groupKey
  rw [small_append, small_cons, small_append, hd, small_digits]
  rfl

theorem scattKey_small (e f : Nat) : small (scattKey e f) = "scattmatrix".toList ++ '(' :: ((digits (e + 1) ++ ", ".toList ++ digits (f + 1)) ++ [')']) := by
  have hd : ∀ e, (toString (e + 1)).toList = digits (e + 1) := fun _ => rfl
  unfold scattKey
  rw [small_append, small_append, small_append, small_append, hd, hd, small_digits, small_digits]
  have a1 : small "scattMatrix(".toList = "scattmatrix".toList ++ ['('] := by decide
  have a2 : small ", ".toList = ", ".toList := by decide
  have a3 : small ")".toList = [')'] := by decide
  rw [a1, a2, a3]
  simp only [List.append_assoc, List.cons_append, List.nil_append]

end

end Verif.Gen
