import Verif.Gen.Print

/-! # What a reader finds in the printed lines -/

namespace Verif.Gen

open Verif Input Finset

noncomputable section

theorem digits_no {n : Nat} : '(' ∉ digits n ∧ ')' ∉ digits n ∧ ',' ∉ digits n ∧ 'm' ∉ digits n ∧ 'l' ∉ digits n ∧ '%' ∉ digits n :=
  have h := fun c (hc : c ∈ digits n) => plain_ne (.inl (digits_digit hc))
  ⟨fun hc => (h _ hc).2.2.1 rfl, fun hc => (h _ hc).2.2.2.1 rfl, fun hc => (h _ hc).2.2.2.2.1 rfl, fun hc => (h _ hc).2.2.2.2.2.2 rfl, fun hc => (h _ hc).2.2.2.2.2.1 rfl,
    fun hc => (h _ hc).2.1 rfl⟩

theorem sci_no {py : Py} {c : Coefs} (h : NeatAll py c) : '(' ∉ scientific py c ∧ ')' ∉ scientific py c ∧ 'm' ∉ scientific py c ∧ 'l' ∉ scientific py c ∧ '%' ∉ scientific py c := by
  have h' : ∀ x ∈ scientific py c, x ≠ '(' ∧ x ≠ ')' ∧ x ≠ 'm' ∧ x ≠ 'l' ∧ x ≠ '%' := fun x hx => by
    rcases sci_char h x hx with h1 | rfl
    · have := plain_ne h1
      exact ⟨this.2.2.1, this.2.2.2.1, this.2.2.2.2.2.2, this.2.2.2.2.2.1, this.2.1⟩
    · decide
  exact ⟨fun hc => (h' _ hc).1 rfl, fun hc => (h' _ hc).2.1 rfl, fun hc => (h' _ hc).2.2.1 rfl, fun hc => (h' _ hc).2.2.2.1 rfl, fun hc => (h' _ hc).2.2.2.2 rfl⟩

theorem pair_no {e f : Nat} : '(' ∉ digits e ++ ", ".toList ++ digits f ∧ ')' ∉ digits e ++ ", ".toList ++ digits f := by
  have a := digits_no (n := e)
  have b := digits_no (n := f)
  constructor
  · simp only [List.mem_append, not_or]; exact ⟨⟨a.1, by decide⟩, b.1⟩
  · simp only [List.mem_append, not_or]; exact ⟨⟨a.2.1, by decide⟩, b.2.1⟩

theorem table_tail {py : Py} {c : Coefs} (hc : NeatAll py c) {q : Text} (hq : '(' ∉ q) : '(' ∉ q ++ ')' :: (' ' :: scientific py c) := by
  have := (sci_no hc).1
  simp only [List.mem_append, List.mem_cons, not_or]
  exact ⟨hq, by decide, by decide, this⟩

theorem key_no (k : Key) : '(' ∉ small (keyName k).toList ∧ '%' ∉ small (keyName k).toList :=
  ⟨fun h => ((key_small k).1 _ h).2.1 rfl, fun h => ((key_small k).1 _ h).2.2.1 rfl⟩

theorem table_table {py : Py} {k l : Key} {e f : Nat} {c : Coefs} (hc : NeatAll py c) (hk : k ≠ .absorption)
    (h : small (groupKey (keyName k) e) <:+: small (tableLine py (keyName l) " " f c)) : k = l ∧ e = f := by
  rw [groupKey_small, tableLine_small hc rfl] at h
  obtain ⟨h1, h2⟩ := paren (key_no l).1 (table_tail hc digits_no.1) digits_no.2.1 digits_no.2.1 h
  exact ⟨key_suffix k l hk h1, by have := digits_inj h2; omega⟩

theorem table_scatt {py : Py} {k : Key} {e f g : Nat} {c : Coefs} (hc : NeatAll py c) : ¬ small (groupKey (keyName k) e) <:+: small (scattLine py f g c) := by
  intro h
  rw [groupKey_small, scattLine_small hc] at h
  exact key_scatt k (paren (by decide) (table_tail hc pair_no.1) digits_no.2.1 pair_no.2 h).1

theorem scatt_table {py : Py} {k : Key} {e f g : Nat} {c : Coefs} (hc : NeatAll py c) : ¬ small (scattKey e f) <:+: small (tableLine py (keyName k) " " g c) := by
  intro h
  rw [scattKey_small, tableLine_small hc rfl] at h
  exact scatt_key k (paren (key_no k).1 (table_tail hc digits_no.1) pair_no.2 digits_no.2.1 h).1

theorem scatt_scatt {py : Py} {e f g i : Nat} {c : Coefs} (hc : NeatAll py c) (h : small (scattKey e f) <:+: small (scattLine py g i c)) : e = g ∧ f = i := by
  rw [scattKey_small, scattLine_small hc] at h
  have h2 := (paren (by decide) (table_tail hc pair_no.1) pair_no.2 pair_no.2 h).2
  have h3 : digits (e + 1) ++ ',' :: (' ' :: digits (f + 1)) = digits (g + 1) ++ ',' :: (' ' :: digits (i + 1)) := by simpa using h2
  have h4 := (List.append_cons_inj_of_notMem (digits_no (n := e + 1)).2.2.1 (by
    simp only [List.mem_cons, not_or]; exact ⟨by decide, digits_no.2.2.1⟩)).1 h3
  have h5 := digits_inj h4.1
  have h6 := digits_inj (List.cons.inj h4.2.2).2
  omega

theorem table_has {py : Py} {k : Key} {e : Nat} {c : Coefs} (hc : NeatAll py c) : small (groupKey (keyName k) e) <:+: small (tableLine py (keyName k) " " e c) := by
  rw [groupKey_small, tableLine_small hc rfl]
  exact ⟨[], ' ' :: scientific py c, by simp⟩

theorem scatt_has {py : Py} {e f : Nat} {c : Coefs} (hc : NeatAll py c) : small (scattKey e f) <:+: small (scattLine py e f c) := by
  rw [scattKey_small, scattLine_small hc]
  exact ⟨[], ' ' :: scientific py c, by simp⟩

theorem material_chars {m : Text} (h : small "material".toList <:+: m) : 'm' ∈ m ∧ 'l' ∈ m := ⟨h.subset (by decide), h.subset (by decide)⟩

theorem key_m (k : Key) : 'm' ∉ small (keyName k).toList := by cases k <;> decide

theorem table_material {py : Py} {k : Key} {e : Nat} {c : Coefs} (hc : NeatAll py c) : ¬ small "material".toList <:+: small (tableLine py (keyName k) " " e c) := by
  intro h
  have := (material_chars h).1
  rw [tableLine_small hc rfl] at this
  simp only [List.mem_append, List.mem_cons] at this
  rcases this with h | h | h | h | h | h
  · exact key_m k h
  · exact absurd h (by decide)
  · exact digits_no.2.2.2.1 h
  · exact absurd h (by decide)
  · exact absurd h (by decide)
  · exact (sci_no hc).2.2.1 h

theorem scatt_material {py : Py} {e f : Nat} {c : Coefs} (hc : NeatAll py c) : ¬ small "material".toList <:+: small (scattLine py e f c) := by
  intro h
  have := (material_chars h).2
  rw [scattLine_small hc] at this
  simp only [List.mem_append, List.mem_cons] at this
  rcases this with h | h | ((h | h) | h) | h | h | h
  · exact absurd h (by decide)
  · exact absurd h (by decide)
  · exact digits_no.2.2.2.2.1 h
  · exact absurd h (by decide)
  · exact digits_no.2.2.2.2.1 h
  · exact absurd h (by decide)
  · exact absurd h (by decide)
  · exact (sci_no hc).2.2.2.1 h

theorem cut_self {m : Text} (h : '%' ∉ m) : Cut m m := ⟨h, [], by simp, by simp⟩

theorem table_says {py : Py} {k : Key} {e : Nat} {c : Coefs} (hc : NeatAll py c) :
    Says (small (tableLine py (keyName k) " " e c)) ((small (keyName k).toList ++ '(' :: (digits (e + 1) ++ [')'])) :: c.list.map py.fmt) := by
  rw [tableLine_small hc rfl]
  refine ⟨_, cut_self ?_, ?_⟩
  · simp only [List.mem_append, List.mem_cons, not_or]
    exact ⟨(key_no k).2, by decide, digits_no.2.2.2.2.2, by decide, by decide, (sci_no hc).2.2.2.2⟩
  · have := Words.cons (s := []) (w := small (keyName k).toList ++ '(' :: (digits (e + 1) ++ [')'])) (by simp) (by simp) (fun x hx => ?_) (by simp [White]) (sci_words hc)
    · simpa using this
    · simp only [List.mem_append, List.mem_cons, List.not_mem_nil, or_false] at hx
      rcases hx with h | rfl | h | rfl
      · exact ((key_small k).1 x h).1
      · unfold White; decide
      · exact (plain_ne (.inl (digits_digit h))).1
      · unfold White; decide

theorem scatt_says {py : Py} {e f : Nat} {c : Coefs} (hc : NeatAll py c) :
    Says (small (scattLine py e f c)) (("scattmatrix(".toList ++ (digits (e + 1) ++ [','])) :: (digits (f + 1) ++ [')']) :: c.list.map py.fmt) := by
  rw [scattLine_small hc]
  refine ⟨_, cut_self ?_, ?_⟩
  · simp only [List.mem_append, List.mem_cons, not_or]
    exact ⟨by decide, by decide, ⟨⟨digits_no.2.2.2.2.2, by decide⟩, digits_no.2.2.2.2.2⟩, by decide, by decide, (sci_no hc).2.2.2.2⟩
  · have h1 := Words.cons (s := [' ']) (w := digits (f + 1) ++ [')']) (by simp [White]) (by simp) (fun x hx => ?_) (by simp [White]) (sci_words hc)
    · have h2 := Words.cons (s := []) (w := "scattmatrix(".toList ++ (digits (e + 1) ++ [','])) (by simp) (by simp) (fun x hx => ?_) (by simp [White]) h1
      · have e1 : "scattmatrix(".toList = "scattmatrix".toList ++ ['('] := by decide
        have e2 : ", ".toList = [',', ' '] := by decide
        rw [e2]
        simpa [e1] using h2
      · simp only [List.mem_append, List.mem_cons, List.not_mem_nil, or_false] at hx
        rcases hx with h | h | rfl
        · revert x; unfold White; decide
        · exact (plain_ne (.inl (digits_digit h))).1
        · unfold White; decide
    · simp only [List.mem_append, List.mem_cons, List.not_mem_nil, or_false] at hx
      rcases hx with h | rfl
      · exact (plain_ne (.inl (digits_digit h))).1
      · unfold White; decide

/-! ### headers -/

theorem header_small {w : Text} (hw : small w = w) : small (header "material".toList w) = "material".toList ++ ' ' :: w := by
  unfold header
  rw [small_append, small_append, hw]
  have a : small "material".toList = "material".toList := by decide
  have b : small " ".toList = [' '] := by decide
  rw [a, b]
  simp

theorem title_small {w : Text} (hw : small w = w) : small ("material ".toList ++ w) = "material".toList ++ ' ' :: w := by
  rw [small_append, hw]
  have a : small "material ".toList = "material".toList ++ [' '] := by decide
  rw [a]; simp

theorem header_title {w w' : Text} (hw : Usable w) (hw' : Usable w') (h : small (header "material".toList w) <:+: small ("material ".toList ++ w')) : w <+: w' := by
  rw [header_small hw.2.1, title_small hw'.2.1] at h
  obtain ⟨s, t, hst⟩ := h
  have h1 : "material".toList ++ ' ' :: w' = (s ++ "material".toList) ++ ' ' :: (w ++ t) := by rw [← hst]; simp
  have h2 := (List.append_cons_inj_of_notMem (by decide) (fun h => (hw'.2.2 ' ' h).1 (by simp [White]))).1 h1
  exact ⟨t, h2.2.2.symm⟩

theorem header_material {w m : Text} (h : small (header "material".toList w) <:+: m) : small "material".toList <:+: m := by
  refine List.IsInfix.trans ⟨[], small (" ".toList ++ w), ?_⟩ h
  simp [header, small]

theorem title_no {w : Text} (hw : Usable w) : '(' ∉ small ("material ".toList ++ w) := by
  rw [title_small hw.2.1]
  simp only [List.mem_append, List.mem_cons, not_or]
  exact ⟨by decide, by decide, fun h => (hw.2.2 _ h).2 (by simp)⟩

/-! ### the data of a material -/

/-- The stored lines of the materials `rs`. -/
def pages (py : Py) (solver : Solver) (E : Nat) (p : Key → String) (rs : List Result) : List Text :=
  (rs.map (fun r => [[], "material ".toList ++ r.matNumber, []] ++ sheet py solver E p r)).flatten

/-- All coefficients of the materials are written with plain characters. -/
def AllNeat (py : Py) (solver : Solver) (E : Nat) (r : Result) : Prop :=
  (∀ k ∈ needed solver, ∀ e, e < E → NeatAll py (tab r k e)) ∧ ∀ e f, e < E → f < E → NeatAll py (sca r e f)

theorem sheet_material {py : Py} {solver : Solver} {E : Nat} {r : Result} (hn : AllNeat py solver E r) : ∀ m ∈ sheet py solver E (fun _ => " ") r, ¬ small "material".toList <:+: small m := by
  intro m hm
  rcases sheet_mem.1 hm with ⟨e, he, rfl | ⟨k, hk, rfl⟩⟩ | ⟨e, f, he, hf, rfl⟩
  · decide
  · exact table_material (hn.1 k hk e he)
  · exact scatt_material (hn.2 e f he hf)

theorem law_pages {lib : Lib} {py : Py} {solver : Solver} {E : Nat} {rs : List Result} {pre post lines : List Text} (hn : ∀ r ∈ rs, AllNeat py solver E r)
    (hu : ∀ r ∈ rs, Usable r.matNumber) (hnd : (rs.map Result.matNumber).Nodup)
    (hpf : ∀ w ∈ rs.map Result.matNumber, ∀ w' ∈ rs.map Result.matNumber, w <+: w' → w = w') (hA : active lines = pre ++ pages py solver E (fun _ => " ") rs ++ post)
    (hpre : ∀ m ∈ pre ++ post, ¬ small "material".toList <:+: small m) (hlen : lines.length ≤ 4294967296) {r : Result} (hr : r ∈ rs) {key : Text} (hkey : '(' ∈ small key)
    {line : Text} (hl : line ∈ sheet py solver E (fun _ => " ") r) (hk : small key <:+: small line)
    (hone : ∀ m ∈ sheet py solver E (fun _ => " ") r, small key <:+: small m → m = line) {n : Nat} {ws : List Text} (hs : Says (small line) ws) (hnw : n ≤ ws.length)
    {v : Vec ℝ} (hv : Reads lib (ws.drop n) v.toList) : Law lib lines r.matNumber key n v := by
  obtain ⟨R1, R2, rfl⟩ := List.append_of_mem hr
  obtain ⟨D1, x, D2, hD, hx, hD1⟩ := first_split (fun m => small key <:+: small m) _ ⟨line, hl, hk⟩
  have hxl : x = line := hone x (by rw [hD]; simp) hx
  subst hxl
  have hmat := sheet_material (hn r hr)
  rw [hD] at hmat
  have hpage : ∀ R : List Result, (∀ q ∈ R, q ∈ R1 ++ r :: R2) → (∀ q ∈ R, q.matNumber ≠ r.matNumber) → ∀ m ∈ pages py solver E (fun _ => " ") R,
      ¬ small (header "material".toList r.matNumber) <:+: small m := by
    intro R hR hne m hm hin
    obtain ⟨l, hl', hm'⟩ := List.mem_flatten.1 hm
    obtain ⟨q, hq, rfl⟩ := List.mem_map.1 hl'
    rcases List.mem_append.1 hm' with h | h
    · simp only [List.mem_cons, List.not_mem_nil, or_false] at h
      rcases h with rfl | rfl | rfl
      · exact absurd (material_chars (header_material hin)).1 (by simp [small])
      · exact hne q hq (hpf _ (List.mem_map_of_mem hr) _ (List.mem_map_of_mem (hR q hq)) (header_title (hu r hr) (hu q (hR q hq)) hin)).symm
      · exact absurd (material_chars (header_material hin)).1 (by simp [small])
    · exact sheet_material (hn q (hR q hq)) m h (header_material hin)
  have hnd' : (∀ q ∈ R1, q.matNumber ≠ r.matNumber) ∧ ∀ q ∈ R2, q.matNumber ≠ r.matNumber := by
    rw [List.map_append, List.map_cons] at hnd
    have h1 := List.nodup_append.1 hnd
    exact ⟨fun q hq => h1.2.2 _ (List.mem_map_of_mem hq) _ (by simp), fun q hq h => (List.nodup_cons.1 h1.2.1).1 (h ▸ List.mem_map_of_mem hq)⟩
  refine law_split (L1 := pre ++ pages py solver E (fun _ => " ") R1 ++ [[]]) (h := "material ".toList ++ r.matNumber) (L2 := [] :: D1) (line := x)
    (L3 := D2 ++ pages py solver E (fun _ => " ") R2 ++ post) ?_ hlen (by simp) ?_ ?_ hx ?_ ?_ hs hnw hv
  · rw [hA]
    simp [pages, hD]
  · rw [header_small (hu r hr).2.1, title_small (hu r hr).2.1]
  · intro m hm hin
    have hin' := header_material hin
    simp only [List.mem_append, List.mem_cons, List.not_mem_nil, or_false] at hm
    rcases hm with ((h | h) | rfl) | ((rfl | h) | rfl | (h | h) | h)
    · exact hpre m (by simp [h]) hin'
    · exact hpage R1 (fun q hq => by simp [hq]) hnd'.1 m h hin
    · exact absurd (material_chars hin').1 (by simp [small])
    · exact absurd (material_chars hin').1 (by simp [small])
    · exact hmat m (by simp [h]) hin'
    · exact hmat m (by simp) hin'
    · exact hmat m (by simp [h]) hin'
    · exact hpage R2 (fun q hq => by simp [hq]) hnd'.2 m h hin
    · exact hpre m (by simp [h]) hin'
  · intro m hm
    simp only [List.mem_cons] at hm
    rcases hm with rfl | rfl | h
    · exact fun h => title_no (hu r hr) (h.subset hkey)
    · exact fun h => absurd (h.subset hkey) (by simp [small])
    · exact hD1 m h
  · intro m hm
    simp only [List.mem_append, List.mem_cons, List.not_mem_nil, or_false] at hm
    rcases hm with (rfl | h) | rfl
    · exact fun h => absurd (material_chars h).1 (by simp [small])
    · exact hmat m (by simp [h])
    · exact hmat m (by simp)

end

end Verif.Gen
