import Verif.Gen.Read
import Verif.Gen.Fit

/-! # From the window to the data of an input file -/

namespace Verif.Gen

open Verif Input Finset

noncomputable section

/-! ### the window -/

theorem rowTemp_ok {py : Py} {i : Nat} {r : Row} {t : ℝ} (h : Warm py i r t) : rowTemp py i r = .done t := by
  unfold rowTemp fromStrToFloat
  cases h with
  | @kelvin x h hx hu h0 =>
    rw [if_neg h, hx]
    simp only [done_bind, if_pos hu]
    rw [if_neg]
    intro h'
    apply h0
    linarith
  | celsius h hx hu h0 =>
    have hne : r.unit ≠ "K".toList := by rw [hu]; decide
    rw [if_neg h, hx]
    simp only [done_bind, if_neg hne]
    rw [if_neg h0]
  | emptyKelvin h hu =>
    rw [if_pos h]
    simp only [done_bind, if_pos hu]
    rw [if_pos (by norm_num)]
    congr 1
    ring
  | emptyCelsius h hu =>
    have hne : r.unit ≠ "K".toList := by rw [hu]; decide
    rw [if_pos h]
    simp only [done_bind, if_neg hne]
    rw [if_neg (by norm_num)]

theorem setKey_new {β : Type} {d : List (ℝ × β)} {k : ℝ} {v : β} (h : k ∉ d.map Prod.fst) : setKey d k v = d ++ [(k, v)] := if_neg h

theorem request_ok {py : Py} {r1 r2 r3 : Row} {t1 t2 t3 : ℝ} (w1 : Warm py 0 r1 t1) (w2 : Warm py 1 r2 t2) (w3 : Warm py 2 r3 t3) (hd : [t1, t2, t3].Nodup) :
    request py [] [r1, r2, r3] = .done [(t1, r1.file), (t2, r2.file), (t3, r3.file)] := by
  simp only [List.nodup_cons, List.mem_cons, List.not_mem_nil, or_false, not_or] at hd
  unfold request
  simp only [rowTemps, rowTemp_ok w1, rowTemp_ok w2, rowTemp_ok w3, done_bind, Nat.zero_add, Nat.reduceAdd, List.zip_cons_cons, List.zip_nil_right, List.foldl_cons, List.foldl_nil]
  rw [setKey_new (d := []) (by simp), List.nil_append, setKey_new (d := [(t1, r1.file)]) (by simpa using Ne.symm hd.1.1), List.singleton_append,
    setKey_new (d := [(t1, r1.file), (t2, r2.file)]) (by simpa using ⟨Ne.symm hd.1.2, Ne.symm hd.2.1⟩)]
  rfl

theorem noFile {r : Row} (h : NoFile r) : given r.file = false := by
  rcases h with h | h <;> simp [h, given]

theorem hasFile {disk : Disk} {r : Row} {us : List Universe} (h : HasFile disk r us) :
    given r.file = true ∧ pathExists disk r.file = .done true ∧ (disk (r.file.getD [])).getD [] = us := by
  obtain ⟨f, h0, hf, hd⟩ := h
  refine ⟨by simp [hf, given, h0], by simp [hf, pathExists, hd], by simp [hf, hd]⟩

theorem prepare_ok {py : Py} {disk : Disk} {rows : List Row} {fs : List (ℝ × List Universe)} (h : Asks py disk rows fs) :
    ∃ d fl, request py [] rows = .done d ∧ prepareSerpentFiles disk d = .done fl ∧ readFiles disk fl = fs := by
  cases h with
  | @one r1 r2 r3 t1 t2 t3 u1 w1 w2 w3 hd h1 h2 h3 =>
    refine ⟨_, [(0, r1.file.getD [])], request_ok w1 w2 w3 hd, ?_, ?_⟩
    · unfold prepareSerpentFiles
      simp only [item, List.getElem?_cons_zero, List.getElem?_cons_succ, done_bind, (hasFile h1).1, (hasFile h1).2.1, noFile h2, Bool.and_self, if_true, Bool.not_false]
    · simp [readFiles, (hasFile h1).2.2]
  | @two r1 r2 r3 t1 t2 t3 u1 u2 w1 w2 w3 hd h1 h2 h3 =>
    simp only [List.nodup_cons, List.mem_cons, List.not_mem_nil, or_false, not_or] at hd
    refine ⟨_, [(t1, r1.file.getD []), (t2, r2.file.getD [])], request_ok w1 w2 w3 (by simpa using hd), ?_, ?_⟩
    · unfold prepareSerpentFiles
      simp only [item, List.getElem?_cons_zero, List.getElem?_cons_succ, done_bind, (hasFile h1).1, (hasFile h1).2.1, (hasFile h2).1, (hasFile h2).2.1, noFile h3, Bool.and_self, if_true,
        Bool.not_true, Bool.false_eq_true, if_false]
      rw [setKey_new (d := [(t1, r1.file.getD [])]) (by simpa using Ne.symm hd.1.1)]
      rfl
    · simp [readFiles, (hasFile h1).2.2, (hasFile h2).2.2]
  | @three r1 r2 r3 t1 t2 t3 u1 u2 u3 w1 w2 w3 hd h1 h2 h3 =>
    simp only [List.nodup_cons, List.mem_cons, List.not_mem_nil, or_false, not_or] at hd
    refine ⟨_, [(t1, r1.file.getD []), (t2, r2.file.getD []), (t3, r3.file.getD [])], request_ok w1 w2 w3 (by simpa using hd), ?_, ?_⟩
    · unfold prepareSerpentFiles
      simp only [item, List.getElem?_cons_zero, List.getElem?_cons_succ, done_bind, (hasFile h1).1, (hasFile h1).2.1, (hasFile h2).1, (hasFile h2).2.1, (hasFile h3).1, (hasFile h3).2.1,
        Bool.and_self, if_true, Bool.not_true, Bool.false_eq_true, if_false]
      rw [setKey_new (d := [(t1, r1.file.getD [])]) (by simpa using Ne.symm hd.1.1), List.singleton_append,
        setKey_new (d := [(t1, r1.file.getD []), (t2, r2.file.getD [])]) (by simpa using ⟨Ne.symm hd.1.2, Ne.symm hd.2.1⟩)]
      rfl
    · simp [readFiles, (hasFile h1).2.2, (hasFile h2).2.2, (hasFile h3).2.2]

/-! ### stored lines -/

/-- How a line is stored. -/
def Stores (l m : Text) : Prop := (∀ c ∈ l, c.toNat < 128) ∧ ∃ s k, l = s ++ k ∧ (∀ c ∈ s, c = ' ') ∧ (∀ c ∈ k.head?, c ≠ ' ') ∧ Squeezed k m

/-- The line can be stored only in one way. -/
def Only (l m : Text) : Prop := ∀ m', Stores l m' → m' = m

theorem only_eq : ∀ {l m n : List Text}, List.Forall₂ Only l n → List.Forall₂ Stores l m → m = n
  | _, _, _, .nil, .nil => rfl
  | _, _, _, .cons h t, .cons h' t' => by rw [h _ h', only_eq t t']

theorem only_line {l m : Text} (hl : ∀ c ∈ l.head?, c ≠ ' ') (hs : Squeezed l m) : Only l m := fun _ h => stored_line hl hs h

theorem pad_blank (k : Key) : ∃ s : Text, (pad k).toList = ' ' :: s ∧ ∀ c ∈ s, c = ' ' := by
  cases k
  · exact ⟨"     ".toList, by decide, by decide⟩
  · exact ⟨"        ".toList, by decide, by decide⟩
  · exact ⟨"       ".toList, by decide, by decide⟩
  · exact ⟨"   ".toList, by decide, by decide⟩
  · exact ⟨"".toList, by decide, by decide⟩
  · exact ⟨" ".toList, by decide, by decide⟩

theorem white_squeezed {s l m : Text} (hs : ∀ c ∈ s, c = ' ') (hl : ∀ d ∈ l.head?, ¬ White d) (h : Squeezed l m) : Squeezed (' ' :: (s ++ l)) (' ' :: m) :=
  .white (by simp [White]) (fun c hc => by rw [hs c hc]; simp [White]) hl h

theorem digits_word {n : Nat} {l m : Text} (h : Squeezed l m) : Squeezed (digits n ++ l) (digits n ++ m) :=
  squeezed_word (fun _ hc => (plain_ne (.inl (digits_digit hc))).1) h

theorem only_table {py : Py} {k : Key} {e : Nat} {c : Coefs} (hc : NeatAll py c) : Only (tableLine py (keyName k) (pad k) e c) (tableLine py (keyName k) " " e c) := by
  obtain ⟨s, hs, hs'⟩ := pad_blank k
  have hk := key_letters k
  have hsci := sci_squeezed hc
  have h1 := white_squeezed hs' hsci.2 hsci.1
  have h2 := squeezed_word (w := [')']) (by simp [White]) h1
  have h3 := digits_word (n := e + 1) h2
  have h4 := squeezed_word (w := ['(']) (by simp [White]) h3
  have h5 := squeezed_word (w := (keyName k).toList) (fun c hc => (hk.1 c hc).1) h4
  refine only_line ?_ ?_
  · obtain ⟨a, b, hab⟩ := List.exists_cons_of_ne_nil hk.2
    intro x hx
    simp only [tableLine, hab, List.cons_append, List.head?_cons, Option.mem_def, Option.some.injEq] at hx
    subst hx
    intro h
    exact (hk.1 a (by simp [hab])).1 (by simp [h, White])
  · have e1 : tableLine py (keyName k) (pad k) e c = (keyName k).toList ++ (['('] ++ (digits (e + 1) ++ ([')'] ++ (' ' :: (s ++ scientific py c))))) := by
      have : (pad k).toList ++ scientific py c = ' ' :: (s ++ scientific py c) := by rw [hs]; rfl
      unfold tableLine
      rw [this]
      rfl
    have e2 : tableLine py (keyName k) " " e c = (keyName k).toList ++ (['('] ++ (digits (e + 1) ++ ([')'] ++ (' ' :: scientific py c)))) := rfl
    rw [e1, e2]
    exact h5

theorem only_scatt {py : Py} {e f : Nat} {c : Coefs} (hc : NeatAll py c) : Only (scattLine py e f c) (scattLine py e f c) := by
  have hsci := sci_squeezed hc
  have h1 := white_squeezed (s := []) (by simp) hsci.2 hsci.1
  have h2 := squeezed_word (w := [')']) (by simp [White]) h1
  have h3 := digits_word (n := f + 1) h2
  have h4 := white_squeezed (s := []) (by simp) (fun d hd => by
    obtain ⟨a, b, hab⟩ := List.exists_cons_of_ne_nil (digits_ne (f + 1))
    rw [hab] at hd
    simp only [List.cons_append, List.head?_cons, Option.mem_def, Option.some.injEq] at hd
    subst hd
    exact (plain_ne (.inl (digits_digit (n := f + 1) (by simp [hab])))).1) h3
  have h5 := squeezed_word (w := [',']) (by simp [White]) h4
  have h6 := digits_word (n := e + 1) h5
  have h7 := squeezed_word (w := "scattMatrix(".toList) (by unfold White; decide) h6
  refine only_line ?_ ?_
  · intro x hx
    have e0 : "scattMatrix(".toList = 's' :: "cattMatrix(".toList := by decide
    unfold scattLine at hx
    rw [e0, List.cons_append] at hx
    simp only [List.head?_cons, Option.mem_def, Option.some.injEq] at hx
    subst hx
    decide
  · have hd : ∀ e, (toString (e + 1)).toList = digits (e + 1) := fun _ => rfl
    have a2 : ", ".toList = [',', ' '] := by decide
    have a3 : ") ".toList = [')', ' '] := by decide
    unfold scattLine
    rw [hd, hd, a2, a3]
    simpa only [List.append_assoc, List.cons_append, List.nil_append] using h7

theorem only_title {w : Text} (hw : Usable w) : Only ("material ".toList ++ w) ("material ".toList ++ w) := by
  have h1 := squeezed_word (w := w) (fun c hc => (hw.2.2 c hc).1) .nil
  rw [List.append_nil] at h1
  have h2 := white_squeezed (s := []) (by simp) (fun d hd => (hw.2.2 d (List.mem_of_mem_head? hd)).1) h1
  have h3 := squeezed_word (w := "material".toList) (by unfold White; decide) h2
  have e1 : "material ".toList ++ w = "material".toList ++ (' ' :: ([] ++ w)) := rfl
  refine only_line ?_ (by rw [e1]; exact h3)
  intro x hx
  have e0 : "material ".toList = 'm' :: "aterial ".toList := by decide
  simp only [e0, List.cons_append, List.head?_cons, Option.mem_def, Option.some.injEq] at hx
  subst hx
  decide

theorem only_nil : Only [] [] := only_line (by simp) .nil

theorem forall_flatten {α : Type} {R : α → α → Prop} {β : Type} {f g : β → List α} : ∀ l : List β, (∀ b ∈ l, List.Forall₂ R (f b) (g b)) → List.Forall₂ R (l.map f).flatten (l.map g).flatten
  | [], _ => .nil
  | b :: l, h => by
    simp only [List.map_cons, List.flatten_cons]
    exact List.rel_append (h b (by simp)) (forall_flatten l (fun c hc => h c (by simp [hc])))

theorem forall_map {α : Type} {R : α → α → Prop} {β : Type} {f g : β → α} : ∀ l : List β, (∀ b ∈ l, R (f b) (g b)) → List.Forall₂ R (l.map f) (l.map g)
  | [], _ => .nil
  | b :: l, h => .cons (h b (by simp)) (forall_map l (fun c hc => h c (by simp [hc])))

theorem only_pages {py : Py} {solver : Solver} {E : Nat} {rs : List Result} (hn : ∀ r ∈ rs, AllNeat py solver E r) (hu : ∀ r ∈ rs, Usable r.matNumber) :
    List.Forall₂ Only (pages py solver E pad rs) (pages py solver E (fun _ => " ") rs) := by
  refine forall_flatten rs (fun r hr => List.rel_append (.cons only_nil (.cons (only_title (hu r hr)) (.cons only_nil .nil))) (List.rel_append ?_ ?_))
  · refine forall_flatten _ (fun e he => List.rel_append (forall_map _ (fun k hk => only_table ((hn r hr).1 k hk e (List.mem_range.1 he)))) (.cons only_nil .nil))
  · exact forall_flatten _ (fun e he => forall_map _ (fun f hf => only_scatt ((hn r hr).2 e f (List.mem_range.1 he) (List.mem_range.1 hf))))

theorem active_append (a b : List Text) : active (a ++ b) = active a ++ active b := List.filter_append ..

theorem head_small {m : Text} (h : '%' ∉ small m) : m.head? ≠ some '%' := by
  intro h'
  exact h (List.mem_map.2 ⟨'%', List.mem_of_mem_head? h', by decide⟩)

theorem active_pages {py : Py} {solver : Solver} {E : Nat} {rs : List Result} (hn : ∀ r ∈ rs, AllNeat py solver E r) (hu : ∀ r ∈ rs, Usable r.matNumber) :
    active (pages py solver E (fun _ => " ") rs) = pages py solver E (fun _ => " ") rs := by
  refine List.filter_eq_self.2 (fun m hm => ?_)
  simp only [decide_eq_true_eq, ne_eq]
  obtain ⟨l, hl, hm⟩ := List.mem_flatten.1 hm
  obtain ⟨r, hr, rfl⟩ := List.mem_map.1 hl
  rcases List.mem_append.1 hm with h | h
  · simp only [List.mem_cons, List.not_mem_nil, or_false] at h
    rcases h with rfl | rfl | rfl
    · simp
    · refine head_small ?_
      rw [title_small (hu r hr).2.1]
      simp only [List.mem_append, List.mem_cons, not_or]
      exact ⟨by decide, by decide, fun h => ((hu r hr).2.2 _ h).2 (by simp)⟩
    · simp
  · rcases sheet_mem.1 h with ⟨e, he, rfl | ⟨k, hk, rfl⟩⟩ | ⟨e, f, he, hf, rfl⟩
    · simp
    · have hc := (hn r hr).1 k hk e he
      refine head_small ?_
      rw [tableLine_small hc rfl]
      simp only [List.mem_append, List.mem_cons, not_or]
      exact ⟨(key_no k).2, by decide, digits_no.2.2.2.2.2, by decide, by decide, (sci_no hc).2.2.2.2⟩
    · have hc := (hn r hr).2 e f he hf
      refine head_small ?_
      rw [scattLine_small hc]
      simp only [List.mem_append, List.mem_cons, not_or]
      exact ⟨by decide, by decide, ⟨⟨digits_no.2.2.2.2.2, by decide⟩, digits_no.2.2.2.2.2⟩, by decide, by decide, (sci_no hc).2.2.2.2⟩

/-! ### the lines can be stored -/

theorem plain_ascii {c : Char} (h : Plain c) : c.toNat < 128 := by
  unfold Plain Digit at h
  simp only [List.mem_cons, List.not_mem_nil, or_false] at h
  rcases h with (rfl | rfl | rfl | rfl | rfl | rfl | rfl | rfl | rfl | rfl) | (rfl | rfl | rfl | rfl) <;> decide

theorem digits_ascii {n : Nat} {c : Char} (h : c ∈ digits n) : c.toNat < 128 := plain_ascii (.inl (digits_digit h))

theorem sci_ascii {py : Py} {c : Coefs} (h : NeatAll py c) {x : Char} (hx : x ∈ scientific py c) : x.toNat < 128 := by
  rcases sci_char h x hx with h | rfl
  · exact plain_ascii h
  · decide

theorem table_ascii {py : Py} {k : Key} {e : Nat} {c : Coefs} (h : NeatAll py c) {x : Char} (hx : x ∈ tableLine py (keyName k) (pad k) e c) : x.toNat < 128 := by
  unfold tableLine at hx
  simp only [List.mem_append] at hx
  have h1 : ∀ k, ∀ y ∈ (keyName k).toList, y.toNat < 128 := by intro k; cases k <;> decide
  have h2 : ∀ k, ∀ y ∈ (pad k).toList, y.toNat < 128 := by intro k; cases k <;> decide
  have h3 : ∀ y ∈ "(".toList, y.toNat < 128 := by decide
  have h4 : ∀ y ∈ ")".toList, y.toNat < 128 := by decide
  rcases hx with hx | hx | hx | hx | hx | hx
  · exact h1 _ _ hx
  · exact h3 _ hx
  · exact digits_ascii hx
  · exact h4 _ hx
  · exact h2 _ _ hx
  · exact sci_ascii h hx

theorem scatt_ascii {py : Py} {e f : Nat} {c : Coefs} (h : NeatAll py c) {x : Char} (hx : x ∈ scattLine py e f c) : x.toNat < 128 := by
  unfold scattLine at hx
  simp only [List.mem_append] at hx
  have h1 : ∀ y ∈ "scattMatrix(".toList, y.toNat < 128 := by decide
  have h2 : ∀ y ∈ ", ".toList, y.toNat < 128 := by decide
  have h3 : ∀ y ∈ ") ".toList, y.toNat < 128 := by decide
  rcases hx with hx | hx | hx | hx | hx | hx
  · exact h1 _ hx
  · exact digits_ascii hx
  · exact h2 _ hx
  · exact digits_ascii hx
  · exact h3 _ hx
  · exact sci_ascii h hx

theorem pages_ascii {py : Py} {solver : Solver} {E : Nat} {rs : List Result} (hn : ∀ r ∈ rs, AllNeat py solver E r) (hu : ∀ r ∈ rs, ∀ c ∈ r.matNumber, c.toNat < 128) {m : Text}
    (hm : m ∈ pages py solver E pad rs) {x : Char} (hx : x ∈ m) : x.toNat < 128 := by
  obtain ⟨l, hl, hm⟩ := List.mem_flatten.1 hm
  obtain ⟨r, hr, rfl⟩ := List.mem_map.1 hl
  rcases List.mem_append.1 hm with h | h
  · simp only [List.mem_cons, List.not_mem_nil, or_false] at h
    rcases h with rfl | rfl | rfl
    · simp at hx
    · rcases List.mem_append.1 hx with h | h
      · have h1 : ∀ y ∈ "material ".toList, y.toNat < 128 := by decide
        exact h1 _ h
      · exact hu r hr _ h
    · simp at hx
  · rcases sheet_mem.1 h with ⟨e, he, rfl | ⟨k, hk, rfl⟩⟩ | ⟨e, f, he, hf, rfl⟩
    · simp at hx
    · exact table_ascii ((hn r hr).1 k hk e he) hx
    · exact scatt_ascii ((hn r hr).2 e f he hf) hx

theorem stored_some : ∀ raw : List Text, (∀ l ∈ raw, ∀ c ∈ l, c.toNat < 128) → ∃ lines, Stored raw lines
  | [], _ => ⟨[], .nil⟩
  | l :: raw, h => by
    obtain ⟨lines, hl⟩ := stored_some raw (fun m hm => h m (by simp [hm]))
    refine ⟨removeExtraSpaces (l.dropWhile (· = ' ')) :: lines, .cons ⟨h l (by simp), l.takeWhile (· = ' '), l.dropWhile (· = ' '), List.takeWhile_append_dropWhile.symm, ?_, ?_,
      squeezed_iff.2 rfl⟩ hl⟩
    · exact fun c hc => by simpa using List.mem_takeWhile_imp hc
    · intro c hc
      have := List.head?_dropWhile_not (· = ' ') l
      rw [hc] at this
      simpa using this

theorem sheet_length {py : Py} {solver : Solver} {E : Nat} {p : Key → String} {r : Result} : (sheet py solver E p r).length ≤ E * 6 + E * E := by
  have h5 : (needed solver).length ≤ 5 := by cases solver <;> decide
  simp only [sheet, List.length_append, List.length_flatten, List.map_map, Function.comp_def, List.length_map, List.length_cons, List.length_nil, List.length_range, List.map_const',
    List.sum_replicate, smul_eq_mul]
  exact Nat.add_le_add_right (Nat.mul_le_mul_left _ (by omega)) _

theorem pages_length {py : Py} {solver : Solver} {E : Nat} {p : Key → String} : ∀ rs : List Result, (pages py solver E p rs).length ≤ rs.length * (3 + (E * 6 + E * E))
  | [] => by simp [pages]
  | r :: rs => by
    have ih := pages_length (py := py) (solver := solver) (E := E) (p := p) rs
    have h1 := sheet_length (py := py) (solver := solver) (E := E) (p := p) (r := r)
    have : (pages py solver E p (r :: rs)).length = 3 + (sheet py solver E p r).length + (pages py solver E p rs).length := by
      simp [pages]; omega
    rw [this, List.length_cons, Nat.add_one_mul]
    omega

/-! ### what is read -/

/-- The number read for a written one. -/
def back (lib : Lib) (py : Py) (x : ℝ) : ℝ :=
  match lib.stod (py.fmt x) with
  | .ok y => y
  | _ => 0

/-- The coefficients read for written ones. -/
def backs (lib : Lib) (py : Py) (l : List ℝ) : Vec ℝ := ⟨l.length, fun i => back lib py (l.getD i 0)⟩

theorem back_ok {lib : Lib} {py : Py} {x : ℝ} (h : Written lib py x) : lib.stod (py.fmt x) = .ok (back lib py x) ∧ |back lib py x - x| ≤ 5 / 10 ^ 6 * |x| := by
  obtain ⟨-, -, y, hy, hxy⟩ := h
  unfold back
  rw [hy]
  exact ⟨rfl, hxy⟩

theorem backs_list (lib : Lib) (py : Py) (l : List ℝ) : (backs lib py l).toList = l.map (back lib py) := by
  unfold backs Vec.toList
  apply List.ext_getElem
  · simp
  · intro i h1 h2
    simp at h1
    simp [List.getD_eq_getElem?_getD, h1]

theorem backs_reads {lib : Lib} {py : Py} {l : List ℝ} (h : ∀ x ∈ l, Written lib py x) : Reads lib (l.map py.fmt) (backs lib py l).toList := by
  rw [backs_list]
  unfold Reads
  induction l with
  | nil => exact .nil
  | cons x l ih => exact .cons (back_ok (h x (by simp))).1 (ih (fun y hy => h y (by simp [hy])))

theorem backs_near {lib : Lib} {py : Py} {pts : List (ℝ × ℝ)} {l : List ℝ} (hf : Fitted pts l) (h : ∀ x ∈ l, Written lib py x) : Near pts (backs lib py l) := by
  have hb : ∀ i, i < l.length → |back lib py (l.getD i 0) - l.getD i 0| ≤ 5 / 10 ^ 6 * |l.getD i 0| := fun i hi => by
    refine (back_ok (h _ ?_)).2
    rw [List.getD_eq_getElem?_getD, List.getElem?_eq_getElem hi]
    exact List.getElem_mem hi
  refine ⟨l, hf, ⟨rfl, hb⟩, fun x => ?_⟩
  have e1 : valueAt (backs lib py l) x - along l x = ∑ i ∈ range l.length, (back lib py (l.getD i 0) - l.getD i 0) * x ^ i := by
    simp only [valueAt, Numeric.polyValue, backs, along, sub_mul, Finset.sum_sub_distrib]
  rw [e1, Finset.mul_sum]
  refine (Finset.abs_sum_le_sum_abs _ _).trans (Finset.sum_le_sum (fun i hi => ?_))
  rw [abs_mul, abs_pow, ← mul_assoc]
  exact mul_le_mul_of_nonneg_right (hb i (mem_range.1 hi)) (by positivity)

theorem near_same {pts : List (ℝ × ℝ)} {u v : Vec ℝ} (h : u.toList = v.toList) (hu : Near pts u) : Near pts v := by
  have hn : u.n = v.n := by simpa [Vec.toList] using congrArg List.length h
  have hv : ∀ i, i < v.n → v.v i = u.v i := fun i hi => by
    have h1 := congrArg (fun l : List ℝ => l[i]?) h
    simpa [Vec.toList, hi, hn] using h1.symm
  obtain ⟨c, hf, hr, ha⟩ := hu
  refine ⟨c, hf, ⟨hn.symm.trans hr.1, fun i hi => by rw [hv i hi]; exact hr.2 i (hn ▸ hi)⟩, fun x => ?_⟩
  have : valueAt v x = valueAt u x := by
    unfold valueAt Numeric.polyValue
    rw [hn]
    exact Finset.sum_congr rfl (fun i hi => by rw [hv i (mem_range.1 hi)])
  rw [this]
  exact ha x

theorem neat_of {lib : Lib} {py : Py} {pts : List (ℝ × ℝ)} {c : Coefs} (hf : Fitted pts c.list) (h : ∀ x ∈ c.list, Written lib py x) : NeatAll py c :=
  ⟨hf.some, fun x hx => ⟨(h x hx).1, (h x hx).2.1⟩⟩

/-- The result of the material `w`. -/
def pick (rs : List Result) (w : Text) : Result := (rs.find? (fun r => r.matNumber = w)).getD ⟨w, fun _ => [], []⟩

theorem pick_mem {rs : List Result} {w : Text} (h : w ∈ rs.map Result.matNumber) : pick rs w ∈ rs ∧ (pick rs w).matNumber = w := by
  unfold pick
  cases hf : rs.find? (fun r => r.matNumber = w) with
  | none =>
    obtain ⟨r, hr, hw⟩ := List.mem_map.1 h
    exact absurd hw (by simpa using List.find?_eq_none.1 hf r hr)
  | some r => exact ⟨List.mem_of_find?_eq_some hf, by simpa using List.find?_some hf⟩

/-- The data in the file. -/
def dataOf (lib : Lib) (py : Py) (rs : List Result) : Tables where
  nu e w := backs lib py (tab (pick rs w) .ni e).list
  chi e w := backs lib py (tab (pick rs w) .chi e).list
  fiss e w := backs lib py (tab (pick rs w) .fission e).list
  tot e w := backs lib py (tab (pick rs w) .total e).list
  scatt e f w := backs lib py (sca (pick rs w) e f).list
  diff e w := backs lib py (tab (pick rs w) .diffCoeff e).list

theorem right_tab {o : Options} {G : Nat} {fs : List (ℝ × List Universe)} {r : Result} (h : Right o G fs r) (k : Key) {e : Nat} (he : e < G) :
    Fitted (points fs r.matNumber (fun u => wanted o (chosen o u) k e)) (tab r k e).list := by
  obtain ⟨c, hc, hf⟩ := h.tables k e he
  have : tab r k e = c := by simp [tab, List.getD_eq_getElem?_getD, hc]
  rw [this]
  exact hf

theorem right_sca {o : Options} {G : Nat} {fs : List (ℝ × List Universe)} {r : Result} (h : Right o G fs r) {e f : Nat} (he : e < G) (hf : f < G) :
    Fitted (points fs r.matNumber (fun u => wantedScatt o G (chosen o u) e f)) (sca r e f).list := by
  obtain ⟨l, c, hl, hc, hf⟩ := h.scatt e f he hf
  have : sca r e f = c := by simp [sca, List.getD_eq_getElem?_getD, hl, hc]
  rw [this]
  exact hf

theorem needed_not (s : Solver) : Key.absorption ∉ needed s := by cases s <;> decide

theorem tabled_ok {lib : Lib} {py : Py} {o : Options} {G : Nat} {fs : List (ℝ × List Universe)} {names : List Text} {rs : List Result} {lines : List Text}
    (hp : Printable lib py o G fs names) (hu : ∀ w ∈ names, Usable w) (hnd : names.Nodup) (hpf : ∀ w ∈ names, ∀ w' ∈ names, w <+: w' → w = w')
    (hrs : rs.map Result.matNumber = names) (hr : ∀ r ∈ rs, Right o G fs r) (hl : Pasted (pages py o.solver G pad rs) lines) :
    Tabled lib lines o G fs names (dataOf lib py rs) := by
  have hin : ∀ r ∈ rs, r.matNumber ∈ names := fun r h => hrs ▸ List.mem_map_of_mem h
  have hw : ∀ r ∈ rs, ∀ k e, e < G → ∀ x ∈ (tab r k e).list, Written lib py x := fun r h k e he => (hp _ (hin r h)).1 k e _ he (right_tab (hr r h) k he)
  have hws : ∀ r ∈ rs, ∀ e f, e < G → f < G → ∀ x ∈ (sca r e f).list, Written lib py x :=
    fun r h e f he hf => (hp _ (hin r h)).2 e f _ he hf (right_sca (hr r h) he hf)
  have hnt : ∀ r ∈ rs, ∀ k e, e < G → NeatAll py (tab r k e) := fun r h k e he => neat_of (right_tab (hr r h) k he) (hw r h k e he)
  have hns : ∀ r ∈ rs, ∀ e f, e < G → f < G → NeatAll py (sca r e f) := fun r h e f he hf => neat_of (right_sca (hr r h) he hf) (hws r h e f he hf)
  have hn : ∀ r ∈ rs, AllNeat py o.solver G r := fun r h => ⟨fun k _ e he => hnt r h k e he, fun e f he hf => hns r h e f he hf⟩
  have hur : ∀ r ∈ rs, Usable r.matNumber := fun r h => hu _ (hin r h)
  obtain ⟨pre, mid, post, rfl, hst, hsil, hlen⟩ := hl
  have hmid : mid = pages py o.solver G (fun _ => " ") rs := only_eq (only_pages hn hur) hst
  subst hmid
  have hA : active (pre ++ pages py o.solver G (fun _ => " ") rs ++ post) = active pre ++ pages py o.solver G (fun _ => " ") rs ++ active post := by
    rw [active_append, active_append, active_pages hn hur]
  have hm : small "material".toList = "material".toList := by decide
  have table : ∀ w ∈ names, ∀ k ∈ needed o.solver, ∀ e, e < G →
      Law lib (pre ++ pages py o.solver G (fun _ => " ") rs ++ post) w (groupKey (keyName k) e) 1 (backs lib py (tab (pick rs w) k e).list) := by
    intro w hw' k hk e he
    obtain ⟨hpm, hpn⟩ := pick_mem (rs := rs) (w := w) (hrs ▸ hw')
    generalize pick rs w = r at hpm hpn ⊢
    subst hpn
    refine law_pages hn hur (hrs ▸ hnd) (hrs ▸ hpf) hA (by rw [hm]; exact hsil) hlen hpm (line := tableLine py (keyName k) " " e (tab r k e)) ?_ (sheet_mem.2 (.inl ⟨e, he, .inr ⟨k, hk, rfl⟩⟩))
      (table_has (hnt r hpm k e he)) ?_ (table_says (hnt r hpm k e he)) (by simp) (by simpa using backs_reads (hw r hpm k e he))
    · rw [groupKey_small]
      simp
    · intro m hm' hin'
      rcases sheet_mem.1 hm' with ⟨g, hg, rfl | ⟨l, hl, rfl⟩⟩ | ⟨g, i, hg, hi, rfl⟩
      · exact absurd (hin'.subset (a := '(') (by rw [groupKey_small]; simp)) (by simp [small])
      · obtain ⟨rfl, rfl⟩ := table_table (hnt r hpm l g hg) (fun h => needed_not o.solver (h ▸ hk)) hin'
        rfl
      · exact absurd hin' (table_scatt (hns r hpm g i hg hi))
  have scatt : ∀ w ∈ names, ∀ e f, e < G → f < G →
      Law lib (pre ++ pages py o.solver G (fun _ => " ") rs ++ post) w (scattKey e f) 2 (backs lib py (sca (pick rs w) e f).list) := by
    intro w hw' e f he hf
    obtain ⟨hpm, hpn⟩ := pick_mem (rs := rs) (w := w) (hrs ▸ hw')
    generalize pick rs w = r at hpm hpn ⊢
    subst hpn
    refine law_pages hn hur (hrs ▸ hnd) (hrs ▸ hpf) hA (by rw [hm]; exact hsil) hlen hpm (line := scattLine py e f (sca r e f)) ?_ (sheet_mem.2 (.inr ⟨e, f, he, hf, rfl⟩))
      (scatt_has (hns r hpm e f he hf)) ?_ (scatt_says (hns r hpm e f he hf)) (by simp) (by simpa using backs_reads (hws r hpm e f he hf))
    · rw [scattKey_small]
      simp
    · intro m hm' hin'
      rcases sheet_mem.1 hm' with ⟨g, hg, rfl | ⟨l, hl, rfl⟩⟩ | ⟨g, i, hg, hi, rfl⟩
      · exact absurd (hin'.subset (a := '(') (by rw [scattKey_small]; simp)) (by simp [small])
      · exact absurd hin' (scatt_table (hnt r hpm l g hg))
      · obtain ⟨rfl, rfl⟩ := scatt_scatt (hns r hpm g i hg hi) hin'
        rfl
  have near : ∀ w ∈ names, ∀ k e, e < G → Near (points fs w (fun u => wanted o (chosen o u) k e)) (backs lib py (tab (pick rs w) k e).list) := by
    intro w hw' k e he
    obtain ⟨hpm, hpn⟩ := pick_mem (rs := rs) (w := w) (hrs ▸ hw')
    generalize pick rs w = r at hpm hpn ⊢
    subst hpn
    exact backs_near (right_tab (hr r hpm) k he) (hw r hpm k e he)
  refine ⟨fun Rs hRs => ⟨⟨fun q hq e he => table _ (hRs q hq) .ni ?_ e he, fun q hq e he => table _ (hRs q hq) .chi ?_ e he, fun q hq e he => table _ (hRs q hq) .fission ?_ e he,
    fun q hq e he => table _ (hRs q hq) .total ?_ e he, fun q hq e f he hf => scatt _ (hRs q hq) e f he hf⟩, fun hs q hq e he => table _ (hRs q hq) .diffCoeff ?_ e he⟩,
    fun w hw' e he => near w hw' .ni e he, fun w hw' e he => near w hw' .chi e he, fun w hw' e he => near w hw' .fission e he, fun w hw' e he => near w hw' .total e he, ?_,
    fun _ w hw' e he => near w hw' .diffCoeff e he⟩
  · cases o.solver <;> decide
  · cases o.solver <;> decide
  · cases o.solver <;> decide
  · cases o.solver <;> decide
  · rw [hs]; decide
  · intro w hw' e f he hf
    obtain ⟨hpm, hpn⟩ := pick_mem (rs := rs) (w := w) (hrs ▸ hw')
    show Near _ (backs lib py (sca (pick rs w) e f).list)
    generalize pick rs w = r at hpm hpn ⊢
    subst hpn
    exact backs_near (right_sca (hr r hpm) he hf) (hws r hpm e f he hf)

theorem generate_ok {py : Py} {disk : Disk} {o : Options} {G : Nat} {rows : List Row} {fs : List (ℝ × List Universe)} {names : List Text} (ha : Asks py disk rows fs) (hpy : Interpolates py)
    (h : Matching o G fs names) : ∃ d rs, crossSections py o fs = .done rs ∧ rs.map Result.matNumber = names ∧ (∀ r ∈ rs, Right o G fs r) ∧
      generate py disk o [] rows = .done (d, pages py o.solver G pad rs) := by
  obtain ⟨d, fl, h1, h2, h3⟩ := prepare_ok ha
  obtain ⟨rs, h4, h5, h6⟩ := cross_ok hpy h
  refine ⟨d, rs, h4, h5, h6, ?_⟩
  have h0 : rs ≠ [] := by
    rintro rfl
    exact h.nonempty h5.symm
  unfold generate generator
  rw [h1, done_bind, h2, done_bind, h3, h4, done_bind, print_ok h0 h6, done_bind]
  rfl

/-! ### messages -/

/-- The run does not leave with a message. -/
def Quiet {α : Type} (x : Run α) : Prop := ∀ m, x ≠ .leaves m

theorem quiet_done {α : Type} (a : α) : Quiet (.done a) := fun _ h => nomatch h
theorem quiet_fails {α : Type} (e : Err) : Quiet (.fails e : Run α) := fun _ h => nomatch h
theorem quiet_nonfinite {α : Type} : Quiet (.nonfinite : Run α) := fun _ h => nomatch h

theorem quiet_bind {α β : Type} {x : Run α} {f : α → Run β} (hx : Quiet x) (hf : ∀ a, Quiet (f a)) : Quiet (x >>= f) := by
  cases x with
  | done a => exact hf a
  | leaves m => exact absurd rfl (hx m)
  | fails e => exact quiet_fails e
  | nonfinite => exact quiet_nonfinite

theorem quiet_item {α : Type} (l : List α) (i : Nat) : Quiet (item l i) := by
  unfold item
  split
  · exact quiet_done _
  · exact quiet_fails _

theorem quiet_lookup {α : Type} (l : List α) (i : Nat) : Quiet (lookup l i) := by
  unfold lookup
  split
  · exact quiet_done _
  · exact quiet_fails _

theorem quiet_entry (v : Vec ℝ) (i : Nat) : Quiet (entry v i) := by
  unfold entry
  split
  · exact quiet_done _
  · exact quiet_fails _

theorem quiet_assign (v : Vec ℝ) (i : Nat) (x : ℝ) : Quiet (assign v i x) := by
  unfold assign
  split
  · exact quiet_done _
  · exact quiet_fails _

theorem quiet_repeat {σ : Type} {f : Nat → σ → Run σ} (hf : ∀ i s, Quiet (f i s)) : ∀ n s, Quiet (repeatFor f n s)
  | 0, s => quiet_done s
  | n + 1, s => quiet_bind (quiet_repeat hf n s) (hf n)

theorem quiet_collect {β : Type} {f : Nat → Run β} (hf : ∀ i, Quiet (f i)) : ∀ n, Quiet (collect f n)
  | 0 => quiet_done _
  | n + 1 => quiet_bind (quiet_collect hf n) (fun _ => quiet_bind (hf n) (fun _ => quiet_done _))

theorem quiet_each {α β : Type} {f : α → Run β} (hf : ∀ a, Quiet (f a)) : ∀ l, Quiet (each f l)
  | [] => quiet_done _
  | a :: l => quiet_bind (hf a) (fun _ => quiet_bind (quiet_each hf l) (fun _ => quiet_done _))

theorem quiet_correct (o : Options) (G i : Nat) (c : Consts) : Quiet (correctGroup o G i c) := by
  unfold correctGroup
  split
  · split
    · exact quiet_bind (quiet_entry _ _) (fun _ => quiet_bind (quiet_entry _ _) (fun _ => quiet_bind (quiet_assign _ _ _) (fun _ => quiet_bind (quiet_entry _ _) (fun _ =>
        quiet_bind (quiet_assign _ _ _) (fun _ => quiet_done _)))))
    · exact quiet_done _
  · split
    · refine quiet_bind (quiet_entry _ _) (fun _ => quiet_bind (quiet_entry _ _) (fun _ => ?_))
      split
      · exact quiet_nonfinite
      · exact quiet_bind (quiet_assign _ _ _) (fun _ => quiet_done _)
    · exact quiet_done _

theorem quiet_universe (o : Options) (t : ℝ) (u : Universe) : Quiet (readUniverse o t u) :=
  quiet_bind (quiet_repeat (fun i s => quiet_correct o _ i s) _ _) (fun _ => quiet_bind (quiet_collect (fun _ => quiet_collect (fun _ => quiet_entry _ _) _) _) (fun _ => quiet_done _))

theorem quiet_add (name : Text) (g : GroupConstants) : ∀ l, Quiet (addGroupConstants name g l)
  | [] => quiet_fails _
  | m :: l => by
    unfold addGroupConstants
    split
    · exact quiet_done _
    · exact quiet_bind (quiet_add name g l) (fun _ => quiet_done _)

theorem quiet_read (o : Options) (t : ℝ) : ∀ us ms, Quiet (readSerpentOutput o t us ms)
  | [], _ => quiet_done _
  | u :: us, _ => quiet_bind (quiet_universe o t u) (fun _ => quiet_bind (quiet_add _ _ _) (fun ms => quiet_read o t us ms))

theorem quiet_create : ∀ us ms, Quiet (createMaterials us ms)
  | [], _ => quiet_done _
  | u :: us, ms => by
    unfold createMaterials
    split
    · exact quiet_fails _
    · exact quiet_create us _

theorem quiet_all (o : Options) : ∀ fs ms, Quiet (readAll o fs ms)
  | [], _ => quiet_done _
  | q :: l, _ => quiet_bind (quiet_read o q.1 q.2 _) (fun ms => quiet_all o l ms)

theorem quiet_fit (vec mat : List ℝ → Coefs) (name : Text) (gs : List GroupConstants) (G : Nat) : Quiet (fitMaterial vec mat name gs G) := by
  have h1 : ∀ k : Key, Quiet (collect (fun e => do
      let ys ← each (fun g : GroupConstants => entry (g.set k) e) gs
      .done (vec ys)) G) := fun k => quiet_collect (fun e => quiet_bind (quiet_each (fun g => quiet_entry _ _) _) (fun _ => quiet_done _)) _
  unfold fitMaterial
  refine quiet_bind (h1 _) (fun _ => quiet_bind (h1 _) (fun _ => quiet_bind (h1 _) (fun _ => quiet_bind (h1 _) (fun _ => quiet_bind (h1 _) (fun _ => quiet_bind (h1 _) (fun _ =>
    quiet_bind (quiet_collect (fun i => quiet_collect (fun j => quiet_bind (quiet_each (fun g => ?_) _) (fun _ => quiet_done _)) _) _) (fun _ => quiet_done _)))))))
  split
  · exact quiet_done _
  · exact quiet_fails _

theorem quiet_calc (py : Py) (ms : List Material) : Quiet (calculateALMOSTCrossSections py ms) := by
  unfold calculateALMOSTCrossSections
  refine quiet_bind (quiet_item _ _) (fun m0 => ?_)
  dsimp only
  split
  · exact quiet_each (fun m => quiet_bind (quiet_item _ _) (fun _ => quiet_fit _ _ _ _ _)) _
  · exact quiet_each (fun m => quiet_bind (quiet_item _ _) (fun _ => quiet_bind (quiet_item _ _) (fun _ => quiet_fit _ _ _ _ _))) _
  · exact quiet_each (fun m => quiet_bind (quiet_item _ _) (fun _ => quiet_bind (quiet_item _ _) (fun _ => quiet_bind (quiet_item _ _) (fun _ => quiet_fit _ _ _ _ _)))) _
  · exact quiet_done _

theorem quiet_cross (py : Py) (o : Options) (fs : List (ℝ × List Universe)) : Quiet (crossSections py o fs) :=
  quiet_bind (quiet_item _ _) (fun _ => quiet_bind (quiet_create _ _) (fun _ => quiet_bind (quiet_all _ _ _) (fun _ => quiet_calc _ _)))

theorem quiet_print (py : Py) (solver : Solver) (rs : List Result) : Quiet (printAlmostOutput py solver rs) := by
  refine quiet_bind (quiet_item _ _) (fun r0 => quiet_bind (quiet_each (fun r => quiet_bind (quiet_collect (fun i => ?_) _) (fun _ =>
    quiet_bind (quiet_collect (fun i => quiet_collect (fun j => quiet_bind (quiet_lookup _ _) (fun _ => quiet_bind (quiet_lookup _ _) (fun _ => quiet_done _))) _) _) (fun _ => quiet_done _))) _)
    (fun _ => quiet_done _))
  refine quiet_bind (quiet_lookup _ _) (fun _ => quiet_bind (quiet_lookup _ _) (fun _ => quiet_bind (quiet_lookup _ _) (fun _ => quiet_bind (quiet_lookup _ _) (fun _ => ?_))))
  dsimp only
  split
  · exact quiet_bind (quiet_lookup _ _) (fun _ => quiet_bind (quiet_done _) (fun _ => quiet_done _))
  · exact quiet_bind (quiet_done _) (fun _ => quiet_done _)

/-! ### keys -/

theorem setKey_old {β : Type} {d : List (ℝ × β)} {k : ℝ} {v : β} (h : k ∈ d.map Prod.fst) : (setKey d k v).length = d.length := by
  unfold setKey
  rw [if_pos h, List.length_map]

theorem setKey_le {β : Type} (d : List (ℝ × β)) (k : ℝ) (v : β) : (setKey d k v).length ≤ d.length + 1 := by
  unfold setKey
  split <;> simp

end

end Verif.Gen
