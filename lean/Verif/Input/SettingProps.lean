import Verif.Input.Settings
import Verif.Calc.Props

/-!
# Properties of reading solvers and settings
-/

namespace Verif.Input

open Verif Outcome

noncomputable section

variable {lib : Lib} {ls : List Text} {file : Option (List Text)} {p : Calc.Plant} {r : Reader}

/-! ### lemmas -/

theorem kindOf_sound {w : Text} {k : Calc.Kind} (h : kindOf w = ok k) : (w, k) ∈ solverNames := by
  unfold kindOf at h
  repeat' split at h
  all_goals first
    | (cases h; subst_vars; simp [solverNames])
    | cases h

theorem kindOf_name {w : Text} {k : Calc.Kind} (h : (w, k) ∈ solverNames) : kindOf w = ok k := by
  simp only [solverNames, List.mem_cons, Prod.mk.injEq, List.not_mem_nil, or_false] at h
  rcases h with ⟨rfl, rfl⟩ | ⟨rfl, rfl⟩ | ⟨rfl, rfl⟩ | ⟨rfl, rfl⟩ | ⟨rfl, rfl⟩ <;> rfl

theorem kindOf_cases (w : Text) : (∃ k, kindOf w = ok k) ∨ kindOf w = exit := by
  unfold kindOf
  repeat' split
  all_goals first
    | exact Or.inl ⟨_, rfl⟩
    | exact Or.inr rfl

theorem solverList_sound {ws : List Text} {ss : List Calc.Settings} (h : solverList ws = ok ss) : ∃ ks, Names ws ks ∧ ss = ks.map newSolver := by
  induction ws generalizing ss with
  | nil =>
    cases h
    exact ⟨[], .nil, rfl⟩
  | cons w ws ih =>
    obtain ⟨k, hk, h⟩ := bind_eq_ok.1 h
    obtain ⟨ss', hs, h⟩ := bind_eq_ok.1 h
    cases h
    obtain ⟨ks, h1, rfl⟩ := ih hs
    exact ⟨k :: ks, .cons (kindOf_sound hk) h1, rfl⟩

theorem solverList_unknown {ws : List Text} {w : Text} (hw : w ∈ ws) (hn : ∀ k, (w, k) ∉ solverNames) : solverList ws = exit := by
  induction ws with
  | nil => cases hw
  | cons v ws ih =>
    show (kindOf v >>= _) = _
    rcases kindOf_cases v with ⟨k, hk⟩ | hk
    · rcases List.mem_cons.1 hw with rfl | hw
      · exact absurd (kindOf_sound hk) (hn k)
      · rw [hk, ok_bind]
        show (solverList ws >>= _) = _
        rw [ih hw]
        rfl
    · rw [hk]
      rfl

theorem setSolvers_sound (hs : Sane lib) {r' : Reader} (h : setSolvers lib r = ok r') : ∃ k ws ks, Card r.lines "solvers" (k :: ws) ∧ Names ws ks ∧
    r' = { r with solvers := (ks ++ if 2 ≤ ks.length then [Calc.Kind.coupled] else []).map newSolver } := by
  obtain ⟨ws, hw, h⟩ := bind_eq_ok.1 h
  obtain ⟨ss, hss, h⟩ := bind_eq_ok.1 h
  cases h
  obtain ⟨ks, hk, rfl⟩ := solverList_sound hss
  rcases readMany_sound hs hw with ⟨k, -, hc⟩ | ⟨rfl, -⟩
  · refine ⟨k, ws, ks, hc, hk, ?_⟩
    rw [List.length_map]
    split <;> simp
  · cases hss

theorem newSolver_kinds (ks : List Calc.Kind) : (ks.map newSolver).map Calc.Settings.kind = ks := by
  rw [List.map_map]
  exact List.map_id' ks

/-- Everything about the solvers of the reader. -/
theorem read_solvers (hs : Sane lib) (h : readData lib file p = ok r) : ∃ k ws ks, Card r.lines "solvers" (k :: ws) ∧ Names ws ks ∧
    List.Forall₂ (Chain lib r.lines r.plant.grid.geom (passes ++ lastPass (ks ++ if 2 ≤ ks.length then [Calc.Kind.coupled] else [])))
      ((ks ++ if 2 ≤ ks.length then [Calc.Kind.coupled] else []).map newSolver) r.solvers := by
  obtain ⟨ls, r1, r2, r3, r4, e0, e1, e2, e3, e4, e5⟩ := readData_stages h
  obtain ⟨k, ws, ks, hc, hn, e⟩ := setSolvers_sound hs e1
  obtain ⟨a1, a2, -⟩ := setShape_solvers e2
  have hch := setSettings_chain hs e3
  have f3 := setSettings_frame e3
  have f4 := setAll_frame e4
  have f5 := setPlots_frame e5
  have f := f3.trans (f4.1.trans f5.1)
  have s1 : r1.solvers = (ks ++ if 2 ≤ ks.length then [Calc.Kind.coupled] else []).map newSolver := by rw [e]
  have l1 : r1.lines = ls := by rw [e]
  rw [a2, s1, newSolver_kinds] at hch
  refine ⟨k, ws, ks, ?_, hn, ?_⟩
  · rw [f.lines, a1, l1]
    exact hc
  · rw [f5.2.1, f4.2, f.lines, f.grid.geom]
    exact hch

theorem forall₂_kinds {geom : Diffusion.Geom} {l : List (String × Calc.Kind)} {a b : List Calc.Settings} (h : List.Forall₂ (Chain lib ls geom l) a b) :
    b.map Calc.Settings.kind = a.map Calc.Settings.kind := by
  induction h with
  | nil => rfl
  | cons h1 h2 ih => rw [List.map_cons, List.map_cons, ih, chain_kind h1]

theorem forall₂_mem {geom : Diffusion.Geom} {l : List (String × Calc.Kind)} {ks : List Calc.Kind} {b : List Calc.Settings}
    (h : List.Forall₂ (Chain lib ls geom l) (ks.map newSolver) b) {s : Calc.Settings} (hs : s ∈ b) : Chain lib ls geom l (newSolver s.kind) s := by
  induction ks generalizing b with
  | nil =>
    cases h
    cases hs
  | cons k ks ih =>
    rw [List.map_cons] at h
    cases h with
    | cons h1 h2 =>
      rcases List.mem_cons.1 hs with rfl | hs
      · have := chain_kind h1
        rw [this]
        exact h1
      · exact ih h2 hs

theorem read_chain (hs : Sane lib) (h : readData lib file p = ok r) : ∀ s ∈ r.solvers,
    Chain lib r.lines r.plant.grid.geom (passes ++ lastPass (r.solvers.map Calc.Settings.kind)) (newSolver s.kind) s := by
  obtain ⟨k, ws, ks, -, -, hf⟩ := read_solvers hs h
  have := forall₂_kinds hf
  rw [newSolver_kinds] at this
  rw [this]
  exact fun s hs => forall₂_mem hf hs

theorem stoi_sound {w : Text} {n : Nat} {z : Int} (h : Numeral w n) (hz : stoi w = ok z) : z = n := by
  obtain ⟨h1, h2, h3⟩ := numeral_facts h
  match w, h1, h2, h3 with
  | c :: w, _, h2, h3 =>
    obtain ⟨s1, s2, s3⟩ := isDigit_not_space (h2 c (by simp))
    have e1 : (c :: w).dropWhile isSpace = c :: w := by
      rw [List.dropWhile_cons, if_neg (by simp [s1])]
    have e2 : sign (c :: w) = (false, c :: w) := by
      unfold sign
      split
      · rename_i e
        injection e with e
        exact absurd e s2
      · rename_i e
        injection e with e
        exact absurd e s3
      · rfl
    have e3 : (c :: w).takeWhile Char.isDigit = c :: w := List.takeWhile_eq_self_iff.2 h2
    unfold stoi at hz
    rw [e1, e2] at hz
    simp only [e3, h3] at hz
    simp only [List.isEmpty_cons, Bool.false_eq_true, if_false] at hz
    split at hz
    · cases hz
      rfl
    · cases hz

theorem stoi_range {w : Text} {z : Int} (h : stoi w = ok z) : -2147483648 ≤ z ∧ z ≤ 2147483647 := by
  unfold stoi at h
  simp only at h
  repeat' split at h
  all_goals first
    | (cases h; assumption)
    | cases h

theorem assign_cases {k : Text} {vs : List Text} {input : Calc.Kind} {s : Calc.Settings} {p : Calc.Plant} {x : Calc.Settings × Calc.Plant}
    (h : assign lib (k :: vs) input s p = ok x) : (∃ v, vs = [v] ∧ oneValue lib k v input s p = ok x) ∨ (∃ v w, vs = [v, w] ∧ twoValues lib k v w input s p = ok x) ∨
    (∃ u v w, vs = [u, v, w] ∧ threeValues lib k u v w input s p = ok x) ∨ (vs.length = 6 ∧ sixValues lib k vs input s p = ok x) := by
  unfold assign at h
  split at h
  · cases h
  · rename_i e
    cases e
    exact Or.inl ⟨_, rfl, h⟩
  · rename_i e
    cases e
    exact Or.inr (Or.inl ⟨_, _, rfl, h⟩)
  · rename_i e
    cases e
    exact Or.inr (Or.inr (Or.inl ⟨_, _, _, rfl, h⟩))
  · rename_i e
    cases e
    exact Or.inr (Or.inr (Or.inr ⟨rfl, h⟩))
  · cases h

/-- A setting that wants one value. -/
theorem assign_given {k : Text} {vs : List Text} {input : Calc.Kind} {s : Calc.Settings} {p : Calc.Plant} {x : Calc.Settings × Calc.Plant}
    (h : assign lib (k :: vs) input s p = ok x) (h1 : k ≠ "albedo".toList) (h2 : k ≠ "heat_boundary_conditions".toList) (h3 : k ≠ "ext_source".toList) :
    Given vs (fun v => oneValue lib k v input s p = ok x) (x = (s, p)) := by
  rcases assign_cases h with ⟨v, rfl, hv⟩ | ⟨v, w, rfl, hv⟩ | ⟨u, v, w, rfl, hv⟩ | ⟨e, hv⟩
  · exact Or.inl ⟨v, rfl, hv⟩
  · unfold twoValues at hv
    rw [if_neg h1] at hv
    cases hv
    exact Or.inr ⟨Or.inl rfl, rfl⟩
  · unfold threeValues at hv
    rw [if_neg h2, if_neg h3] at hv
    cases hv
    exact Or.inr ⟨Or.inr (Or.inl rfl), rfl⟩
  · unfold sixValues at hv
    rw [if_neg h2] at hv
    cases hv
    exact Or.inr ⟨Or.inr (Or.inr e), rfl⟩

theorem given_imp {ws : List Text} {P Q : Text → Prop} {C D : Prop} (h : Given ws P C) (hp : ∀ v, P v → Q v) (hd : C → D) : Given ws Q D := by
  rcases h with ⟨v, e, h⟩ | ⟨e, h⟩
  · exact Or.inl ⟨v, e, hp v h⟩
  · exact Or.inr ⟨e, hd h⟩

theorem stods_reads {ws : List Text} {xs : List ℝ} (h : stods lib ws = ok xs) : Reads lib ws xs := by
  induction ws generalizing xs with
  | nil =>
    cases h
    exact .nil
  | cons w ws ih =>
    obtain ⟨x, hx, h⟩ := bind_eq_ok.1 h
    obtain ⟨ys, hy, h⟩ := bind_eq_ok.1 h
    cases h
    exact .cons hx (ih hy)

theorem last_keys (ks : List Calc.Kind) {key : String} (hk : key ≠ "relaxation_parameter") (P : String × Calc.Kind → Prop) :
    ∀ x ∈ lastPass ks, x.1 ∈ settingKeys ∧ (x.1 ≠ key ∨ P x) := by
  intro x hx
  unfold lastPass at hx
  split at hx
  · obtain rfl := List.mem_singleton.1 hx
    exact ⟨by decide, Or.inl hk.symm⟩
  · cases hx

/-- The setting `key` of a solver of the reader. -/
theorem read_setting (hs : Sane lib) (h : readData lib file p = ok r) (hp : Proper r.lines) {s : Calc.Settings} (hm : s ∈ r.solvers) {key : String} {α : Type}
    {f : Calc.Settings → α} (hf : Only key f) {input : Calc.Kind} (l1 l2 : List (String × Calc.Kind)) (hl : passes = l1 ++ (key, input) :: l2)
    (hi : input = .undefined ∨ s.kind = input) (hk : key ∈ settingKeys) (hr : key ≠ "relaxation_parameter")
    (h12 : ∀ k, (input = .undefined ∨ k = input) → ∀ x ∈ l1 ++ l2, x.1 ∈ settingKeys ∧ (x.1 ≠ key ∨ (x.2 ≠ .undefined ∧ x.2 ≠ k))) :
    ∃ vs s1 s2 q q', Setting r.lines s.kind key vs ∧ q.grid.geom = r.plant.grid.geom ∧ assign lib (key.toList :: vs) input s1 q = ok (s2, q') ∧
      f s1 = f (newSolver s.kind) ∧ f s = f s2 := by
  have hc := read_chain hs h s hm
  rw [hl, List.append_assoc, List.cons_append] at hc
  refine chain_setting hf hp hc hi hk (fun x hx => h12 _ hi x (by simp [hx])) (fun x hx => ?_)
  rcases List.mem_append.1 hx with hx | hx
  · exact h12 _ hi x (by simp [hx])
  · exact last_keys _ hr (fun x => x.2 ≠ .undefined ∧ x.2 ≠ (newSolver s.kind).kind) x hx

theorem ofList_toList {α : Type} [Inhabited α] (l : List α) : (Vec.ofList l).toList = l := by
  unfold Vec.ofList Vec.toList
  apply List.ext_getElem <;> simp +contextual

/-! ### C37 -/

/-- **C37.** The solvers are those named on the card, in that order, and the coupling settings at the end exactly if there are two or more. -/
theorem C37_read (hs : Sane lib) (h : readData lib file p = ok r) : ∃ k ws ks, Card r.lines "solvers" (k :: ws) ∧ Names ws ks ∧
    r.solvers.map Calc.Settings.kind = ks ++ if 2 ≤ ks.length then [Calc.Kind.coupled] else [] := by
  obtain ⟨k, ws, ks, hc, hn, hf⟩ := read_solvers hs h
  have := forall₂_kinds hf
  rw [newSolver_kinds] at this
  exact ⟨k, ws, ks, hc, hn, this⟩

/-- **C37.** An unknown name, no name and no card at all: refused. -/
theorem C37_unknown {l : List Text} (hl : storeInput file = ok l) (hc : Clean lib l) :
    (∀ k ws w, Card l "solvers" (k :: ws) → w ∈ ws → (∀ k, (w, k) ∉ solverNames) → readData lib file p = exit) ∧
    (∀ k, Card l "solvers" [k] → readData lib file p = exit) ∧
    (Silent l "solvers".toList 0 4294967295 → readData lib file p = exit) := by
  have key : ∀ x : Outcome (List Text), readMany lib l "solvers".toList = x → (∀ ws, x = ok ws → solverList ws = exit) → (∀ e, x ≠ throws e) → x ≠ ub → x ≠ nonfinite →
      readData lib file p = exit := by
    intro x hx h1 h2 h3 h4
    unfold readData
    rw [hl, ok_bind]
    unfold setSolvers
    rw [hx]
    cases x with
    | ok ws =>
      rw [ok_bind, h1 ws rfl]
      rfl
    | exit => rfl
    | throws e => exact absurd rfl (h2 e)
    | ub => exact absurd rfl h3
    | nonfinite => exact absurd rfl h4
  refine ⟨fun k ws w hk hw hn => ?_, fun k hk => ?_, fun hk => ?_⟩
  · refine key _ (readMany_card hc hk (List.ne_nil_of_mem hw)) (fun ws' e => ?_) (by simp) (by simp) (by simp)
    cases e
    exact solverList_unknown hw hn
  · exact key _ (readMany_refuses hc hk) (by simp) (by simp) (by simp) (by simp)
  · exact key _ (readMany_missing hc hk) (by simp) (by simp) (by simp) (by simp)

/-- **C37.** The whole program: it can only end with results for one or two solvers, and the calculation is that of the solvers named. -/
theorem C37_program (hs : Sane lib) {t : Calc.Tools} {p' : Calc.Plant} (h : program lib t file p = ok p') : ∃ r k ws ks, readData lib file p = ok r ∧
    Card r.lines "solvers" (k :: ws) ∧ Names ws ks ∧ (ks.length = 1 ∨ ks.length = 2) ∧ r.solvers.map Calc.Settings.kind = (ks ++ if ks.length = 2 then [Calc.Kind.coupled] else []) ∧
    Calc.problem t r.plant r.solvers = ok p' := by
  obtain ⟨r, hr, hp⟩ := bind_eq_ok.1 h
  obtain ⟨k, ws, ks, hc, hn, hk⟩ := C37_read hs hr
  have hlen : r.solvers.length = ks.length + if 2 ≤ ks.length then 1 else 0 := by
    have := congrArg List.length hk
    rw [List.length_map, List.length_append] at this
    rw [this]
    split <;> rfl
  have h12 : ks.length = 1 ∨ ks.length = 2 := by
    by_contra hne
    rw [Calc.C37_refused r.solvers (by rw [hlen]; split <;> omega) (by rw [hlen]; split <;> omega)] at hp
    cases hp
  refine ⟨r, k, ws, ks, hr, hc, hn, h12, ?_, hp⟩
  rw [hk]
  rcases h12 with e | e <;> rw [e] <;> rfl

/-- **C37.** Three or more solvers are refused once they are read. -/
theorem C37_three {t : Calc.Tools} (h : readData lib file p = ok r) (hs : Sane lib) {k : Text} {ws : List Text} (hc : Card r.lines "solvers" (k :: ws)) (h3 : 3 ≤ ws.length) :
    program lib t file p = exit := by
  obtain ⟨k', ws', ks, hc', hn, hk⟩ := C37_read hs h
  have : ws' = ws := by
    obtain ⟨i, m, hf, hw⟩ := hc
    obtain ⟨i', m', hf', hw'⟩ := hc'
    obtain ⟨rfl, rfl⟩ := first_unique hf hf'
    have := says_iff.1 hw
    rw [says_iff.1 hw'] at this
    injection this
  subst this
  have hl : ks.length = ws'.length := hn.length_eq.symm
  have hlen : r.solvers.length = ks.length + 1 := by
    have := congrArg List.length hk
    rw [List.length_map, List.length_append, if_pos (by omega)] at this
    exact this
  unfold program
  rw [h, ok_bind]
  exact Calc.C37_refused _ (by omega) (by omega)

/-! ### C79 -/

/-- **C79.** Accuracy and limit of every solver, and of the coupling, are those in its own block, provided every line that mentions a setting begins with it. A
setting with two, three or six values is ignored without a word. -/
theorem C79_partial (hs : Sane lib) (h : readData lib file p = ok r) (hp : Proper r.lines) {s : Calc.Settings} (hm : s ∈ r.solvers) :
    (∃ ws, Setting r.lines s.kind "accuracy" ws ∧ Given ws (fun v => lib.stod v = ok s.acc) (s.acc = 0)) ∧
    (∃ ws, Setting r.lines s.kind "max_iteration_number" ws ∧ Given ws (fun v => ∀ n, Numeral v n → s.maxIter = n) (s.maxIter = 0)) := by
  constructor
  · obtain ⟨vs, s1, s2, q, q', hset, -, ha, e1, e2⟩ := read_setting hs h hp hm (key := "accuracy") (f := Calc.Settings.acc) (fun _ _ _ _ _ hk hne => hk.acc hne)
      [] _ rfl (Or.inl rfl) (by decide) (by decide) (by intro k _; cases k <;> decide)
    refine ⟨vs, hset, given_imp (assign_given ha (by decide) (by decide) (by decide)) (fun v hv => ?_) (fun e => ?_)⟩
    · obtain ⟨x, hx, e⟩ := bind_eq_ok.1 hv
      cases e
      rw [e2]
      exact hx
    · cases e
      rw [e2, e1]
      rfl
  · obtain ⟨vs, s1, s2, q, q', hset, -, ha, e1, e2⟩ := read_setting hs h hp hm (key := "max_iteration_number") (f := Calc.Settings.maxIter)
      (fun _ _ _ _ _ hk hne => hk.maxIter hne) [_] _ rfl (Or.inl rfl) (by decide) (by decide) (by intro k _; cases k <;> decide)
    refine ⟨vs, hset, given_imp (assign_given ha (by decide) (by decide) (by decide)) (fun v hv n hn => ?_) (fun e => ?_)⟩
    · obtain ⟨x, hx, e⟩ := bind_eq_ok.1 hv
      cases e
      rw [e2]
      exact stoi_sound hn hx
    · cases e
      rw [e2, e1]
      rfl

/-- **C79.** The albedo of a solver: one value, or two for diffusion and source-driven calculations of a slab. -/
theorem C79_albedo (hs : Sane lib) (h : readData lib file p = ok r) (hp : Proper r.lines) {s : Calc.Settings} (hm : s ∈ r.solvers)
    (hk : s.kind = .transport ∨ s.kind = .diffusion ∨ s.kind = .ads) :
    ∃ ws, Setting r.lines s.kind "albedo" ws ∧
      ((ws.length = 1 ∧ (s.kind = .transport ∨ r.plant.grid.geom ≠ .slab) ∧ Reads lib ws s.albedo.toList) ∨
        (ws.length = 2 ∧ s.kind ≠ .transport ∧ r.plant.grid.geom = .slab ∧ Reads lib ws s.albedo.toList) ∨
        ((ws.length = 3 ∨ ws.length = 6) ∧ s.albedo.toList = [0])) := by
  have key : ∃ vs s1 s2 q q', Setting r.lines s.kind "albedo" vs ∧ q.grid.geom = r.plant.grid.geom ∧ assign lib ("albedo".toList :: vs) s.kind s1 q = ok (s2, q') ∧
      s1.albedo = Vec.ofList [0] ∧ s.albedo = s2.albedo := by
    have hf : Only "albedo" Calc.Settings.albedo := fun _ _ _ _ _ hk hne => hk.albedo hne
    rcases hk with hk | hk | hk
    · have := read_setting hs h hp hm hf [_, _] _ rfl (Or.inr hk) (by decide) (by decide) (by rintro k (e | rfl); cases e; decide)
      rw [← hk] at this
      exact this
    · have := read_setting hs h hp hm hf [_, _, _] _ rfl (Or.inr hk) (by decide) (by decide) (by rintro k (e | rfl); cases e; decide)
      rw [← hk] at this
      exact this
    · have := read_setting hs h hp hm hf [_, _, _, _] _ rfl (Or.inr hk) (by decide) (by decide) (by rintro k (e | rfl); cases e; decide)
      rw [← hk] at this
      exact this
  obtain ⟨vs, s1, s2, q, q', hset, hg, ha, e1, e2⟩ := key
  refine ⟨vs, hset, ?_⟩
  rw [← hg, e2]
  rcases assign_cases ha with ⟨v, rfl, hv⟩ | ⟨v, w, rfl, hv⟩ | ⟨u, v, w, rfl, hv⟩ | ⟨e, hv⟩
  · unfold oneValue at hv
    simp only [show "albedo".toList ≠ "accuracy".toList by decide, show "albedo".toList ≠ "max_iteration_number".toList by decide,
      show "albedo".toList ≠ "relaxation_parameter".toList by decide, show "albedo".toList ≠ "energies".toList by decide, if_false, if_true] at hv
    split at hv
    · rename_i hc
      obtain ⟨x, hx, e⟩ := bind_eq_ok.1 hv
      cases e
      refine Or.inl ⟨rfl, ?_, ?_⟩
      · rcases hc with hc | hc
        · exact Or.inl hc
        · exact Or.inr hc.2
      · rw [ofList_toList]
        exact .cons hx .nil
    · cases hv
  · unfold twoValues at hv
    rw [if_pos rfl] at hv
    split at hv
    · rename_i hc
      obtain ⟨x, hx, e⟩ := bind_eq_ok.1 hv
      obtain ⟨y, hy, e⟩ := bind_eq_ok.1 e
      cases e
      refine Or.inr (Or.inl ⟨rfl, ?_, hc.2, ?_⟩)
      · rcases hc.1 with e | e <;> rw [e] <;> decide
      · rw [ofList_toList]
        exact .cons hx (.cons hy .nil)
    · cases hv
  · unfold threeValues at hv
    rw [if_neg (by decide), if_neg (by decide)] at hv
    cases hv
    exact Or.inr (Or.inr ⟨Or.inl rfl, by rw [e1, ofList_toList]⟩)
  · unfold sixValues at hv
    rw [if_neg (by decide)] at hv
    cases hv
    exact Or.inr (Or.inr ⟨Or.inr e, by rw [e1, ofList_toList]⟩)

/-- **C79.** The boundary conditions of the heat solver: three values, or six for a slab. -/
theorem C79_boundary (hs : Sane lib) (h : readData lib file p = ok r) (hp : Proper r.lines) {s : Calc.Settings} (hm : s ∈ r.solvers) (hk : s.kind = .heat) :
    ∃ ws, Setting r.lines .heat "heat_boundary_conditions" ws ∧
      ((ws.length = 3 ∧ r.plant.grid.geom ≠ .slab ∧ Reads lib ws s.bc.toList) ∨ (ws.length = 6 ∧ r.plant.grid.geom = .slab ∧ Reads lib ws s.bc.toList) ∨
        ((ws.length = 1 ∨ ws.length = 2) ∧ s.bc.toList = [])) := by
  obtain ⟨vs, s1, s2, q, q', hset, hg, ha, e1, e2⟩ := read_setting hs h hp hm (key := "heat_boundary_conditions") (f := Calc.Settings.bc)
    (fun _ _ _ _ _ hk hne => hk.bc hne) [_, _, _, _, _] _ rfl (Or.inr hk) (by decide) (by decide) (by rintro k (e | rfl); cases e; decide)
  rw [hk] at hset
  refine ⟨vs, hset, ?_⟩
  rw [← hg, e2]
  have e1 : s1.bc = Vec.ofList [] := e1
  rcases assign_cases ha with ⟨v, rfl, hv⟩ | ⟨v, w, rfl, hv⟩ | ⟨u, v, w, rfl, hv⟩ | ⟨e, hv⟩
  · unfold oneValue at hv
    simp only [show "heat_boundary_conditions".toList ≠ "accuracy".toList by decide, show "heat_boundary_conditions".toList ≠ "max_iteration_number".toList by decide,
      show "heat_boundary_conditions".toList ≠ "relaxation_parameter".toList by decide, show "heat_boundary_conditions".toList ≠ "energies".toList by decide,
      show "heat_boundary_conditions".toList ≠ "albedo".toList by decide, show "heat_boundary_conditions".toList ≠ "direction".toList by decide,
      show "heat_boundary_conditions".toList ≠ "eigenmodes".toList by decide, if_false] at hv
    cases hv
    exact Or.inr (Or.inr ⟨Or.inl rfl, by rw [e1, ofList_toList]⟩)
  · unfold twoValues at hv
    rw [if_neg (by decide)] at hv
    cases hv
    exact Or.inr (Or.inr ⟨Or.inr rfl, by rw [e1, ofList_toList]⟩)
  · unfold threeValues at hv
    rw [if_pos rfl] at hv
    split at hv
    · rename_i hc
      obtain ⟨xs, hx, e⟩ := bind_eq_ok.1 hv
      cases e
      refine Or.inl ⟨rfl, hc.2, ?_⟩
      rw [ofList_toList]
      exact stods_reads hx
    · cases hv
  · unfold sixValues at hv
    rw [if_pos rfl] at hv
    split at hv
    · rename_i hc
      obtain ⟨xs, hx, e'⟩ := bind_eq_ok.1 hv
      cases e'
      refine Or.inr (Or.inl ⟨e, hc.2, ?_⟩)
      rw [ofList_toList]
      exact stods_reads hx
    · cases hv

/-- **C79.** The number of groups of a neutronic solver. -/
theorem C79_groups (hs : Sane lib) (h : readData lib file p = ok r) (hp : Proper r.lines) {s : Calc.Settings} (hm : s ∈ r.solvers)
    (hk : s.kind = .transport ∨ s.kind = .diffusion ∨ s.kind = .ads) :
    ∃ ws, Setting r.lines s.kind "energies" ws ∧ Given ws (fun v => ∀ n, Numeral v n → s.energies = n) (s.energies = 0) := by
  have key : ∃ vs s1 s2 q q', Setting r.lines s.kind "energies" vs ∧ q.grid.geom = r.plant.grid.geom ∧ assign lib ("energies".toList :: vs) s.kind s1 q = ok (s2, q') ∧
      s1.energies = 0 ∧ s.energies = s2.energies := by
    have hf : Only "energies" Calc.Settings.energies := fun _ _ _ _ _ hk hne => (hk.energies hne).1
    rcases hk with hk | hk | hk
    · have := read_setting hs h hp hm hf [_, _, _, _, _, _] _ rfl (Or.inr hk) (by decide) (by decide) (by rintro k (e | rfl); cases e; decide)
      rw [← hk] at this
      exact this
    · have := read_setting hs h hp hm hf [_, _, _, _, _, _, _] _ rfl (Or.inr hk) (by decide) (by decide) (by rintro k (e | rfl); cases e; decide)
      rw [← hk] at this
      exact this
    · have := read_setting hs h hp hm hf [_, _, _, _, _, _, _, _] _ rfl (Or.inr hk) (by decide) (by decide) (by rintro k (e | rfl); cases e; decide)
      rw [← hk] at this
      exact this
  obtain ⟨vs, s1, s2, q, q', hset, hg, ha, e1, e2⟩ := key
  refine ⟨vs, hset, given_imp (assign_given ha (by decide) (by decide) (by decide)) (fun v hv n hn => ?_) (fun e => ?_)⟩
  · obtain ⟨x, hx, e⟩ := bind_eq_ok.1 hv
    obtain ⟨g, hg, e⟩ := bind_eq_ok.1 e
    cases e
    rw [e2]
    have := stoi_range hx
    have e := stoi_sound hn hx
    subst e
    exact toUns_nat (by omega)
  · cases e
    rw [e2, e1]

/-! ### C66 -/

/-- **C66.** The direction of a diffusion calculation is the one asked for; if there are two, three or six words instead of one it stays undefined. -/
theorem C66_direction (hs : Sane lib) (h : readData lib file p = ok r) (hp : Proper r.lines) {s : Calc.Settings} (hm : s ∈ r.solvers) (hk : s.kind = .diffusion) :
    ∃ ws, Setting r.lines .diffusion "direction" ws ∧ Given ws (fun v => (v = "forward".toList ∧ s.direction = .forward) ∨ (v = "adjoint".toList ∧ s.direction = .adjoint))
      (s.direction = .undefined) := by
  obtain ⟨vs, s1, s2, q, q', hset, hg, ha, e1, e2⟩ := read_setting hs h hp hm (key := "direction") (f := Calc.Settings.direction)
    (fun _ _ _ _ _ hk hne => hk.direction hne) [_, _, _, _, _, _, _, _, _] _ rfl (Or.inr hk) (by decide) (by decide) (by rintro k (e | rfl); cases e; decide)
  rw [hk] at hset
  refine ⟨vs, hset, given_imp (assign_given ha (by decide) (by decide) (by decide)) (fun v hv => ?_) (fun e => ?_)⟩
  · unfold oneValue at hv
    simp only [show "direction".toList ≠ "accuracy".toList by decide, show "direction".toList ≠ "max_iteration_number".toList by decide,
      show "direction".toList ≠ "relaxation_parameter".toList by decide, show "direction".toList ≠ "energies".toList by decide,
      show "direction".toList ≠ "albedo".toList by decide, if_false, if_true] at hv
    repeat' split at hv
    · cases hv
      exact Or.inl ⟨by assumption, e2⟩
    · cases hv
      exact Or.inr ⟨by assumption, e2⟩
    · cases hv
  · cases e
    rw [e2, e1]
    rfl

/-- **C66.** Likewise the eigenmodes of a transport or diffusion calculation. -/
theorem C66_modes (hs : Sane lib) (h : readData lib file p = ok r) (hp : Proper r.lines) {s : Calc.Settings} (hm : s ∈ r.solvers)
    (hk : s.kind = .transport ∨ s.kind = .diffusion) :
    ∃ ws, Setting r.lines s.kind "eigenmodes" ws ∧ Given ws (fun v => (v = "fundamental".toList ∧ s.modes = .fundamental) ∨ (v = "all".toList ∧ s.modes = .all))
      (s.modes = .undefined) := by
  have key : ∃ vs s1 s2 q q', Setting r.lines s.kind "eigenmodes" vs ∧ q.grid.geom = r.plant.grid.geom ∧ assign lib ("eigenmodes".toList :: vs) s.kind s1 q = ok (s2, q') ∧
      s1.modes = .undefined ∧ s.modes = s2.modes := by
    have hf : Only "eigenmodes" Calc.Settings.modes := fun _ _ _ _ _ hk hne => hk.modes hne
    rcases hk with hk | hk
    · have := read_setting hs h hp hm hf [_, _, _, _, _, _, _, _, _, _] _ rfl (Or.inr hk) (by decide) (by decide) (by rintro k (e | rfl); cases e; decide)
      rw [← hk] at this
      exact this
    · have := read_setting hs h hp hm hf [_, _, _, _, _, _, _, _, _, _, _] _ rfl (Or.inr hk) (by decide) (by decide) (by rintro k (e | rfl); cases e; decide)
      rw [← hk] at this
      exact this
  obtain ⟨vs, s1, s2, q, q', hset, hg, ha, e1, e2⟩ := key
  refine ⟨vs, hset, given_imp (assign_given ha (by decide) (by decide) (by decide)) (fun v hv => ?_) (fun e => ?_)⟩
  · unfold oneValue at hv
    simp only [show "eigenmodes".toList ≠ "accuracy".toList by decide, show "eigenmodes".toList ≠ "max_iteration_number".toList by decide,
      show "eigenmodes".toList ≠ "relaxation_parameter".toList by decide, show "eigenmodes".toList ≠ "energies".toList by decide,
      show "eigenmodes".toList ≠ "albedo".toList by decide, show "eigenmodes".toList ≠ "direction".toList by decide, if_false, if_true] at hv
    repeat' split at hv
    · cases hv
      exact Or.inl ⟨by assumption, e2⟩
    · cases hv
      exact Or.inr ⟨by assumption, e2⟩
    · cases hv
    · cases hv
  · cases e
    rw [e2, e1]

/-! ### C30 -/

theorem read_coupled (hs : Sane lib) (h : readData lib file p = ok r) : (.coupled ∈ r.solvers.map Calc.Settings.kind ↔ 2 ≤ (r.solvers.map Calc.Settings.kind).length) := by
  obtain ⟨k, ws, ks, -, hn, e⟩ := C37_read hs h
  have : Calc.Kind.coupled ∉ ks := by
    intro hc
    have : ∀ {ws : List Text} {ks : List Calc.Kind}, Names ws ks → Calc.Kind.coupled ∈ ks → False := by
      intro ws ks hn
      induction hn with
      | nil => exact fun h => by cases h
      | cons h1 h2 ih =>
        intro hc
        rcases List.mem_cons.1 hc with rfl | hc
        · simp [solverNames] at h1
        · exact ih hc
    exact this hn hc
  rw [e]
  split
  · rename_i h2
    simp
    omega
  · rename_i h2
    simp [this]
    omega

/-- **C30.** The relaxation parameter of a coupling of transport or diffusion with heat is the one in the block of the coupling. -/
theorem C30_read (hs : Sane lib) (h : readData lib file p = ok r) (hp : Proper r.lines) {s : Calc.Settings} (hm : s ∈ r.solvers) (hk : s.kind = .coupled)
    (h1 : .transport ∈ r.solvers.map Calc.Settings.kind ∨ .diffusion ∈ r.solvers.map Calc.Settings.kind) (h2 : .heat ∈ r.solvers.map Calc.Settings.kind) :
    ∃ ws, Setting r.lines .coupled "relaxation_parameter" ws ∧ Given ws (fun v => lib.stod v = ok s.relax) (s.relax = 0) := by
  have hc := read_chain hs h s hm
  have h3 : .coupled ∈ r.solvers.map Calc.Settings.kind := List.mem_map.2 ⟨s, hm, hk⟩
  unfold lastPass at hc
  rw [if_pos ⟨h1, h2, h3⟩] at hc
  have hl : ∀ x ∈ passes, x.1 ∈ settingKeys ∧ (x.1 ≠ "relaxation_parameter" ∨ (x.2 ≠ .undefined ∧ x.2 ≠ (newSolver s.kind).kind)) := by
    intro x hx
    have : ∀ x ∈ passes, x.1 ∈ settingKeys ∧ x.1 ≠ "relaxation_parameter" := by decide
    exact ⟨(this x hx).1, Or.inl (this x hx).2⟩
  obtain ⟨vs, s1, s2, q, q', hset, hg, ha, e1, e2⟩ := chain_setting (f := Calc.Settings.relax) (fun _ _ _ _ _ hk hne => hk.relax hne) hp hc (Or.inr hk) (by decide)
    hl (by simp)
  rw [show (newSolver s.kind).kind = .coupled from hk] at hset
  refine ⟨vs, hset, given_imp (assign_given ha (by decide) (by decide) (by decide)) (fun v hv => ?_) (fun e => ?_)⟩
  · obtain ⟨x, hx, e⟩ := bind_eq_ok.1 hv
    cases e
    rw [e2]
    exact hx
  · cases e
    rw [e2, e1]
    rfl

/-- **C30.** For every other pair the parameter is zero whatever the input says: what a coupled calculation finds new is thrown away. -/
theorem C30_ignored (hs : Sane lib) (h : readData lib file p = ok r) (hp : Proper r.lines) {s : Calc.Settings} (hm : s ∈ r.solvers)
    (hn : ¬((.transport ∈ r.solvers.map Calc.Settings.kind ∨ .diffusion ∈ r.solvers.map Calc.Settings.kind) ∧ .heat ∈ r.solvers.map Calc.Settings.kind)) : s.relax = 0 := by
  have hc := read_chain hs h s hm
  unfold lastPass at hc
  rw [if_neg (fun hh => hn ⟨hh.1, hh.2.1⟩), List.append_nil] at hc
  rw [chain_only (key := "relaxation_parameter") (f := Calc.Settings.relax) (fun _ _ _ _ _ hk hne => hk.relax hne) hp hc]
  · rfl
  · intro x hx
    have : ∀ x ∈ passes, x.1 ∈ settingKeys ∧ x.1 ≠ "relaxation_parameter" := by decide
    exact ⟨(this x hx).1, Or.inl (this x hx).2⟩

/-! ### C80 -/

theorem setting_unique {kind : Calc.Kind} {key : String} {ws ws' : List Text} (h : Setting ls kind key ws) (h' : Setting ls kind key ws') : ws = ws' := by
  obtain ⟨a, b, hb, i, m, hf, hw⟩ := h
  obtain ⟨a', b', hb', i', m', hf', hw'⟩ := h'
  obtain ⟨rfl, rfl⟩ := block_unique hb hb'
  obtain ⟨rfl, rfl⟩ := first_unique hf hf'
  have := says_iff.1 hw
  rw [says_iff.1 hw'] at this
  injection this with _ this
  exact this.symm

/-- **C80.** Reading never succeeds if a setting that is read for a solver has a number of values other than one, two, three or six. -/
theorem C80_partial (hs : Sane lib) (h : readData lib file p = ok r) (hp : Proper r.lines) {s : Calc.Settings} (hm : s ∈ r.solvers) {key : String}
    (hk : key ∈ settingsOf s.kind) {ws : List Text} (hw : Setting r.lines s.kind key ws) : ws.length = 1 ∨ ws.length = 2 ∨ ws.length = 3 ∨ ws.length = 6 := by
  have main : ∀ {input : Calc.Kind} (l1 l2 : List (String × Calc.Kind)), passes = l1 ++ (key, input) :: l2 → (input = .undefined ∨ s.kind = input) → key ∈ settingKeys →
      key ≠ "relaxation_parameter" →
      (∀ k, (input = .undefined ∨ k = input) → ∀ x ∈ l1 ++ l2, x.1 ∈ settingKeys ∧ (x.1 ≠ key ∨ (x.2 ≠ .undefined ∧ x.2 ≠ k))) →
      ws.length = 1 ∨ ws.length = 2 ∨ ws.length = 3 ∨ ws.length = 6 := by
    intro input l1 l2 h1 h2 h3 h4 h5
    obtain ⟨vs, s1, s2, q, q', hset, -, ha, -, -⟩ := read_setting hs h hp hm (key := key) (f := fun _ => ()) (fun _ _ _ _ _ _ _ => rfl) l1 l2 h1 h2 h3 h4 h5
    rw [setting_unique hw hset]
    exact assign_length ha
  unfold settingsOf at hk
  rcases List.mem_append.1 hk with hk | hk
  · simp only [List.mem_cons, List.not_mem_nil, or_false] at hk
    rcases hk with rfl | rfl
    · exact main [] _ rfl (Or.inl rfl) (by decide) (by decide) (by intro k _; cases k <;> decide)
    · exact main [_] _ rfl (Or.inl rfl) (by decide) (by decide) (by intro k _; cases k <;> decide)
  · have dec : ∀ {k' : Calc.Kind} {l : List (String × Calc.Kind)}, k' ≠ .undefined → (∀ x ∈ l, x.1 ∈ settingKeys ∧ (x.1 ≠ key ∨ (x.2 ≠ .undefined ∧ x.2 ≠ k'))) →
        ∀ k, (k' = .undefined ∨ k = k') → ∀ x ∈ l, x.1 ∈ settingKeys ∧ (x.1 ≠ key ∨ (x.2 ≠ .undefined ∧ x.2 ≠ k)) := by
      rintro k' l hk h k (e | rfl)
      · exact absurd e hk
      · exact h
    cases hkind : s.kind <;> rw [hkind] at hk <;> simp only [List.mem_cons, List.not_mem_nil, or_false] at hk
    · rcases hk with rfl | rfl | rfl
      · exact main [_, _] _ rfl (Or.inr hkind) (by decide) (by decide) (dec (by decide) (by decide))
      · exact main [_, _, _, _, _, _] _ rfl (Or.inr hkind) (by decide) (by decide) (dec (by decide) (by decide))
      · exact main [_, _, _, _, _, _, _, _, _, _] _ rfl (Or.inr hkind) (by decide) (by decide) (dec (by decide) (by decide))
    · subst hk
      exact main [_, _, _, _, _] _ rfl (Or.inr hkind) (by decide) (by decide) (dec (by decide) (by decide))
    · rcases hk with rfl | rfl | rfl | rfl
      · exact main [_, _, _] _ rfl (Or.inr hkind) (by decide) (by decide) (dec (by decide) (by decide))
      · exact main [_, _, _, _, _, _, _] _ rfl (Or.inr hkind) (by decide) (by decide) (dec (by decide) (by decide))
      · exact main [_, _, _, _, _, _, _, _, _] _ rfl (Or.inr hkind) (by decide) (by decide) (dec (by decide) (by decide))
      · exact main [_, _, _, _, _, _, _, _, _, _, _] _ rfl (Or.inr hkind) (by decide) (by decide) (dec (by decide) (by decide))
    · rcases hk with rfl | rfl | rfl
      · exact main [_, _, _, _] _ rfl (Or.inr hkind) (by decide) (by decide) (dec (by decide) (by decide))
      · exact main [_, _, _, _, _, _, _, _] _ rfl (Or.inr hkind) (by decide) (by decide) (dec (by decide) (by decide))
      · exact main [_, _, _, _, _, _, _, _, _, _, _, _] _ rfl (Or.inr hkind) (by decide) (by decide) (dec (by decide) (by decide))

/-- The data of the point kinetics in the examples. -/
def wKinetics : List Text :=
  ["solvers kinetics".toList, "generation_time 1.0".toList, "initial_power 1.0".toList, "delayed_constants 1.0".toList, "delayed_fractions 1.0".toList,
    "times 7.0 9.0".toList, "reactivities 1.0 1.0".toList]

/-- The kinetics solver is not given an accuracy, two solvers that are not used are. -/
def wFile3 : List Text := wKinetics ++ ["solver kinetics".toList, "max_iteration_number 10".toList, "solver heat".toList, "accuracy 7.0".toList, "solver diffusion".toList,
  "accuracy 9.0".toList]

/-- **C79.** It fails without that restriction, and for a solver whose own block does not give the setting: the kinetics solver gets the accuracy of the heat solver, of
which there is none. -/
theorem C79_false (p : Calc.Plant) : ∃ r s, readData wLib (some wFile3) p = ok r ∧ r.solvers = [s] ∧ s.kind = .kinetics ∧ s.acc = 7 ∧
    Speaks wFile3 (header "solver".toList "heat".toList) 9 "solver heat".toList ∧ Speaks wFile3 "accuracy".toList 10 "accuracy 7.0".toList :=
  ⟨_, _, rfl, rfl, rfl, rfl, ⟨rfl, has_iff.1 (by decide)⟩, ⟨rfl, has_iff.1 (by decide)⟩⟩

/-- The accuracy has two values. -/
def wFile4 : List Text := wKinetics ++ ["solver kinetics".toList, "max_iteration_number 10".toList, "accuracy 7.0 9.0".toList]

/-- **C80.** A setting with two values instead of one is not refused: the accuracy stays zero. -/
theorem C80_false (p : Calc.Plant) : ∃ r s, readData wLib (some wFile4) p = ok r ∧ r.solvers = [s] ∧ s.kind = .kinetics ∧ s.acc = 0 ∧
    CardIn wFile4 "accuracy".toList 0 4294967295 ["accuracy".toList, "7.0".toList, "9.0".toList] :=
  ⟨_, _, rfl, rfl, rfl, rfl, card_eval wLib_sane (l := "accuracy 7.0 9.0".toList) (by rfl) (by rfl)⟩

/-! ### examples -/

theorem proper_eval (h : (active ls).all (fun m => settingKeys.all (fun k => !has (small k.toList) (small m) || (splitLine (small m)).head? == some k.toList)) = true) :
    Proper ls := by
  intro key hk i m hS
  rw [List.all_eq_true] at h
  have := h m (List.mem_of_getElem? hS.1)
  rw [List.all_eq_true] at this
  have := this key hk
  rw [has_iff.2 hS.2] at this
  simp only [Bool.not_true, Bool.false_or, beq_iff_eq] at this
  match hw : splitLine (small m), this with
  | k :: ws, this =>
    simp only [List.head?_cons, Option.some.injEq] at this
    subst this
    exact ⟨ws, says_iff.2 hw⟩

/-- One solver with its settings. -/
def wFile5 : List Text := wKinetics ++ ["solver kinetics".toList, "max_iteration_number 10".toList, "accuracy 7.0".toList]

theorem wFile5_read (p : Calc.Plant) : ∃ r s, readData wLib (some wFile5) p = ok r ∧ r.lines = wFile5 ∧ r.solvers = [s] ∧ s.kind = .kinetics ∧ s.acc = 7 ∧ s.maxIter = 10 :=
  ⟨_, _, rfl, rfl, rfl, rfl, rfl, rfl⟩

theorem wFile5_proper : Proper wFile5 := proper_eval (by decide)

example (p : Calc.Plant) : ∃ r s, readData wLib (some wFile5) p = ok r ∧ s ∈ r.solvers ∧ (∃ ws, Setting r.lines s.kind "accuracy" ws ∧ Given ws (fun v => wLib.stod v = ok s.acc) (s.acc = 0)) ∧
    s.acc = 7 := by
  obtain ⟨r, s, h1, h2, h3, h4, h5, h6⟩ := wFile5_read p
  have hm : s ∈ r.solvers := by simp [h3]
  exact ⟨r, s, h1, hm, (C79_partial wLib_sane h1 (by rw [h2]; exact wFile5_proper) hm).1, h5⟩

/-- A coupled calculation of diffusion and heat. -/
def wFile6 : List Text :=
  ["solvers diffusion heat".toList, "geometry sphere".toList, "mesh 3 1.0 fuel".toList, "thermal_power 1.0".toList, "temperatures 9.0 9.0 9.0".toList,
    "solver coupled".toList, "accuracy 1.0".toList, "max_iteration_number 10".toList, "relaxation_parameter 7.0".toList,
    "solver diffusion".toList, "accuracy 7.0".toList, "max_iteration_number 100".toList, "albedo 9.0".toList, "energies 1".toList, "direction adjoint".toList,
    "eigenmodes fundamental".toList,
    "solver heat".toList, "accuracy 9.0".toList, "max_iteration_number 20".toList, "heat_boundary_conditions 7.0 9.0 1.0".toList,
    "material fuel".toList, "thermal_conductivity 7.0 9.0".toList, "ni(1) 7.0".toList, "chi(1) 1.0".toList, "fission(1) 9.0".toList, "total(1) 7.0 1.0".toList,
    "diffCoeff(1) 9.0".toList, "scattMatrix(1, 1) 1.0".toList]

theorem wThree : Numeral "3".toList 3 := .digit (i := 3) (by decide)

theorem wFuel (ls : List Text) (ss : List Calc.Settings) (hss : (isHere ss .transport || isHere ss .diffusion || isHere ss .ads || isHere ss .heat) = true)
    (h1 : storeInput (some ls) = ok ls) (hh : ∀ p, setSolvers wLib ⟨ls, [], p, [], [], []⟩ = ok ⟨ls, ss, p, [], [], []⟩)
    (hg : readOne wLib ls "geometry".toList = ok "sphere".toList) (hm : readMany wLib ls "mesh".toList = ok ["3".toList, "1.0".toList, "fuel".toList])
    (Q : Reader → Prop) (p : Calc.Plant)
    (hQ : ∀ bounds v, (∀ i, i < 3 → v i = Mesh.newMaterial "fuel") → ∃ r, (do
        let r ← setSettings wLib ⟨ls, ss, { p with grid := { p.grid with
          geom := .sphere
          bounds := bounds
          cells := 3
          mats := ⟨3, v⟩ } }, ["fuel".toList, "fuel".toList, "fuel".toList], ["fuel".toList], []⟩
        let r ← setAll wLib r.solvers r
        setPlots wLib r) = ok r ∧ Q r) : ∃ r, readData wLib (some ls) p = ok r ∧ Q r := by
  obtain ⟨g, g1, g2, g3, g4⟩ := setMesh_ok (lib := wLib) (r := ⟨ls, ss, { p with grid := { p.grid with geom := .sphere } }, [], [], []⟩) hm
    (rs := [⟨3, 1, "fuel".toList⟩]) (.cons wThree rfl .nil) (by simp) (by simp) (by simp) (by simp; exact wNamed _ _ rfl) rfl
  have hc3 : g.cells = 3 := g2.cells
  obtain ⟨r, hr, hq⟩ := hQ g.bounds g.mats.v (fun i hi => by
    rw [g4 i (by omega)]
    have := g2.names i (by simpa [cellNames] using hi)
    rw [this]
    interval_cases i <;> rfl)
  refine ⟨r, ?_, hq⟩
  have hm3 : (⟨3, g.mats.v⟩ : Vec Mesh.Material) = g.mats := by
    have := g2.mats
    rw [hc3] at this
    rw [← this]
  have hs : setShape wLib ⟨ls, ss, p, [], [], []⟩ = ok ⟨ls, ss, { p with grid := { p.grid with
          geom := .sphere
          bounds := g.bounds
          cells := 3
          mats := ⟨3, g.mats.v⟩ } }, ["fuel".toList, "fuel".toList, "fuel".toList], ["fuel".toList], []⟩ := by
    unfold setShape
    rw [if_pos hss]
    show (setGeometry wLib _ >>= _) = _
    rw [show setGeometry wLib ⟨ls, ss, p, [], [], []⟩ = ok ⟨ls, ss, { p with grid := { p.grid with geom := .sphere } }, [], [], []⟩ by
      unfold setGeometry
      rw [hg]
      rfl, ok_bind, g1]
    have e : g = { p.grid with
          geom := .sphere
          bounds := g.bounds
          cells := 3
          mats := ⟨3, g.mats.v⟩ } := by
      rw [hm3, ← hc3]
      exact g3
    exact congrArg (fun x => ok (⟨ls, ss, { p with grid := x }, ["fuel".toList, "fuel".toList, "fuel".toList], ["fuel".toList], []⟩ : Reader)) e
  unfold readData
  rw [h1, ok_bind, hh, ok_bind, hs, ok_bind]
  exact hr

theorem wFile6_read (p : Calc.Plant) : ∃ r, readData wLib (some wFile6) p = ok r ∧ r.lines = wFile6 ∧ ∃ s1 s2 s3, r.solvers = [s1, s2, s3] ∧
    s1 = ⟨.diffusion, 7, 100, 0, Vec.ofList [9], Vec.ofList [], 1, .adjoint, .fundamental⟩ ∧
    s2 = ⟨.heat, 9, 20, 0, Vec.ofList [0], Vec.ofList [7, 9, 1], 0, .undefined, .undefined⟩ ∧
    s3 = ⟨.coupled, 1, 10, 7, Vec.ofList [0], Vec.ofList [], 0, .undefined, .undefined⟩ :=
  wFuel wFile6 [newSolver .diffusion, newSolver .heat, newSolver .coupled] (by decide) (by rfl) (fun _ => by rfl) (by rfl) (by rfl) _ p
    (fun bounds v hv => ⟨_, rfl, rfl, _, _, _, rfl, rfl, rfl, rfl⟩)

theorem wFile6_proper : Proper wFile6 := proper_eval (by decide +kernel)

example (p : Calc.Plant) : ∃ r, readData wLib (some wFile6) p = ok r ∧ Proper r.lines ∧
    (∃ k ws ks, Card r.lines "solvers" (k :: ws) ∧ Names ws ks ∧ r.solvers.map Calc.Settings.kind = ks ++ if 2 ≤ ks.length then [Calc.Kind.coupled] else []) ∧
    (∃ s ∈ r.solvers, s.albedo.toList = [9] ∧ ∃ ws, Setting r.lines s.kind "albedo" ws ∧
      ((ws.length = 1 ∧ (s.kind = .transport ∨ r.plant.grid.geom ≠ .slab) ∧ Reads wLib ws s.albedo.toList) ∨
        (ws.length = 2 ∧ s.kind ≠ .transport ∧ r.plant.grid.geom = .slab ∧ Reads wLib ws s.albedo.toList) ∨
        ((ws.length = 3 ∨ ws.length = 6) ∧ s.albedo.toList = [0]))) ∧
    (∃ s ∈ r.solvers, s.energies = 1 ∧ ∃ ws, Setting r.lines s.kind "energies" ws ∧ Given ws (fun v => ∀ n, Numeral v n → s.energies = n) (s.energies = 0)) ∧
    (∃ s ∈ r.solvers, s.direction = .adjoint ∧ ∃ ws, Setting r.lines .diffusion "direction" ws ∧
      Given ws (fun v => (v = "forward".toList ∧ s.direction = .forward) ∨ (v = "adjoint".toList ∧ s.direction = .adjoint)) (s.direction = .undefined)) ∧
    (∃ s ∈ r.solvers, s.modes = .fundamental ∧ ∃ ws, Setting r.lines s.kind "eigenmodes" ws ∧
      Given ws (fun v => (v = "fundamental".toList ∧ s.modes = .fundamental) ∨ (v = "all".toList ∧ s.modes = .all)) (s.modes = .undefined)) ∧
    (∃ s ∈ r.solvers, s.bc.toList = [7, 9, 1] ∧ ∃ ws, Setting r.lines .heat "heat_boundary_conditions" ws ∧
      ((ws.length = 3 ∧ r.plant.grid.geom ≠ .slab ∧ Reads wLib ws s.bc.toList) ∨ (ws.length = 6 ∧ r.plant.grid.geom = .slab ∧ Reads wLib ws s.bc.toList) ∨
        ((ws.length = 1 ∨ ws.length = 2) ∧ s.bc.toList = []))) ∧
    (∃ s ∈ r.solvers, s.relax = 7 ∧ ∃ ws, Setting r.lines .coupled "relaxation_parameter" ws ∧ Given ws (fun v => wLib.stod v = ok s.relax) (s.relax = 0)) := by
  obtain ⟨r, h, hl, s1, s2, s3, hs, e1, e2, e3⟩ := wFile6_read p
  have hp : Proper r.lines := by
    rw [hl]
    exact wFile6_proper
  have m1 : s1 ∈ r.solvers := by simp [hs]
  have m2 : s2 ∈ r.solvers := by simp [hs]
  have m3 : s3 ∈ r.solvers := by simp [hs]
  have k1 : s1.kind = .diffusion := by rw [e1]
  have k2 : s2.kind = .heat := by rw [e2]
  have k3 : s3.kind = .coupled := by rw [e3]
  refine ⟨r, h, hp, C37_read wLib_sane h, ⟨s1, m1, ?_, C79_albedo wLib_sane h hp m1 (by simp [k1])⟩, ⟨s1, m1, by rw [e1], C79_groups wLib_sane h hp m1 (by simp [k1])⟩,
    ⟨s1, m1, by rw [e1], C66_direction wLib_sane h hp m1 k1⟩, ⟨s1, m1, by rw [e1], C66_modes wLib_sane h hp m1 (by simp [k1])⟩,
    ⟨s2, m2, ?_, C79_boundary wLib_sane h hp m2 k2⟩, ⟨s3, m3, by rw [e3], C30_read wLib_sane h hp m3 k3 (by simp [hs, k1]) (by simp [hs, k2])⟩⟩
  · rw [e1, ofList_toList]
  · rw [e2, ofList_toList]

example (p : Calc.Plant) : ∃ r s, readData wLib (some wFile5) p = ok r ∧ s ∈ r.solvers ∧ s.relax = 0 := by
  obtain ⟨r, s, h1, h2, h3, h4, h5, h6⟩ := wFile5_read p
  have hm : s ∈ r.solvers := by simp [h3]
  exact ⟨r, s, h1, hm, C30_ignored wLib_sane h1 (by rw [h2]; exact wFile5_proper) hm (by simp [h3, h4])⟩

example (p : Calc.Plant) : readData wLib (some ["solvers neutronics".toList]) p = exit ∧ readData wLib (some ["solvers".toList]) p = exit :=
  ⟨(C37_unknown (l := ["solvers neutronics".toList]) (by rfl) (wLib_clean _)).1 "solvers".toList ["neutronics".toList] "neutronics".toList
      (card_eval wLib_sane (l := "solvers neutronics".toList) (by rfl) (by rfl)) (by simp) (by intro k; cases k <;> simp [solverNames]),
    (C37_unknown (l := ["solvers".toList]) (by rfl) (wLib_clean _)).2.1 "solvers".toList (card_eval wLib_sane (l := "solvers".toList) (by rfl) (by rfl))⟩

/-! ### what goes wrong -/

/-- Transport and diffusion coupled; the words for the direction. -/
def wFile7 (solvers direction : Text) : List Text :=
  ["solvers ".toList ++ solvers, "geometry sphere".toList, "mesh 3 1.0 fuel".toList,
    "solver coupled".toList, "accuracy 1.0".toList, "max_iteration_number 10".toList, "relaxation_parameter 7.0".toList,
    "solver diffusion".toList, "accuracy 7.0".toList, "max_iteration_number 100".toList, "albedo 9.0".toList, "energies 1".toList, "direction ".toList ++ direction,
    "eigenmodes fundamental".toList,
    "solver transport".toList, "accuracy 9.0".toList, "max_iteration_number 20".toList, "albedo 1.0".toList, "energies 1".toList, "eigenmodes fundamental".toList,
    "material fuel".toList, "ni(1) 7.0".toList, "chi(1) 1.0".toList, "fission(1) 9.0".toList, "total(1) 7.0 1.0".toList,
    "diffCoeff(1) 9.0".toList, "scattMatrix(1, 1) 1.0".toList]

/-- **C30.** A coupling of transport and diffusion is given a relaxation parameter and does not read it; both solvers relax with zero. -/
theorem C30_false (p : Calc.Plant) : Proper (wFile7 "transport diffusion".toList "forward".toList) ∧
    Setting (wFile7 "transport diffusion".toList "forward".toList) .coupled "relaxation_parameter" ["7.0".toList] ∧
    ∃ r, readData wLib (some (wFile7 "transport diffusion".toList "forward".toList)) p = ok r ∧
      ∃ s1 s2 s3, r.solvers = [s1, s2, s3] ∧ s1.kind = .transport ∧ s2.kind = .diffusion ∧ s3.kind = .coupled ∧ s3.relax = 0 :=
  ⟨proper_eval (by decide +kernel),
    ⟨3, 14, findBlock_sound wLib_sane (b := (3, 14)) (by rfl), card_eval wLib_sane (l := "relaxation_parameter 7.0".toList) (by rfl) (by rfl)⟩,
    wFuel (wFile7 "transport diffusion".toList "forward".toList) [newSolver .transport, newSolver .diffusion, newSolver .coupled] (by decide) (by rfl) (fun _ => by rfl)
      (by rfl) (by rfl) _ p (fun bounds v hv => ⟨_, rfl, _, _, _, rfl, rfl, rfl, rfl, rfl⟩)⟩

/-- **C66.** Two words for the direction are accepted and leave it undefined; what comes of that is `Solve.C66_direction`. -/
theorem C66_words (p : Calc.Plant) : Proper (wFile7 "diffusion".toList "forward adjoint".toList) ∧
    Setting (wFile7 "diffusion".toList "forward adjoint".toList) .diffusion "direction" ["forward".toList, "adjoint".toList] ∧
    ∃ r, readData wLib (some (wFile7 "diffusion".toList "forward adjoint".toList)) p = ok r ∧ ∃ s, r.solvers = [s] ∧ s.kind = .diffusion ∧ s.direction = .undefined :=
  ⟨proper_eval (by decide +kernel),
    ⟨7, 14, findBlock_sound wLib_sane (b := (7, 14)) (by rfl), card_eval wLib_sane (l := "direction forward adjoint".toList) (by rfl) (by rfl)⟩,
    wFuel (wFile7 "diffusion".toList "forward adjoint".toList) [newSolver .diffusion] (by decide) (by rfl) (fun _ => by rfl)
      (by rfl) (by rfl) _ p (fun bounds v hv => ⟨_, rfl, _, rfl, rfl, rfl⟩)⟩

end

end Verif.Input
