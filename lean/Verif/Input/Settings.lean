import Verif.Input.BlockProps

/-!
# Lemmas on the settings of the solvers
-/

namespace Verif.Input

open Verif Outcome

noncomputable section

variable {lib : Lib} {ls : List Text}

/-! ### letter case -/

theorem speaks_small {key key' : Text} (h : small key = small key') {i : Nat} {m : Text} : Speaks ls key i m ↔ Speaks ls key' i m := by
  unfold Speaks
  rw [h]

theorem last_small {key key' : Text} (h : small key = small key') {i : Nat} : Last ls key i ↔ Last ls key' i := by
  unfold Last
  simp only [speaks_small h]

theorem block_small {one two two' : Text} (h : small two = small two') {a b : Nat} : Block ls one two a b ↔ Block ls one two' a b := by
  have hh : small (header one two) = small (header one two') := by
    unfold header small
    simp only [List.map_append]
    unfold small at h
    rw [h]
  unfold Block
  simp only [speaks_small hh, last_small hh]

theorem solverName_small (k : Calc.Kind) : small (solverName k) = small (blockName k) := by
  cases k <;> decide

/-! ### one line -/

/-- A line about one setting changes nothing else. -/
structure Keeps (k : Text) (s s' : Calc.Settings) (p p' : Calc.Plant) : Prop where
  acc : k ≠ "accuracy".toList → s'.acc = s.acc
  maxIter : k ≠ "max_iteration_number".toList → s'.maxIter = s.maxIter
  relax : k ≠ "relaxation_parameter".toList → s'.relax = s.relax
  albedo : k ≠ "albedo".toList → s'.albedo = s.albedo
  bc : k ≠ "heat_boundary_conditions".toList → s'.bc = s.bc
  energies : k ≠ "energies".toList → s'.energies = s.energies ∧ p'.grid.energies = p.grid.energies
  grid : k ≠ "energies".toList → p'.grid = p.grid
  direction : k ≠ "direction".toList → s'.direction = s.direction
  modes : k ≠ "eigenmodes".toList → s'.modes = s.modes
  source : k ≠ "ext_source".toList → p'.source = p.source

theorem Keeps.refl (k : Text) (s : Calc.Settings) (p : Calc.Plant) : Keeps k s s p p := by
  constructor <;> intro _ <;> first | rfl | exact ⟨rfl, rfl⟩

theorem keeps_mk {k : Text} {s s' : Calc.Settings} {p p' : Calc.Plant}
    (h1 : s'.acc = s.acc ∨ k = "accuracy".toList) (h2 : s'.maxIter = s.maxIter ∨ k = "max_iteration_number".toList)
    (h3 : s'.relax = s.relax ∨ k = "relaxation_parameter".toList) (h4 : s'.albedo = s.albedo ∨ k = "albedo".toList)
    (h5 : s'.bc = s.bc ∨ k = "heat_boundary_conditions".toList) (h6 : (s'.energies = s.energies ∧ p'.grid = p.grid) ∨ k = "energies".toList)
    (h7 : s'.direction = s.direction ∨ k = "direction".toList) (h8 : s'.modes = s.modes ∨ k = "eigenmodes".toList)
    (h9 : p'.source = p.source ∨ k = "ext_source".toList) : Keeps k s s' p p' :=
  ⟨fun h => h1.resolve_right h, fun h => h2.resolve_right h, fun h => h3.resolve_right h, fun h => h4.resolve_right h, fun h => h5.resolve_right h,
    fun h => ⟨(h6.resolve_right h).1, by rw [(h6.resolve_right h).2]⟩, fun h => (h6.resolve_right h).2, fun h => h7.resolve_right h, fun h => h8.resolve_right h,
    fun h => h9.resolve_right h⟩

theorem oneValue_keeps {k v : Text} {input : Calc.Kind} {s : Calc.Settings} {p : Calc.Plant} {x : Calc.Settings × Calc.Plant}
    (h : oneValue lib k v input s p = ok x) : Keeps k s x.1 p x.2 := by
  unfold oneValue at h
  repeat' split at h
  all_goals first
    | (obtain ⟨y, -, h⟩ := bind_eq_ok.1 h
       cases h
       apply keeps_mk <;> first | exact Or.inl rfl | exact Or.inl ⟨rfl, rfl⟩ | exact Or.inr (by assumption))
    | (obtain ⟨y, -, h⟩ := bind_eq_ok.1 h
       obtain ⟨g, hg, h⟩ := bind_eq_ok.1 h
       cases h
       apply keeps_mk <;> first | exact Or.inl rfl | exact Or.inl ⟨rfl, rfl⟩ | exact Or.inr (by assumption))
    | (cases h
       apply keeps_mk <;> first | exact Or.inl rfl | exact Or.inl ⟨rfl, rfl⟩ | exact Or.inr (by assumption))
    | cases h

theorem setBoundary_keeps {vs : List Text} {s : Calc.Settings} {p : Calc.Plant} {x : Calc.Settings × Calc.Plant}
    (h : setBoundary lib vs s p = ok x) : Keeps "heat_boundary_conditions".toList s x.1 p x.2 := by
  obtain ⟨y, -, h⟩ := bind_eq_ok.1 h
  cases h
  apply keeps_mk <;> first | exact Or.inl rfl | exact Or.inl ⟨rfl, rfl⟩ | exact Or.inr rfl

theorem twoValues_keeps {k v w : Text} {input : Calc.Kind} {s : Calc.Settings} {p : Calc.Plant} {x : Calc.Settings × Calc.Plant}
    (h : twoValues lib k v w input s p = ok x) : Keeps k s x.1 p x.2 := by
  unfold twoValues at h
  repeat' split at h
  all_goals first
    | (obtain ⟨y, -, h⟩ := bind_eq_ok.1 h
       obtain ⟨z, -, h⟩ := bind_eq_ok.1 h
       cases h
       apply keeps_mk <;> first | exact Or.inl rfl | exact Or.inl ⟨rfl, rfl⟩ | exact Or.inr (by assumption))
    | (cases h
       exact Keeps.refl _ _ _)
    | cases h

theorem threeValues_keeps {k u v w : Text} {input : Calc.Kind} {s : Calc.Settings} {p : Calc.Plant} {x : Calc.Settings × Calc.Plant}
    (h : threeValues lib k u v w input s p = ok x) : Keeps k s x.1 p x.2 := by
  unfold threeValues at h
  repeat' split at h
  all_goals first
    | (rename_i hk _
       rw [hk]
       exact setBoundary_keeps h)
    | (obtain ⟨y, -, h⟩ := bind_eq_ok.1 h
       obtain ⟨z, -, h⟩ := bind_eq_ok.1 h
       obtain ⟨z', -, h⟩ := bind_eq_ok.1 h
       cases h
       apply keeps_mk <;> first | exact Or.inl rfl | exact Or.inl ⟨rfl, rfl⟩ | exact Or.inr (by assumption))
    | (cases h
       exact Keeps.refl _ _ _)
    | cases h

theorem sixValues_keeps {k : Text} {vs : List Text} {input : Calc.Kind} {s : Calc.Settings} {p : Calc.Plant} {x : Calc.Settings × Calc.Plant}
    (h : sixValues lib k vs input s p = ok x) : Keeps k s x.1 p x.2 := by
  unfold sixValues at h
  repeat' split at h
  all_goals first
    | (rename_i hk _
       rw [hk]
       exact setBoundary_keeps h)
    | (cases h
       exact Keeps.refl _ _ _)
    | cases h

theorem assign_keeps {k : Text} {vs : List Text} {input : Calc.Kind} {s : Calc.Settings} {p : Calc.Plant} {x : Calc.Settings × Calc.Plant}
    (h : assign lib (k :: vs) input s p = ok x) : Keeps k s x.1 p x.2 := by
  unfold assign at h
  split at h
  · cases h
  · rename_i e
    cases e
    exact oneValue_keeps h
  · rename_i e
    cases e
    exact twoValues_keeps h
  · rename_i e
    cases e
    exact threeValues_keeps h
  · rename_i e
    cases e
    exact sixValues_keeps h
  · cases h

/-- How many values a setting may have, in general. -/
theorem assign_length {k : Text} {vs : List Text} {input : Calc.Kind} {s : Calc.Settings} {p : Calc.Plant} {x : Calc.Settings × Calc.Plant}
    (h : assign lib (k :: vs) input s p = ok x) : vs.length = 1 ∨ vs.length = 2 ∨ vs.length = 3 ∨ vs.length = 6 := by
  unfold assign at h
  split at h
  · cases h
  · rename_i e
    cases e
    simp
  · rename_i e
    cases e
    simp
  · rename_i e
    cases e
    simp
  · rename_i e
    cases e
    simp
  · cases h

/-! ### a pass over the solvers -/

/-- What the pass for `key` and `input` does to one solver. -/
def Pass (lib : Lib) (ls : List Text) (geom : Diffusion.Geom) (key : String) (input : Calc.Kind) (s s' : Calc.Settings) : Prop :=
  (input ≠ .undefined ∧ s.kind ≠ input ∧ s' = s) ∨
  ((input = .undefined ∨ s.kind = input) ∧ ∃ a b ws p p', Block ls "solver".toList (blockName s.kind) a b ∧ CardIn ls key.toList a b ws ∧ p.grid.geom = geom ∧
    assign lib ws input s p = ok (s', p'))

theorem property_pass (hs : Sane lib) {key : String} {input : Calc.Kind} {s : Calc.Settings} {p : Calc.Plant} {x : Calc.Settings × Calc.Plant}
    (h : property lib ls key.toList input s p = ok x) : Pass lib ls p.grid.geom key input s x.1 := by
  unfold property at h
  split at h
  · rename_i hc
    cases h
    exact Or.inl ⟨hc.1, hc.2, rfl⟩
  · rename_i hc
    obtain ⟨-, -, h⟩ := bind_eq_ok.1 h
    obtain ⟨b, hb, h⟩ := bind_eq_ok.1 h
    obtain ⟨l, hl, h⟩ := bind_eq_ok.1 h
    refine Or.inr ⟨by tauto, b.1, b.2, splitLine l, p, x.2, (block_small (solverName_small s.kind)).1 (findBlock_sound hs hb), card_eval hs hl rfl, rfl, h⟩

theorem properties_pass (hs : Sane lib) {key : String} {input : Calc.Kind} {ss : List Calc.Settings} {p : Calc.Plant} {x : List Calc.Settings × Calc.Plant}
    (h : properties lib ls key.toList input ss p = ok x) : List.Forall₂ (Pass lib ls p.grid.geom key input) ss x.1 := by
  induction ss generalizing p x with
  | nil =>
    cases h
    exact .nil
  | cons s ss ih =>
    obtain ⟨y, hy, h⟩ := bind_eq_ok.1 h
    obtain ⟨z, hz, h⟩ := bind_eq_ok.1 h
    cases h
    refine .cons (property_pass hs hy) ?_
    have := ih hz
    rwa [(property_same hy).grid.geom] at this

theorem setProperty_pass (hs : Sane lib) {key : String} {input : Calc.Kind} {r r' : Reader} (h : setProperty lib key input r = ok r') :
    List.Forall₂ (Pass lib r.lines r.plant.grid.geom key input) r.solvers r'.solvers := by
  obtain ⟨x, hx, h⟩ := bind_eq_ok.1 h
  cases h
  exact properties_pass hs hx

/-! ### all passes -/

/-- What several passes do to one solver. -/
inductive Chain (lib : Lib) (ls : List Text) (geom : Diffusion.Geom) : List (String × Calc.Kind) → Calc.Settings → Calc.Settings → Prop
  | nil {s : Calc.Settings} : Chain lib ls geom [] s s
  | cons {key : String} {input : Calc.Kind} {l : List (String × Calc.Kind)} {s s' s'' : Calc.Settings} (h : Pass lib ls geom key input s s')
      (h' : Chain lib ls geom l s' s'') : Chain lib ls geom ((key, input) :: l) s s''

/-- The passes of the reader without the last one. -/
def passes : List (String × Calc.Kind) :=
  [("accuracy", .undefined), ("max_iteration_number", .undefined), ("albedo", .transport), ("albedo", .diffusion), ("albedo", .ads),
    ("heat_boundary_conditions", .heat), ("energies", .transport), ("energies", .diffusion), ("energies", .ads), ("direction", .diffusion),
    ("eigenmodes", .transport), ("eigenmodes", .diffusion), ("ext_source", .ads)]

/-- The last pass, if it is made. -/
def lastPass (ks : List Calc.Kind) : List (String × Calc.Kind) :=
  if (.transport ∈ ks ∨ .diffusion ∈ ks) ∧ .heat ∈ ks ∧ .coupled ∈ ks then [("relaxation_parameter", .coupled)] else []

theorem forall₂_chain {geom : Diffusion.Geom} {key : String} {input : Calc.Kind} {l : List (String × Calc.Kind)} {a b c : List Calc.Settings}
    (h : List.Forall₂ (Pass lib ls geom key input) a b) (h' : List.Forall₂ (Chain lib ls geom l) b c) :
    List.Forall₂ (Chain lib ls geom ((key, input) :: l)) a c := by
  induction h generalizing c with
  | nil =>
    cases h'
    exact .nil
  | cons h1 h2 ih =>
    cases h' with
    | cons h3 h4 => exact .cons (.cons h1 h3) (ih h4)

theorem forall₂_nil {geom : Diffusion.Geom} (a : List Calc.Settings) : List.Forall₂ (Chain lib ls geom []) a a := by
  induction a with
  | nil => exact .nil
  | cons s a ih => exact .cons .nil ih

theorem setProperty_chain (hs : Sane lib) {key : String} {input : Calc.Kind} {l : List (String × Calc.Kind)} {r r' : Reader} {c : List Calc.Settings}
    (h : setProperty lib key input r = ok r') (h' : List.Forall₂ (Chain lib r'.lines r'.plant.grid.geom l) r'.solvers c) :
    List.Forall₂ (Chain lib r.lines r.plant.grid.geom ((key, input) :: l)) r.solvers c := by
  have f := setProperty_frame h
  rw [f.lines, f.grid.geom] at h'
  exact forall₂_chain (setProperty_pass hs h) h'

theorem isHere_iff {ss : List Calc.Settings} {k : Calc.Kind} : isHere ss k = true ↔ k ∈ ss.map Calc.Settings.kind := by
  simp [isHere]

theorem setRelaxation_chain (hs : Sane lib) {r r' : Reader} (h : setRelaxation lib r = ok r') :
    List.Forall₂ (Chain lib r.lines r.plant.grid.geom (lastPass (r.solvers.map Calc.Settings.kind))) r.solvers r'.solvers := by
  unfold setRelaxation at h
  unfold lastPass
  by_cases hc : ((isHere r.solvers .transport || isHere r.solvers .diffusion) && isHere r.solvers .heat && isHere r.solvers .coupled) = true
  · rw [if_pos hc] at h
    simp only [Bool.and_eq_true, Bool.or_eq_true, isHere_iff] at hc
    rw [if_pos ⟨hc.1.1, hc.1.2, hc.2⟩]
    exact forall₂_chain (setProperty_pass hs h) (forall₂_nil _)
  · rw [if_neg hc] at h
    simp only [Bool.and_eq_true, Bool.or_eq_true, isHere_iff] at hc
    rw [if_neg (fun hh => hc ⟨⟨hh.1, hh.2.1⟩, hh.2.2⟩)]
    cases h
    exact forall₂_nil _

theorem chain_append {geom : Diffusion.Geom} {l l' : List (String × Calc.Kind)} {s s' s'' : Calc.Settings} (h : Chain lib ls geom l s s')
    (h' : Chain lib ls geom l' s' s'') : Chain lib ls geom (l ++ l') s s'' := by
  induction h with
  | nil => exact h'
  | cons h1 h2 ih => exact .cons h1 (ih h')

theorem setSettings_chain (hs : Sane lib) {r r' : Reader} (h : setSettings lib r = ok r') :
    List.Forall₂ (Chain lib r.lines r.plant.grid.geom (passes ++ lastPass (r.solvers.map Calc.Settings.kind))) r.solvers r'.solvers := by
  have hk := (setSettings_frame h).kinds
  obtain ⟨r1, h1, h⟩ := bind_eq_ok.1 h
  obtain ⟨r2, h2, h⟩ := bind_eq_ok.1 h
  obtain ⟨r3, h3, h⟩ := bind_eq_ok.1 h
  obtain ⟨r4, h4, h⟩ := bind_eq_ok.1 h
  obtain ⟨r5, h5, h⟩ := bind_eq_ok.1 h
  obtain ⟨r6, h6, h⟩ := bind_eq_ok.1 h
  obtain ⟨r7, h7, h⟩ := bind_eq_ok.1 h
  obtain ⟨r8, h8, h⟩ := bind_eq_ok.1 h
  obtain ⟨r9, h9, h⟩ := bind_eq_ok.1 h
  obtain ⟨r10, h10, h⟩ := bind_eq_ok.1 h
  obtain ⟨r11, h11, h⟩ := bind_eq_ok.1 h
  obtain ⟨r12, h12, h⟩ := bind_eq_ok.1 h
  obtain ⟨r13, h13, h⟩ := bind_eq_ok.1 h
  have hl := setRelaxation_chain hs h
  rw [← (setRelaxation_frame h).kinds, hk] at hl
  exact setProperty_chain hs h1 <| setProperty_chain hs h2 <| setProperty_chain hs h3 <| setProperty_chain hs h4 <| setProperty_chain hs h5 <|
    setProperty_chain hs h6 <| setProperty_chain hs h7 <| setProperty_chain hs h8 <| setProperty_chain hs h9 <| setProperty_chain hs h10 <|
    setProperty_chain hs h11 <| setProperty_chain hs h12 <| setProperty_chain hs h13 hl

/-! ### one setting -/

theorem pass_kind {geom : Diffusion.Geom} {key : String} {input : Calc.Kind} {s s' : Calc.Settings} (h : Pass lib ls geom key input s s') : s'.kind = s.kind := by
  rcases h with ⟨-, -, rfl⟩ | ⟨-, a, b, ws, p, p', -, -, -, h⟩
  · rfl
  · exact (assign_same h).kind

theorem chain_kind {geom : Diffusion.Geom} {l : List (String × Calc.Kind)} {s s' : Calc.Settings} (h : Chain lib ls geom l s s') : s'.kind = s.kind := by
  induction h with
  | nil => rfl
  | cons h1 h2 ih => rw [ih, pass_kind h1]

/-- In a proper file the line found for a key begins with it. -/
theorem proper_card (hp : Proper ls) {key : String} (hk : key ∈ settingKeys) {a b : Nat} {ws : List Text} (h : CardIn ls key.toList a b ws) :
    ∃ vs, ws = key.toList :: vs := by
  obtain ⟨i, m, hf, hw⟩ := h
  obtain ⟨vs, hv⟩ := hp key hk i m hf.1
  refine ⟨vs, ?_⟩
  rw [← says_iff.1 hw, says_iff.1 hv]

/-- A field changed by lines about `key` only. -/
def Only (key : String) {α : Type} (f : Calc.Settings → α) : Prop := ∀ k s s' p p', Keeps k s s' p p' → k ≠ key.toList → f s' = f s

theorem chain_only {key : String} {α : Type} {f : Calc.Settings → α} (hf : Only key f) (hp : Proper ls) {geom : Diffusion.Geom} {l : List (String × Calc.Kind)}
    {s s' : Calc.Settings} (h : Chain lib ls geom l s s')
    (hl : ∀ x ∈ l, x.1 ∈ settingKeys ∧ (x.1 ≠ key ∨ (x.2 ≠ .undefined ∧ x.2 ≠ s.kind))) : f s' = f s := by
  induction h with
  | nil => rfl
  | @cons key' input l s s' s'' h1 h2 ih =>
    rw [ih (fun x hx => by rw [pass_kind h1]; exact hl x (List.mem_cons_of_mem _ hx))]
    obtain ⟨hk, hl⟩ := hl (key', input) (by simp)
    rcases h1 with ⟨-, -, rfl⟩ | ⟨hi, a, b, ws, p, p', -, hc, -, h⟩
    · rfl
    · obtain ⟨vs, rfl⟩ := proper_card hp hk hc
      refine hf _ _ _ _ _ (assign_keeps h) ?_
      rcases hl with hl | ⟨h1, h2⟩
      · exact fun e => hl (String.toList_inj.1 e)
      · rcases hi with hi | hi
        · exact absurd hi h1
        · exact absurd hi.symm h2

theorem chain_split {geom : Diffusion.Geom} {l1 l2 : List (String × Calc.Kind)} {x : String × Calc.Kind} {s s'' : Calc.Settings}
    (h : Chain lib ls geom (l1 ++ x :: l2) s s'') : ∃ s1 s2, Chain lib ls geom l1 s s1 ∧ Pass lib ls geom x.1 x.2 s1 s2 ∧ Chain lib ls geom l2 s2 s'' := by
  induction l1 generalizing s with
  | nil =>
    cases h with
    | cons h1 h2 => exact ⟨_, _, .nil, h1, h2⟩
  | cons y l1 ih =>
    cases h with
    | cons h1 h2 =>
      obtain ⟨s1, s2, h3, h4, h5⟩ := ih h2
      exact ⟨s1, s2, .cons h1 h3, h4, h5⟩

/-- The setting `key` of a solver comes from the pass for it. -/
theorem chain_setting {key : String} {α : Type} {f : Calc.Settings → α} (hf : Only key f) (hp : Proper ls) {geom : Diffusion.Geom}
    {l1 l2 : List (String × Calc.Kind)} {input : Calc.Kind} {s s' : Calc.Settings} (h : Chain lib ls geom (l1 ++ (key, input) :: l2) s s')
    (hi : input = .undefined ∨ s.kind = input) (hk : key ∈ settingKeys)
    (h1 : ∀ x ∈ l1, x.1 ∈ settingKeys ∧ (x.1 ≠ key ∨ (x.2 ≠ .undefined ∧ x.2 ≠ s.kind)))
    (h2 : ∀ x ∈ l2, x.1 ∈ settingKeys ∧ (x.1 ≠ key ∨ (x.2 ≠ .undefined ∧ x.2 ≠ s.kind))) :
    ∃ vs s1 s2 p p', Setting ls s.kind key vs ∧ p.grid.geom = geom ∧ assign lib (key.toList :: vs) input s1 p = ok (s2, p') ∧ f s1 = f s ∧ f s' = f s2 := by
  obtain ⟨s1, s2, c1, c2, c3⟩ := chain_split h
  have k1 := chain_kind c1
  have k2 := pass_kind c2
  have e1 := chain_only hf hp c1 h1
  have e2 := chain_only hf hp c3 (fun x hx => by rw [k2, k1]; exact h2 x hx)
  rcases c2 with ⟨n1, n2, -⟩ | ⟨-, a, b, ws, p, p', hb, hc, hg, ha⟩
  · rw [k1] at n2
    rcases hi with hi | hi
    · exact absurd hi n1
    · exact absurd hi n2
  · obtain ⟨vs, rfl⟩ := proper_card hp hk hc
    rw [k1] at hb
    exact ⟨vs, s1, s2, p, p', ⟨a, b, hb, hc⟩, hg, ha, e1, e2⟩

end

end Verif.Input
