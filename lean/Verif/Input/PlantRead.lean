import Verif.Input.DataRead

/-!
# Lemmas on the reactor through all stages of reading
-/

namespace Verif.Input

open Verif Outcome

noncomputable section

variable {lib : Lib}

/-! ### the mesh -/

theorem mapLoop_mem {l : List Text} {ns : List Nat} : ∀ {i : Nat} {a m : List Text}, mapLoop (Vec.ofList l) i ns a = ok m → (∀ w ∈ a, w ∈ l) → ∀ w ∈ m, w ∈ l := by
  induction ns with
  | nil =>
    intro i a m h ha
    cases h
    exact ha
  | cons n ns ih =>
    intro i a m h ha
    obtain ⟨b, hb, h⟩ := bind_eq_ok.1 h
    refine ih h (loop_inv_of_ok (fun _ u => ∀ w ∈ u, w ∈ l) ha (fun k u u' _ hu he => ?_) hb)
    obtain ⟨v, hv, he⟩ := bind_eq_ok.1 he
    cases he
    intro w hw
    rcases List.mem_append.1 hw with hw | hw
    · exact hu w hw
    · rw [List.mem_singleton.1 hw]
      by_cases hi : i < l.length
      · rw [Vec.get_ok (by exact hi)] at hv
        cases hv
        show l.getD i default ∈ l
        have : l.getD i default = l[i] := by simp [List.getD, hi]
        rw [this]
        exact List.getElem_mem hi
      · rw [Vec.get_ub (by exact hi)] at hv
        cases hv

theorem createMaterials_eq {names : Vec String} {g g' : Mesh.Grid} (h : Mesh.createMaterials names g = ok g') :
    g' = { g with mats := g'.mats } ∧ g'.mats.n = g.cells ∧ ∀ i, i < g.cells → i < names.n ∧ g'.mats.v i = Mesh.newMaterial (names.v i) := by
  obtain ⟨x, hx, h⟩ := bind_eq_ok.1 h
  cases h
  have := loop_inv_of_ok (fun k (u : Vec Mesh.Material) => u.n = g.cells ∧ ∀ i, i < k → i < names.n ∧ u.v i = Mesh.newMaterial (names.v i))
    ⟨rfl, fun i hi => absurd hi (Nat.not_lt_zero i)⟩ (fun k u u' hk hu he => by
      obtain ⟨s, hs, he⟩ := bind_eq_ok.1 he
      have hkn : k < names.n := by
        by_contra hkn
        rw [Vec.get_ub hkn] at hs
        cases hs
      rw [Vec.get_ok hkn] at hs
      cases hs
      rw [Vec.set_ok (by rw [hu.1]; exact hk)] at he
      cases he
      refine ⟨hu.1, fun i hi => ?_⟩
      by_cases hik : i = k
      · subst hik
        exact ⟨hkn, Function.update_self _ _ _⟩
      · refine ⟨(hu.2 i (by omega)).1, ?_⟩
        show Function.update u.v k _ i = _
        rw [Function.update_of_ne hik]
        exact (hu.2 i (by omega)).2) hx
  exact ⟨rfl, this.1, this.2⟩

/-- The cells of the reader: each has a material of the list, with its name. -/
structure Placed (r : Reader) : Prop where
  nodup : r.mats.Nodup
  size : r.plant.grid.mats.n = r.plant.grid.cells
  cell : ∀ i, i < r.plant.grid.cells → ∃ w, r.map[i]? = some w ∧ w ∈ r.mats ∧ (r.plant.grid.mats.v i).name = String.ofList w

theorem setMesh_placed {r r' : Reader} (hm : r.map = []) (h : setMesh lib r = ok r') :
    Placed r' ∧ ∀ i, i < r'.plant.grid.cells → r'.plant.grid.mats.v i = Mesh.newMaterial (r'.plant.grid.mats.v i).name := by
  obtain ⟨ws, -, h⟩ := bind_eq_ok.1 h
  obtain ⟨c, -, h⟩ := bind_eq_ok.1 h
  obtain ⟨b, -, h⟩ := bind_eq_ok.1 h
  obtain ⟨v, -, h⟩ := bind_eq_ok.1 h
  obtain ⟨m, hmap, h⟩ := bind_eq_ok.1 h
  obtain ⟨g, hg, h⟩ := bind_eq_ok.1 h
  obtain ⟨e, -, h⟩ := bind_eq_ok.1 h
  obtain ⟨d, -, h⟩ := bind_eq_ok.1 h
  cases h
  obtain ⟨h1, h2, h3⟩ := createMaterials_eq hg
  have hcells : g.cells = (Mesh.setBounds b r.plant.grid).cells := by rw [h1]
  refine ⟨⟨uniqueText_nodup (sortText_sorted _), h2.trans hcells.symm, fun i hi => ?_⟩, fun i hi => ?_⟩
  · obtain ⟨h4, h5⟩ := h3 i (by rw [← hcells]; exact hi)
    have h4 : i < m.length := by simpa [Vec.ofList] using h4
    refine ⟨m[i], ?_, ?_, ?_⟩
    · show (r.map ++ m)[i]? = _
      rw [hm, List.nil_append, List.getElem?_eq_getElem h4]
    · show _ ∈ uniqueText (sortText c.2.2)
      rw [mem_uniqueText, mem_sortText]
      exact mapLoop_mem hmap (by simp) _ (List.getElem_mem h4)
    · show (g.mats.v i).name = _
      rw [h5]
      show (Vec.ofList (m.map String.ofList)).v i = _
      simp [Vec.ofList, List.getD, h4]
  · obtain ⟨h4, h5⟩ := h3 i (by rw [← hcells]; exact hi)
    show g.mats.v i = Mesh.newMaterial (g.mats.v i).name
    rw [h5]
    rfl

/-! ### settings -/

/-- What the settings may change in the reactor: the numbers of groups and the source. -/
structure Tuned (p p' : Calc.Plant) : Prop where
  kept : Kept p.grid p'.grid
  power : p'.power = p.power
  kinetics : p'.kinetics = p.kinetics
  forward : p'.kForward = p.kForward
  adjoint : p'.kAdjoint = p.kAdjoint
  mats : ∀ i, ∃ e, p'.grid.mats.v i = { p.grid.mats.v i with energies := e }

theorem Tuned.refl (p : Calc.Plant) : Tuned p p := ⟨Kept.refl _, rfl, rfl, rfl, rfl, fun _ => ⟨_, rfl⟩⟩

theorem Tuned.trans {p p' p'' : Calc.Plant} (h : Tuned p p') (h' : Tuned p' p'') : Tuned p p'' :=
  ⟨h.kept.trans h'.kept, h'.power.trans h.power, h'.kinetics.trans h.kinetics, h'.forward.trans h.forward, h'.adjoint.trans h.adjoint, fun i => by
    obtain ⟨e, he⟩ := h.mats i
    obtain ⟨e', he'⟩ := h'.mats i
    exact ⟨e', by rw [he', he]⟩⟩

theorem setGroups_eq {n : Nat} {g g' : Mesh.Grid} (h : Mesh.setGroups n g = ok g') :
    (∀ i, i < g.cells → g'.mats.v i = { g.mats.v i with energies := n }) ∧ ∀ i, ∃ e, g'.mats.v i = { g.mats.v i with energies := e } := by
  unfold Mesh.setGroups at h
  refine loop_inv_of_ok (fun k (u : Mesh.Grid) => (∀ i, i < k → u.mats.v i = { g.mats.v i with energies := n }) ∧
    ∀ i, ∃ e, u.mats.v i = { g.mats.v i with energies := e }) ?_ ?_ h
  · exact ⟨fun i hi => absurd hi (Nat.not_lt_zero i), fun i => ⟨_, rfl⟩⟩
  intro k u u' _ hu he
  have ha := change_at he
  refine ⟨fun i hi => ?_, fun i => ?_⟩
  · by_cases hik : i = k
    · subst hik
      obtain ⟨e, he⟩ := hu.2 i
      rw [ha.changed, he]
    · rw [ha.other i hik]
      exact hu.1 i (by omega)
  · by_cases hik : i = k
    · subst hik
      obtain ⟨e, he⟩ := hu.2 i
      exact ⟨n, by rw [ha.changed, he]⟩
    · rw [ha.other i hik]
      exact hu.2 i

theorem assign_tuned {ws : List Text} {input : Calc.Kind} {s : Calc.Settings} {p : Calc.Plant} {x : Calc.Settings × Calc.Plant}
    (h : assign lib ws input s p = ok x) : Tuned p x.2 := by
  have h0 := assign_same h
  refine ⟨h0.grid, h0.power, h0.kinetics, h0.forward, h0.adjoint, ?_⟩
  match ws, h with
  | [], h => cases h
  | k :: vs, h =>
    by_cases hk : k = "energies".toList
    · subst hk
      unfold assign at h
      split at h
      · cases h
      · rename_i e
        cases e
        obtain ⟨n, -, h⟩ := bind_eq_ok.1 h
        obtain ⟨g, hg, h⟩ := bind_eq_ok.1 h
        cases h
        exact (setGroups_eq hg).2
      · rename_i e
        cases e
        cases h
        exact fun i => ⟨_, rfl⟩
      · rename_i e
        cases e
        cases h
        exact fun i => ⟨_, rfl⟩
      · rename_i e
        cases e
        cases h
        exact fun i => ⟨_, rfl⟩
      · cases h
    · rw [(assign_keeps h).grid hk]
      exact fun i => ⟨_, rfl⟩

/-- A relation that holds for every line holds for all settings. -/
theorem properties_rel {Q : Calc.Plant → Calc.Plant → Prop} (h0 : ∀ p, Q p p) (h1 : ∀ p p' p'', Q p p' → Q p' p'' → Q p p'') {ls : List Text} {key : String} {input : Calc.Kind}
    {ss : List Calc.Settings} (hstep : ∀ s ∈ ss, ∀ p x, property lib ls key.toList input s p = ok x → Q p x.2)
    {p : Calc.Plant} {x : List Calc.Settings × Calc.Plant} (h : properties lib ls key.toList input ss p = ok x) : Q p x.2 := by
  induction ss generalizing p x with
  | nil =>
    cases h
    exact h0 _
  | cons s ss ih =>
    obtain ⟨y, hy, h⟩ := bind_eq_ok.1 h
    obtain ⟨z, hz, h⟩ := bind_eq_ok.1 h
    cases h
    have h2 : Q y.2 z.2 := ih (fun s hs => hstep s (by simp [hs])) hz
    exact h1 _ _ _ (hstep s (by simp) p y hy) h2

/-- A property of readers kept by every pass is kept by the settings. -/
theorem setSettings_inv {P : Reader → Prop} {r r' : Reader} (h : setSettings lib r = ok r') (h0 : P r)
    (hstep : ∀ key input u u', ((key, input) ∈ passes ∨ (key, input) = ("relaxation_parameter", Calc.Kind.coupled)) → Frame r u → P u →
      setProperty lib key input u = ok u' → P u') : P r' := by
  obtain ⟨r1, h1, h⟩ := bind_eq_ok.1 h
  obtain ⟨r2, h2, h⟩ := bind_eq_ok.1 h
  obtain ⟨r3, h3, h⟩ := bind_eq_ok.1 h
  obtain ⟨r4, h4, h⟩ := bind_eq_ok.1 h
  obtain ⟨r5, h5, h⟩ := bind_eq_ok.1 h
  obtain ⟨r6, h6, h⟩ := bind_eq_ok.1 h
  obtain ⟨r7, h7, h⟩ := bind_eq_ok.1 h
  obtain ⟨r8, h8, h⟩ := bind_eq_ok.1 h
  obtain ⟨r9, h9, h⟩ := bind_eq_ok.1 h
  obtain ⟨r10, h10, h⟩ := bind_eq_ok.1 h
  obtain ⟨r11, h11, h⟩ := bind_eq_ok.1 h
  obtain ⟨r12, h12, h⟩ := bind_eq_ok.1 h
  obtain ⟨r13, h13, h⟩ := bind_eq_ok.1 h
  have step : ∀ {key input u u'}, (key, input) ∈ passes → (Frame r u ∧ P u) → setProperty lib key input u = ok u' → Frame r u' ∧ P u' :=
    fun hk hu he => ⟨hu.1.trans (setProperty_frame he), hstep _ _ _ _ (Or.inl hk) hu.1 hu.2 he⟩
  have s1 := step (by simp [passes]) ⟨Frame.refl r, h0⟩ h1
  have s2 := step (by simp [passes]) s1 h2
  have s3 := step (by simp [passes]) s2 h3
  have s4 := step (by simp [passes]) s3 h4
  have s5 := step (by simp [passes]) s4 h5
  have s6 := step (by simp [passes]) s5 h6
  have s7 := step (by simp [passes]) s6 h7
  have s8 := step (by simp [passes]) s7 h8
  have s9 := step (by simp [passes]) s8 h9
  have s10 := step (by simp [passes]) s9 h10
  have s11 := step (by simp [passes]) s10 h11
  have s12 := step (by simp [passes]) s11 h12
  have s13 := step (by simp [passes]) s12 h13
  unfold setRelaxation at h
  split at h
  · exact hstep _ _ _ _ (Or.inr rfl) s13.1 s13.2 h
  · cases h
    exact s13.2

theorem property_tuned {ls : List Text} {key : Text} {input : Calc.Kind} {s : Calc.Settings} {p : Calc.Plant} {x : Calc.Settings × Calc.Plant}
    (h : property lib ls key input s p = ok x) : Tuned p x.2 := by
  unfold property at h
  split at h
  · cases h
    exact Tuned.refl p
  · obtain ⟨-, -, h⟩ := bind_eq_ok.1 h
    obtain ⟨b, -, h⟩ := bind_eq_ok.1 h
    obtain ⟨l, -, h⟩ := bind_eq_ok.1 h
    exact assign_tuned h

theorem setSettings_tuned {r r' : Reader} (h : setSettings lib r = ok r') : Tuned r.plant r'.plant := by
  refine setSettings_inv (P := fun u => Tuned r.plant u.plant) h (Tuned.refl _) (fun key input u u' _ _ hu he => hu.trans ?_)
  obtain ⟨x, hx, he⟩ := bind_eq_ok.1 he
  cases he
  exact properties_rel Tuned.refl (fun _ _ _ => Tuned.trans) (fun s _ p x h => property_tuned h) hx

/-- All cells have `n` groups. -/
def Grouped (n : Nat) (p : Calc.Plant) : Prop := p.grid.energies = n ∧ ∀ i, i < p.grid.cells → (p.grid.mats.v i).energies = n

theorem assign_grouped {v : Text} {n : Nat} (hv : Numeral v n) {input : Calc.Kind} {s : Calc.Settings} {p : Calc.Plant} {x : Calc.Settings × Calc.Plant}
    (h : assign lib ["energies".toList, v] input s p = ok x) : Grouped n x.2 := by
  have h : oneValue lib "energies".toList v input s p = ok x := h
  obtain ⟨z, hz, h⟩ := bind_eq_ok.1 h
  obtain ⟨g, hg, h⟩ := bind_eq_ok.1 h
  cases h
  have e := stoi_sound hv hz
  have hr := stoi_range hz
  subst e
  rw [toUns_nat (by omega)] at hg
  obtain ⟨k1, k2⟩ := setGroups_kept hg
  refine ⟨k2, fun i hi => ?_⟩
  have hi : i < g.cells := hi
  rw [k1.cells] at hi
  show (g.mats.v i).energies = n
  rw [(setGroups_eq hg).1 i hi]

theorem property_card (hs : Sane lib) {ls : List Text} {key : String} {input : Calc.Kind} {s : Calc.Settings} {p : Calc.Plant} {x : Calc.Settings × Calc.Plant}
    (h : property lib ls key.toList input s p = ok x) : (input ≠ .undefined ∧ s.kind ≠ input ∧ x = (s, p)) ∨
    ((input = .undefined ∨ s.kind = input) ∧ ∃ a b ws, Block ls "solver".toList (blockName s.kind) a b ∧ CardIn ls key.toList a b ws ∧
      assign lib ws input s p = ok x) := by
  unfold property at h
  split at h
  · rename_i hc
    cases h
    exact Or.inl ⟨hc.1, hc.2, rfl⟩
  · rename_i hc
    obtain ⟨-, -, h⟩ := bind_eq_ok.1 h
    obtain ⟨b, hb, h⟩ := bind_eq_ok.1 h
    obtain ⟨l, hl, h⟩ := bind_eq_ok.1 h
    exact Or.inr ⟨by tauto, b.1, b.2, splitLine l, (block_small (solverName_small s.kind)).1 (findBlock_sound hs hb), card_eval hs hl rfl, h⟩

theorem property_grouped (hs : Sane lib) {ls : List Text} (hp : Proper ls) {n : Nat} {key : String} (hk : key ∈ settingKeys) {input : Calc.Kind} {s : Calc.Settings}
    (hn : key = "energies" → s.kind = input → ∃ v, Setting ls s.kind "energies" [v] ∧ Numeral v n) (hu : key = "energies" → input ≠ .undefined)
    {p : Calc.Plant} {x : Calc.Settings × Calc.Plant} (h : property lib ls key.toList input s p = ok x) :
    (Grouped n p → Grouped n x.2) ∧ (key = "energies" → s.kind = input → Grouped n x.2) := by
  rcases property_card hs h with ⟨h1, h2, rfl⟩ | ⟨h1, a, b, ws, h2, h3, h4⟩
  · exact ⟨id, fun _ e => absurd e h2⟩
  · obtain ⟨vs, rfl⟩ := proper_card hp hk h3
    by_cases he : key = "energies"
    · subst he
      obtain ⟨v, hv, hnum⟩ := hn rfl (h1.resolve_left (hu rfl))
      have := setting_unique hv ⟨a, b, h2, h3⟩
      subst this
      have hg := assign_grouped hnum h4
      exact ⟨fun _ => hg, fun _ _ => hg⟩
    · refine ⟨fun hg => ?_, fun e => absurd e he⟩
      unfold Grouped
      rw [(assign_keeps h4).grid (fun e => he (String.toList_inj.1 e))]
      exact hg

theorem properties_grouped (hs : Sane lib) {ls : List Text} (hp : Proper ls) {n : Nat} {key : String} (hk : key ∈ settingKeys) {input : Calc.Kind} {ss : List Calc.Settings}
    (hn : key = "energies" → ∀ s ∈ ss, s.kind = input → ∃ v, Setting ls s.kind "energies" [v] ∧ Numeral v n) (hu : key = "energies" → input ≠ .undefined)
    {p : Calc.Plant} {x : List Calc.Settings × Calc.Plant} (h : properties lib ls key.toList input ss p = ok x) :
    (Grouped n p → Grouped n x.2) ∧ (key = "energies" → input ∈ ss.map Calc.Settings.kind → Grouped n x.2) := by
  induction ss generalizing p x with
  | nil =>
    cases h
    exact ⟨id, fun _ h => absurd h (by simp)⟩
  | cons s ss ih =>
    obtain ⟨y, hy, h⟩ := bind_eq_ok.1 h
    obtain ⟨z, hz, h⟩ := bind_eq_ok.1 h
    cases h
    obtain ⟨a1, a2⟩ := property_grouped hs hp hk (fun e => hn e s (by simp)) hu hy
    obtain ⟨b1, b2⟩ := ih (fun e s hs => hn e s (by simp [hs])) hz
    refine ⟨fun hg => b1 (a1 hg), fun e hm => ?_⟩
    rcases List.mem_cons.1 hm with hm | hm
    · exact b1 (a2 e hm.symm)
    · exact b2 e hm

theorem setSettings_grouped (hs : Sane lib) {r r' : Reader} (hp : Proper r.lines) (h : setSettings lib r = ok r') {n : Nat}
    (hn : ∀ k ∈ r.solvers.map Calc.Settings.kind, k ∈ neutronics → ∃ v, Setting r.lines k "energies" [v] ∧ Numeral v n)
    {k : Calc.Kind} (hk : k ∈ r.solvers.map Calc.Settings.kind) (hk' : k ∈ neutronics) : Grouped n r'.plant := by
  have keep : ∀ {key input u u'}, ((key, input) ∈ passes ∨ (key, input) = ("relaxation_parameter", Calc.Kind.coupled)) → Frame r u →
      setProperty lib key input u = ok u' →
      (Grouped n u.plant → Grouped n u'.plant) ∧ (key = "energies" → input ∈ r.solvers.map Calc.Settings.kind → Grouped n u'.plant) := by
    intro key input u u' hpass hf he
    obtain ⟨x, hx, he⟩ := bind_eq_ok.1 he
    cases he
    rw [hf.lines] at hx
    rw [← hf.kinds]
    refine properties_grouped hs hp ?_ (fun e s hsm hki => ?_) (fun e => ?_) hx
    · rcases hpass with hpass | hpass
      · simp [passes] at hpass
        rcases hpass with h | h | h | h | h | h | h | h | h | h | h | h | h <;> simp [h.1, settingKeys]
      · cases hpass
        simp [settingKeys]
    · have hin : s.kind ∈ r.solvers.map Calc.Settings.kind := by
        rw [← hf.kinds]
        exact List.mem_map_of_mem hsm
      refine hn _ hin ?_
      subst e
      rw [hki]
      simp [passes] at hpass
      rcases hpass with h | h | h <;> simp [h, neutronics]
    · subst e
      simp [passes] at hpass
      rcases hpass with h | h | h <;> simp [h]
  obtain ⟨r1, h1, h⟩ := bind_eq_ok.1 h
  obtain ⟨r2, h2, h⟩ := bind_eq_ok.1 h
  obtain ⟨r3, h3, h⟩ := bind_eq_ok.1 h
  obtain ⟨r4, h4, h⟩ := bind_eq_ok.1 h
  obtain ⟨r5, h5, h⟩ := bind_eq_ok.1 h
  obtain ⟨r6, h6, h⟩ := bind_eq_ok.1 h
  obtain ⟨r7, h7, h⟩ := bind_eq_ok.1 h
  obtain ⟨r8, h8, h⟩ := bind_eq_ok.1 h
  obtain ⟨r9, h9, h⟩ := bind_eq_ok.1 h
  obtain ⟨r10, h10, h⟩ := bind_eq_ok.1 h
  obtain ⟨r11, h11, h⟩ := bind_eq_ok.1 h
  obtain ⟨r12, h12, h⟩ := bind_eq_ok.1 h
  obtain ⟨r13, h13, h⟩ := bind_eq_ok.1 h
  have f6 : Frame r r6 := (setProperty_frame h1).trans <| (setProperty_frame h2).trans <| (setProperty_frame h3).trans <| (setProperty_frame h4).trans <|
    (setProperty_frame h5).trans (setProperty_frame h6)
  have f7 := f6.trans (setProperty_frame h7)
  have f8 := f7.trans (setProperty_frame h8)
  have f9 := f8.trans (setProperty_frame h9)
  have f10 := f9.trans (setProperty_frame h10)
  have f11 := f10.trans (setProperty_frame h11)
  have f12 := f11.trans (setProperty_frame h12)
  have f13 := f12.trans (setProperty_frame h13)
  have g9 : Grouped n r9.plant := by
    have s7 := keep (Or.inl (by simp [passes])) f6 h7
    have s8 := keep (Or.inl (by simp [passes])) f7 h8
    have s9 := keep (Or.inl (by simp [passes])) f8 h9
    simp [neutronics] at hk'
    rcases hk' with rfl | rfl | rfl
    · exact s9.1 (s8.1 (s7.2 rfl hk))
    · exact s9.1 (s8.2 rfl hk)
    · exact s9.2 rfl hk
  have g10 := (keep (Or.inl (by simp [passes])) f9 h10).1 g9
  have g11 := (keep (Or.inl (by simp [passes])) f10 h11).1 g10
  have g12 := (keep (Or.inl (by simp [passes])) f11 h12).1 g11
  have g13 := (keep (Or.inl (by simp [passes])) f12 h13).1 g12
  unfold setRelaxation at h
  split at h
  · exact (keep (Or.inr rfl) f13 h).1 g13
  · cases h
    exact g13

/-! ### the source -/

theorem setSettings_source (hs : Sane lib) {r r' : Reader} (hp : Proper r.lines) (h : setSettings lib r = ok r') :
    (.ads ∉ r.solvers.map Calc.Settings.kind → r'.plant.source = r.plant.source) ∧
    (.ads ∈ r.solvers.map Calc.Settings.kind → ∃ ws, Setting r.lines .ads "ext_source" ws ∧
      ((∃ u v w, ws = [u, v, w] ∧ lib.stod u = ok r'.plant.source.1 ∧ (∀ m, Numeral v m → r'.plant.source.2.1 = m) ∧ ∀ m, Numeral w m → r'.plant.source.2.2 = m) ∨
        ((ws.length = 1 ∨ ws.length = 2 ∨ ws.length = 6) ∧ r'.plant.source = r.plant.source))) := by
  obtain ⟨r1, h1, h⟩ := bind_eq_ok.1 h
  obtain ⟨r2, h2, h⟩ := bind_eq_ok.1 h
  obtain ⟨r3, h3, h⟩ := bind_eq_ok.1 h
  obtain ⟨r4, h4, h⟩ := bind_eq_ok.1 h
  obtain ⟨r5, h5, h⟩ := bind_eq_ok.1 h
  obtain ⟨r6, h6, h⟩ := bind_eq_ok.1 h
  obtain ⟨r7, h7, h⟩ := bind_eq_ok.1 h
  obtain ⟨r8, h8, h⟩ := bind_eq_ok.1 h
  obtain ⟨r9, h9, h⟩ := bind_eq_ok.1 h
  obtain ⟨r10, h10, h⟩ := bind_eq_ok.1 h
  obtain ⟨r11, h11, h⟩ := bind_eq_ok.1 h
  obtain ⟨r12, h12, h⟩ := bind_eq_ok.1 h
  obtain ⟨r13, h13, h⟩ := bind_eq_ok.1 h
  have keep : ∀ {key input u u'}, key ∈ settingKeys → key ≠ "ext_source" → (Frame r u ∧ u.plant.source = r.plant.source) → setProperty lib key input u = ok u' →
      Frame r u' ∧ u'.plant.source = r.plant.source := by
    intro key input u u' hk hne hu he
    refine ⟨hu.1.trans (setProperty_frame he), Eq.trans ?_ hu.2⟩
    obtain ⟨x, hx, he⟩ := bind_eq_ok.1 he
    cases he
    rw [hu.1.lines] at hx
    refine properties_rel (Q := fun p p' => p'.source = p.source) (fun _ => rfl) (fun _ _ _ h h' => h'.trans h) (fun s _ p x h => ?_) hx
    rcases property_card hs h with ⟨-, -, rfl⟩ | ⟨-, a, b, ws, -, h3, h4⟩
    · rfl
    · obtain ⟨vs, rfl⟩ := proper_card hp hk h3
      exact (assign_keeps h4).source (fun e => hne (String.toList_inj.1 e))
  have s1 := keep (by simp [settingKeys]) (by decide) ⟨Frame.refl r, rfl⟩ h1
  have s2 := keep (by simp [settingKeys]) (by decide) s1 h2
  have s3 := keep (by simp [settingKeys]) (by decide) s2 h3
  have s4 := keep (by simp [settingKeys]) (by decide) s3 h4
  have s5 := keep (by simp [settingKeys]) (by decide) s4 h5
  have s6 := keep (by simp [settingKeys]) (by decide) s5 h6
  have s7 := keep (by simp [settingKeys]) (by decide) s6 h7
  have s8 := keep (by simp [settingKeys]) (by decide) s7 h8
  have s9 := keep (by simp [settingKeys]) (by decide) s8 h9
  have s10 := keep (by simp [settingKeys]) (by decide) s9 h10
  have s11 := keep (by simp [settingKeys]) (by decide) s10 h11
  have s12 := keep (by simp [settingKeys]) (by decide) s11 h12
  have f13 := s12.1.trans (setProperty_frame h13)
  have last : r'.plant.source = r13.plant.source := by
    unfold setRelaxation at h
    split at h
    · obtain ⟨x, hx, h⟩ := bind_eq_ok.1 h
      cases h
      rw [f13.lines] at hx
      refine properties_rel (Q := fun p p' => p'.source = p.source) (fun _ => rfl) (fun _ _ _ h h' => h'.trans h) (fun s _ p x h => ?_) hx
      rcases property_card hs h with ⟨-, -, rfl⟩ | ⟨-, a, b, ws, -, h3, h4⟩
      · rfl
      · obtain ⟨vs, rfl⟩ := proper_card hp (by simp [settingKeys]) h3
        exact (assign_keeps h4).source (by decide)
    · cases h
      rfl
  rw [last]
  -- the pass for the source
  obtain ⟨x, hx, h13⟩ := bind_eq_ok.1 h13
  cases h13
  rw [s12.1.lines] at hx
  rw [← s12.1.kinds, ← s12.2]
  generalize r12.plant = q at hx
  generalize r12.solvers = ss at hx
  clear h1 h2 h3 h4 h5 h6 h7 h8 h9 h10 h11 h12 h s1 s2 s3 s4 s5 s6 s7 s8 s9 s10 s11 s12 f13 last
  -- what one line does, and that it does it again
  have one : ∀ s q y, property lib r.lines "ext_source".toList .ads s q = ok y → (s.kind ≠ .ads ∧ y.2 = q) ∨
      (s.kind = .ads ∧ ∃ ws, Setting r.lines .ads "ext_source" ws ∧
        ((∃ u v w x m n, ws = [u, v, w] ∧ lib.stod u = ok x ∧ stoi v = ok m ∧ stoi w = ok n ∧ y.2.source = (x, toUns m, toUns n)) ∨
          ((ws.length = 1 ∨ ws.length = 2 ∨ ws.length = 6) ∧ y.2.source = q.source))) := by
    intro s q y hy
    rcases property_card hs hy with ⟨-, h2, rfl⟩ | ⟨h1, a, b, ws, h2, h3, h4⟩
    · exact Or.inl ⟨h2, rfl⟩
    · have hkind : s.kind = .ads := h1.resolve_left (by simp)
      obtain ⟨vs, rfl⟩ := proper_card hp (by simp [settingKeys]) h3
      rw [hkind] at h2
      refine Or.inr ⟨hkind, vs, ⟨a, b, h2, h3⟩, ?_⟩
      unfold assign at h4
      split at h4
      · cases h4
      · rename_i e
        cases e
        cases h4
        exact Or.inr ⟨by simp, rfl⟩
      · rename_i e
        cases e
        cases h4
        exact Or.inr ⟨by simp, rfl⟩
      · rename_i e
        cases e
        obtain ⟨x, hx, h4⟩ := bind_eq_ok.1 h4
        obtain ⟨m, hm, h4⟩ := bind_eq_ok.1 h4
        obtain ⟨n, hn, h4⟩ := bind_eq_ok.1 h4
        cases h4
        exact Or.inl ⟨_, _, _, x, m, n, rfl, hx, hm, hn, rfl⟩
      · rename_i e
        cases e
        cases h4
        exact Or.inr ⟨by simp, rfl⟩
      · cases h4
  have all : ∀ ss q x, properties lib r.lines "ext_source".toList .ads ss q = ok x → (.ads ∉ ss.map Calc.Settings.kind → x.2.source = q.source) ∧
      (.ads ∈ ss.map Calc.Settings.kind → ∃ ws, Setting r.lines .ads "ext_source" ws ∧
        ((∃ u v w y m n, ws = [u, v, w] ∧ lib.stod u = ok y ∧ stoi v = ok m ∧ stoi w = ok n ∧ x.2.source = (y, toUns m, toUns n)) ∨
          ((ws.length = 1 ∨ ws.length = 2 ∨ ws.length = 6) ∧ x.2.source = q.source))) := by
    intro ss
    induction ss with
    | nil =>
      intro q x hx
      cases hx
      exact ⟨fun _ => rfl, fun h => absurd h (by simp)⟩
    | cons s ss ih =>
      intro q x hx
      obtain ⟨y, hy, hx⟩ := bind_eq_ok.1 hx
      obtain ⟨z, hz, hx⟩ := bind_eq_ok.1 hx
      cases hx
      obtain ⟨i1, i2⟩ := ih y.2 z hz
      rcases one s q y hy with ⟨k, e⟩ | ⟨k, ws, hset, hw⟩
      · rw [e] at i1 i2
        refine ⟨fun hm => i1 (fun hh => hm (by simp at hh ⊢; exact Or.inr hh)), fun hm => i2 ?_⟩
        rcases List.mem_cons.1 hm with hm | hm
        · exact absurd hm.symm k
        · exact hm
      · refine ⟨fun hm => absurd (by simp [k]) hm, fun _ => ?_⟩
        by_cases hm : .ads ∈ ss.map Calc.Settings.kind
        · obtain ⟨ws', hset', hw'⟩ := i2 hm
          have := setting_unique hset hset'
          subst this
          refine ⟨ws, hset, ?_⟩
          rcases hw' with hw' | ⟨hl, hw'⟩
          · exact Or.inl hw'
          · refine Or.inr ⟨hl, ?_⟩
            rcases hw with ⟨_, _, _, _, _, _, e, -⟩ | ⟨-, hw⟩
            · rw [e] at hl
              simp at hl
            · rw [hw', hw]
        · refine ⟨ws, hset, ?_⟩
          show _ ∨ _ ∧ z.2.source = q.source
          rw [show z.2.source = y.2.source from i1 hm]
          exact hw
  obtain ⟨a1, a2⟩ := all ss q x hx
  refine ⟨a1, fun hm => ?_⟩
  obtain ⟨ws, hset, hw⟩ := a2 hm
  refine ⟨ws, hset, ?_⟩
  rcases hw with ⟨u, v, w, y, m, n, e, hu, hv, hw, hx⟩ | hw
  · refine Or.inl ⟨u, v, w, e, ?_, fun k hk => ?_, fun k hk => ?_⟩
    · show lib.stod u = ok x.2.source.1
      rw [hx]
      exact hu
    · show x.2.source.2.1 = k
      rw [hx]
      have := stoi_sound hk hv
      have hr := stoi_range hv
      subst this
      exact toUns_nat (by omega)
    · show x.2.source.2.2 = k
      rw [hx]
      have := stoi_sound hk hw
      have hr := stoi_range hw
      subst this
      exact toUns_nat (by omega)
  · exact Or.inr hw

/-! ### data -/

theorem setAll_inv {P : List Calc.Kind → Reader → Prop} {ss : List Calc.Settings} {r r' : Reader} (h : setAll lib ss r = ok r') {K : List Calc.Kind} (h0 : P K r)
    (hstep : ∀ K k u u', Frame r u → u.solvers = r.solvers → P K u → setData lib k u = ok u' → P (k :: K) u') : P ((ss.map Calc.Settings.kind).reverse ++ K) r' := by
  induction ss generalizing r K with
  | nil =>
    cases h
    exact h0
  | cons s ss ih =>
    obtain ⟨r1, h1, h⟩ := bind_eq_ok.1 h
    obtain ⟨f1, e1⟩ := setData_frame h1
    have := ih h (hstep K s.kind r r1 (Frame.refl r) rfl h0 h1) (fun K k u u' hf hs => hstep K k u u' (f1.trans hf) (hs.trans e1))
    rw [List.map_cons, List.reverse_cons, List.append_assoc]
    exact this

/-- What the heat solver reads into the material `w` of a cell, besides sources and temperature. -/
def Conducts (lib : Lib) (lines : List Text) (w : Text) (x x' : Mesh.Material) : Prop :=
  ∃ v, Law lib lines w "thermal_conductivity".toList 1 v ∧ 1 ≤ v.n ∧ v.n ≤ 3 ∧ x' = { x with kLaw := some v }

theorem setHeat_effect (hs : Sane lib) {r r' : Reader} (hn : r.mats.Nodup) (h : setHeat lib r = ok r') : ∃ r1 t, readValues lib r.lines "temperatures".toList = ok t ∧
    t.n ≤ r.plant.grid.mats.n ∧
    Cellwise (fun w i x x' => ∃ x1, Conducts lib r.lines w x x1 ∧ x' = { x1 with T := if i < t.n then t.v i else x1.T }) r1 r' ∧
    ((isHere r.solvers .transport || isHere r.solvers .diffusion) = true → ∃ k w x, Card r.lines "thermal_power" [k, w] ∧ lib.stod w = ok x ∧
      r1 = { r with plant := { r.plant with power := x } }) ∧
    ((isHere r.solvers .transport || isHere r.solvers .diffusion) = false → ∃ q, readValues lib r.lines "heat_sources".toList = ok q ∧ q.n ≤ r.plant.grid.mats.n ∧
      Cellwise (fun _ i x x' => x' = { x with q := if i < q.n then q.v i else x.q }) r r1) := by
  obtain ⟨r1, h1, h⟩ := bind_eq_ok.1 h
  obtain ⟨r2, h2, h⟩ := bind_eq_ok.1 h
  have f1 := (setLoad_frame h1).1
  have c2 := setConductivity_effect hs (by rw [f1.mats]; exact hn) h2
  obtain ⟨l2, -⟩ := c2.lines
  obtain ⟨t, ht, htn, c3⟩ := setTemps_effect h
  refine ⟨r1, t, ?_, ?_, ?_, fun hp => ?_, fun hp => ?_⟩
  · rw [l2, f1.lines] at ht
    exact ht
  · rw [c2.mats.size, f1.grid.size] at htn
    exact htn
  · rw [← f1.lines]
    exact (c2.trans c3)
  · unfold setLoad at h1
    rw [if_pos hp] at h1
    obtain ⟨w, hw, h1⟩ := bind_eq_ok.1 h1
    obtain ⟨x, hx, h1⟩ := bind_eq_ok.1 h1
    cases h1
    obtain ⟨k, hk⟩ := readOne_sound hs hw
    exact ⟨k, w, x, hk, hx, rfl⟩
  · unfold setLoad at h1
    rw [if_neg (by rw [hp]; decide)] at h1
    exact setSources_effect h1

theorem setKinetics_effect (hs : Sane lib) {r r' : Reader} (h : setKinetics lib r = ok r') :
    ∃ k, KineticsFile lib r.lines k ∧ r' = { r with plant := { r.plant with kinetics := k } } := by
  obtain ⟨a, ha, h⟩ := bind_eq_ok.1 h
  obtain ⟨alpha, halpha, h⟩ := bind_eq_ok.1 h
  obtain ⟨w, hw, h⟩ := bind_eq_ok.1 h
  obtain ⟨power, hpower, h⟩ := bind_eq_ok.1 h
  obtain ⟨lam, hlam, h⟩ := bind_eq_ok.1 h
  obtain ⟨beta, hbeta, h⟩ := bind_eq_ok.1 h
  obtain ⟨times, htimes, h⟩ := bind_eq_ok.1 h
  obtain ⟨rhos, hrhos, h⟩ := bind_eq_ok.1 h
  split at h
  · rename_i e
    cases h
    obtain ⟨k, hk⟩ := readOne_sound hs ha
    obtain ⟨k', hk'⟩ := readOne_sound hs hw
    exact ⟨⟨lam, beta, alpha, power, rhos, times⟩, ⟨⟨k, a, hk, halpha⟩, ⟨k', w, hk', hpower⟩, readValues_lists hs hlam, readValues_lists hs hbeta, readValues_lists hs htimes,
      readValues_lists hs hrhos, e⟩, rfl⟩
  · cases h

theorem Cellwise.with {R : Text → Nat → Mesh.Material → Mesh.Material → Prop} {r r' : Reader} (h : Cellwise R r r') {i : Nat} {w : Text} (hi : i < r'.plant.grid.cells)
    (hm : r'.map[i]? = some w) (hw : w ∈ r'.mats) :
    i < r.plant.grid.cells ∧ r.map[i]? = some w ∧ w ∈ r.mats ∧ R w i (r.plant.grid.mats.v i) (r'.plant.grid.mats.v i) := by
  rw [h.mats.cells] at hi
  obtain ⟨-, e1, e2, -⟩ := h.lines
  rw [e1] at hm
  rw [e2] at hw
  exact ⟨hi, hm, hw, h.changed i w hi hm hw⟩

/-- The state of a material `w` in cell `i` after the data of the solvers `K` are read. -/
structure CellState (lib : Lib) (lines : List Text) (E : Nat) (fed : Bool) (K : List Calc.Kind) (w : Text) (i : Nat) (x : Mesh.Material) : Prop where
  nuclear : (∃ k ∈ K, k ∈ neutronics) → NuclearFile lib lines w E x
  clear : (∀ k ∈ K, k ∉ neutronics) → x.nu = [] ∧ x.chi = [] ∧ x.fiss = [] ∧ x.tot = [] ∧ x.scatt = []
  diff : (.diffusion ∈ K ∨ .ads ∈ K) → Has lib lines w E (groupKey "diffCoeff") 1 x.diff
  nodiff : .diffusion ∉ K → .ads ∉ K → x.diff = []
  law : .heat ∈ K → ∃ v, x.kLaw = some v ∧ 1 ≤ v.n ∧ v.n ≤ 3 ∧ Law lib lines w "thermal_conductivity".toList 1 v
  nolaw : .heat ∉ K → x.kLaw = none
  temp : .heat ∈ K → ∃ t, readValues lib lines "temperatures".toList = ok t ∧ x.T = if i < t.n then t.v i else 0
  cold : .heat ∉ K → x.T = 0
  load : .heat ∈ K → fed = false → ∃ q, readValues lib lines "heat_sources".toList = ok q ∧ x.q = if i < q.n then q.v i else 0
  noload : .heat ∉ K ∨ fed = true → x.q = 0

theorem has_append {lines : List Text} {w : Text} {E : Nat} {key : Nat → Text} {n : Nat} {l l' : List (Vec ℝ)} (h : Has lib lines w E key n l' ) (hl : l = [] ∨ Has lib lines w E key n l) :
    Has lib lines w E key n (l ++ l') := by
  rcases hl with rfl | hl
  · exact h
  · intro e he
    obtain ⟨v, h1, h2⟩ := hl e he
    exact ⟨v, by rw [List.getElem?_append_left (List.getElem?_eq_some_iff.1 h1).1]; exact h1, h2⟩

theorem scatt_append {P : Nat → Nat → Vec ℝ → Prop} {E : Nat} {l l' : List (Vec ℝ)} (h : ∀ e f, e < E → f < E → ∃ v, l'[e * E + f]? = some v ∧ P e f v)
    (hl : l = [] ∨ ∀ e f, e < E → f < E → ∃ v, l[e * E + f]? = some v ∧ P e f v) : ∀ e f, e < E → f < E → ∃ v, (l ++ l')[e * E + f]? = some v ∧ P e f v := by
  rcases hl with rfl | hl
  · exact h
  · intro e f he hf
    obtain ⟨v, h1, h2⟩ := hl e f he hf
    exact ⟨v, by rw [List.getElem?_append_left (List.getElem?_eq_some_iff.1 h1).1]; exact h1, h2⟩

theorem CellState.nuclearStep {lines : List Text} {E : Nat} {fed : Bool} {K : List Calc.Kind} {w : Text} {i : Nat} {x x' : Mesh.Material} (h : CellState lib lines E fed K w i x)
    {k : Calc.Kind} (hk : k ∈ neutronics) {d : Bool} (hd : d = true ↔ (k = .diffusion ∨ k = .ads)) (hx : Nuclear lib lines w E d x x') :
    CellState lib lines E fed (k :: K) w i x' := by
  obtain ⟨n, c, f, t, D, s, h1, h2, h3, h4, h5, h6, h7, rfl⟩ := hx
  have hne : k ≠ .heat := by
    rintro rfl
    simp [neutronics] at hk
  have hne' : .heat ∈ k :: K ↔ .heat ∈ K := by
    simp [List.mem_cons, Ne.symm hne]
  have old : (x.nu = [] ∧ x.chi = [] ∧ x.fiss = [] ∧ x.tot = [] ∧ x.scatt = []) ∨ NuclearFile lib lines w E x := by
    by_cases hK : ∃ k ∈ K, k ∈ neutronics
    · exact Or.inr (h.nuclear hK)
    · exact Or.inl (h.clear (fun k hk hk' => hK ⟨k, hk, hk'⟩))
  have oldD : x.diff = [] ∨ Has lib lines w E (groupKey "diffCoeff") 1 x.diff := by
    by_cases hK : .diffusion ∈ K ∨ .ads ∈ K
    · exact Or.inr (h.diff hK)
    · exact Or.inl (h.nodiff (fun hh => hK (Or.inl hh)) (fun hh => hK (Or.inr hh)))
  constructor
  · intro _
    rcases old with ⟨e1, e2, e3, e4, e5⟩ | o
    · exact ⟨has_append h1 (Or.inl e1), has_append h2 (Or.inl e2), has_append h3 (Or.inl e3), has_append h4 (Or.inl e4), scatt_append h7 (Or.inl e5)⟩
    · exact ⟨has_append h1 (Or.inr o.nu), has_append h2 (Or.inr o.chi), has_append h3 (Or.inr o.fiss), has_append h4 (Or.inr o.tot), scatt_append h7 (Or.inr o.scatt)⟩
  · intro hh
    exact absurd hk (hh k (by simp))
  · intro hh
    show Has lib lines w E (groupKey "diffCoeff") 1 (x.diff ++ D)
    cases hdd : d with
    | true => exact has_append (h5 hdd) oldD
    | false =>
      rw [h6 hdd, List.append_nil]
      refine h.diff ?_
      have hnd : ¬(k = .diffusion ∨ k = .ads) := fun e => by
        rw [hdd] at hd
        exact absurd (hd.2 e) (by simp)
      rcases hh with hh | hh
      · rcases List.mem_cons.1 hh with e | hh
        · exact absurd (Or.inl e.symm) hnd
        · exact Or.inl hh
      · rcases List.mem_cons.1 hh with e | hh
        · exact absurd (Or.inr e.symm) hnd
        · exact Or.inr hh
  · intro a b
    have hdd : d = false := by
      cases hdd : d with
      | false => rfl
      | true =>
        rcases hd.1 hdd with e | e
        · exact absurd (by simp [e]) a
        · exact absurd (by simp [e]) b
    show x.diff ++ D = []
    rw [h6 hdd, List.append_nil]
    exact h.nodiff (fun hh => a (by simp [hh])) (fun hh => b (by simp [hh]))
  · rw [hne']
    exact h.law
  · rw [hne']
    exact h.nolaw
  · rw [hne']
    exact h.temp
  · rw [hne']
    exact h.cold
  · rw [hne']
    exact h.load
  · rw [hne']
    exact h.noload

theorem CellState.heatStep {lines : List Text} {E : Nat} {fed : Bool} {K : List Calc.Kind} {w : Text} {i : Nat} {x x1 x2 x' : Mesh.Material}
    (h : CellState lib lines E fed K w i x) {t : Vec ℝ} (ht : readValues lib lines "temperatures".toList = ok t)
    (hq : (fed = true ∧ x1 = x) ∨ (fed = false ∧ ∃ q : Vec ℝ, readValues lib lines "heat_sources".toList = ok q ∧ x1 = { x with q := if i < q.n then q.v i else x.q }))
    (h1 : Conducts lib lines w x1 x2) (h2 : x' = { x2 with T := if i < t.n then t.v i else x2.T }) : CellState lib lines E fed (.heat :: K) w i x' := by
  obtain ⟨v, hv, v1, v2, rfl⟩ := h1
  have hT : (if i < t.n then t.v i else x.T) = if i < t.n then t.v i else 0 := by
    split
    · rfl
    · rename_i hi
      by_cases hK : .heat ∈ K
      · obtain ⟨t', e, h⟩ := h.temp hK
        rw [ht] at e
        cases e
        rw [h, if_neg hi]
      · exact h.cold hK
  have mem : ∀ k, k ∈ neutronics → (k ∈ Calc.Kind.heat :: K ↔ k ∈ K) := by
    intro k hk
    rw [List.mem_cons]
    refine ⟨fun hh => hh.resolve_left ?_, Or.inr⟩
    rintro rfl
    simp [neutronics] at hk
  have hd := mem .diffusion (by simp [neutronics])
  have ha := mem .ads (by simp [neutronics])
  have hx : x'.nu = x.nu ∧ x'.chi = x.chi ∧ x'.fiss = x.fiss ∧ x'.tot = x.tot ∧ x'.scatt = x.scatt ∧ x'.diff = x.diff ∧ x'.kLaw = some v ∧
      x'.T = (if i < t.n then t.v i else x.T) ∧ x'.q = x1.q := by
    rcases hq with ⟨-, rfl⟩ | ⟨-, q, -, rfl⟩ <;> (subst h2; exact ⟨rfl, rfl, rfl, rfl, rfl, rfl, rfl, rfl, rfl⟩)
  obtain ⟨e1, e2, e3, e4, e5, e6, e7, e8, e9⟩ := hx
  constructor
  · rintro ⟨k, hk, hk'⟩
    obtain ⟨a1, a2, a3, a4, a5⟩ := h.nuclear ⟨k, (mem k hk').1 hk, hk'⟩
    exact ⟨by rw [e1]; exact a1, by rw [e2]; exact a2, by rw [e3]; exact a3, by rw [e4]; exact a4, by rw [e5]; exact a5⟩
  · intro hh
    rw [e1, e2, e3, e4, e5]
    exact h.clear (fun k hk => hh k (by simp [hk]))
  · rw [hd, ha, e6]
    exact h.diff
  · rw [hd, ha, e6]
    exact h.nodiff
  · intro _
    exact ⟨v, e7, v1, v2, hv⟩
  · intro hh
    simp at hh
  · intro _
    exact ⟨t, ht, by rw [e8, hT]⟩
  · intro hh
    simp at hh
  · intro _ hf
    rw [e9]
    rcases hq with ⟨ht, -⟩ | ⟨-, q, hq, rfl⟩
    · rw [hf] at ht
      cases ht
    · refine ⟨q, hq, ?_⟩
      show (if i < q.n then q.v i else x.q) = _
      split
      · rfl
      · rename_i hi
        by_cases hK : .heat ∈ K
        · obtain ⟨q', e, h⟩ := h.load hK hf
          rw [hq] at e
          cases e
          rw [h, if_neg hi]
        · exact h.noload (Or.inl hK)
  · rintro (hh | hh)
    · simp at hh
    · rw [e9]
      rcases hq with ⟨-, rfl⟩ | ⟨hf, -⟩
      · exact h.noload (Or.inr hh)
      · rw [hh] at hf
        cases hf

theorem CellState.otherStep {lines : List Text} {E : Nat} {fed : Bool} {K : List Calc.Kind} {w : Text} {i : Nat} {x : Mesh.Material}
    (h : CellState lib lines E fed K w i x) {k : Calc.Kind} (hk : k ∉ neutronics) (hh : k ≠ .heat) : CellState lib lines E fed (k :: K) w i x := by
  have mem : ∀ k', k' ∈ neutronics ∨ k' = .heat → (k' ∈ k :: K ↔ k' ∈ K) := by
    intro k' hk'
    rw [List.mem_cons]
    refine ⟨fun e => e.resolve_left ?_, Or.inr⟩
    rintro rfl
    tauto
  have h1 := mem .heat (Or.inr rfl)
  have h2 := mem .diffusion (by simp [neutronics])
  have h3 := mem .ads (by simp [neutronics])
  constructor
  · rintro ⟨k', hk1, hk2⟩
    exact h.nuclear ⟨k', (mem k' (Or.inl hk2)).1 hk1, hk2⟩
  · intro hh
    exact h.clear (fun k hk => hh k (by simp [hk]))
  · rw [h2, h3]
    exact h.diff
  · rw [h2, h3]
    exact h.nodiff
  · rw [h1]
    exact h.law
  · rw [h1]
    exact h.nolaw
  · rw [h1]
    exact h.temp
  · rw [h1]
    exact h.cold
  · rw [h1]
    exact h.load
  · rw [h1]
    exact h.noload

/-- The state of the reader after the data of the solvers `K` are read; `r` is the reader before. -/
structure DataState (lib : Lib) (r : Reader) (K : List Calc.Kind) (u : Reader) : Prop where
  energies : u.plant.grid.energies = r.plant.grid.energies
  source : u.plant.source = r.plant.source
  groups : ∀ i, (∃ w, i < r.plant.grid.cells ∧ r.map[i]? = some w ∧ w ∈ r.mats) → (u.plant.grid.mats.v i).energies = (r.plant.grid.mats.v i).energies
  cells : ∀ i w, i < r.plant.grid.cells → r.map[i]? = some w → w ∈ r.mats →
    CellState lib r.lines r.plant.grid.energies (isHere r.solvers .transport || isHere r.solvers .diffusion) K w i (u.plant.grid.mats.v i)
  temps : .heat ∈ K → ∃ t, readValues lib r.lines "temperatures".toList = ok t ∧ t.n ≤ r.plant.grid.mats.n
  sources : .heat ∈ K → (isHere r.solvers .transport || isHere r.solvers .diffusion) = false →
    ∃ t, readValues lib r.lines "heat_sources".toList = ok t ∧ t.n ≤ r.plant.grid.mats.n
  power : .heat ∈ K → (isHere r.solvers .transport || isHere r.solvers .diffusion) = true → ∃ k w, Card r.lines "thermal_power" [k, w] ∧ lib.stod w = ok u.plant.power
  nopower : .heat ∉ K ∨ (isHere r.solvers .transport || isHere r.solvers .diffusion) = false → u.plant.power = r.plant.power
  kinetics : .kinetics ∈ K → KineticsFile lib r.lines u.plant.kinetics
  nokinetics : .kinetics ∉ K → u.plant.kinetics = r.plant.kinetics

theorem DataState.nuclearStep (hs : Sane lib) {r u u' : Reader} (hn : r.mats.Nodup) (hf : Frame r u) {K : List Calc.Kind} (h : DataState lib r K u) {k : Calc.Kind}
    (hk : k ∈ neutronics) {d : Bool} (hd : d = true ↔ (k = .diffusion ∨ k = .ads)) (he : setNuclear lib d u = ok u') : DataState lib r (k :: K) u' := by
  have hc := setNuclear_effect hs (by rw [hf.mats]; exact hn) he
  have hne : ∀ k', k' ∉ neutronics → (k' ∈ k :: K ↔ k' ∈ K) := by
    intro k' hk'
    rw [List.mem_cons]
    refine ⟨fun e => e.resolve_left ?_, Or.inr⟩
    rintro rfl
    exact hk' hk
  have h1 := hne .heat (by simp [neutronics])
  have h2 := hne .kinetics (by simp [neutronics])
  have step : ∀ i w, i < r.plant.grid.cells → r.map[i]? = some w → w ∈ r.mats → Nuclear lib r.lines w r.plant.grid.energies d (u.plant.grid.mats.v i) (u'.plant.grid.mats.v i) := by
    intro i w hi hm hw
    have := hc.changed i w (by rw [hf.grid.cells]; exact hi) (by rw [hf.map]; exact hm) (by rw [hf.mats]; exact hw)
    rw [hf.lines, h.energies] at this
    exact this
  constructor
  · rw [hc.mats.energies]
    exact h.energies
  · rw [hc.rest]
    exact h.source
  · intro i hi
    rw [← h.groups i hi]
    obtain ⟨w, h1, h2, h3⟩ := hi
    obtain ⟨n, c, f, t, D, s, -, -, -, -, -, -, -, e⟩ := step i w h1 h2 h3
    rw [e]
  · intro i w hi hm hw
    exact (h.cells i w hi hm hw).nuclearStep hk hd (step i w hi hm hw)
  · rw [h1]
    exact h.temps
  · rw [h1]
    exact h.sources
  · rw [h1, hc.rest]
    exact h.power
  · rw [h1, hc.rest]
    exact h.nopower
  · rw [h2, hc.rest]
    exact h.kinetics
  · rw [h2, hc.rest]
    exact h.nokinetics

theorem DataState.heatStep (hs : Sane lib) {r u u' : Reader} (hn : r.mats.Nodup) (hf : Frame r u) (hss : u.solvers = r.solvers) {K : List Calc.Kind} (h : DataState lib r K u)
    (he : setHeat lib u = ok u') : DataState lib r (.heat :: K) u' := by
  obtain ⟨u1, t, ht, htn, hc, hp, hq⟩ := setHeat_effect hs (by rw [hf.mats]; exact hn) he
  rw [hss] at hp hq
  rw [hf.lines] at ht hp hq hc
  rw [hf.grid.size] at htn hq
  have hk : .kinetics ∈ Calc.Kind.heat :: K ↔ .kinetics ∈ K := by simp
  cases hfed : (isHere r.solvers .transport || isHere r.solvers .diffusion) with
  | true =>
    obtain ⟨k, w0, x, hcard, hx, rfl⟩ := hp hfed
    have step : ∀ i w, i < r.plant.grid.cells → r.map[i]? = some w → w ∈ r.mats → ∃ x1, Conducts lib r.lines w (u.plant.grid.mats.v i) x1 ∧
        u'.plant.grid.mats.v i = { x1 with T := if i < t.n then t.v i else x1.T } :=
      fun i w hi hm hw => hc.changed i w (by show i < u.plant.grid.cells; rw [hf.grid.cells]; exact hi) (by show u.map[i]? = _; rw [hf.map]; exact hm)
        (by show w ∈ u.mats; rw [hf.mats]; exact hw)
    constructor
    · rw [hc.mats.energies]
      exact h.energies
    · rw [hc.rest]
      exact h.source
    · intro i hi
      rw [← h.groups i hi]
      obtain ⟨w, h1, h2, h3⟩ := hi
      obtain ⟨x1, ⟨v, -, -, -, e1⟩, e2⟩ := step i w h1 h2 h3
      rw [e2, e1]
    · intro i w hi hm hw
      obtain ⟨x1, a1, a2⟩ := step i w hi hm hw
      exact (h.cells i w hi hm hw).heatStep ht (Or.inl ⟨hfed, rfl⟩) a1 a2
    · exact fun _ => ⟨t, ht, htn⟩
    · intro _ e
      rw [hfed] at e
      cases e
    · intro _ _
      rw [hc.rest]
      exact ⟨k, w0, hcard, hx⟩
    · rintro (e | e)
      · simp at e
      · rw [hfed] at e
        cases e
    · rw [hk, hc.rest]
      exact h.kinetics
    · rw [hk, hc.rest]
      exact h.nokinetics
  | false =>
    obtain ⟨q, hqv, hqn, hc1⟩ := hq hfed
    have step : ∀ i w, i < r.plant.grid.cells → r.map[i]? = some w → w ∈ r.mats → ∃ x1, Conducts lib r.lines w (u1.plant.grid.mats.v i) x1 ∧
        u'.plant.grid.mats.v i = { x1 with T := if i < t.n then t.v i else x1.T } := by
      obtain ⟨-, m1, m2, -⟩ := hc1.lines
      exact fun i w hi hm hw => hc.changed i w (by rw [hc1.mats.cells, hf.grid.cells]; exact hi) (by rw [m1, hf.map]; exact hm) (by rw [m2, hf.mats]; exact hw)
    have step1 : ∀ i w, i < r.plant.grid.cells → r.map[i]? = some w → w ∈ r.mats →
        u1.plant.grid.mats.v i = { u.plant.grid.mats.v i with q := if i < q.n then q.v i else (u.plant.grid.mats.v i).q } :=
      fun i w hi hm hw => hc1.changed i w (by rw [hf.grid.cells]; exact hi) (by rw [hf.map]; exact hm) (by rw [hf.mats]; exact hw)
    constructor
    · rw [hc.mats.energies, hc1.mats.energies]
      exact h.energies
    · rw [hc.rest, hc1.rest]
      exact h.source
    · intro i hi
      rw [← h.groups i hi]
      obtain ⟨w, h1, h2, h3⟩ := hi
      obtain ⟨x1, ⟨v, -, -, -, e1⟩, e2⟩ := step i w h1 h2 h3
      rw [e2, e1, step1 i w h1 h2 h3]
    · intro i w hi hm hw
      obtain ⟨x1, a1, a2⟩ := step i w hi hm hw
      exact (h.cells i w hi hm hw).heatStep ht (Or.inr ⟨hfed, q, hqv, step1 i w hi hm hw⟩) a1 a2
    · exact fun _ => ⟨t, ht, htn⟩
    · exact fun _ _ => ⟨q, hqv, hqn⟩
    · intro _ e
      rw [hfed] at e
      cases e
    · intro _
      rw [hc.rest, hc1.rest]
      exact h.nopower (Or.inr hfed)
    · rw [hk, hc.rest, hc1.rest]
      exact h.kinetics
    · rw [hk, hc.rest, hc1.rest]
      exact h.nokinetics

theorem DataState.otherStep {r u : Reader} {K : List Calc.Kind} (h : DataState lib r K u) {k : Calc.Kind} (hk : k = .undefined ∨ k = .coupled) :
    DataState lib r (k :: K) u := by
  have h1 : .heat ∈ k :: K ↔ .heat ∈ K := by rcases hk with rfl | rfl <;> simp
  have h2 : .kinetics ∈ k :: K ↔ .kinetics ∈ K := by rcases hk with rfl | rfl <;> simp
  refine ⟨h.energies, h.source, h.groups, fun i w hi hm hw => (h.cells i w hi hm hw).otherStep (by rcases hk with rfl | rfl <;> simp [neutronics]) (by rcases hk with rfl | rfl <;> simp),
    ?_, ?_, ?_, ?_, ?_, ?_⟩
  · rw [h1]
    exact h.temps
  · rw [h1]
    exact h.sources
  · rw [h1]
    exact h.power
  · rw [h1]
    exact h.nopower
  · rw [h2]
    exact h.kinetics
  · rw [h2]
    exact h.nokinetics

theorem DataState.kineticsStep (hs : Sane lib) {r u u' : Reader} (hf : Frame r u) {K : List Calc.Kind} (h : DataState lib r K u)
    (he : setKinetics lib u = ok u') : DataState lib r (.kinetics :: K) u' := by
  obtain ⟨kin, hkin, rfl⟩ := setKinetics_effect hs he
  have h1 : .heat ∈ Calc.Kind.kinetics :: K ↔ .heat ∈ K := by simp
  refine ⟨h.energies, h.source, h.groups, fun i w hi hm hw => (h.cells i w hi hm hw).otherStep (by simp [neutronics]) (by simp), ?_, ?_, ?_, ?_, ?_, ?_⟩
  · rw [h1]
    exact h.temps
  · rw [h1]
    exact h.sources
  · rw [h1]
    exact h.power
  · rw [h1]
    exact h.nopower
  · rw [← hf.lines]
    exact fun _ => hkin
  · intro e
    simp at e

theorem setAll_state (hs : Sane lib) {r r' : Reader} (hn : r.mats.Nodup)
    (h0 : ∀ i w, i < r.plant.grid.cells → r.map[i]? = some w → w ∈ r.mats → ∃ e, r.plant.grid.mats.v i = { Mesh.newMaterial (String.ofList w) with energies := e })
    {ss : List Calc.Settings} (h : setAll lib ss r = ok r') : DataState lib r ((ss.map Calc.Settings.kind).reverse ++ []) r' := by
  refine setAll_inv (P := DataState lib r) h ?_ (fun K k u u' hf hss hu he => ?_)
  · refine ⟨rfl, rfl, fun _ _ => rfl, fun i w hi hm hw => ?_, fun h => absurd h (by simp), fun h => absurd h (by simp), fun h => absurd h (by simp), fun _ => rfl,
      fun h => absurd h (by simp), fun _ => rfl⟩
    obtain ⟨e, he⟩ := h0 i w hi hm hw
    rw [he]
    exact ⟨fun h => by simp at h, fun _ => ⟨rfl, rfl, rfl, rfl, rfl⟩, fun h => by simp at h, fun _ _ => rfl, fun h => by simp at h, fun _ => rfl, fun h => by simp at h,
      fun _ => rfl, fun h => by simp at h, fun _ => rfl⟩
  · cases k with
    | transport => exact hu.nuclearStep hs hn hf (by simp [neutronics]) (d := false) (by simp) he
    | diffusion => exact hu.nuclearStep hs hn hf (by simp [neutronics]) (d := true) (by simp) he
    | ads => exact hu.nuclearStep hs hn hf (by simp [neutronics]) (d := true) (by simp) he
    | kinetics => exact hu.kineticsStep hs hf he
    | heat => exact hu.heatStep hs hn hf hss he
    | undefined =>
      cases he
      exact hu.otherStep (Or.inl rfl)
    | coupled =>
      cases he
      exact hu.otherStep (Or.inr rfl)

/-- Source and kinetics are left alone. -/
def Rest (r r' : Reader) : Prop := r'.plant.source = r.plant.source ∧ r'.plant.kinetics = r.plant.kinetics

theorem Rest.trans {r r' r'' : Reader} (h : Rest r r') (h' : Rest r' r'') : Rest r r'' := ⟨h'.1.trans h.1, h'.2.trans h.2⟩

theorem setXS_rest {name : String} {put : Mesh.Material → Vec ℝ → Mesh.Material} {r r' : Reader} (h : setXS lib name put r = ok r') : Rest r r' := by
  obtain ⟨g, -, h⟩ := bind_eq_ok.1 h
  cases h
  exact ⟨rfl, rfl⟩

theorem setNuclear_rest {d : Bool} {r r' : Reader} (h : setNuclear lib d r = ok r') : Rest r r' := by
  obtain ⟨r1, h1, h⟩ := bind_eq_ok.1 h
  obtain ⟨r2, h2, h⟩ := bind_eq_ok.1 h
  obtain ⟨r3, h3, h⟩ := bind_eq_ok.1 h
  obtain ⟨r4, h4, h⟩ := bind_eq_ok.1 h
  obtain ⟨r5, h5, h⟩ := bind_eq_ok.1 h
  have s5 : Rest r4 r5 := by
    cases d with
    | false =>
      cases h5
      exact ⟨rfl, rfl⟩
    | true => exact setXS_rest (name := "diffCoeff") (put := fun x v => { x with diff := x.diff ++ [v] }) h5
  have s6 : Rest r5 r' := by
    obtain ⟨g, -, h⟩ := bind_eq_ok.1 h
    cases h
    exact ⟨rfl, rfl⟩
  exact (setXS_rest h1).trans <| (setXS_rest h2).trans <| (setXS_rest h3).trans <| (setXS_rest h4).trans <| s5.trans s6

theorem setData_rest {k : Calc.Kind} {r r' : Reader} (h : setData lib k r = ok r') :
    r'.plant.source = r.plant.source ∧ (k ≠ .kinetics → r'.plant.kinetics = r.plant.kinetics) := by
  cases k with
  | transport => exact ⟨(setNuclear_rest h).1, fun _ => (setNuclear_rest h).2⟩
  | diffusion => exact ⟨(setNuclear_rest h).1, fun _ => (setNuclear_rest h).2⟩
  | ads => exact ⟨(setNuclear_rest h).1, fun _ => (setNuclear_rest h).2⟩
  | kinetics =>
    obtain ⟨k, rfl⟩ := setKinetics_eq h
    exact ⟨rfl, fun hh => absurd rfl hh⟩
  | heat =>
    obtain ⟨r1, h1, h⟩ := bind_eq_ok.1 h
    obtain ⟨r2, h2, h⟩ := bind_eq_ok.1 h
    obtain ⟨t, -, h⟩ := bind_eq_ok.1 h
    obtain ⟨g, -, h⟩ := bind_eq_ok.1 h
    cases h
    obtain ⟨g2, -, h2⟩ := bind_eq_ok.1 h2
    cases h2
    have : Rest r r1 := by
      unfold setLoad at h1
      split at h1
      · obtain ⟨x, rfl⟩ := setPower_eq h1
        exact ⟨rfl, rfl⟩
      · obtain ⟨q, -, h1⟩ := bind_eq_ok.1 h1
        obtain ⟨g1, -, h1⟩ := bind_eq_ok.1 h1
        cases h1
        exact ⟨rfl, rfl⟩
    exact ⟨this.1, fun _ => this.2⟩
  | undefined =>
    cases h
    exact ⟨rfl, fun _ => rfl⟩
  | coupled =>
    cases h
    exact ⟨rfl, fun _ => rfl⟩

end

end Verif.Input
