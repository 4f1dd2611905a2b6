import Verif.Output.ReportRun

/-!
# Helper lemmas for the report: the reactor a complete file is read into
-/

namespace Verif.Output

open Verif Outcome Input

noncomputable section

variable {lib : Lib} {file : Option (List Text)} {p : Calc.Plant} {r : Reader} {raw lines : List Text}

/-- reading stores no results -/
theorem read_counts (h : readData lib file p = ok r) : r.plant.grid.nForward = p.grid.nForward ∧ r.plant.grid.nAdjoint = p.grid.nAdjoint ∧
    r.plant.kForward = p.kForward ∧ r.plant.kAdjoint = p.kAdjoint := by
  obtain ⟨ls, r1, r2, r3, r4, h0, h1, h2, h3, h4, h5⟩ := readData_stages h
  obtain ⟨x, rfl⟩ := setPlots_eq h5
  have f3 := setSettings_frame h3
  obtain ⟨f4, -⟩ := setAll_frame h4
  obtain ⟨ws, -, h1⟩ := bind_eq_ok.1 h1
  obtain ⟨ss, -, h1⟩ := bind_eq_ok.1 h1
  cases h1
  obtain ⟨-, -, c⟩ := setShape_solvers h2
  have key : r2.plant.grid.nForward = p.grid.nForward ∧ r2.plant.grid.nAdjoint = p.grid.nAdjoint := by
    generalize (if 2 ≤ ss.length then ss ++ [newSolver .coupled] else ss) = l at h2
    unfold setShape at h2
    split at h2
    · obtain ⟨r1', hg, h2⟩ := bind_eq_ok.1 h2
      obtain ⟨g, -, rfl⟩ := setGeometry_eq hg
      obtain ⟨_, -, h⟩ := bind_eq_ok.1 h2
      obtain ⟨_, -, h⟩ := bind_eq_ok.1 h
      obtain ⟨_, -, h⟩ := bind_eq_ok.1 h
      obtain ⟨_, -, h⟩ := bind_eq_ok.1 h
      obtain ⟨_, -, h⟩ := bind_eq_ok.1 h
      obtain ⟨G, hG, h⟩ := bind_eq_ok.1 h
      obtain ⟨_, -, h⟩ := bind_eq_ok.1 h
      obtain ⟨_, -, h⟩ := bind_eq_ok.1 h
      cases h
      obtain ⟨e, -⟩ := createMaterials_eq hG
      constructor
      · show G.nForward = _
        rw [e]
        rfl
      · show G.nAdjoint = _
        rw [e]
        rfl
    · cases h2
      exact ⟨rfl, rfl⟩
  refine ⟨?_, ?_, ?_, ?_⟩
  · exact (f4.grid.forward.trans f3.grid.forward).trans key.1
  · exact (f4.grid.adjoint.trans f3.grid.adjoint).trans key.2
  · show r4.plant.kForward = _
    rw [f4.forward, f3.forward, c]
  · show r4.plant.kAdjoint = _
    rw [f4.adjoint, f3.adjoint, c]

/-- the materials have no fluxes yet -/
theorem read_labels (h : readData lib file p = ok r) (hk : ∃ k ∈ r.solvers.map Calc.Settings.kind, k ∈ neutronics ∨ k = .heat) {i : Nat} (hi : i < r.plant.grid.cells) :
    (r.plant.grid.mats.v i).total.n = 0 := by
  obtain ⟨r2, r3, r4, h3, h4, f3, f4, e4, e5, e6, e7, e8, e9, e10, hpl⟩ := kinds_read h
  rw [e5] at hi ⊢
  rw [f4.grid.total, f3.grid.total, (hpl hk).2 i (by rw [← f3.grid.cells, ← f4.grid.cells]; exact hi)]
  rfl

theorem meshed_whole {rs : List Region} {g : Mesh.Grid} (h : Meshed rs g) : Whole g :=
  ⟨by rw [h.bounds.1, h.cells, cellNames_length, List.map_map]; rfl, h.mats⟩

theorem cells_pos {rs : List Region} {g : Diffusion.Geom} (h : BodyFile lib lines g rs) : 0 < (cellNames rs).length := by
  obtain ⟨q, hq⟩ := List.exists_mem_of_ne_nil _ h.some
  have h1 := h.cells q hq
  rw [cellNames_length]
  exact lt_of_lt_of_le h1 (List.single_le_sum (fun _ _ => Nat.zero_le _) _ (List.mem_map_of_mem hq))

theorem fresh_blank (cells energies : Nat) (k : Calc.KineticsSet) : Blank (fresh cells energies k) := ⟨rfl, rfl, rfl, rfl⟩

/-- the words of a setting in a complete file -/
theorem full_setting {ks : List Calc.Kind} {g : Diffusion.Geom} {rs : List Region} {E : Nat} (h : Full lib lines ks g rs E) {k : Calc.Kind} (hk : k ∈ ks) {key : String}
    (hkey : key ∈ settingsOf k) {ws : List Text} (hw : Setting lines k key ws) : Fits lib g E k key ws := by
  obtain ⟨ws', h1, h2⟩ := h.settings k (by unfold everyone; simp [hk]) key hkey
  rw [setting_unique hw h1]
  exact h2

theorem neutron_energies {k : Calc.Kind} (hk : k ∈ neutronics) : "energies" ∈ settingsOf k := by
  simp only [neutronics, List.mem_cons, List.not_mem_nil, or_false] at hk
  rcases hk with rfl | rfl | rfl <;> simp [settingsOf]

theorem fits_groups {g : Diffusion.Geom} {E : Nat} {k : Calc.Kind} {ws : List Text} (h : Fits lib g E k "energies" ws) : ∃ v, ws = [v] ∧ Numeral v E := by
  generalize hk : "energies" = key at h
  cases h with
  | groups h _ => exact ⟨_, rfl, h⟩
  | _ => exact absurd hk (by decide)

theorem fits_direction {g : Diffusion.Geom} {E : Nat} {k : Calc.Kind} {ws : List Text} (h : Fits lib g E k "direction" ws) :
    ∃ v, ws = [v] ∧ (v = "forward".toList ∨ v = "adjoint".toList) := by
  generalize hk : "direction" = key at h
  cases h with
  | direction h => exact ⟨_, rfl, h⟩
  | _ => exact absurd hk (by decide)

theorem fits_modes {g : Diffusion.Geom} {E : Nat} {k : Calc.Kind} {ws : List Text} (h : Fits lib g E k "eigenmodes" ws) :
    ∃ v, ws = [v] ∧ (v = "fundamental".toList ∨ v = "all".toList) := by
  generalize hk : "eigenmodes" = key at h
  cases h with
  | modes h => exact ⟨_, rfl, h⟩
  | _ => exact absurd hk (by decide)

/-- All that is used of the reader about a complete file with a criticality solver. -/
structure FullRead (lines : List Text) (ks : List Calc.Kind) (g : Diffusion.Geom) (rs : List Region) (E : Nat) (r : Reader) : Prop where
  kinds : r.solvers.map Calc.Settings.kind = everyone ks
  geom : r.plant.grid.geom = g
  mesh : Meshed rs r.plant.grid
  energies : r.plant.grid.energies = E
  sound : Sound r.plant
  totals : ∀ i, i < r.plant.grid.cells → (r.plant.grid.mats.v i).total.n = 0
  groups : ∀ o ∈ r.solvers, o.kind ∈ neutronics → o.energies = E
  direction : ∀ o ∈ r.solvers, o.kind = .diffusion →
    ¬ Backward lines o.kind ∧ o.direction = .forward ∨ Backward lines o.kind ∧ o.direction = .adjoint
  modes : ∀ o ∈ r.solvers, o.kind = .diffusion ∨ o.kind = .transport → o.modes ≠ .undefined

theorem full_read (hc : Clean lib lines) (hraw : Stored raw lines) (hp : Proper lines) {ks : List Calc.Kind} {g : Diffusion.Geom} {rs : List Region} {E : Nat}
    (h : Full lib lines ks g rs E) (hn : ∃ k ∈ ks, k ∈ neutronics) (hb : Blank p) : ∃ r, readData lib (some raw) p = ok r ∧ r.lines = lines ∧ FullRead lines ks g rs E r := by
  obtain ⟨r, hr, hl, hk, hm, he⟩ := C87 hc hraw h p
  obtain ⟨k, hk1, hk2⟩ := hn
  have hne : k ≠ .kinetics := by
    rintro rfl
    simp [neutronics] at hk2
  obtain ⟨hg, hM⟩ := hm ⟨k, hk1, hne⟩
  have hE := he ⟨k, hk1, hk2⟩
  obtain ⟨c1, c2, c3, c4⟩ := read_counts hr
  have hpl : Proper r.lines := by rw [hl]; exact hp
  have hcells : 0 < r.plant.grid.cells := by
    rw [hM.cells]
    exact cells_pos (h.body ⟨k, hk1, hne⟩)
  have hin : k ∈ r.solvers.map Calc.Settings.kind := by
    rw [hk]
    unfold everyone
    simp [hk1]
  have hof : ∀ o ∈ r.solvers, o.kind ∈ neutronics ∨ o.kind = .transport ∨ o.kind = .diffusion → o.kind ∈ ks := by
    intro o ho ho'
    have : o.kind ∈ everyone ks := hk ▸ List.mem_map_of_mem ho
    unfold everyone at this
    rw [List.mem_append] at this
    rcases this with h1 | h1
    · exact h1
    · have : o.kind = .coupled := by
        split at h1
        · simpa using h1
        · simp at h1
      rw [this] at ho'
      simp [neutronics] at ho'
  have hW := meshed_whole hM
  have hgroups : ∀ k ∈ r.solvers.map Calc.Settings.kind, k ∈ neutronics → ∃ v, Setting r.lines k "energies" [v] ∧ Numeral v E := by
    intro k' h1 h2
    obtain ⟨o, ho, rfl⟩ := List.mem_map.1 h1
    obtain ⟨ws, a, b⟩ := h.settings o.kind (hk ▸ h1) "energies" (neutron_energies h2)
    obtain ⟨v, rfl, hv⟩ := fits_groups b
    exact ⟨_, hl.symm ▸ a, hv⟩
  obtain ⟨-, m2⟩ := C79_mesh hc.1 hr hpl hgroups hin hk2
  refine ⟨r, hr, hl, hk, hg, hM, hE, ⟨hW, ⟨hW.mats, fun i hi => by rw [m2 i hi, hE]⟩, ⟨Or.inl (c1.trans hb.nForward), Or.inl (c2.trans hb.nAdjoint)⟩, ?_, ?_, hcells⟩,
    fun i hi => read_labels hr ⟨k, hin, Or.inl hk2⟩ hi, fun o ho ho' => ?_, fun o ho ho' => ?_, fun o ho ho' => ?_⟩
  · rw [c1, c3, hb.nForward, hb.kForward]
    rfl
  · rw [c2, c4, hb.nAdjoint, hb.kAdjoint]
    rfl
  · obtain ⟨ws, a, b⟩ := C79_groups hc.1 hr hpl ho (by simp only [neutronics, List.mem_cons, List.not_mem_nil, or_false] at ho'; exact ho')
    obtain ⟨v, a', b'⟩ := hgroups o.kind (List.mem_map_of_mem ho) ho'
    obtain rfl := setting_unique a a'
    rcases b with ⟨v', e, b⟩ | ⟨e, -⟩
    · cases e
      exact b E b'
    · simp at e
  · obtain ⟨ws, a, b⟩ := C66_direction hc.1 hr hpl ho ho'
    have := full_setting h (hof o ho (Or.inr (Or.inr ho'))) (key := "direction") (by rw [ho']; simp [settingsOf]) (ws := ws) (by rw [ho', ← hl]; exact a)
    obtain ⟨v, rfl, -⟩ := fits_direction this
    rw [hl] at a
    rcases b with ⟨v', e, b | b⟩ | ⟨e, -⟩
    · refine Or.inl ⟨fun hB => ?_, b.2⟩
      have := setting_unique a hB.2
      rw [e, b.1] at this
      exact absurd this (by decide)
    · exact Or.inr ⟨⟨ho', by rw [e, b.1] at a; exact a⟩, b.2⟩
    · simp at e
  · obtain ⟨ws, a, b⟩ := C66_modes hc.1 hr hpl ho ho'.symm
    have := full_setting h (hof o ho (Or.inr ho'.symm)) (key := "eigenmodes") (by rcases ho' with e | e <;> rw [e] <;> simp [settingsOf]) (ws := ws) (by rw [← hl]; exact a)
    obtain ⟨v, rfl, -⟩ := fits_modes this
    rcases b with ⟨v', e, b | b⟩ | ⟨e, -⟩
    · rw [b.2]; decide
    · rw [b.2]; decide
    · simp at e

end

end Verif.Output
