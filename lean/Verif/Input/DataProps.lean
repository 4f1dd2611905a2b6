import Verif.Input.PlantRead

/-!
# Properties: the data of materials, fields and kinetics are those of the file
-/

namespace Verif.Input

open Verif Outcome

noncomputable section

variable {lib : Lib} {file : Option (List Text)} {p : Calc.Plant} {r : Reader}

/-! ### all stages together -/

theorem kinds_read (h : readData lib file p = ok r) : ∃ r2 r3 r4, setSettings lib r2 = ok r3 ∧ setAll lib r3.solvers r3 = ok r4 ∧ Frame r2 r3 ∧ Frame r3 r4 ∧
    r4.solvers = r3.solvers ∧ r.plant = r4.plant ∧ r.lines = r4.lines ∧ r.solvers = r4.solvers ∧ r.map = r4.map ∧ r.mats = r4.mats ∧
    r2.plant = { p with grid := r2.plant.grid } ∧
    ((∃ k ∈ r.solvers.map Calc.Settings.kind, k ∈ neutronics ∨ k = .heat) → Placed r2 ∧
      ∀ i, i < r2.plant.grid.cells → r2.plant.grid.mats.v i = Mesh.newMaterial (r2.plant.grid.mats.v i).name) := by
  obtain ⟨ls, r1, r2, r3, r4, h0, h1, h2, h3, h4, h5⟩ := readData_stages h
  obtain ⟨x, rfl⟩ := setPlots_eq h5
  have f3 := setSettings_frame h3
  obtain ⟨f4, e4⟩ := setAll_frame h4
  obtain ⟨ws, -, h1⟩ := bind_eq_ok.1 h1
  obtain ⟨ss, -, h1⟩ := bind_eq_ok.1 h1
  cases h1
  obtain ⟨a, b, c⟩ := setShape_solvers h2
  refine ⟨r2, r3, r4, h3, h4, f3, f4, e4, rfl, rfl, rfl, rfl, rfl, c, fun hk => ?_⟩
  have hkinds : r4.solvers.map Calc.Settings.kind = (if 2 ≤ ss.length then ss ++ [newSolver .coupled] else ss).map Calc.Settings.kind := by
    rw [e4, f3.kinds, b]
  have hk : ∃ k ∈ (if 2 ≤ ss.length then ss ++ [newSolver .coupled] else ss).map Calc.Settings.kind, k ∈ neutronics ∨ k = .heat := by
    rw [← hkinds]
    exact hk
  unfold setShape at h2
  rw [if_pos (by
    simp only [Bool.or_eq_true, isHere_iff]
    obtain ⟨k, hk, hk'⟩ := hk
    simp [neutronics] at hk'
    rcases hk' with (rfl | rfl | rfl) | rfl <;> tauto)] at h2
  obtain ⟨r1', hg, h2⟩ := bind_eq_ok.1 h2
  obtain ⟨g, -, rfl⟩ := setGeometry_eq hg
  exact setMesh_placed rfl h2

/-- The state of the cells after reading. -/
theorem read_state (hs : Sane lib) (h : readData lib file p = ok r) (hk : ∃ k ∈ r.solvers.map Calc.Settings.kind, k ∈ neutronics ∨ k = .heat) :
    Placed r ∧ ∃ u, DataState lib u (r.solvers.map Calc.Settings.kind).reverse r ∧ Frame u r ∧ u.solvers = r.solvers ∧ u.plant.power = p.power := by
  obtain ⟨r2, r3, r4, h3, h4, f3, f4, e4, e5, e6, e7, e8, e9, e10, hpl⟩ := kinds_read h
  obtain ⟨⟨a1, a2, a3⟩, a4⟩ := hpl hk
  have hst := setAll_state hs (by rw [f3.mats]; exact a1) (fun i w hi hm hw => by
    obtain ⟨e, he⟩ := (setSettings_tuned h3).mats i
    rw [f3.grid.cells] at hi
    obtain ⟨w', b1, -, b3⟩ := a3 i hi
    rw [f3.map, b1] at hm
    cases hm
    refine ⟨e, ?_⟩
    rw [he, a4 i hi, b3]) h4
  rw [List.append_nil, ← e4, ← e7] at hst
  have f : Frame r2 r4 := f3.trans f4
  refine ⟨⟨?_, ?_, fun i hi => ?_⟩, r3, ?_, ?_, ?_, ?_⟩
  · rw [e9, f.mats]
    exact a1
  · rw [e5, f.grid.size, f.grid.cells]
    exact a2
  · rw [e5, f.grid.cells] at hi
    rw [e5, e8, e9, f.map, f.mats, f.grid.names]
    exact a3 i hi
  · obtain ⟨b1, b2, b3, b4, b5, b6, b7, b8, b9, b10⟩ := hst
    rw [← e5] at b1 b2 b3 b4 b7 b8 b9 b10
    exact ⟨b1, b2, b3, b4, b5, b6, b7, b8, b9, b10⟩
  · obtain ⟨b1, b2, b3, b4, b5, b6, b7⟩ := f4
    exact ⟨by rw [e6]; exact b1, by rw [e8]; exact b2, by rw [e9]; exact b3, by rw [e7]; exact b4, by rw [e5]; exact b5, by rw [e5]; exact b6, by rw [e5]; exact b7⟩
  · rw [e7, e4]
  · rw [(setSettings_tuned h3).power, e10]

/-! ### C83 -/

/-- **C83.** Every cell has the nuclear data of its material: for every group neutrons per fission, spectrum, fission and total cross section, and for every pair of groups
the scattering, each with the numbers behind the keyword in the lines searched for the material; and the diffusion coefficients if a solver needs them. -/
theorem C83 (hs : Sane lib) (h : readData lib file p = ok r) {k : Calc.Kind} (hk : k ∈ r.solvers.map Calc.Settings.kind) (hn : k ∈ neutronics) {i : Nat}
    (hi : i < r.plant.grid.cells) :
    NuclearFile lib r.lines (r.plant.grid.mats.v i).name.toList r.plant.grid.energies (r.plant.grid.mats.v i) ∧
    (.diffusion ∈ r.solvers.map Calc.Settings.kind ∨ .ads ∈ r.solvers.map Calc.Settings.kind →
      Has lib r.lines (r.plant.grid.mats.v i).name.toList r.plant.grid.energies (groupKey "diffCoeff") 1 (r.plant.grid.mats.v i).diff) := by
  obtain ⟨hp, u, hu, hf, hss, -⟩ := read_state hs h ⟨k, hk, Or.inl hn⟩
  obtain ⟨w, h1, h2, h3⟩ := hp.cell i hi
  have hc := hu.cells i w (by rw [← hf.grid.cells]; exact hi) (by rw [← hf.map]; exact h1) (by rw [← hf.mats]; exact h2)
  rw [h3, String.toList_ofList, hf.lines, hu.energies]
  exact ⟨hc.nuclear ⟨k, List.mem_reverse.2 hk, hn⟩, fun hd => hc.diff (by simpa using hd)⟩

/-- **C83.** With the heat solver every cell has the conductivity of its material and the temperature of its place in the list; cells beyond the end of the list have
temperature zero. Without transport and diffusion the heat sources are those of the list, in the same way; with them the sources are zero and the power is that of the card. -/
theorem C83_heat (hs : Sane lib) (h : readData lib file p = ok r) (hk : .heat ∈ r.solvers.map Calc.Settings.kind) :
    (∀ i, i < r.plant.grid.cells → ∃ v, (r.plant.grid.mats.v i).kLaw = some v ∧ 1 ≤ v.n ∧ v.n ≤ 3 ∧
      Law lib r.lines (r.plant.grid.mats.v i).name.toList "thermal_conductivity".toList 1 v) ∧
    (∃ c ws t, Card r.lines "temperatures" (c :: ws) ∧ Lists lib ws t ∧ t.n ≤ r.plant.grid.cells ∧
      ∀ i, i < r.plant.grid.cells → (r.plant.grid.mats.v i).T = if i < t.n then t.v i else 0) ∧
    (.transport ∈ r.solvers.map Calc.Settings.kind ∨ .diffusion ∈ r.solvers.map Calc.Settings.kind →
      (∃ c w, Card r.lines "thermal_power" [c, w] ∧ lib.stod w = ok r.plant.power) ∧ ∀ i, i < r.plant.grid.cells → (r.plant.grid.mats.v i).q = 0) ∧
    (.transport ∉ r.solvers.map Calc.Settings.kind → .diffusion ∉ r.solvers.map Calc.Settings.kind →
      r.plant.power = p.power ∧ ∃ c ws q, Card r.lines "heat_sources" (c :: ws) ∧ Lists lib ws q ∧ q.n ≤ r.plant.grid.cells ∧
        ∀ i, i < r.plant.grid.cells → (r.plant.grid.mats.v i).q = if i < q.n then q.v i else 0) := by
  obtain ⟨hp, u, hu, hf, hss, hpow⟩ := read_state hs h ⟨.heat, hk, Or.inr rfl⟩
  have hk' : .heat ∈ (r.solvers.map Calc.Settings.kind).reverse := List.mem_reverse.2 hk
  have cell : ∀ i, i < r.plant.grid.cells → CellState lib r.lines r.plant.grid.energies (isHere r.solvers .transport || isHere r.solvers .diffusion)
      (r.solvers.map Calc.Settings.kind).reverse (r.plant.grid.mats.v i).name.toList i (r.plant.grid.mats.v i) := by
    intro i hi
    obtain ⟨w, h1, h2, h3⟩ := hp.cell i hi
    have hc := hu.cells i w (by rw [← hf.grid.cells]; exact hi) (by rw [← hf.map]; exact h1) (by rw [← hf.mats]; exact h2)
    rw [hss, ← hu.energies, ← hf.lines] at hc
    rw [h3, String.toList_ofList]
    exact hc
  have hsize : u.plant.grid.mats.n = r.plant.grid.cells := by rw [← hf.grid.size, hp.size]
  refine ⟨fun i hi => (cell i hi).law hk', ?_, fun hfed => ?_, fun h1 h2 => ?_⟩
  · obtain ⟨t, ht, htn⟩ := hu.temps hk'
    rw [← hf.lines] at ht
    obtain ⟨c, ws, hcard, hl⟩ := readValues_lists hs ht
    refine ⟨c, ws, t, hcard, hl, by rw [← hsize]; exact htn, fun i hi => ?_⟩
    obtain ⟨t', e, hT⟩ := (cell i hi).temp hk'
    rw [ht] at e
    cases e
    exact hT
  · have hfed : (isHere r.solvers .transport || isHere r.solvers .diffusion) = true := by
      simp only [Bool.or_eq_true, isHere_iff]
      exact hfed
    refine ⟨?_, fun i hi => (cell i hi).noload (Or.inr hfed)⟩
    have := hu.power hk' (by rw [hss]; exact hfed)
    rw [← hf.lines] at this
    exact this
  · have hfed : (isHere r.solvers .transport || isHere r.solvers .diffusion) = false := by
      rw [Bool.eq_false_iff]
      intro e
      simp only [Bool.or_eq_true, isHere_iff] at e
      tauto
    refine ⟨(hu.nopower (Or.inr (by rw [hss]; exact hfed))).trans hpow, ?_⟩
    obtain ⟨q, hq, hqn⟩ := hu.sources hk' (by rw [hss]; exact hfed)
    rw [← hf.lines] at hq
    obtain ⟨c, ws, hcard, hl⟩ := readValues_lists hs hq
    refine ⟨c, ws, q, hcard, hl, by rw [← hsize]; exact hqn, fun i hi => ?_⟩
    obtain ⟨q', e, hT⟩ := (cell i hi).load hk' hfed
    rw [hq] at e
    cases e
    exact hT

/-- **C83.** With the kinetics solver the kinetics data are those of the file, with as many reactivities as times. -/
theorem C83_kinetics (hs : Sane lib) (h : readData lib file p = ok r) (hk : .kinetics ∈ r.solvers.map Calc.Settings.kind) : KineticsFile lib r.lines r.plant.kinetics := by
  obtain ⟨r2, r3, r4, h3, h4, f3, f4, e4, e5, e6, e7, e8, e9, e10, -⟩ := kinds_read h
  rw [e5, e6, f4.lines]
  rw [e7, e4] at hk
  have key := setAll_inv (P := fun K u => .kinetics ∈ K → KineticsFile lib r3.lines u.plant.kinetics) h4 (K := []) (fun h => absurd h (by simp))
    (fun K k u u' hf hss hu he hin => by
      cases k with
      | kinetics =>
        obtain ⟨kin, hkin, rfl⟩ := setKinetics_effect hs he
        rw [← hf.lines]
        exact hkin
      | _ =>
        have : u'.plant.kinetics = u.plant.kinetics := (setData_rest he).2 (by simp)
        rw [this]
        exact hu (by simpa using hin))
  exact key (by simpa using hk)

/-- **C83.** Data no solver of the file needs are not set: without a neutronic solver the cells have no nuclear data, without the heat solver no conductivity and
temperature and heat source zero. -/
theorem C83_unused (hs : Sane lib) (h : readData lib file p = ok r) (hk : ∃ k ∈ r.solvers.map Calc.Settings.kind, k ∈ neutronics ∨ k = .heat) {i : Nat} (hi : i < r.plant.grid.cells) :
    ((∀ k ∈ r.solvers.map Calc.Settings.kind, k ∉ neutronics) → (r.plant.grid.mats.v i).nu = [] ∧ (r.plant.grid.mats.v i).chi = [] ∧ (r.plant.grid.mats.v i).fiss = [] ∧
      (r.plant.grid.mats.v i).tot = [] ∧ (r.plant.grid.mats.v i).scatt = []) ∧
    (.diffusion ∉ r.solvers.map Calc.Settings.kind → .ads ∉ r.solvers.map Calc.Settings.kind → (r.plant.grid.mats.v i).diff = []) ∧
    (.heat ∉ r.solvers.map Calc.Settings.kind → (r.plant.grid.mats.v i).kLaw = none ∧ (r.plant.grid.mats.v i).T = 0 ∧ (r.plant.grid.mats.v i).q = 0) := by
  obtain ⟨hp, u, hu, hf, hss, -⟩ := read_state hs h hk
  obtain ⟨w, h1, h2, h3⟩ := hp.cell i hi
  have hc := hu.cells i w (by rw [← hf.grid.cells]; exact hi) (by rw [← hf.map]; exact h1) (by rw [← hf.mats]; exact h2)
  refine ⟨fun hh => hc.clear (fun k hk => hh k (List.mem_reverse.1 hk)), fun a b => hc.nodiff (by simpa using a) (by simpa using b), fun hh => ?_⟩
  have hh' : .heat ∉ (r.solvers.map Calc.Settings.kind).reverse := by simpa using hh
  exact ⟨hc.nolaw hh', hc.cold hh', hc.noload (Or.inl hh')⟩

/-! ### C79 -/

/-- **C79.** If all neutronic solvers of the file ask for `n` groups, the mesh and all its materials have `n` groups. -/
theorem C79_mesh (hs : Sane lib) (h : readData lib file p = ok r) (hp : Proper r.lines) {n : Nat}
    (hn : ∀ k ∈ r.solvers.map Calc.Settings.kind, k ∈ neutronics → ∃ v, Setting r.lines k "energies" [v] ∧ Numeral v n)
    {k : Calc.Kind} (hk : k ∈ r.solvers.map Calc.Settings.kind) (hk' : k ∈ neutronics) :
    r.plant.grid.energies = n ∧ ∀ i, i < r.plant.grid.cells → (r.plant.grid.mats.v i).energies = n := by
  obtain ⟨r2, r3, r4, h3, h4, f3, f4, e4, e5, e6, e7, e8, e9, e10, hpl⟩ := kinds_read h
  have hl : r.lines = r2.lines := by rw [e6, f4.lines, f3.lines]
  have hks : r.solvers.map Calc.Settings.kind = r2.solvers.map Calc.Settings.kind := by rw [e7, e4, f3.kinds]
  obtain ⟨⟨a1, a2, a3⟩, a4⟩ := hpl ⟨k, hk, Or.inl hk'⟩
  rw [hks, hl] at hn
  rw [hl] at hp
  rw [hks] at hk
  obtain ⟨g1, g2⟩ := setSettings_grouped hs hp h3 hn hk hk'
  have hst := setAll_state hs (by rw [f3.mats]; exact a1) (fun i w hi hm hw => by
    obtain ⟨e, he⟩ := (setSettings_tuned h3).mats i
    rw [f3.grid.cells] at hi
    obtain ⟨w', b1, -, b3⟩ := a3 i hi
    rw [f3.map, b1] at hm
    cases hm
    refine ⟨e, ?_⟩
    rw [he, a4 i hi, b3]) h4
  rw [e5]
  refine ⟨hst.energies.trans g1, fun i hi => ?_⟩
  rw [f4.grid.cells] at hi
  obtain ⟨w, b1, b2, b3⟩ := a3 i (by rw [← f3.grid.cells]; exact hi)
  rw [hst.groups i ⟨w, hi, by rw [f3.map]; exact b1, by rw [f3.mats]; exact b2⟩]
  exact g2 i hi

/-- **C79.** The external source of a source-driven calculation is that of its card: strength, cell and group. Anything but three values is ignored. -/
theorem C79_source (hs : Sane lib) (h : readData lib file p = ok r) (hp : Proper r.lines) (hk : .ads ∈ r.solvers.map Calc.Settings.kind) :
    ∃ ws, Setting r.lines .ads "ext_source" ws ∧
      ((∃ u v w, ws = [u, v, w] ∧ lib.stod u = ok r.plant.source.1 ∧ (∀ m, Numeral v m → r.plant.source.2.1 = m) ∧ ∀ m, Numeral w m → r.plant.source.2.2 = m) ∨
        ((ws.length = 1 ∨ ws.length = 2 ∨ ws.length = 6) ∧ r.plant.source = p.source)) := by
  obtain ⟨r2, r3, r4, h3, h4, f3, f4, e4, e5, e6, e7, e8, e9, e10, hpl⟩ := kinds_read h
  have hl : r.lines = r2.lines := by rw [e6, f4.lines, f3.lines]
  have hks : r.solvers.map Calc.Settings.kind = r2.solvers.map Calc.Settings.kind := by rw [e7, e4, f3.kinds]
  have hsrc : r.plant.source = r3.plant.source := by
    rw [e5]
    exact setAll_inv (P := fun _ u => u.plant.source = r3.plant.source) h4 (K := []) rfl (fun K k u u' hf hss hu he => (setData_rest he).1.trans hu)
  have h2 : p.source = r2.plant.source := by rw [e10]
  rw [hl] at hp ⊢
  rw [hks] at hk
  rw [hsrc, h2]
  exact (setSettings_source hs hp h3).2 hk

/-! ### C86 -/

theorem law_silent {w key : Text} {n : Nat} {v : Vec ℝ} {ls : List Text} (h : Law lib ls w key n v) : ∃ a b, Block ls "material".toList w a b ∧ ¬ Silent ls key a b := by
  obtain ⟨a, b, ws, hb, ⟨i, m, hf, -⟩, -, -⟩ := h
  exact ⟨a, b, hb, fun hh => hh i m hf.2.1 hf.2.2.1 hf.1⟩

/-- **C86.** A file is not read to the end if a cell has a material for which the searched lines lack a table, an entry of the scattering matrix or the conductivity. -/
theorem C86_partial (hs : Sane lib) (h : readData lib file p = ok r) {i : Nat} (hi : i < r.plant.grid.cells) :
    (∀ k ∈ r.solvers.map Calc.Settings.kind, k ∈ neutronics → ∀ name ∈ tables k, ∀ e, e < r.plant.grid.energies →
      ¬ ∀ a b, Block r.lines "material".toList (r.plant.grid.mats.v i).name.toList a b → Silent r.lines (groupKey name e) a b) ∧
    (∀ k ∈ r.solvers.map Calc.Settings.kind, k ∈ neutronics → ∀ e f, e < r.plant.grid.energies → f < r.plant.grid.energies →
      ¬ ∀ a b, Block r.lines "material".toList (r.plant.grid.mats.v i).name.toList a b → Silent r.lines (scattKey e f) a b) ∧
    (.heat ∈ r.solvers.map Calc.Settings.kind →
      ¬ ∀ a b, Block r.lines "material".toList (r.plant.grid.mats.v i).name.toList a b → Silent r.lines "thermal_conductivity".toList a b) := by
  refine ⟨fun k hk hn name hname e he hall => ?_, fun k hk hn e f he hf hall => ?_, fun hk hall => ?_⟩
  · obtain ⟨hN, hD⟩ := C83 hs h hk hn hi
    have has : Has lib r.lines (r.plant.grid.mats.v i).name.toList r.plant.grid.energies (groupKey name) 1
        (if name = "ni" then (r.plant.grid.mats.v i).nu else if name = "chi" then (r.plant.grid.mats.v i).chi else if name = "fission" then (r.plant.grid.mats.v i).fiss
          else if name = "total" then (r.plant.grid.mats.v i).tot else (r.plant.grid.mats.v i).diff) := by
      unfold tables at hname
      rcases List.mem_append.1 hname with hname | hname
      · simp at hname
        rcases hname with rfl | rfl | rfl | rfl
        · exact hN.nu
        · exact hN.chi
        · exact hN.fiss
        · exact hN.tot
      · split at hname
        · rename_i hd
          rw [List.mem_singleton.1 hname]
          refine hD ?_
          rcases hd with rfl | rfl
          · exact Or.inl hk
          · exact Or.inr hk
        · simp at hname
    obtain ⟨v, -, hv⟩ := has e he
    obtain ⟨a, b, hb, hn⟩ := law_silent hv
    exact hn (hall a b hb)
  · obtain ⟨v, -, hv⟩ := (C83 hs h hk hn hi).1.scatt e f he hf
    obtain ⟨a, b, hb, hn⟩ := law_silent hv
    exact hn (hall a b hb)
  · obtain ⟨v, -, -, -, hv⟩ := (C83_heat hs h hk).1 i hi
    obtain ⟨a, b, hb, hn⟩ := law_silent hv
    exact hn (hall a b hb)

/-- **C86.** More temperatures or heat sources than cells are undefined behaviour, not an error. -/
theorem C86_long {t : Vec ℝ} : (readValues lib r.lines "temperatures".toList = ok t → r.plant.grid.mats.n < t.n → setTemps lib r = ub) ∧
    (readValues lib r.lines "heat_sources".toList = ok t → r.plant.grid.mats.n < t.n → setSources lib r = ub) := by
  have key : ∀ (put : ℝ → Mesh.Material → Mesh.Material), r.plant.grid.mats.n < t.n → loop (fun i M => do
      let y ← t.get i
      Mesh.change (put y) i M) t.n r.plant.grid = ub := by
    intro put hn
    have run : ∀ m, m ≤ r.plant.grid.mats.n → ∃ g, loop (fun i M => do
        let y ← t.get i
        Mesh.change (put y) i M) m r.plant.grid = ok g ∧ g.mats.n = r.plant.grid.mats.n := by
      intro m
      induction m with
      | zero => exact fun _ => ⟨_, rfl, rfl⟩
      | succ m ih =>
        intro hm
        obtain ⟨g, hg, hgn⟩ := ih (by omega)
        refine ⟨{ g with mats := ⟨g.mats.n, Function.update g.mats.v m (put (t.v m) (g.mats.v m))⟩ }, ?_, hgn⟩
        rw [loop_succ, hg, ok_bind, Vec.get_ok (by omega), ok_bind, change_ok (by omega)]
    obtain ⟨g, hg, hgn⟩ := run _ (Nat.le_refl _)
    have stop : loop (fun i M => do
        let y ← t.get i
        Mesh.change (put y) i M) (r.plant.grid.mats.n + 1) r.plant.grid = ub := by
      rw [loop_succ, hg, ok_bind, Vec.get_ok (by omega), ok_bind]
      unfold Mesh.change
      rw [Vec.get_ub (by omega)]
      rfl
    have rest : ∀ m, r.plant.grid.mats.n + 1 ≤ m → loop (fun i M => do
        let y ← t.get i
        Mesh.change (put y) i M) m r.plant.grid = ub := by
      intro m hm
      induction m, hm using Nat.le_induction with
      | base => exact stop
      | succ m hm ih =>
        rw [loop_succ, ih]
        rfl
    exact rest t.n hn
  constructor
  · intro ht hn
    unfold setTemps
    rw [ht, ok_bind]
    show ((loop _ t.n r.plant.grid) >>= _) = ub
    rw [key (fun y m => { m with T := y }) hn]
    rfl
  · intro ht hn
    unfold setSources
    rw [ht, ok_bind]
    show ((loop _ t.n r.plant.grid) >>= _) = ub
    rw [key (fun y m => { m with q := y }) hn]
    rfl

/-! ### files -/

/-- A heat calculation with lists that are too short for its three cells. -/
def wFile8 : List Text :=
  ["solvers heat".toList, "geometry sphere".toList, "mesh 3 1.0 fuel".toList, "temperatures 7.0".toList, "heat_sources 9.0 1.0".toList,
    "solver heat".toList, "accuracy 9.0".toList, "max_iteration_number 20".toList, "heat_boundary_conditions 7.0 9.0 1.0".toList,
    "material fuel".toList, "thermal_conductivity 7.0 9.0".toList]

theorem wFile8_read (p : Calc.Plant) : ∃ r, readData wLib (some wFile8) p = ok r ∧ r.lines = wFile8 ∧ r.solvers.map Calc.Settings.kind = [.heat] ∧ r.plant.grid.cells = 3 ∧
    (r.plant.grid.mats.v 0).T = 7 ∧ (r.plant.grid.mats.v 1).q = 1 ∧ (r.plant.grid.mats.v 2).T = 0 ∧ (r.plant.grid.mats.v 2).q = 0 :=
  wFuel wFile8 [newSolver .heat] (by decide) (by rfl) (fun _ => by rfl) (by rfl) (by rfl) _ p
    (fun bounds v hv => ⟨_, rfl, rfl, rfl, rfl, rfl, rfl, congrArg Mesh.Material.T (hv 2 (by decide)), congrArg Mesh.Material.q (hv 2 (by decide))⟩)

/-- A source-driven calculation; what follows the keyword of the total cross section, and the source. -/
def wFile9 (total source : Text) : List Text :=
  ["solvers ads".toList, "geometry sphere".toList, "mesh 3 1.0 fuel".toList,
    "solver ads".toList, "accuracy 7.0".toList, "max_iteration_number 100".toList, "albedo 9.0".toList, "energies 1".toList, "ext_source ".toList ++ source,
    "material fuel".toList, "ni(1) 7.0".toList, "chi(1) 1.0".toList, "fission(1) 9.0".toList, "total(1)".toList ++ total,
    "diffCoeff(1) 9.0".toList, "scattMatrix(1, 1) 1.0 7.0".toList]

theorem wFile9_proper : Proper (wFile9 " 7.0".toList "9.0 2 1".toList) := proper_eval (by decide +kernel)

theorem wFile9_read (p : Calc.Plant) : ∃ r, readData wLib (some (wFile9 " 7.0".toList "9.0 2 1".toList)) p = ok r ∧ r.lines = wFile9 " 7.0".toList "9.0 2 1".toList ∧
    r.solvers.map Calc.Settings.kind = [.ads] ∧ r.plant.grid.cells = 3 ∧ r.plant.grid.energies = 1 ∧ r.plant.source = (9, 2, 1) ∧
    (r.plant.grid.mats.v 0).tot = [Vec.ofList [7]] ∧ (r.plant.grid.mats.v 0).name = "fuel" :=
  wFuel (wFile9 " 7.0".toList "9.0 2 1".toList) [newSolver .ads] (by decide) (by rfl) (fun _ => by rfl) (by rfl) (by rfl) _ p
    (fun bounds v hv => ⟨_, rfl, rfl, rfl, rfl, rfl, rfl, congrArg (fun m : Mesh.Material => m.tot ++ [Vec.ofList [7]]) (hv 0 (by decide)), congrArg Mesh.Material.name (hv 0 (by decide))⟩)

/-- **C86.** Lists of temperatures and heat sources that are too short are accepted; the cells at the end get zero. -/
theorem C86_short (p : Calc.Plant) : ∃ r, readData wLib (some wFile8) p = ok r ∧ r.lines = wFile8 ∧ r.plant.grid.cells = 3 ∧
    Card wFile8 "temperatures" ["temperatures".toList, "7.0".toList] ∧ (r.plant.grid.mats.v 2).T = 0 ∧ (r.plant.grid.mats.v 2).q = 0 := by
  obtain ⟨r, h1, h2, -, h4, -, -, h7, h8⟩ := wFile8_read p
  exact ⟨r, h1, h2, h4, card_eval wLib_sane (l := "temperatures 7.0".toList) (by rfl) (by rfl), h7, h8⟩

/-- **C86.** A table without numbers is accepted; the cells have a law without coefficients. -/
theorem C86_false (p : Calc.Plant) : Law wLib (wFile9 [] "9.0 2 1".toList) "fuel".toList (groupKey "total" 0) 1 (Vec.ofList []) ∧
    ∃ r, readData wLib (some (wFile9 [] "9.0 2 1".toList)) p = ok r ∧ r.plant.grid.cells = 3 ∧ (r.plant.grid.mats.v 0).tot = [Vec.ofList []] :=
  ⟨⟨9, 4294967295, ["total(1)".toList], findBlock_sound wLib_sane (b := (9, 4294967295)) (by rfl), card_eval wLib_sane (l := "total(1)".toList) (by rfl) (by rfl), by simp,
      by rw [ofList_toList]; exact .nil⟩,
    wFuel (wFile9 [] "9.0 2 1".toList) [newSolver .ads] (by decide) (by rfl) (fun _ => by rfl) (by rfl) (by rfl) _ p
      (fun bounds v hv => ⟨_, rfl, rfl, congrArg (fun m : Mesh.Material => m.tot ++ [Vec.ofList []]) (hv 0 (by decide))⟩)⟩

example (p : Calc.Plant) : ∃ r, readData wLib (some (wFile9 " 7.0".toList "9.0 2 1".toList)) p = ok r ∧
    NuclearFile wLib r.lines (r.plant.grid.mats.v 0).name.toList r.plant.grid.energies (r.plant.grid.mats.v 0) ∧
    Has wLib r.lines (r.plant.grid.mats.v 0).name.toList r.plant.grid.energies (groupKey "diffCoeff") 1 (r.plant.grid.mats.v 0).diff ∧
    (∃ ws, Setting r.lines .ads "ext_source" ws ∧
      ((∃ u v w, ws = [u, v, w] ∧ wLib.stod u = ok r.plant.source.1 ∧ (∀ m, Numeral v m → r.plant.source.2.1 = m) ∧ ∀ m, Numeral w m → r.plant.source.2.2 = m) ∨
        ((ws.length = 1 ∨ ws.length = 2 ∨ ws.length = 6) ∧ r.plant.source = p.source))) ∧ r.plant.grid.energies = 1 ∧
    ((r.plant.grid.mats.v 0).kLaw = none ∧ (r.plant.grid.mats.v 0).T = 0 ∧ (r.plant.grid.mats.v 0).q = 0) ∧
    ¬ ∀ a b, Block r.lines "material".toList (r.plant.grid.mats.v 0).name.toList a b → Silent r.lines (groupKey "total" 0) a b := by
  obtain ⟨r, h1, h2, h3, h4, h5, h6, -, -⟩ := wFile9_read p
  have hk : .ads ∈ r.solvers.map Calc.Settings.kind := by simp [h3]
  have hn : Calc.Kind.ads ∈ neutronics := by simp [neutronics]
  have hp : Proper r.lines := by
    rw [h2]
    exact wFile9_proper
  have h := C83 wLib_sane h1 hk hn (i := 0) (by omega)
  refine ⟨r, h1, h.1, h.2 (Or.inr hk), C79_source wLib_sane h1 hp hk, (C79_mesh wLib_sane h1 hp (n := 1) (fun k hk' _ => ⟨"1".toList, ?_, .digit (i := 1) (by decide)⟩) hk hn).1,
    (C83_unused wLib_sane h1 ⟨_, hk, Or.inl hn⟩ (i := 0) (by omega)).2.2 (by simp [h3]), (C86_partial wLib_sane h1 (i := 0) (by omega)).1 _ hk hn "total" (by simp [tables]) 0 (by omega)⟩
  rw [h3] at hk'
  rw [List.mem_singleton.1 hk', h2]
  exact ⟨3, 4294967295, findBlock_sound wLib_sane (b := (3, 4294967295)) (by rfl), card_eval wLib_sane (l := "energies 1".toList) (by rfl) (by rfl)⟩

example (p : Calc.Plant) : ∃ r, readData wLib (some wFile8) p = ok r ∧
    (∃ c ws q, Card r.lines "heat_sources" (c :: ws) ∧ Lists wLib ws q ∧ q.n ≤ r.plant.grid.cells ∧
        ∀ i, i < r.plant.grid.cells → (r.plant.grid.mats.v i).q = if i < q.n then q.v i else 0) := by
  obtain ⟨r, h1, h2, h3, -⟩ := wFile8_read p
  exact ⟨r, h1, ((C83_heat wLib_sane h1 (by simp [h3])).2.2.2 (by simp [h3]) (by simp [h3])).2⟩

example (p : Calc.Plant) : ∃ r, readData wLib (some wFile5) p = ok r ∧ KineticsFile wLib r.lines r.plant.kinetics := by
  obtain ⟨r, s, h1, -, h3, h4, -⟩ := wFile5_read p
  exact ⟨r, h1, C83_kinetics wLib_sane h1 (by simp [h3, h4])⟩

end

end Verif.Input
