import Verif.Input.CriticalRead
import Verif.Input.CoupledSpec
import Verif.Calc.PairLast
import Verif.Solve.Safe

/-!
# From the words of a file for a coupled calculation to the hypotheses of the calculation
-/

namespace Verif.Input

open Verif Outcome Finset Filter Topology

noncomputable section

variable {lib : Lib} {lines raw : List Text} {k : Calc.Kind} {g : Diffusion.Geom} {rs : List Region} {E : Nat} {T : Tables} {alb : Vec ℝ} {acc : ℝ} {n : Nat} {dir : String}
  {law : Text → Vec ℝ} {t q bc : Vec ℝ}

/-! ### heat conduction -/

/-- the data of heat conduction, whatever the other solvers -/
theorem heatAsks_read (hc : Clean lib lines) (hp : Proper lines) {p : Calc.Plant} {r : Reader} (hr : readData lib (some raw) p = ok r) (hl : r.lines = lines)
    (hg : r.plant.grid.geom = g) (hM : Meshed rs r.plant.grid) {o : Calc.Settings} (hm : o ∈ r.solvers) (hok : o.kind = .heat)
    (h : HeatAsks lib lines g rs law t bc acc n) :
    HeatRead g rs law t ⟨(cellNames rs).length, Calc.heat r.plant⟩ bc acc n { r with solvers := [o] } o := by
  have hpl : Proper r.lines := by rw [hl]; exact hp
  obtain ⟨⟨ws1, a1, a2⟩, ⟨ws2, b1, b2⟩⟩ := C79_partial hc.1 hr hpl hm
  obtain ⟨ws3, c1, c2⟩ := C79_boundary hc.1 hr hpl hm hok
  obtain ⟨hlaw, ⟨c4, ws4, t4, d1, d2, -, d3⟩, -⟩ := C83_heat hc.1 hr (List.mem_map.2 ⟨o, hm, hok⟩)
  rw [hok, hl] at a1 b1
  rw [hl] at c1 d1
  have hcells : r.plant.grid.cells = (cellNames rs).length := hM.cells
  refine ⟨rfl, hok, ?_, ?_, ?_, hg, hM, fun i hi => ?_, fun i hi => ?_, fun i hi => rfl⟩
  · obtain ⟨v, h1, h2⟩ := h.accuracy
    obtain rfl := setting_unique a1 h1
    rcases a2 with ⟨v', e, a2⟩ | ⟨e, -⟩
    · cases e
      rw [h2] at a2
      cases a2
      rfl
    · simp at e
  · obtain ⟨v, h1, h2⟩ := h.limit
    obtain rfl := setting_unique b1 h1
    rcases b2 with ⟨v', e, b2⟩ | ⟨e, -⟩
    · cases e
      exact b2 n h2
    · simp at e
  · obtain ⟨ws, h1, h2, h3⟩ := h.boundary
    obtain rfl := setting_unique c1 h1
    rcases c2 with ⟨-, -, c2⟩ | ⟨-, -, c2⟩ | ⟨e, -⟩
    · exact reads_unique c2 h2
    · exact reads_unique c2 h2
    · split at h3 <;> omega
  · obtain ⟨v, h1, -, -, h2⟩ := hlaw i (by rw [hcells]; exact hi)
    obtain ⟨x, hx, ex⟩ := cellNames_mem hi
    refine ⟨v, h1, ?_⟩
    rw [hM.names i hi, String.toList_ofList, hl] at h2
    rw [← ex] at h2 ⊢
    exact law_unique h2 (h.laws x hx)
  · obtain ⟨⟨c, ws, h1, h2⟩, h3⟩ := h.temperatures
    have := card_unique d1 h1
    injection this with _ this
    subst this
    obtain ⟨h4, h5⟩ := lists_unique d2 h2
    show (r.plant.grid.mats.v i).T = _
    rw [d3 i (by rw [hcells]; exact hi), if_pos (by rw [h4, h3]; exact hi), h5 i (by rw [h3]; exact hi)]

/-- the same at any later moment -/
theorem HeatRead.moved {r : Reader} {o : Calc.Settings} (h : HeatRead g rs law t q bc acc n r o) {p : Calc.Plant} (hk : Calc.Kept r.plant p) :
    HeatRead g rs law ⟨(cellNames rs).length, Calc.temp p⟩ ⟨(cellNames rs).length, Calc.heat p⟩ bc acc n { r with plant := p } o :=
  ⟨h.solvers, h.kind, h.acc, h.limit, h.bc, hk.body.geom.trans h.geom, meshed_same h.mesh hk.body, fun i hi => by
    obtain ⟨v, h1, h2⟩ := h.law i hi
    exact ⟨v, ((hk.body.mats i (by rw [h.mesh.cells]; exact hi)).kLaw).trans h1, h2⟩, fun _ _ => rfl, fun _ _ => rfl⟩

theorem HeatCase.moved {m AL BL CL AR BR CR : ℝ} {f : Nat → ℝ} (hC : HeatCase g rs law t q bc f m AL BL CL AR BR CR) {t' q' : Vec ℝ} (ht : ∀ i, i < (cellNames rs).length → m ≤ t'.v i)
    (hq : ∀ i, i < (cellNames rs).length → 0 ≤ q'.v i) : HeatCase g rs law t' q' bc f m AL BL CL AR BR CR :=
  ⟨hC.wide, hC.faces, hC.two, hC.positive, ht, hq, hC.boundaries, hC.AL_nonneg, hC.BL_nonneg, hC.AR_nonneg, hC.BR_nonneg, hC.left, hC.right, hC.tied, hC.lowLeft, hC.lowRight⟩

theorem HeatRead.set {r : Reader} {o : Calc.Settings} (h : HeatRead g rs law t q bc acc n r o) : HeatRead g rs law t q bc acc n { r with solvers := [o] } o :=
  ⟨rfl, h.kind, h.acc, h.limit, h.bc, h.geom, h.mesh, h.law, h.temp, h.heat⟩

/-- one heat calculation of a coupled calculation -/
theorem heat_found {r : Reader} {o : Calc.Settings} (hH : HeatRead g rs law t q bc acc n r o) (hb : BodyFile lib lines g rs) {m AL BL CL AR BR CR : ℝ} {f : Nat → ℝ}
    (hC : HeatCase g rs law t q bc f m AL BL CL AR BR CR) {tl : Calc.Tools} (hlin : Calc.LinSolves tl.lin) {p : Calc.Plant} (hf : Calc.Fine r.plant m p)
    (hq : ∀ i, i < r.plant.grid.cells → 0 ≤ Calc.heat p i) {G : Mesh.Grid} {old : Vec ℝ} {x : Nat → ℝ}
    (hs : Calc.heatSolve tl o p = ok ({ p with grid := G }, old)) (hx : Calc.Heated p.grid x G) :
    ∃ u : Nat → ℝ, ConductedHeat g (cellNames rs).length f (fun i => conductivityAt rs law i (u i)) (Calc.heat p) AL BL CL AR BR CR x ∧
      ((∀ i, i < (cellNames rs).length → |x i - u i| < acc) ∨ ∀ i, i < (cellNames rs).length → |x i - 1| < acc) := by
  have hc : r.plant.grid.cells = (cellNames rs).length := hH.mesh.cells
  have hH' := hH.moved hf.kept
  have hC' := hC.moved (t' := ⟨(cellNames rs).length, Calc.temp p⟩) (q' := ⟨(cellNames rs).length, Calc.heat p⟩) (fun i hi => hf.temps i (by rw [hc]; exact hi))
    (fun i hi => hq i (by rw [hc]; exact hi))
  obtain ⟨c, c1, c2⟩ := heatRead_cell hH'
  have hcon := heatRead_conducting hH' hb hC' c1 c2
  have hcp : p.grid.cells = (cellNames rs).length := hH'.mesh.cells
  obtain ⟨-, -, s, d, on, hS, -, hor, -⟩ := Calc.C75_steady (p' := { p with grid := G }) hH.kind hcon hlin (fun i hi => hq i (by rw [hc, ← hcp]; exact hi))
    (fun i hi => hf.temps i (by rw [hc, ← hcp]; exact hi)) (by rw [Calc.problem_heat hH.kind, hs, ok_bind])
  have hT : ∀ i, i < (cellNames rs).length → Calc.temp { p with grid := G } i = x i := fun i hi => (Calc.heated_temp hx (by rw [hcp]; exact hi)).1
  have key := conducted_heat hH' hb hC' c2 on hS
  refine ⟨s, ?_, ?_⟩
  · exact key.congr hC.two (fun _ _ => rfl) (fun _ _ => rfl) (fun _ _ => rfl) (fun _ _ => rfl) hT
  · rw [hH.acc, hcp] at hor
    rcases hor with hor | ⟨-, hor⟩
    · exact Or.inl (fun i hi => by rw [← hT i hi]; exact hor i hi)
    · exact Or.inr (fun i hi => by rw [← hT i hi]; exact hor i hi)

/-! ### neutronics -/

theorem burned_congr {p p' : Calc.Plant} {k : ℝ} {φ ψ rate rate' : Nat → ℝ} (h : Calc.Burned p k φ rate p')
    (e : ∀ e i, e < p.grid.energies → i < p.grid.cells → φ (i + e * p.grid.cells) = ψ (i + e * p.grid.cells)) (er : ∀ i, i < p.grid.cells → rate i = rate' i) :
    Calc.Burned p k ψ rate' p' :=
  ⟨h.kept, h.temps, h.adjoint, h.k, h.modes, fun a i ha hi => by rw [h.flux a i ha hi, e a i ha hi], h.total, fun i hi => by
    rw [← er i hi, ← sum_congr rfl (fun j hj => er j (mem_range.1 hj))]
    exact h.share i hi⟩

/-- one diffusion calculation -/
theorem diffusion_found {tl : Calc.Tools} (hlib : Solve.SolvesRegular tl.num) {o : Calc.Settings} {p p' : Calc.Plant} {old : Vec ℝ} {m aL aR : ℝ}
    (h : Calc.DiffusionReady o p.grid m) (hreg : ∀ d, Calc.DiffusionOn p.grid o.albedo (Calc.temp p) d → Solve.Regular d aL aR ∧ Solve.NonnegFission d)
    (hlim : o.maxIter = n) (hs : Calc.diffusionSolve tl o p = ok (p', old)) :
    ∃ d k φ κ y k' ψ, Calc.DiffusionOn p.grid o.albedo (Calc.temp p) d ∧ 0 < k ∧ Solve.Physical d.cells d.energies φ ∧ ∑ x ∈ range (d.cells * d.energies), φ x = 1 ∧
      Solve.DiffusionEq d aL aR k φ ∧
      (∀ k' ψ, Solve.Physical d.cells d.energies ψ → Solve.DiffusionEq d aL aR k' ψ → k' = k ∧ ∃ c, ∀ x, x < d.cells * d.energies → ψ x = c * φ x) ∧
      Solve.DiffusionGenerations d aL aR κ y ∧ Tendsto κ atTop (𝓝 k) ∧ (∀ x, x < d.cells * d.energies → Tendsto (fun j => y j x) atTop (𝓝 (φ x))) ∧
      FirstClose n o.acc κ y k' ψ ∧ Calc.Burned p k' ψ (Solve.fissions d ψ) p' ∧ (∀ x, x < d.cells * d.energies → 0 ≤ ψ x) ∧ ∑ x ∈ range (d.cells * d.energies), ψ x = 1 ∧
      (∀ i, i < d.cells → 0 ≤ Solve.fissions d ψ i) ∧ 0 < ∑ i ∈ range d.cells, Solve.fissions d ψ i := by
  obtain ⟨old', eo, no, vo⟩ := Calc.heatSources_ok h.furnished.mats_n
  obtain ⟨d, ed, on⟩ := Calc.diffusionData_ok h.shaped h.furnished h.nuclear.complete h.diffusive.laws o.albedo
  obtain ⟨V, eV, nV, vV, hV⟩ := Calc.volumes_m h.shaped
  obtain ⟨R, hF⟩ := hreg d on
  rw [← on.cells] at hV
  unfold Calc.diffusionSolve Calc.Settings.options at hs
  rw [eo, ok_bind, h.energies, ed, ok_bind, eV, ok_bind, h.direction, h.modes, hlim] at hs
  obtain ⟨s, hs, hs2⟩ := bind_eq_ok.1 hs
  obtain ⟨q, hw, e⟩ := bind_eq_ok.1 hs2
  cases e
  obtain ⟨k, φ, h1, h3, h4, h5, h6, κ, y, t0, t1, t2, t3, -⟩ := Solve.C62_forward (power := p.power) R hF.fiss hlib hV ⟨Calc.noModes, Calc.noModes, old, old⟩
  obtain ⟨j, j1, j2, j3, j4⟩ := t3 _ _ _ hs
  obtain ⟨k', ψ, hr', -, y0, y1, hh, -, fp, -⟩ := Solve.C60_diffusion R.sound R.absorbing hF hlib hV hs
  obtain ⟨rfl, heq⟩ := reports_same hr' j4
  rw [on.cells, on.energies] at hr'
  rw [on.cells] at hh
  obtain ⟨p'', e, hb, -⟩ := Calc.writeForward_ok h.furnished hr' vV hh
  rw [hw] at e
  cases e
  have hfi : ∀ i, i < d.cells → Solve.fissions d ψ i = Solve.fissions d (y (j + 1)) i := fun i hi => fissions_congr heq hi
  have hx : ∀ x, x < d.cells * d.energies → ψ x = y (j + 1) x := fun x hx => by
    obtain ⟨i, e, hi, he, rfl⟩ := flat_surj hx
    exact heq e i he hi
  refine ⟨d, k, φ, κ, y, κ (j + 1), y (j + 1), on, h1, h3, h4, h5, h6, t0, t1, t2, ⟨j, by exact_mod_cast j1, j2, j3, rfl, rfl⟩,
    burned_congr hb (fun e i he hi => ?_) (fun i hi => hfi i (by rw [on.cells]; exact hi)), fun x h => by rw [← hx x h]; exact y0 x h,
    by rw [← y1]; exact sum_congr rfl fun x h => (hx x (mem_range.1 h)).symm, fun i hi => ?_, ?_⟩
  · have := heq e i (by rw [on.energies]; exact he) (by rw [on.cells]; exact hi)
    rwa [on.cells] at this
  · rw [← hfi i hi]
    exact Solve.fissions_nonneg R.absorbing.vol_pos hF.fiss y0 hi
  · rw [← sum_congr rfl fun i h => hfi i (mem_range.1 h)]
    exact fp

/-- one transport calculation -/
theorem transport_found {tl : Calc.Tools} (hlib : Solve.SolvesRegular tl.num) {o : Calc.Settings} {p p' : Calc.Plant} {old : Vec ℝ} {m : ℝ}
    (h : Calc.TransportReady tl o p.grid m) (hreg : ∀ d, Calc.TransportOn p.grid o.albedo (Calc.temp p) d →
      Solve.Body d p.grid.geom ∧ Solve.Multiplying (Solve.reactions d) ∧ Solve.GroupsLinked d ∧ Solve.NonnegFission (Solve.reactions d) ∧ Solve.Thick d p.grid.geom)
    (hlim : o.maxIter = n) (hs : Calc.transportSolve tl o p = ok (p', old)) :
    ∃ d G k φ κ y k' ψ, Calc.TransportOn p.grid o.albedo (Calc.temp p) d ∧ CPM.vacuumCPs d CPM.E3 CPM.Ki3 p.grid.geom = ok G ∧ 0 < k ∧ Solve.Physical d.cells d.energies φ ∧
      ∑ x ∈ range (d.cells * d.energies), φ x = 1 ∧ Solve.TransportEq d G.v k φ ∧
      (∀ k' ψ, Solve.Physical d.cells d.energies ψ → Solve.TransportEq d G.v k' ψ → k' = k ∧ ∃ c, ∀ x, x < d.cells * d.energies → ψ x = c * φ x) ∧
      Solve.TransportGenerations d G.v κ y ∧ Tendsto κ atTop (𝓝 k) ∧ (∀ x, x < d.cells * d.energies → Tendsto (fun j => y j x) atTop (𝓝 (φ x))) ∧
      FirstClose n o.acc κ y k' ψ ∧ Calc.Burned p k' ψ (Solve.fissions (Solve.reactions d) ψ) p' ∧ (∀ x, x < d.cells * d.energies → 0 ≤ ψ x) ∧
      ∑ x ∈ range (d.cells * d.energies), ψ x = 1 ∧
      (∀ i, i < d.cells → 0 ≤ Solve.fissions (Solve.reactions d) ψ i) ∧ 0 < ∑ i ∈ range d.cells, Solve.fissions (Solve.reactions d) ψ i := by
  obtain ⟨old', eo, no, vo⟩ := Calc.heatSources_ok h.furnished.mats_n
  obtain ⟨d, ed, on⟩ := Calc.transportData_ok h.shaped h.furnished h.some h.nuclear.complete h.albedo.1
  obtain ⟨V, eV, nV, vV, hV⟩ := Calc.volumes_m h.shaped
  obtain ⟨B, hM, hL, hF, hthick⟩ := hreg d on
  have hself : ∀ G, CPM.vacuumCPs d CPM.E3 CPM.Ki3 p.grid.geom = ok G → ∀ h i, h < d.energies → i < d.cells → 0 < G.v (i, i, h) :=
    fun G hG h i hh hi => Solve.thick_self B hthick hG hh hi
  rw [← on.cells] at hV
  unfold Calc.transportSolve Calc.Settings.options at hs
  rw [eo, ok_bind, h.energies, ed, ok_bind, eV, ok_bind, h.modes, h.e3, h.ki3, hlim] at hs
  obtain ⟨s, hs, hs2⟩ := bind_eq_ok.1 hs
  obtain ⟨q, hw, e⟩ := bind_eq_ok.1 hs2
  cases e
  obtain ⟨G, k, φ, hG, h1, h3, h4, h5, h6, κ, y, t0, t1, t2, t3, -⟩ :=
    Solve.C68_transport (power := p.power) B hM hL hF.fiss (fun _ => hself) hlib hV o.direction ⟨Calc.noModes, Calc.noModes, old, old⟩
  obtain ⟨j, j1, j2, j3, j4⟩ := t3 _ _ _ hs
  obtain ⟨k', ψ, hr', -, y0, y1, hh, -, fp, -⟩ := Solve.C67_transport B hF hlib (fun _ G hG h i hh hi => (hself G hG h i hh hi).le) hV hs
  obtain ⟨rfl, heq⟩ := reports_same hr' j4
  rw [on.cells, on.energies] at hr'
  rw [on.cells] at hh
  obtain ⟨p'', e, hb, -⟩ := Calc.writeForward_ok h.furnished hr' vV hh
  rw [hw] at e
  cases e
  have hfi : ∀ i, i < d.cells → Solve.fissions (Solve.reactions d) ψ i = Solve.fissions (Solve.reactions d) (y (j + 1)) i := fun i hi =>
    fissions_congr (d := Solve.reactions d) heq hi
  have hx : ∀ x, x < d.cells * d.energies → ψ x = y (j + 1) x := fun x hx => by
    obtain ⟨i, e, hi, he, rfl⟩ := flat_surj hx
    exact heq e i he hi
  refine ⟨d, G, k, φ, κ, y, κ (j + 1), y (j + 1), on, hG, h1, h3, h4, h5, h6, t0, t1, t2, ⟨j, by exact_mod_cast j1, j2, j3, rfl, rfl⟩,
    burned_congr hb (fun e i he hi => ?_) (fun i hi => hfi i (by rw [on.cells]; exact hi)), fun x h => by rw [← hx x h]; exact y0 x h,
    by rw [← y1]; exact sum_congr rfl fun x h => (hx x (mem_range.1 h)).symm, fun i hi => ?_, ?_⟩
  · have := heq e i (by rw [on.energies]; exact he) (by rw [on.cells]; exact hi)
    rwa [on.cells] at this
  · rw [← hfi i hi]
    exact Solve.fissions_nonneg (d := Solve.reactions d) B.pos.vol_pos hF.fiss y0 hi
  · rw [← sum_congr rfl fun i h => hfi i (mem_range.1 h)]
    exact fp

/-! ### the file -/

/-- all that is used of the reader -/
structure CoupledRead (first : Bool) (k : Calc.Kind) (g : Diffusion.Geom) (rs : List Region) (E : Nat) (T : Tables) (dir : String) (alb : Vec ℝ) (law : Text → Vec ℝ) (t bc : Vec ℝ)
    (P accN : ℝ) (nN : Nat) (accH : ℝ) (nH : Nat) (acc : ℝ) (n : Nat) (w : ℝ) (r : Reader) (oN oH oC : Calc.Settings) : Prop where
  solvers : r.solvers = if first then [oN, oH, oC] else [oH, oN, oC]
  kindN : oN.kind = k
  kindC : oC.kind = .coupled
  groups : oN.energies = E
  nuclear : NuclearRead k g rs E T r
  asked : CriticalSet k dir alb accN nN oN
  heat : HeatRead g rs law t ⟨(cellNames rs).length, Calc.heat r.plant⟩ bc accH nH { r with solvers := [oH] } oH
  idle : ∀ i, i < r.plant.grid.cells → Calc.heat r.plant i = 0
  power : r.plant.power = P
  acc : oC.acc = acc
  limit : oC.maxIter = n
  relax : oC.relax = w

theorem coupled_read {first : Bool} {P accN accH w : ℝ} {nN nH : Nat} (hc : Clean lib lines) (hraw : Stored raw lines) (hp : Proper lines) (hk : k = .diffusion ∨ k = .transport)
    (hf : CoupledAsks lib lines first k g rs E P acc n w) (hT : TableFile lib lines rs E T) (hD : k = .diffusion → DiffFile lib lines rs E T)
    (hN : CriticalAsks lib lines k dir alb accN nN) (hH : HeatAsks lib lines g rs law t bc accH nH) (p : Calc.Plant) :
    ∃ r oN oH oC, readData lib (some raw) p = ok r ∧ CoupledRead first k g rs E T dir alb law t bc P accN nN accH nH acc n w r oN oH oC := by
  have hk' : k ∈ neutronics := by rcases hk with rfl | rfl <;> simp [neutronics]
  have hin : k ∈ (if first then [k, .heat] else [.heat, k]) := by split_ifs <;> simp
  have hne : k ≠ .kinetics := by rcases hk with rfl | rfl <;> decide
  obtain ⟨r, hr, hl, hks, hb, he⟩ := C87 hc hraw hf.full p
  obtain ⟨hg, hM⟩ := hb ⟨k, hin, hne⟩
  obtain ⟨hNR, ho⟩ := nuclear_read hc hp hk' hin hf.full hT (fun h => hD (by rcases hk with rfl | rfl <;> simp_all)) hr hl hks hg hM (he ⟨k, hin, hk'⟩)
  have hks' := hks
  have key : ∃ oN oH oC, r.solvers = (if first then [oN, oH, oC] else [oH, oN, oC]) ∧ oN.kind = k ∧ oH.kind = .heat ∧ oC.kind = .coupled := by
    have hev : everyone (if first then [k, .heat] else [.heat, k]) = if first then [k, .heat, .coupled] else [.heat, k, .coupled] := by
      cases first <;> simp [everyone]
    rw [hev] at hks
    have three : ∃ a b c, r.solvers = [a, b, c] := by
      have : (r.solvers.map Calc.Settings.kind).length = 3 := by rw [hks]; split_ifs <;> rfl
      rw [List.length_map] at this
      exact List.length_eq_three.1 this
    obtain ⟨a, b, c, e⟩ := three
    rw [e] at hks
    cases first
    · simp only [Bool.false_eq_true, if_false, List.map_cons, List.map_nil, List.cons.injEq, and_true] at hks
      exact ⟨b, a, c, by simp [e], hks.2.1, hks.1, hks.2.2⟩
    · simp only [if_true, List.map_cons, List.map_nil, List.cons.injEq, and_true] at hks
      exact ⟨a, b, c, by simp [e], hks.1, hks.2.1, hks.2.2⟩
  obtain ⟨oN, oH, oC, hs, h1, h2, h3⟩ := key
  have mN : oN ∈ r.solvers := by rw [hs]; split_ifs <;> simp
  have mH : oH ∈ r.solvers := by rw [hs]; split_ifs <;> simp
  have mC : oC ∈ r.solvers := by rw [hs]; split_ifs <;> simp
  have hfed : .transport ∈ r.solvers.map Calc.Settings.kind ∨ .diffusion ∈ r.solvers.map Calc.Settings.kind := by
    rcases hk with rfl | rfl
    · exact Or.inr (List.mem_map.2 ⟨oN, mN, h1⟩)
    · exact Or.inl (List.mem_map.2 ⟨oN, mN, h1⟩)
  have hheat : .heat ∈ r.solvers.map Calc.Settings.kind := List.mem_map.2 ⟨oH, mH, h2⟩
  obtain ⟨-, -, hpow, -⟩ := C83_heat hc.1 hr hheat
  obtain ⟨⟨c, v, hcard, hv⟩, hq⟩ := hpow hfed
  have hpl : Proper r.lines := by rw [hl]; exact hp
  obtain ⟨⟨ws1, a1, a2⟩, ⟨ws2, b1, b2⟩⟩ := C79_partial hc.1 hr hpl mC
  obtain ⟨ws3, c1, c2⟩ := C30_read hc.1 hr hpl mC h3 hfed hheat
  rw [h3, hl] at a1 b1
  rw [hl] at c1 hcard
  refine ⟨r, oN, oH, oC, hr, hs, h1, h3, ho oN mN (by rw [h1]; exact hk'), hNR, criticalSet_read hc hp hk hf.full hN hr hl hks' mN h1, heatAsks_read hc hp hr hl hg hM mH h2 hH,
    hq, ?_, ?_, ?_, ?_⟩
  · obtain ⟨c', v', hcard', hv'⟩ := hf.power
    have := card_unique hcard hcard'
    injection this with _ this
    injection this with this _
    subst this
    rw [hv] at hv'
    cases hv'
    rfl
  · obtain ⟨v, h1, h2⟩ := hf.accuracy
    obtain rfl := setting_unique a1 h1
    rcases a2 with ⟨v', e, a2⟩ | ⟨e, -⟩
    · cases e
      rw [h2] at a2
      cases a2
      rfl
    · simp at e
  · obtain ⟨v, h1, h2⟩ := hf.limit
    obtain rfl := setting_unique b1 h1
    rcases b2 with ⟨v', e, b2⟩ | ⟨e, -⟩
    · cases e
      exact b2 n h2
    · simp at e
  · obtain ⟨v, h1, h2⟩ := hf.relaxation
    obtain rfl := setting_unique c1 h1
    rcases c2 with ⟨v', e, c2⟩ | ⟨e, -⟩
    · cases e
      rw [h2] at c2
      cases c2
      rfl
    · simp at e

/-! ### the reactor that was read is ready -/

theorem NuclearRead.nuclear {r : Reader} (h : NuclearRead k g rs E T r) {m : ℝ} (hC : CriticalCase rs E T (Set.Ici m)) : Calc.Nuclear r.plant.grid m := by
  have hm : ∀ {i}, i < r.plant.grid.cells → ∃ q ∈ rs, q.mat = matAt rs i := fun hi => matAt_mem (by rw [← h.mesh.cells]; exact hi)
  refine ⟨fun i hi => h.complete hi, fun x i hx hi z hz => ?_, fun e i he hi z hz => ?_, fun e i he hi z hz => ?_, fun e i he hi z hz => ?_, fun e i he hi z hz => ?_⟩
  · obtain ⟨q, hq, eq⟩ := hm hi
    rw [h.energies] at hx
    obtain ⟨f, e, hf, he, rfl⟩ := flat_surj hx
    rw [h.scatt_law hi he hf, ← eq]
    exact hC.scatt q hq e f he hf z hz
  · obtain ⟨q, hq, eq⟩ := hm hi
    rw [h.energies] at he ⊢
    rw [sum_congr rfl (fun f hf => h.scatt_law hi he (mem_range.1 hf) z), holds_law (h.tot i hi) he, ← eq]
    exact hC.absorbs q hq e he z hz
  · obtain ⟨q, hq, eq⟩ := hm hi
    rw [h.energies] at he
    rw [holds_law (h.chi i hi) he, ← eq]
    exact hC.chi q hq e he z hz
  · obtain ⟨q, hq, eq⟩ := hm hi
    rw [h.energies] at he
    rw [holds_law (h.nu i hi) he, ← eq]
    exact hC.nu q hq e he z hz
  · obtain ⟨q, hq, eq⟩ := hm hi
    rw [h.energies] at he
    rw [holds_law (h.fiss i hi) he, ← eq]
    exact hC.fiss q hq e he z hz

theorem NuclearRead.diffusive {r : Reader} (h : NuclearRead .diffusion g rs E T r) {m : ℝ} (hD : ∀ q ∈ rs, ∀ e, e < E → ∀ x, m ≤ x → 0 < valueAt (T.diff e q.mat) x) :
    Calc.Diffusive r.plant.grid m := by
  refine ⟨fun i hi => by rw [h.energies]; exact holds_length (h.diff (Or.inl rfl) i hi), fun e i he hi z hz => ?_⟩
  obtain ⟨q, hq, eq⟩ := matAt_mem (rs := rs) (i := i) (by rw [← h.mesh.cells]; exact hi)
  rw [h.energies] at he
  rw [holds_law (h.diff (Or.inl rfl) i hi) he, ← eq]
  exact hD q hq e he z hz

/-- only the numbers of the cells matter -/
theorem ConductedHeat.congr {g : Diffusion.Geom} {n : Nat} {AL BL CL AR BR CR : ℝ} {f k q q' t t' : Nat → ℝ} (hs : ConductedHeat g n f k q AL BL CL AR BR CR t) (hn : 2 ≤ n)
    (hq : ∀ i, i < n → q i = q' i) (ht : ∀ i, i < n → t i = t' i) : ConductedHeat g n f k q' AL BL CL AR BR CR t' :=
  Heat.Conducted.congr hs hn (fun _ _ => rfl) (fun _ _ => rfl) (fun _ _ => rfl) (fun i hi => by rw [hq i hi]) ht

/-- the last pass in words of the file -/
theorem together_of {k : Calc.Kind} {dir : String} {r : Reader} {oN oH oC : Calc.Settings} (hR : CoupledRead first k g rs E T dir alb law t bc P accN nN accH nH acc n w r oN oH oC)
    (hb : BodyFile lib lines g rs) (hcase : HeatCase g rs law t ⟨(cellNames rs).length, Calc.heat r.plant⟩ bc f m AL BL CL AR BR CR) (hlin : Calc.LinSolves tl.lin)
    {a : Calc.Part Calc.Plant (Vec ℝ)} {p' rb pN qN pH : Calc.Plant} {x : Nat → ℝ} (hlast : Calc.LastPass a tl oH w acc r.plant m first p' rb pN qN pH x)
    {k' : ℝ} {ψ rate : Nat → ℝ} (hbn : Calc.Burned pN k' ψ rate qN) (sign : ∀ x, x < (cellNames rs).length * E → 0 ≤ ψ x)
    (unit : ∑ x ∈ range ((cellNames rs).length * E), ψ x = 1) (rates : (∀ i, i < (cellNames rs).length → 0 ≤ rate i) ∧ 0 < ∑ i ∈ range (cellNames rs).length, rate i) :
    ∃ k0 T0 Q0 F Q u, Together first g rs E law f m AL BL CL AR BR CR accH acc w P p' k0 T0 Q0 (Calc.temp pN) k' ψ rate F Q x u := by
  have hc : r.plant.grid.cells = (cellNames rs).length := hR.nuclear.mesh.cells
  have hcN : pN.grid.cells = (cellNames rs).length := hlast.fineN.kept.body.cells.trans hc
  have hEN : pN.grid.energies = E := hlast.fineN.kept.body.energies.trans hR.nuclear.energies
  obtain ⟨G, old, hs, hG⟩ := hlast.conduction
  obtain ⟨u, hst, hu⟩ := heat_found hR.heat hb hcase hlin hlast.fineH hlast.sources hs hG
  obtain ⟨k1, k0, e1, e2, hclose⟩ := hlast.close
  have : k1 = k' := by
    have := e1.symm.trans hbn.k
    simpa using this
  subst this
  have hv : ∀ i, Calc.volume p'.grid i = Calc.volume pN.grid i := fun i => by
    unfold Calc.volume
    rw [hlast.after.kept.body.bounds, hlast.after.kept.body.geom, hlast.fineN.kept.body.bounds, hlast.fineN.kept.body.geom]
  have hvb : ∀ i, Calc.volume p'.grid i = Calc.volume rb.grid i := fun i => by
    unfold Calc.volume
    rw [hlast.after.kept.body.bounds, hlast.after.kept.body.geom, hlast.before.kept.body.bounds, hlast.before.kept.body.geom]
  have low : ∀ {i}, i < (cellNames rs).length → i < r.plant.grid.cells := fun hi => by rw [hc]; exact hi
  have hpN : pN.power = P := hlast.fineN.kept.power.trans hR.power
  refine ⟨k0, Calc.temp rb, Calc.heat rb, Calc.heat qN, Calc.heat pH, u, ?_⟩
  exact {
    geom := hlast.after.kept.body.geom.trans hR.nuclear.geom
    mesh := meshed_same hR.nuclear.mesh hlast.after.kept.body
    groups := hlast.after.kept.body.energies.trans hR.nuclear.energies
    power := hlast.after.kept.power.trans hR.power
    found := ⟨hlast.k.trans hbn.k, hlast.modes.trans hbn.modes, fun e i he hi => by
      rw [hlast.flux i (low hi), hbn.flux e i (by rw [hEN]; exact he) (by rw [hcN]; exact hi), hcN]⟩
    sign := sign
    unit := unit
    rates := rates
    share := fun i hi => by
      have := hbn.share i (by rw [hcN]; exact hi)
      rw [hcN, hpN] at this
      rw [hv i]
      exact this
    conduction := hst
    conductivities := hu
    heat := fun i hi => hlast.heat i (low hi)
    temp := fun i hi => hlast.temp i (low hi)
    forNeutrons := fun i hi => hlast.tempN i (low hi)
    forHeat := fun i hi => hlast.heatH i (low hi)
    warm := fun i hi => ⟨hlast.before.temps i (low hi), hlast.low i (low hi), hlast.after.temps i (low hi)⟩
    sources := ⟨fun i hi => hlast.before.heat i (low hi), by
      rw [← hR.power, ← hlast.before.total]
      unfold Calc.totalHeat
      rw [hlast.before.kept.body.cells, hc]
      exact sum_congr rfl (fun i _ => by rw [hvb i])⟩
    total := hlast.after.total.trans hR.power
    closeK := hclose
    closeT := by
      obtain ⟨t', T', hT'⟩ := hlast.calm
      exact ⟨t', T', fun i hi => hT' i (low hi)⟩ }

/-! ### C100 -/

end

end Verif.Input
