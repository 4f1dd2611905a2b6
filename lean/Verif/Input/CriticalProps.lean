import Verif.Input.CriticalRead
import Verif.Input.PileFile
import Verif.Calc.HeatProps
import Verif.Solve.Safe

/-!
# Criticality calculations from the input file to the result
-/

namespace Verif.Input

open Verif Outcome Finset Filter Topology

noncomputable section

variable {lib : Lib} {raw lines : List Text} {g : Diffusion.Geom} {rs : List Region} {E : Nat} {T : Tables} {alb : Vec ℝ} {acc : ℝ} {n : Nat} {tl : Calc.Tools}

/-! ### C97 -/

/-- **C97.** A diffusion calculation from the file to the k-factor: the file describes a multigroup diffusion problem with all laws taken at temperature zero; this has exactly one
k-factor with a physical flux; the generations of neutrons converge to both; and the program ends with the first of them that meets the accuracy of the file (the heat
sources adding up to the power it was started with, in the shares of the fissions), or, if the limit of the file comes first, with a message. -/
theorem C97_forward (hc : Clean lib lines) (hraw : Stored raw lines) (hp : Proper lines) (hf : CriticalFile lib lines .diffusion "forward" g rs E T alb acc n)
    (hC : CriticalCase rs E T {0}) (h2 : 2 ≤ (cellNames rs).length) (hD : ∀ q ∈ rs, ∀ e, e < E → 0 < valueAt (T.diff e q.mat) 0) (ha : Calc.GoodAlbedos g alb)
    (hlib : Solve.SolvesRegular tl.num) (p : Calc.Plant) :
    ∃ b d k φ κ y, DiffusionOf g rs E T alb 0 b d ∧ 0 < k ∧ Solve.Physical (cellNames rs).length E φ ∧ ∑ x ∈ range ((cellNames rs).length * E), φ x = 1 ∧
      Solve.DiffusionEq d (if g = .slab then alb.v 0 else 1) (if g = .slab then alb.v 1 else alb.v 0) k φ ∧
      (∀ k' ψ, Solve.Physical (cellNames rs).length E ψ → Solve.DiffusionEq d (if g = .slab then alb.v 0 else 1) (if g = .slab then alb.v 1 else alb.v 0) k' ψ →
        k' = k ∧ ∃ c, ∀ x, x < (cellNames rs).length * E → ψ x = c * φ x) ∧
      Solve.DiffusionGenerations d (if g = .slab then alb.v 0 else 1) (if g = .slab then alb.v 1 else alb.v 0) κ y ∧
      Tendsto κ atTop (𝓝 k) ∧ (∀ x, x < (cellNames rs).length * E → Tendsto (fun j => y j x) atTop (𝓝 (φ x))) ∧
      Settles (program lib tl (some raw) p) (fun p' k' ψ => Critical g rs E p.power (Solve.fissions d ψ) p' k' ψ) n acc κ y := by
  obtain ⟨r, o, hr, hN, hS⟩ := criticalFile_read hc hraw hp (Or.inl rfl) hf p
  have hbody := hf.full.body ⟨.diffusion, by simp, by simp⟩
  have hB := hN.onBody hbody hC.widths
  obtain ⟨old, eo, no, vo⟩ := Calc.heatSources_ok hN.furnished.mats_n
  obtain ⟨d, ed, on⟩ := Calc.diffusionData_ok hB.shaped hN.furnished (fun i hi => hN.complete hi)
    (fun i hi => by rw [hN.energies]; exact holds_length (hN.diff (Or.inl rfl) i hi)) o.albedo
  obtain ⟨V, eV, nV, vV, hV⟩ := Calc.volumes_m hB.shaped
  have hof := hN.diffusion (Or.inl rfl) hS.albedo (hN.still on)
  obtain ⟨R, hF⟩ := hof.regular hB (fun _ _ => rfl) hC h2 (fun q hq e he x hx => by rw [Set.mem_singleton_iff.1 hx]; exact hD q hq e he) ha
  have hdc := hof.cells
  have hdE := hof.energies
  rw [← on.cells] at hV
  obtain ⟨k, φ, h1, h3, h4, h5, h6, κ, y, t0, t1, t2, t3, t4, -⟩ := Solve.C62_forward (power := r.plant.power) R hF.fiss hlib hV ⟨Calc.noModes, Calc.noModes, old, old⟩
  have hsafe := fun {maxIter : Int} (hm : maxIter < 2147483647) acc =>
    Solve.C62_safe (power := r.plant.power) R hF.fiss hlib hV hm acc ⟨Calc.noModes, Calc.noModes, old, old⟩
  have hW : ∀ s' k φ, Solve.diffusion tl.num ⟨.forward, .fundamental, n, acc⟩ d r.plant.power V ⟨Calc.noModes, Calc.noModes, old, old⟩ = ok s' →
      Solve.Reports s'.forward d.cells d.energies k φ → ∃ p', Calc.writeForward s' o.energies r.plant = ok p' ∧ Critical g rs E p.power (Solve.fissions d φ) p' k φ := by
    intro s' k φ hs hr
    obtain ⟨k', ψ, hr', -, y0, y1, hh, -, fp, -⟩ := Solve.C60_diffusion R.sound R.absorbing hF hlib hV hs
    obtain ⟨rfl, heq⟩ := reports_same hr' hr
    rw [on.cells, on.energies] at hr'
    rw [on.cells] at hh
    obtain ⟨p', e, hb, -⟩ := Calc.writeForward_ok hN.furnished hr' vV hh
    exact ⟨p', by rw [hN.groups, ← hN.energies]; exact e, burned_critical hN hdc hdE hb heq y0 y1
      (fun i hi => Solve.fissions_nonneg R.absorbing.vol_pos hF.fiss y0 hi) fp⟩
  have key := settles_of (E := d.energies) (n := n) (acc := acc) t3 t4 hsafe hS.max hW
  refine ⟨r.plant.grid.bounds, d, k, φ, κ, y, hof, h1, by rw [← hdc, ← hdE]; exact h3, by rw [← hdc, ← hdE]; exact h4, h5, by rw [← hdc, ← hdE]; exact h6, t0, t1,
    by rw [← hdc, ← hdE]; exact t2, ?_⟩
  have hrun : program lib tl (some raw) p =
      Solve.diffusion tl.num ⟨.forward, .fundamental, n, acc⟩ d r.plant.power V ⟨Calc.noModes, Calc.noModes, old, old⟩ >>= fun s' => Calc.writeForward s' o.energies r.plant := by
    unfold program
    rw [hr, ok_bind, hN.solvers]
    unfold Calc.problem
    dsimp only
    rw [if_neg (by rw [hN.kind]; decide)]
    unfold Calc.single Calc.solver
    rw [hN.kind]
    dsimp only
    rw [ok_bind]
    unfold Calc.diffusionPart Calc.diffusionSolve Calc.Settings.options
    dsimp only
    rw [eo, ok_bind, hN.groups, ← hN.energies, ed, ok_bind, eV, ok_bind, hS.forward rfl rfl, hS.modes, hS.acc, hS.limit]
    simp only [bind_assoc, ok_bind]
    cases Solve.diffusion tl.num ⟨.forward, .fundamental, n, acc⟩ d r.plant.power V ⟨Calc.noModes, Calc.noModes, old, old⟩ <;> try rfl
    simp only [ok_bind]
    cases Calc.writeForward _ _ _ <;> rfl
  rw [hrun]
  exact key

/-- **C97.** The same for an adjoint calculation; the k-factor is that of the forward problem. -/
theorem C97_adjoint (hc : Clean lib lines) (hraw : Stored raw lines) (hp : Proper lines) (hf : CriticalFile lib lines .diffusion "adjoint" g rs E T alb acc n)
    (hC : CriticalCase rs E T {0}) (h2 : 2 ≤ (cellNames rs).length) (hD : ∀ q ∈ rs, ∀ e, e < E → 0 < valueAt (T.diff e q.mat) 0) (ha : Calc.GoodAlbedos g alb)
    (hlib : Solve.SolvesRegular tl.num) (p : Calc.Plant) :
    ∃ b d k φ κ y, DiffusionOf g rs E T alb 0 b d ∧ 0 < k ∧ Solve.Physical (cellNames rs).length E φ ∧ ∑ x ∈ range ((cellNames rs).length * E), φ x = 1 ∧
      Solve.AdjointEq d (if g = .slab then alb.v 0 else 1) (if g = .slab then alb.v 1 else alb.v 0) k φ ∧
      (∀ k' ψ, Solve.Physical (cellNames rs).length E ψ → Solve.AdjointEq d (if g = .slab then alb.v 0 else 1) (if g = .slab then alb.v 1 else alb.v 0) k' ψ →
        k' = k ∧ ∃ c, ∀ x, x < (cellNames rs).length * E → ψ x = c * φ x) ∧
      (∀ k' ψ, Solve.Physical (cellNames rs).length E ψ → Solve.DiffusionEq d (if g = .slab then alb.v 0 else 1) (if g = .slab then alb.v 1 else alb.v 0) k' ψ → k' = k) ∧
      Solve.AdjointGenerations d (if g = .slab then alb.v 0 else 1) (if g = .slab then alb.v 1 else alb.v 0) κ y ∧
      Tendsto κ atTop (𝓝 k) ∧ (∀ x, x < (cellNames rs).length * E → Tendsto (fun j => y j x) atTop (𝓝 (φ x))) ∧
      Settles (program lib tl (some raw) p) (CriticalAdjoint g rs E) n acc κ y := by
  obtain ⟨r, o, hr, hN, hS⟩ := criticalFile_read hc hraw hp (Or.inl rfl) hf p
  have hbody := hf.full.body ⟨.diffusion, by simp, by simp⟩
  have hB := hN.onBody hbody hC.widths
  obtain ⟨old, eo, no, vo⟩ := Calc.heatSources_ok hN.furnished.mats_n
  obtain ⟨d, ed, on⟩ := Calc.diffusionData_ok hB.shaped hN.furnished (fun i hi => hN.complete hi)
    (fun i hi => by rw [hN.energies]; exact holds_length (hN.diff (Or.inl rfl) i hi)) o.albedo
  obtain ⟨V, eV, nV, vV, hV⟩ := Calc.volumes_m hB.shaped
  have hof := hN.diffusion (Or.inl rfl) hS.albedo (hN.still on)
  obtain ⟨R, hF⟩ := hof.regular hB (fun _ _ => rfl) hC h2 (fun q hq e he x hx => by rw [Set.mem_singleton_iff.1 hx]; exact hD q hq e he) ha
  have hdc := hof.cells
  have hdE := hof.energies
  obtain ⟨k, φ, h1, h3, h4, h5, h6, h7, κ, y, t0, t1, t2, t3, t4, -⟩ :=
    Solve.C62_adjoint (power := r.plant.power) (volM := V) R hlib ⟨Calc.noModes, Calc.noModes, old, old⟩
  have hsafe := fun {maxIter : Int} (hm : maxIter < 2147483647) acc =>
    Solve.C62_safe_adjoint (power := r.plant.power) (volM := V) R hlib hm acc ⟨Calc.noModes, Calc.noModes, old, old⟩
  have hW : ∀ s' k φ, Solve.diffusion tl.num ⟨.adjoint, .fundamental, n, acc⟩ d r.plant.power V ⟨Calc.noModes, Calc.noModes, old, old⟩ = ok s' →
      Solve.Reports s'.adjoint d.cells d.energies k φ → ∃ p', Calc.writeAdjoint s' o.energies r.plant = ok p' ∧ CriticalAdjoint g rs E p' k φ := by
    intro s' k φ _ hr
    rw [hdc, hdE] at hr
    obtain ⟨p', e, hp'⟩ := adjoint_critical hN hr
    exact ⟨p', by rw [hN.groups]; exact e, hp'⟩
  have key := settles_of (E := d.energies) (n := n) (acc := acc) t3 t4 hsafe hS.max hW
  refine ⟨r.plant.grid.bounds, d, k, φ, κ, y, hof, h1, by rw [← hdc, ← hdE]; exact h3, by rw [← hdc, ← hdE]; exact h4, h5, by rw [← hdc, ← hdE]; exact h6,
    by rw [← hdc, ← hdE]; exact h7, t0, t1, by rw [← hdc, ← hdE]; exact t2, ?_⟩
  have hrun : program lib tl (some raw) p =
      Solve.diffusion tl.num ⟨.adjoint, .fundamental, n, acc⟩ d r.plant.power V ⟨Calc.noModes, Calc.noModes, old, old⟩ >>= fun s' => Calc.writeAdjoint s' o.energies r.plant := by
    unfold program
    rw [hr, ok_bind, hN.solvers]
    unfold Calc.problem
    dsimp only
    rw [if_neg (by rw [hN.kind]; decide)]
    unfold Calc.single Calc.solver
    rw [hN.kind]
    dsimp only
    rw [ok_bind]
    unfold Calc.diffusionPart Calc.diffusionSolve Calc.Settings.options
    dsimp only
    rw [eo, ok_bind, hN.groups, ← hN.energies, ed, ok_bind, eV, ok_bind, hS.adjoint rfl rfl, hS.modes, hS.acc, hS.limit]
    simp only [bind_assoc, ok_bind]
    cases Solve.diffusion tl.num ⟨.adjoint, .fundamental, n, acc⟩ d r.plant.power V ⟨Calc.noModes, Calc.noModes, old, old⟩ <;> try rfl
    simp only [ok_bind]
    cases Calc.writeAdjoint _ _ _ <;> rfl
  rw [hrun]
  exact key

/-- **C97.** The same for a transport calculation with exact special functions. The equation is the integral transport equation with the collision probabilities `G` of the
program. In cylinders and spheres every ring must be thick enough for the quadrature of the code. -/
theorem C97_transport_partial {dir : String} (hc : Clean lib lines) (hraw : Stored raw lines) (hp : Proper lines) (hf : CriticalFile lib lines .transport dir g rs E T alb acc n)
    (hC : CriticalCase rs E T {0}) (ha : 0 ≤ alb.v 0 ∧ alb.v 0 ≤ 1) (ht : ∀ b d, TransportOf g rs E T alb 0 b d → Solve.Thick d g) (he3 : tl.e3 = CPM.E3) (hki3 : tl.ki3 = CPM.Ki3)
    (hlib : Solve.SolvesRegular tl.num) (p : Calc.Plant) :
    ∃ b d G k φ κ y, TransportOf g rs E T alb 0 b d ∧ CPM.vacuumCPs d CPM.E3 CPM.Ki3 g = ok G ∧ 0 < k ∧ Solve.Physical (cellNames rs).length E φ ∧
      ∑ x ∈ range ((cellNames rs).length * E), φ x = 1 ∧ Solve.TransportEq d G.v k φ ∧
      (∀ k' ψ, Solve.Physical (cellNames rs).length E ψ → Solve.TransportEq d G.v k' ψ → k' = k ∧ ∃ c, ∀ x, x < (cellNames rs).length * E → ψ x = c * φ x) ∧
      Solve.TransportGenerations d G.v κ y ∧
      Tendsto κ atTop (𝓝 k) ∧ (∀ x, x < (cellNames rs).length * E → Tendsto (fun j => y j x) atTop (𝓝 (φ x))) ∧
      Settles (program lib tl (some raw) p) (fun p' k' ψ => Critical g rs E p.power (Solve.fissions (Solve.reactions d) ψ) p' k' ψ) n acc κ y := by
  obtain ⟨r, o, hr, hN, hS⟩ := criticalFile_read hc hraw hp (Or.inr rfl) hf p
  have hbody := hf.full.body ⟨.transport, by simp, by simp⟩
  have hB := hN.onBody hbody hC.widths
  have h1c : 1 ≤ (cellNames rs).length := by
    obtain ⟨q, hq, -⟩ := hC.somewhere
    obtain ⟨i, hi, -⟩ := mat_somewhere hq (hbody.cells q hq)
    omega
  have hn1 : 1 ≤ alb.n := by
    obtain ⟨ws, h1, h2⟩ := hf.albedo
    obtain ⟨ws', h3, h4⟩ := hf.full.settings .transport (by simp [everyone]) "albedo" (by simp [settingsOf])
    obtain rfl := setting_unique h1 h3
    have : ws.length = alb.n := by
      have := List.Forall₂.length_eq h2
      simpa [Vec.toList] using this
    rw [← this]
    generalize hkey : "albedo" = key at h4
    cases h4 with
    | oneAlbedo => simp
    | twoAlbedos => simp
    | _ => exact absurd hkey (by decide)
  obtain ⟨old, eo, no, vo⟩ := Calc.heatSources_ok hN.furnished.mats_n
  obtain ⟨d, ed, on⟩ := Calc.transportData_ok hB.shaped hN.furnished (by rw [hB.cells]; exact h1c) (fun i hi => hN.complete hi)
    (alb := o.albedo) (by rw [(toList_same hS.albedo).1]; exact hn1)
  obtain ⟨V, eV, nV, vV, hV⟩ := Calc.volumes_m hB.shaped
  have hof := hN.transport hS.albedo (hN.stillT on)
  obtain ⟨B, hM, hL, hF⟩ := hof.body hB (fun _ _ => rfl) hC h1c hn1 ha
  have hthick := ht _ _ hof
  have hself : ∀ G, CPM.vacuumCPs d CPM.E3 CPM.Ki3 g = ok G → ∀ h i, h < d.energies → i < d.cells → 0 < G.v (i, i, h) :=
    fun G hG h i hh hi => Solve.thick_self B hthick hG hh hi
  have hdc := hof.cells
  have hdE := hof.energies
  rw [← on.cells] at hV
  obtain ⟨G, k, φ, hG, h1, h3, h4, h5, h6, κ, y, t0, t1, t2, t3, t4, -⟩ :=
    Solve.C68_transport (power := r.plant.power) B hM hL hF.fiss (fun _ => hself) hlib hV o.direction ⟨Calc.noModes, Calc.noModes, old, old⟩
  have hsafe := fun {maxIter : Int} (hm : maxIter < 2147483647) acc =>
    Solve.C68_safe (power := r.plant.power) B hM hL hF.fiss (fun _ => hself) hlib hV o.direction hm acc ⟨Calc.noModes, Calc.noModes, old, old⟩
  have hW : ∀ s' k φ, Solve.transport tl.num ⟨o.direction, .fundamental, n, acc⟩ d CPM.E3 CPM.Ki3 g r.plant.power V ⟨Calc.noModes, Calc.noModes, old, old⟩ = ok s' →
      Solve.Reports s'.forward d.cells d.energies k φ →
      ∃ p', Calc.writeForward s' o.energies r.plant = ok p' ∧ Critical g rs E p.power (Solve.fissions (Solve.reactions d) φ) p' k φ := by
    intro s' k φ hs hr
    obtain ⟨k', ψ, hr', -, y0, y1, hh, -, fp, -⟩ := Solve.C67_transport B hF hlib (fun _ G hG h i hh hi => (hself G hG h i hh hi).le) hV hs
    obtain ⟨rfl, heq⟩ := reports_same hr' hr
    rw [on.cells, on.energies] at hr'
    rw [on.cells] at hh
    obtain ⟨p', e, hb, -⟩ := Calc.writeForward_ok hN.furnished hr' vV hh
    exact ⟨p', by rw [hN.groups, ← hN.energies]; exact e, burned_critical (d := Solve.reactions d) hN hdc hdE hb heq y0 y1
      (fun i hi => Solve.fissions_nonneg (d := Solve.reactions d) B.pos.vol_pos hF.fiss y0 hi) fp⟩
  have key := settles_of (E := d.energies) (n := n) (acc := acc) t3 t4 hsafe hS.max hW
  refine ⟨r.plant.grid.bounds, d, G, k, φ, κ, y, hof, hG, h1, by rw [← hdc, ← hdE]; exact h3, by rw [← hdc, ← hdE]; exact h4, h5, by rw [← hdc, ← hdE]; exact h6, t0, t1,
    by rw [← hdc, ← hdE]; exact t2, ?_⟩
  have hrun : program lib tl (some raw) p =
      Solve.transport tl.num ⟨o.direction, .fundamental, n, acc⟩ d CPM.E3 CPM.Ki3 g r.plant.power V ⟨Calc.noModes, Calc.noModes, old, old⟩ >>=
        fun s' => Calc.writeForward s' o.energies r.plant := by
    unfold program
    rw [hr, ok_bind, hN.solvers]
    unfold Calc.problem
    dsimp only
    rw [if_neg (by rw [hN.kind]; decide)]
    unfold Calc.single Calc.solver
    rw [hN.kind]
    dsimp only
    rw [ok_bind]
    unfold Calc.transportPart Calc.transportSolve Calc.Settings.options
    dsimp only
    rw [eo, ok_bind, hN.groups, ← hN.energies, ed, ok_bind, eV, ok_bind, hS.modes, hS.acc, hS.limit, he3, hki3, hN.geom]
    simp only [bind_assoc, ok_bind]
    cases Solve.transport tl.num ⟨o.direction, .fundamental, n, acc⟩ d CPM.E3 CPM.Ki3 g r.plant.power V ⟨Calc.noModes, Calc.noModes, old, old⟩ <;> try rfl
    simp only [ok_bind]
    cases Calc.writeForward _ _ _ <;> rfl
  rw [hrun]
  exact key

/-! ### examples -/

theorem pile_good : Calc.GoodAlbedos .cylinder (Vec.ofList [(1 / 2 : ℝ)]) := by
  refine ⟨fun h => absurd h (by decide), ?_, ?_⟩
  · simp [Vec.ofList]
  · simp [Vec.ofList]
    norm_num

theorem pile_diff_pos : ∀ q ∈ pileRegions, ∀ e, e < 2 → 0 < valueAt (pileTables.diff e q.mat) 0 := by
  intro q _ e _
  simp only [pileTables, valueAt_one]
  split_ifs <;> norm_num

/-- the cylinder of two materials has one k-factor, and the program comes as close to it as it is asked to -/
example (p : Calc.Plant) : ∃ b d k φ κ y, DiffusionOf .cylinder pileRegions 2 pileTables (Vec.ofList [1 / 2]) 0 b d ∧ 0 < k ∧ Solve.DiffusionEq d 1 (1 / 2) k φ ∧
    Solve.DiffusionGenerations d 1 (1 / 2) κ y ∧ Tendsto κ atTop (𝓝 k) ∧ ((∀ m, m + 1 ≤ 100 → 1 / 1000 ≤ Eigen.change κ m) →
      program critLib (Calc.exTools Solve.exLib) (some (pileFile "diffusion".toList "forward".toList "fundamental".toList)) p = exit) := by
  have hq : (Calc.Kind.diffusion, "diffusion".toList, "forward".toList, "fundamental".toList, "0.5".toList) ∈ pileKinds := by simp [pileKinds]
  obtain ⟨b, d, k, φ, κ, y, h1, h2, -, -, h3, -, h6, h4, -, -, h5⟩ := C97_forward (tl := Calc.exTools Solve.exLib) (critLib_clean _) (pileStored _ hq) (pileProper _ hq)
    (pile_critical hq (dir := "forward") rfl (x := 1 / 2) rfl) pile_case (by decide) pile_diff_pos pile_good Solve.exLib_solves p
  refine ⟨b, d, k, φ, κ, y, h1, h2, by simpa [Vec.ofList] using h3, by simpa [Vec.ofList] using h6, h4, h5 (by norm_num)⟩

example (p : Calc.Plant) : ∃ b d k φ, DiffusionOf .cylinder pileRegions 2 pileTables (Vec.ofList [1 / 2]) 0 b d ∧ 0 < k ∧ Solve.AdjointEq d 1 (1 / 2) k φ ∧
    ∃ κ y, Tendsto κ atTop (𝓝 k) ∧ Settles (program critLib (Calc.exTools Solve.exLib) (some (pileFile "diffusion".toList "adjoint".toList "fundamental".toList)) p)
      (CriticalAdjoint .cylinder pileRegions 2) 100 (1 / 1000) κ y := by
  have hq : (Calc.Kind.diffusion, "diffusion".toList, "adjoint".toList, "fundamental".toList, "0.5".toList) ∈ pileKinds := by simp [pileKinds]
  obtain ⟨b, d, k, φ, κ, y, h1, h2, -, -, h3, -, -, -, h4, -, h5⟩ := C97_adjoint (tl := Calc.exTools Solve.exLib) (critLib_clean _) (pileStored _ hq) (pileProper _ hq)
    (pile_critical hq (dir := "adjoint") rfl (x := 1 / 2) rfl) pile_case (by decide) pile_diff_pos pile_good Solve.exLib_solves p
  refine ⟨b, d, k, φ, h1, h2, ?_, κ, y, h4, h5⟩
  simpa [Vec.ofList] using h3

/-- the rings of the cylinder are half a metre thick -/
theorem pile_thick : ∀ b d, TransportOf .cylinder pileRegions 2 pileTables (Vec.ofList [1 / 2]) 0 b d → Solve.Thick d .cylinder := by
  intro b d h e i he hi
  refine Or.inl ?_
  have hb : ∀ j, j < b.n → b.v j = j * (1 / 2) := fun j hj => even_bounds (by simp [pileRegions]) (by simp [pileRegions]) (by simp [pileRegions]) h.faces hj
  have hn : b.n = 4 := by rw [h.faces.1]; simp [pileRegions]
  have hc : d.cells = 3 := by rw [h.cells]; rfl
  rw [h.radii (i + 1) hi, h.vol i hi, h.tot e i (by rw [← h.energies]; exact he) hi, hb _ (by omega), hb _ (by omega)]
  simp only [pileTables, valueAt_one, Mesh.area]
  rw [intervalIntegral.integral_const_mul, integral_id]
  have hp := Real.pi_pos
  push_cast
  have : (0 : ℝ) ≤ i := Nat.cast_nonneg i
  nlinarith [mul_nonneg hp.le this]

example (p : Calc.Plant) : ∃ b d G k φ κ y, TransportOf .cylinder pileRegions 2 pileTables (Vec.ofList [1 / 2]) 0 b d ∧ 0 < k ∧ Solve.TransportEq d G k φ ∧
    Tendsto κ atTop (𝓝 k) ∧ Settles (program critLib { Calc.exTools Solve.exLib with e3 := CPM.E3, ki3 := CPM.Ki3 }
        (some (pileFile "transport".toList "forward".toList "fundamental".toList)) p)
      (fun p' k' ψ => Critical .cylinder pileRegions 2 p.power (Solve.fissions (Solve.reactions d) ψ) p' k' ψ) 100 (1 / 1000) κ y := by
  have hq : (Calc.Kind.transport, "transport".toList, "forward".toList, "fundamental".toList, "0.5".toList) ∈ pileKinds := by simp [pileKinds]
  obtain ⟨b, d, G, k, φ, κ, y, h1, -, h2, -, -, h3, -, -, h4, -, h5⟩ := C97_transport_partial (tl := { Calc.exTools Solve.exLib with e3 := CPM.E3, ki3 := CPM.Ki3 }) (critLib_clean _)
    (pileStored _ hq) (pileProper _ hq) (pile_critical hq (dir := "forward") rfl (x := 1 / 2) rfl) pile_case (by simp [Vec.ofList]; norm_num) pile_thick rfl rfl Solve.exLib_solves p
  exact ⟨b, d, G.v, k, φ, κ, y, h1, h2, h3, h4, h5⟩

end

end Verif.Input
