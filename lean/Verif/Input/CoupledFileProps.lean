import Verif.Input.CoupledRead
import Verif.Input.DuoFile
import Verif.Input.CriticalProps

/-!
# Coupled calculations from the input file to the result
-/

namespace Verif.Input

open Verif Outcome Finset Filter Topology

noncomputable section

variable {lib : Lib} {raw lines : List Text} {g : Diffusion.Geom} {rs : List Region} {E : Nat} {T : Tables} {alb : Vec ℝ} {accN accH acc P w m AL BL CL AR BR CR : ℝ} {f : Nat → ℝ} {nN nH n : Nat}
  {tl : Calc.Tools} {first : Bool} {law : Text → Vec ℝ} {t bc : Vec ℝ}

/-- **C100.** Diffusion coupled with heat conduction, from the file to the result. The program ends normally or with a message (if no limit is the largest `int`). If it ends
normally, the reactor holds the body of the file, and its k-factor and flux are the first generation of neutrons close enough to the one before in a diffusion problem of the file
at certain temperatures; this problem has one k-factor with a physical flux, to which the generations converge. Temperatures and heat sources are the mixtures, by the
relaxation parameter, of what was there before the last pass and what was found in it: the shares of the power by the fissions, and the temperatures of heat conduction by the
equations of the program, which are the right ones where `Heat.Harmless` (C85_right). What
the two calculations used of each other, and how far they differ from the pass before, is said in `Together`. -/
theorem C100_diffusion (hc : Clean lib lines) (hraw : Stored raw lines) (hp : Proper lines) (hf : CoupledAsks lib lines first .diffusion g rs E P acc n w)
    (hT : TableFile lib lines rs E T) (hD : DiffFile lib lines rs E T) (hN : CriticalAsks lib lines .diffusion "forward" alb accN nN)
    (hH : HeatAsks lib lines g rs law t bc accH nH) (hC : CriticalCase rs E T (Set.Ici m)) (hpos : ∀ q ∈ rs, ∀ e, e < E → ∀ x, m ≤ x → 0 < valueAt (T.diff e q.mat) x)
    (ha : Calc.GoodAlbedos g alb) (hcase : HeatCase g rs law t ⟨0, fun _ => 0⟩ bc f m AL BL CL AR BR CR) (hP : 0 ≤ P) (hw : 0 ≤ w ∧ w ≤ 1) (hacc : acc < 1)
    (hlib : Solve.SolvesRegular tl.num) (hlin : Calc.LinSolves tl.lin) (hbig : Calc.Largest tl.big) (p : Calc.Plant) :
    (nN < 2147483647 → nH < 2147483647 → n < 2147483647 → program lib tl (some raw) p = exit ∨ ∃ p', program lib tl (some raw) p = ok p') ∧
    ∀ p', program lib tl (some raw) p = ok p' → ∃ b s d k φ κ y k' ψ k0 T0 Q0 F Q x u, DiffusionOf g rs E T alb s b d ∧ 0 < k ∧
      Solve.Physical (cellNames rs).length E φ ∧ ∑ x ∈ range ((cellNames rs).length * E), φ x = 1 ∧
      Solve.DiffusionEq d (if g = .slab then alb.v 0 else 1) (if g = .slab then alb.v 1 else alb.v 0) k φ ∧
      (∀ k' ψ, Solve.Physical (cellNames rs).length E ψ → Solve.DiffusionEq d (if g = .slab then alb.v 0 else 1) (if g = .slab then alb.v 1 else alb.v 0) k' ψ →
        k' = k ∧ ∃ c, ∀ x, x < (cellNames rs).length * E → ψ x = c * φ x) ∧
      Solve.DiffusionGenerations d (if g = .slab then alb.v 0 else 1) (if g = .slab then alb.v 1 else alb.v 0) κ y ∧
      Tendsto κ atTop (𝓝 k) ∧ (∀ x, x < (cellNames rs).length * E → Tendsto (fun j => y j x) atTop (𝓝 (φ x))) ∧ FirstClose nN accN κ y k' ψ ∧
      Together first g rs E law f m AL BL CL AR BR CR accH acc w P p' k0 T0 Q0 s k' ψ (Solve.fissions d ψ) F Q x u := by
  obtain ⟨r, oN, oH, oC, hr, hR⟩ := coupled_read hc hraw hp (Or.inl rfl) hf hT (fun _ => hD) hN hH p
  have hbody := hf.full.body ⟨.heat, by split_ifs <;> simp, by decide⟩
  have hcells : r.plant.grid.cells = (cellNames rs).length := hR.nuclear.mesh.cells
  have hcase' := hcase.moved (t' := t) (q' := ⟨(cellNames rs).length, Calc.heat r.plant⟩) hcase.temperatures (fun i hi => (hR.idle i (by rw [hcells]; exact hi)).ge)
  obtain ⟨c, c1, c2⟩ := heatRead_cell hR.heat
  have hcon : Calc.Conducting r.plant.grid c oH.bc AL BL CL AR BR CR m := heatRead_conducting hR.heat hbody hcase' c1 c2
  have hB := hR.nuclear.onBody hbody hC.widths
  obtain ⟨an, av⟩ := toList_same hR.asked.albedo
  have hgood : Calc.GoodAlbedos r.plant.grid.geom oN.albedo := by
    rw [hR.nuclear.geom]
    refine ⟨fun e => ?_, by rw [an]; exact ha.2.1, by rw [av 0 (by have := ha.2.1; omega)]; exact ha.2.2⟩
    obtain ⟨h1, h2⟩ := ha.1 e
    exact ⟨by rw [an]; exact h1, by rw [av 1 (by omega)]; exact h2⟩
  have ready : Calc.DiffusionReady oN r.plant.grid m := ⟨hR.asked.forward rfl rfl, hR.asked.modes, by rw [hR.groups, hR.nuclear.energies], hB.shaped, hR.nuclear.furnished,
    by rw [hcells]; exact hcase.two, hR.nuclear.nuclear hC, hR.nuclear.diffusive hpos, hgood⟩
  have hof : ∀ {s d}, Calc.DiffusionOn r.plant.grid oN.albedo s d → DiffusionOf g rs E T alb s r.plant.grid.bounds d := fun on =>
    hR.nuclear.diffusion (Or.inl rfl) hR.asked.albedo on
  have hreg : ∀ s d, (∀ i, i < r.plant.grid.cells → m ≤ s i) → Calc.DiffusionOn r.plant.grid oN.albedo s d →
      Solve.Regular d (if g = .slab then alb.v 0 else 1) (if g = .slab then alb.v 1 else alb.v 0) ∧ Solve.NonnegFission d := fun s d hs on =>
    (hof on).regular hB (fun i hi => hs i (by rw [hcells]; exact hi)) hC hcase.two (fun q hq e he x hx => hpos q hq e he x hx) ha
  have hTm : ∀ i, i < r.plant.grid.cells → m ≤ Calc.temp r.plant i := fun i hi => by
    rw [hcells] at hi
    have := hR.heat.temp i hi
    show m ≤ (r.plant.grid.mats.v i).T
    exact le_of_le_of_eq (hcase.temperatures i hi) this.symm
  have hQ : ∀ i, i < r.plant.grid.cells → 0 ≤ Calc.heat r.plant i := fun i hi => (hR.idle i hi).ge
  have hPr : 0 ≤ r.plant.power := by rw [hR.power]; exact hP
  have hwr : 0 ≤ oC.relax ∧ oC.relax ≤ 1 := by rw [hR.relax]; exact hw
  have hrun : program lib tl (some raw) p = Calc.problem tl r.plant (if first then [oN, oH, oC] else [oH, oN, oC]) := by
    unfold program
    rw [hr, ok_bind, hR.solvers]
  rw [hrun]
  refine ⟨fun l1 l2 l3 => ?_, fun p' hok => ?_⟩
  · obtain ⟨s1, s2⟩ := Calc.C76_diffusion_safe (tl := tl) (oC := oC) hR.kindN hR.heat.kind hR.kindC ready (fun s d hs on => ⟨(hreg s d hs on).1.multiplying, (hreg s d hs on).1.linked⟩)
      hcon hlib hlin hbig hPr hwr hTm (by rw [hR.asked.limit]; exact_mod_cast l1) (by rw [hR.heat.limit]; exact_mod_cast l2) (by rw [hR.limit]; exact_mod_cast l3)
    cases first
    · exact s2 hQ
    · exact s1
  · have a1 : Calc.solver tl oN = ok (Calc.diffusionPart tl oN) := by unfold Calc.solver; rw [hR.kindN]
    have a2 : Calc.solver tl oH = ok (Calc.heatPart tl oH) := by unfold Calc.solver; rw [hR.heat.kind]
    have hcrit := Calc.diffusion_critical hlib ready
    have hlast : ∃ rb pN qN pH x, Calc.LastPass (Calc.diffusionPart tl oN) tl oH w acc r.plant m first p' rb pN qN pH x := by
      cases first
      · obtain ⟨j, hj⟩ := Calc.problem_two (by rw [hR.heat.kind]; decide) (by rw [hR.kindN]; decide) hR.kindC a2 a1 hok
        rw [hR.relax, hR.acc, hR.limit] at hj
        exact Calc.second_last hcon hlin hcrit hPr hw hTm hQ hbig hacc hj
      · obtain ⟨j, hj⟩ := Calc.problem_two (by rw [hR.kindN]; decide) (by rw [hR.heat.kind]; decide) hR.kindC a1 a2 hok
        rw [hR.relax, hR.acc, hR.limit] at hj
        exact Calc.first_last hcon hlin hcrit hPr hw hTm hbig hacc hj
    obtain ⟨rb, pN, qN, pH, x, hl⟩ := hlast
    obtain ⟨old, hs⟩ := hl.neutronics
    have hk := hl.fineN.kept.body
    obtain ⟨d, k, φ, κ, y, k', ψ, on, h1, h2, h3, h4, h5, h6, h7, h8, h9, h10, h11, h12, h13, h14⟩ := diffusion_found hlib (ready.same hk)
      (fun d on => hreg _ d hl.fineN.temps (on.same hk)) hR.asked.limit hs
    have hD' := hof (on.same hk)
    have hdc := hD'.cells
    have hdE := hD'.energies
    rw [hdc, hdE] at h2 h3 h5 h8 h11 h12
    rw [hdc] at h13 h14
    rw [hR.asked.acc] at h9
    obtain ⟨k0, T0, Q0, F, Q, u, htog⟩ := together_of hR hbody hcase' hlin hl h10 h11 h12 ⟨h13, h14⟩
    exact ⟨_, _, d, k, φ, κ, y, k', ψ, k0, T0, Q0, F, Q, x, u, hD', h1, h2, h3, h4, h5, h6, h7, h8, h9, htog⟩

/-- **C100.** The same for transport with exact special functions and the collision probabilities `G` of the program. In cylinders and spheres every ring must be thick enough
for the quadrature of the code at all temperatures. -/
theorem C100_transport_partial {dir : String} (hc : Clean lib lines) (hraw : Stored raw lines) (hp : Proper lines) (hf : CoupledAsks lib lines first .transport g rs E P acc n w)
    (hT : TableFile lib lines rs E T) (hN : CriticalAsks lib lines .transport dir alb accN nN)
    (hH : HeatAsks lib lines g rs law t bc accH nH) (hC : CriticalCase rs E T (Set.Ici m)) (ha : 0 ≤ alb.v 0 ∧ alb.v 0 ≤ 1)
    (ht : ∀ s b d, (∀ i, i < (cellNames rs).length → m ≤ s i) → TransportOf g rs E T alb s b d → Solve.Thick d g) (he3 : tl.e3 = CPM.E3) (hki3 : tl.ki3 = CPM.Ki3)
    (hcase : HeatCase g rs law t ⟨0, fun _ => 0⟩ bc f m AL BL CL AR BR CR) (hP : 0 ≤ P) (hw : 0 ≤ w ∧ w ≤ 1) (hacc : acc < 1)
    (hlib : Solve.SolvesRegular tl.num) (hlin : Calc.LinSolves tl.lin) (hbig : Calc.Largest tl.big) (p : Calc.Plant) :
    (nN < 2147483647 → nH < 2147483647 → n < 2147483647 → program lib tl (some raw) p = exit ∨ ∃ p', program lib tl (some raw) p = ok p') ∧
    ∀ p', program lib tl (some raw) p = ok p' → ∃ b s d G k φ κ y k' ψ k0 T0 Q0 F Q x u, TransportOf g rs E T alb s b d ∧ CPM.vacuumCPs d CPM.E3 CPM.Ki3 g = ok G ∧ 0 < k ∧
      Solve.Physical (cellNames rs).length E φ ∧ ∑ x ∈ range ((cellNames rs).length * E), φ x = 1 ∧ Solve.TransportEq d G.v k φ ∧
      (∀ k' ψ, Solve.Physical (cellNames rs).length E ψ → Solve.TransportEq d G.v k' ψ → k' = k ∧ ∃ c, ∀ x, x < (cellNames rs).length * E → ψ x = c * φ x) ∧
      Solve.TransportGenerations d G.v κ y ∧
      Tendsto κ atTop (𝓝 k) ∧ (∀ x, x < (cellNames rs).length * E → Tendsto (fun j => y j x) atTop (𝓝 (φ x))) ∧ FirstClose nN accN κ y k' ψ ∧
      Together first g rs E law f m AL BL CL AR BR CR accH acc w P p' k0 T0 Q0 s k' ψ (Solve.fissions (Solve.reactions d) ψ) F Q x u := by
  obtain ⟨r, oN, oH, oC, hr, hR⟩ := coupled_read hc hraw hp (Or.inr rfl) hf hT (fun e => absurd e (by decide)) hN hH p
  have hbody := hf.full.body ⟨.heat, by split_ifs <;> simp, by decide⟩
  have hcells : r.plant.grid.cells = (cellNames rs).length := hR.nuclear.mesh.cells
  have hcase' := hcase.moved (t' := t) (q' := ⟨(cellNames rs).length, Calc.heat r.plant⟩) hcase.temperatures (fun i hi => (hR.idle i (by rw [hcells]; exact hi)).ge)
  obtain ⟨c, c1, c2⟩ := heatRead_cell hR.heat
  have hcon : Calc.Conducting r.plant.grid c oH.bc AL BL CL AR BR CR m := heatRead_conducting hR.heat hbody hcase' c1 c2
  have hB := hR.nuclear.onBody hbody hC.widths
  have hn1 : 1 ≤ alb.n := by
    obtain ⟨ws, h1, h2⟩ := hN.albedo
    obtain ⟨ws', h3, h4⟩ := hf.full.settings .transport (by cases first <;> simp [everyone]) "albedo" (by simp [settingsOf])
    obtain rfl := setting_unique h1 h3
    have : ws.length = alb.n := by
      have := List.Forall₂.length_eq h2
      simpa [Vec.toList] using this
    rw [← this]
    generalize hkey : "albedo" = key at h4
    cases h4 with
    | oneAlbedo => simp
    | twoAlbedos => simp
    | _ => exact absurd hkey (by decide)
  have h1c : 1 ≤ (cellNames rs).length := by
    have := hcase.two
    omega
  obtain ⟨an, av⟩ := toList_same hR.asked.albedo
  have ready : Calc.TransportReady tl oN r.plant.grid m := ⟨he3, hki3, hR.asked.modes, by rw [hR.groups, hR.nuclear.energies], hB.shaped, hR.nuclear.furnished,
    by rw [hcells]; exact h1c, hR.nuclear.nuclear hC, by rw [an]; exact hn1, by rw [av 0 hn1]; exact ha⟩
  have hof : ∀ {s d}, Calc.TransportOn r.plant.grid oN.albedo s d → TransportOf g rs E T alb s r.plant.grid.bounds d := fun on => hR.nuclear.transport hR.asked.albedo on
  have hgeom := hR.nuclear.geom
  have hreg : ∀ s d, (∀ i, i < r.plant.grid.cells → m ≤ s i) → Calc.TransportOn r.plant.grid oN.albedo s d →
      Solve.Body d g ∧ Solve.Multiplying (Solve.reactions d) ∧ Solve.GroupsLinked d ∧ Solve.NonnegFission (Solve.reactions d) ∧ Solve.Thick d g := fun s d hs on => by
    have hs' : ∀ i, i < (cellNames rs).length → m ≤ s i := fun i hi => hs i (by rw [hcells]; exact hi)
    obtain ⟨b1, b2, b3, b4⟩ := (hof on).body hB (X := Set.Ici m) hs' hC h1c hn1 ha
    exact ⟨b1, b2, b3, b4, ht s _ d hs' (hof on)⟩
  have hself : Calc.SelfPos oN r.plant.grid m := fun _ s d hs on G hG e i he hi => by
    obtain ⟨b1, -, -, -, b5⟩ := hreg s d hs on
    rw [hgeom] at hG
    exact Solve.thick_self b1 b5 hG (by rw [on.energies]; exact he) (by rw [on.cells]; exact hi)
  have hTm : ∀ i, i < r.plant.grid.cells → m ≤ Calc.temp r.plant i := fun i hi => by
    rw [hcells] at hi
    have := hR.heat.temp i hi
    show m ≤ (r.plant.grid.mats.v i).T
    exact le_of_le_of_eq (hcase.temperatures i hi) this.symm
  have hQ : ∀ i, i < r.plant.grid.cells → 0 ≤ Calc.heat r.plant i := fun i hi => (hR.idle i hi).ge
  have hPr : 0 ≤ r.plant.power := by rw [hR.power]; exact hP
  have hwr : 0 ≤ oC.relax ∧ oC.relax ≤ 1 := by rw [hR.relax]; exact hw
  have hrun : program lib tl (some raw) p = Calc.problem tl r.plant (if first then [oN, oH, oC] else [oH, oN, oC]) := by
    unfold program
    rw [hr, ok_bind, hR.solvers]
  rw [hrun]
  refine ⟨fun l1 l2 l3 => ?_, fun p' hok => ?_⟩
  · obtain ⟨s1, s2⟩ := Calc.C76_transport_safe (tl := tl) (oC := oC) hR.kindN hR.heat.kind hR.kindC ready hself (fun s d hs on => ⟨(hreg s d hs on).2.1, (hreg s d hs on).2.2.1⟩)
      hcon hlib hlin hbig hPr hwr hTm (by rw [hR.asked.limit]; exact_mod_cast l1) (by rw [hR.heat.limit]; exact_mod_cast l2) (by rw [hR.limit]; exact_mod_cast l3)
    cases first
    · exact s2 hQ
    · exact s1
  · have a1 : Calc.solver tl oN = ok (Calc.transportPart tl oN) := by unfold Calc.solver; rw [hR.kindN]
    have a2 : Calc.solver tl oH = ok (Calc.heatPart tl oH) := by unfold Calc.solver; rw [hR.heat.kind]
    have hcrit := Calc.transport_critical hlib ready hself.ok
    have hlast : ∃ rb pN qN pH x, Calc.LastPass (Calc.transportPart tl oN) tl oH w acc r.plant m first p' rb pN qN pH x := by
      cases first
      · obtain ⟨j, hj⟩ := Calc.problem_two (by rw [hR.heat.kind]; decide) (by rw [hR.kindN]; decide) hR.kindC a2 a1 hok
        rw [hR.relax, hR.acc, hR.limit] at hj
        exact Calc.second_last hcon hlin hcrit hPr hw hTm hQ hbig hacc hj
      · obtain ⟨j, hj⟩ := Calc.problem_two (by rw [hR.kindN]; decide) (by rw [hR.heat.kind]; decide) hR.kindC a1 a2 hok
        rw [hR.relax, hR.acc, hR.limit] at hj
        exact Calc.first_last hcon hlin hcrit hPr hw hTm hbig hacc hj
    obtain ⟨rb, pN, qN, pH, x, hl⟩ := hlast
    obtain ⟨old, hs⟩ := hl.neutronics
    have hk := hl.fineN.kept.body
    have hgN : pN.grid.geom = g := hk.geom.trans hgeom
    obtain ⟨d, G, k, φ, κ, y, k', ψ, on, hG, h1, h2, h3, h4, h5, h6, h7, h8, h9, h10, h11, h12, h13, h14⟩ := transport_found hlib (ready.same hk)
      (fun d on => by rw [hgN]; exact hreg _ d hl.fineN.temps (on.same hk)) hR.asked.limit hs
    have hD' := hof (on.same hk)
    have hdc := hD'.cells
    have hdE := hD'.energies
    rw [hgN] at hG
    rw [hdc, hdE] at h2 h3 h5 h8 h11 h12
    rw [hdc] at h13 h14
    rw [hR.asked.acc] at h9
    obtain ⟨k0, T0, Q0, F, Q, u, htog⟩ := together_of hR hbody hcase' hlin hl h10 h11 h12 ⟨h13, h14⟩
    exact ⟨_, _, d, G, k, φ, κ, y, k', ψ, k0, T0, Q0, F, Q, x, u, hD', hG, h1, h2, h3, h4, h5, h6, h7, h8, h9, htog⟩

/-- **C100, without relaxation.** With the relaxation parameter one the reactor is consistent in itself: heat sources are the shares of the power by the fissions found last, and
the temperatures are those of heat conduction by the equations of the program. If neutronics comes first, the sources are the ones of the reactor and the nuclear data were taken within the accuracy
of its temperatures. If heat conduction comes first, the nuclear data were taken at the temperatures of the reactor, and the sources `Q0` are those of the pass before. -/
theorem C100_unrelaxed {p : Calc.Plant} {k0 k : ℝ} {T0 Q0 s φ rate F Q x u : Nat → ℝ}
    (ht : Together first g rs E law f m AL BL CL AR BR CR accH acc 1 P p k0 T0 Q0 s k φ rate F Q x u) (hn : 2 ≤ (cellNames rs).length) :
    (∀ i, i < (cellNames rs).length → Calc.heat p i * Calc.volume p.grid i * ∑ j ∈ range (cellNames rs).length, rate j = P * rate i) ∧
    ((∀ i, i < (cellNames rs).length → |Calc.temp p i - u i| < accH) ∨ ∀ i, i < (cellNames rs).length → |Calc.temp p i - 1| < accH) ∧
    (∀ i, i < (cellNames rs).length → |Calc.temp p i - T0 i| ≤ acc) ∧
    (first = true → (∀ i, i < (cellNames rs).length → |Calc.temp p i - s i| ≤ acc) ∧
      ConductedHeat g (cellNames rs).length f (fun i => conductivityAt rs law i (u i)) (Calc.heat p) AL BL CL AR BR CR (Calc.temp p)) ∧
    (first = false → (∀ i, i < (cellNames rs).length → s i = Calc.temp p i) ∧
      ConductedHeat g (cellNames rs).length f (fun i => conductivityAt rs law i (u i)) Q0 AL BL CL AR BR CR (Calc.temp p)) := by
  have eh : ∀ i, i < (cellNames rs).length → F i = Calc.heat p i := fun i hi => by rw [ht.heat i hi]; ring
  have et : ∀ i, i < (cellNames rs).length → x i = Calc.temp p i := fun i hi => by rw [ht.temp i hi]; ring
  have close : ∀ i, i < (cellNames rs).length → |Calc.temp p i - T0 i| ≤ acc := fun i hi => by
    obtain ⟨t', T', hc⟩ := ht.closeT
    obtain ⟨c1, -, -, c2⟩ := hc i hi
    rw [← et i hi, c2]
    simpa using c1
  refine ⟨fun i hi => by rw [← eh i hi]; exact ht.share i hi, ht.conductivities.imp (fun hc i hi => by rw [← et i hi]; exact hc i hi)
    (fun hc i hi => by rw [← et i hi]; exact hc i hi), close, fun hf => ?_, fun hf => ?_⟩
  · subst hf
    exact ⟨fun i hi => by rw [ht.forNeutrons i hi]; exact close i hi, ht.conduction.congr hn (fun i hi => ht.forHeat i hi) et⟩
  · subst hf
    exact ⟨fun i hi => ht.forNeutrons i hi, ht.conduction.congr hn (fun i hi => ht.forHeat i hi) et⟩

/-! ### an example -/

/-- The tools of the examples, with exact special functions. -/
def duoTools : Calc.Tools := { Calc.exTools Solve.exLib with
  e3 := CPM.E3
  ki3 := CPM.Ki3 }

theorem duo_diff_pos : ∀ q ∈ duoRegions, ∀ e, e < 1 → ∀ x, (20 : ℝ) ≤ x → 0 < valueAt (duoTables.diff e q.mat) x := by
  intro q _ e _ x _
  simp only [duoTables, valueAt_one]
  norm_num

/-- the rings of the cylinder are half a metre thick -/
theorem duo_thick : ∀ s b d, (∀ i, i < (cellNames duoRegions).length → (20 : ℝ) ≤ s i) → TransportOf .cylinder duoRegions 1 duoTables (Vec.ofList [1 / 2]) s b d →
    Solve.Thick d .cylinder := by
  intro s b d hs h e i he hi
  refine Or.inl ?_
  have hb : ∀ j, j < b.n → b.v j = j * (1 / 2) := fun j hj => even_bounds (by simp [duoRegions]) (by simp [duoRegions]) (by simp [duoRegions]) h.faces hj
  have hn : b.n = 4 := by rw [h.faces.1]; simp [duoRegions]
  have hc : d.cells = 3 := by rw [h.cells]; rfl
  have htot : 2 ≤ valueAt (duoTables.tot e (matAt duoRegions i)) (s i) := by
    rw [duo_tot]
    have := hs i (by rw [← h.cells]; exact hi)
    split_ifs
    · linarith
    · norm_num
  rw [h.radii (i + 1) hi, h.vol i hi, h.tot e i (by rw [← h.energies]; exact he) hi, hb _ (by omega), hb _ (by omega)]
  simp only [Mesh.area]
  rw [intervalIntegral.integral_const_mul, integral_id]
  have hp := Real.pi_pos
  push_cast
  have : (0 : ℝ) ≤ i := Nat.cast_nonneg i
  nlinarith [mul_nonneg hp.le this]

/-- the cylinder with diffusion and heat conduction, in both orders -/
example (first : Bool) (p p' : Calc.Plant) (h : program duoLib duoTools (some (duoFile first false)) p = ok p') :
    ∃ b s d κ y k' ψ k0 T0 Q0 F Q x u, DiffusionOf .cylinder duoRegions 1 duoTables (Vec.ofList [1 / 2]) s b d ∧ Solve.DiffusionGenerations d 1 (1 / 2) κ y ∧
      FirstClose 100 (1 / 1000) κ y k' ψ ∧ Together first .cylinder duoRegions 1 duoLaw (fun i => i * (1 / 2)) 20 0 1 0 1 0 20 (1 / 1000) (1 / 2) (1 / 2) 2 p' k0 T0 Q0 s k' ψ
        (Solve.fissions d ψ) F Q x u := by
  obtain ⟨b, s, d, k, φ, κ, y, k', ψ, k0, T0, Q0, F, Q, x, u, h1, -, -, -, -, -, h2, -, -, h3, h4⟩ := (C100_diffusion (tl := duoTools) (duoLib_clean _) (duoStored first false)
    (duoProper first false) (duo_asks (t := false)) duo_tables duo_diff (duo_critical (t := false)) duo_heat duo_case duo_diff_pos pile_good duo_conduction
    (by norm_num) (by norm_num) (by norm_num) Solve.exLib_solves Calc.exLin_solves Calc.exBig_largest p).2 p' h
  exact ⟨b, s, d, κ, y, k', ψ, k0, T0, Q0, F, Q, x, u, h1, by simpa [Vec.ofList] using h2, h3, h4⟩

example (first : Bool) (p : Calc.Plant) : program duoLib duoTools (some (duoFile first true)) p = exit ∨ ∃ p', program duoLib duoTools (some (duoFile first true)) p = ok p' ∧
    ∃ b s d κ y k' ψ k0 T0 Q0 F Q x u, TransportOf .cylinder duoRegions 1 duoTables (Vec.ofList [1 / 2]) s b d ∧
      FirstClose 100 (1 / 1000) κ y k' ψ ∧ Together first .cylinder duoRegions 1 duoLaw (fun i => i * (1 / 2)) 20 0 1 0 1 0 20 (1 / 1000) (1 / 2) (1 / 2) 2 p' k0 T0 Q0 s k' ψ
        (Solve.fissions (Solve.reactions d) ψ) F Q x u := by
  obtain ⟨g1, g2⟩ := C100_transport_partial (tl := duoTools) (duoLib_clean _) (duoStored first true)
    (duoProper first true) (duo_asks (t := true)) duo_tables (duo_critical (t := true)) duo_heat duo_case (by simp [Vec.ofList]; norm_num) duo_thick rfl rfl duo_conduction
    (by norm_num) (by norm_num) (by norm_num) Solve.exLib_solves Calc.exLin_solves Calc.exBig_largest p
  rcases g1 (by norm_num) (by norm_num) (by norm_num) with h | ⟨p', h⟩
  · exact Or.inl h
  · obtain ⟨b, s, d, G, k, φ, κ, y, k', ψ, k0, T0, Q0, F, Q, x, u, h1, -, -, -, -, -, -, -, -, -, h3, h4⟩ := g2 p' h
    exact Or.inr ⟨p', h, b, s, d, κ, y, k', ψ, k0, T0, Q0, F, Q, x, u, h1, h3, h4⟩

end

end Verif.Input
