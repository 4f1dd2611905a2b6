import Verif.Input.DrivenRead
import Verif.Input.AdsFile
import Verif.Calc.DrivenProps

/-!
# Properties of source-driven calculations from the input file to the flux
-/

namespace Verif.Input

open Verif Outcome Finset

noncomputable section

variable {lib : Lib} {raw lines : List Text} {g : Diffusion.Geom} {rs : List Region} {E : Nat} {T : Tables} {alb : Vec ℝ} {s : ℝ} {pos : Nat} {tl : Calc.Tools}

/-! ### C98 -/

/-- **C98, partial.** A source-driven calculation from the file to the flux, in one group: the file describes a diffusion problem with a source in one cell (all laws at temperature
zero). If the program ends with as many modes as there are cells, all of them solutions with different positive factors other than one, then the total flux of the reactor is
the only solution of the problem with the source cut to its whole part, and below criticality it is nowhere negative. Missing: more groups (`C78_groups_false`), cells without
fission, for which there are fewer modes (`C78_false`), and fractions of the strength (`C42_false`). -/
theorem C98_partial (hc : Clean lib lines) (hraw : Stored raw lines) (hp : Proper lines) (hf : DrivenFile lib lines g rs 1 T alb s pos 0)
    (hC : CriticalCase rs 1 T {0}) (h2 : 2 ≤ (cellNames rs).length) (hD : ∀ q ∈ rs, 0 < valueAt (T.diff 0 q.mat) 0) (ha : Calc.GoodAlbedos g alb)
    (hs : -1 < s) (hs' : s < 4294967296) (hpos : pos < (cellNames rs).length) (p : Calc.Plant) :
    ∃ b d, DiffusionOf g rs 1 T alb 0 b d ∧ ∀ p', program lib tl (some raw) p = ok p' → p'.grid.geom = g ∧ Meshed rs p'.grid ∧
      ∀ (k : Nat → ℝ) (φ ψ : Nat → Nat → ℝ), Calc.Modal p' (cellNames rs).length k φ ψ →
        (∀ n, n < (cellNames rs).length → 0 < k n ∧ k n ≠ 1 ∧
          Solve.DiffusionEq d (if g = .slab then alb.v 0 else 1) (if g = .slab then alb.v 1 else alb.v 0) (k n) (φ n) ∧
          Solve.AdjointEq d (if g = .slab then alb.v 0 else 1) (if g = .slab then alb.v 1 else alb.v 0) (k n) (ψ n) ∧
          (∃ i, i < (cellNames rs).length ∧ φ n i ≠ 0) ∧ ∃ i, i < (cellNames rs).length ∧ ψ n i ≠ 0) →
        (∀ n n', n < (cellNames rs).length → n' < (cellNames rs).length → k n = k n' → n = n') →
        ∃ Φ : Nat → ℝ, Calc.FluxIs p' (fun _ i => Φ i) ∧
          Calc.SourceEq d (if g = .slab then alb.v 0 else 1) (if g = .slab then alb.v 1 else alb.v 0) (Calc.pointSource d ⌊s⌋₊ 0 pos) Φ ∧
          (∀ Φ', Calc.SourceEq d (if g = .slab then alb.v 0 else 1) (if g = .slab then alb.v 1 else alb.v 0) (Calc.pointSource d ⌊s⌋₊ 0 pos) Φ' →
            ∀ i, i < (cellNames rs).length → Φ' i = Φ i) ∧
          ((∀ n, n < (cellNames rs).length → k n < 1) → ∀ i, i < (cellNames rs).length → 0 ≤ Φ i) := by
  obtain ⟨r, o, hr, -, hN, hal, hsrc⟩ := drivenFile_read hc hraw hp hf p
  have hB := hN.onBody (hf.full.body ⟨.ads, by simp, by simp⟩) hC.widths
  obtain ⟨d, -, on⟩ := Calc.diffusionData_ok hB.shaped hN.furnished (fun i hi => hN.complete hi)
    (fun i hi => by rw [hN.energies]; exact holds_length (hN.diff (Or.inr rfl) i hi)) o.albedo
  have hof := hN.diffusion (Or.inr rfl) hal (hN.still on)
  obtain ⟨R, hF⟩ := hof.regular hB (fun _ _ => rfl) hC h2 (fun q hq e he x hx => by rw [Set.mem_singleton_iff.1 hx, show e = 0 by omega]; exact hD q hq) ha
  refine ⟨_, d, hof, fun p' hrun => ?_⟩
  have hrun' : Calc.ads tl o r.plant = ok p' := by
    unfold program at hrun
    rw [hr, ok_bind, hN.solvers, Calc.problem_ads hN.kind] at hrun
    exact hrun
  have hbody := Calc.ads_body hrun'
  refine ⟨hbody.geom.trans hN.geom, meshed_same hN.mesh hbody, fun k φ ψ hm hmodes hinj => ?_⟩
  rw [← hN.mesh.cells] at hm hmodes hinj hpos ⊢
  exact Calc.ads_flux hB.shaped hN.furnished (fun i hi => hN.complete hi) hN.energies on ⟨R.wf, R.pos, R.cells, R.albedos, R.left, R.right⟩ R.absorbing hF hs hs' hpos hsrc hrun'
    hm hmodes hinj

/-! ### examples -/

/-- the numbers of the slab -/
theorem ads_data {b : Vec ℝ} {d : Diffusion.Data} (h : DiffusionOf .slab adsRegions 1 adsTables (Vec.ofList [1, 1]) 0 b d) :
    d.cells = 2 ∧ d.energies = 1 ∧ (∀ i, i < 2 → d.vol.v i = 1) ∧ (∀ i, i < 2 → d.fiss.m 0 i = 1 / 2 ∧ d.nu.m 0 i = 1 ∧ d.chi.m 0 i = 1) ∧
    (∀ i j, i < 2 → j < 2 → Solve.loss d 1 1 i j = if i = j then 2 else -1) ∧
    (∀ i j, i < 2 → j < 2 → Solve.fission d i j = if i = j then 1 / 2 else 0) ∧ Solve.Sound d 1 1 := by
  have hc : d.cells = 2 := by rw [h.cells]; rfl
  have hE : d.energies = 1 := h.energies
  have hb : ∀ j, j < 3 → b.v j = j * (1 / 100) := fun j hj => even_bounds (by simp [adsRegions]; norm_num) (by simp [adsRegions]) (by simp [adsRegions]) h.faces
    (by rw [h.faces.1]; simpa [adsRegions] using hj)
  have hvol : ∀ i, i < 2 → d.vol.v i = 1 := fun i hi => by
    rw [h.vol i (by omega), hb i (by omega), hb (i + 1) (by omega)]
    simp only [Mesh.area]
    rw [intervalIntegral.integral_const, smul_eq_mul, mul_one]
    push_cast
    ring
  have hsize : ∀ i, i < 2 → d.size.v i = 1 := fun i hi => by
    rw [h.size i (by omega), hb i (by omega), hb (i + 1) (by omega)]
    push_cast
    ring
  have hsurf : ∀ i, i ≤ 2 → d.surf.v i = 1 := fun i hi => by rw [h.surf i (by omega)]; rfl
  have hD : ∀ i, i < 2 → d.D.m 0 i = 1 := fun i hi => by rw [h.D 0 i one_pos (by omega)]; simp only [adsTables, valueAt_one]
  have htot : ∀ i, i < 2 → d.tot.m 0 i = 1 := fun i hi => by rw [h.tot 0 i one_pos (by omega)]; simp only [adsTables, valueAt_one]
  have hfiss : ∀ i, i < 2 → d.fiss.m 0 i = 1 / 2 := fun i hi => by rw [h.fiss 0 i one_pos (by omega)]; simp only [adsTables, valueAt_one]
  have hnu : ∀ i, i < 2 → d.nu.m 0 i = 1 := fun i hi => by rw [h.nu 0 i one_pos (by omega)]; simp only [adsTables, valueAt_one]
  have hchi : ∀ i, i < 2 → d.chi.m 0 i = 1 := fun i hi => by rw [h.chi 0 i one_pos (by omega)]; simp only [adsTables, valueAt_one]
  have hsc : ∀ i, i < 2 → d.scatt 0 0 i = 0 := fun i hi => by rw [h.scatt 0 0 i one_pos one_pos (by omega)]; simp only [adsTables, valueAt_one]
  refine ⟨hc, hE, hvol, fun i hi => ⟨hfiss i hi, hnu i hi, hchi i hi⟩, fun i j hi hj => ?_, fun i j hi hj => ?_, h.wf, ⟨fun e he i hi => ?_, fun i hi => ?_⟩, hc.ge, ?_, by norm_num, by norm_num⟩
  · have s0 := hsize 0 (by decide)
    have s1 := hsize 1 (by decide)
    have D0 := hD 0 (by decide)
    have D1 := hD 1 (by decide)
    have u1 := hsurf 1 (by decide)
    have v0 := hvol 0 (by decide)
    have v1 := hvol 1 (by decide)
    have t0 := htot 0 (by decide)
    have t1 := htot 1 (by decide)
    have c0 := hsc 0 (by decide)
    have c1 := hsc 1 (by decide)
    interval_cases i <;> interval_cases j <;>
      norm_num [Solve.loss, Diffusion.row, Diffusion.tri, Diffusion.bc, Diffusion.di, hc, s0, s1, D0, D1, u1, v0, v1, t0, t1, c0, c1]
  · unfold Solve.fission
    rw [hc, Nat.mod_eq_of_lt hi, Nat.mod_eq_of_lt hj, Nat.div_eq_of_lt hi, Nat.div_eq_of_lt hj, hchi i hi, hvol i hi, hnu i hi, hfiss i hi]
    simp
  · obtain rfl : e = 0 := by omega
    rw [hD i (by omega)]
    norm_num
  · rw [hsize i (by omega)]
    norm_num
  · obtain ⟨an, av⟩ := toList_same h.albedo
    exact Or.inl ⟨h.geom, by rw [an]; simp [Vec.ofList], by rw [av 0 (by simp [Vec.ofList])]; simp [Vec.ofList], by rw [av 1 (by simp [Vec.ofList])]; simp [Vec.ofList]⟩

/-- factors and modes of the slab -/
theorem ads_modes {b : Vec ℝ} {d : Diffusion.Data} (h : DiffusionOf .slab adsRegions 1 adsTables (Vec.ofList [1, 1]) 0 b d) {n : Nat} (hn : n < 2) :
    Solve.DiffusionEq d 1 1 (Calc.exFactor n) (Calc.exMode n) ∧ Solve.AdjointEq d 1 1 (Calc.exFactor n) (Calc.exMode n) := by
  obtain ⟨dc, dE, -, -, hl, hf, S⟩ := ads_data h
  have hN : d.cells * d.energies = 2 := by rw [dc, dE]
  refine ⟨(Solve.equation_iff S).1 (fun x hx => ?_), (Solve.adjoint_iff S).1 (fun x hx => ?_)⟩
  · rw [hN] at hx ⊢
    unfold Eigen.act
    simp only [sum_range_succ, range_zero, sum_empty]
    rw [hl x 0 hx (by decide), hl x 1 hx (by decide), hf x 0 hx (by decide), hf x 1 hx (by decide)]
    interval_cases n <;> interval_cases x <;> norm_num [Calc.exMode, Calc.exFactor, Calc.two]
  · rw [hN] at hx ⊢
    unfold Eigen.act
    simp only [sum_range_succ, range_zero, sum_empty]
    rw [hl 0 x (by decide) hx, hl 1 x (by decide) hx, hf 0 x (by decide) hx, hf 1 x (by decide) hx]
    interval_cases n <;> interval_cases x <;> norm_num [Calc.exMode, Calc.exFactor, Calc.two]

/-- the program calculates the slab to the end, with a library that returns its modes -/
theorem ads_run (p : Calc.Plant) : ∃ p', program adsLib (Calc.exDrivenTools 2 Calc.exFactor Calc.exMode) (some adsFile) p = ok p' ∧
    Calc.Modal p' 2 Calc.exFactor Calc.exMode Calc.exMode ∧ p'.grid.cells = 2 ∧ p'.grid.energies = 1 := by
  have hf := ads_driven
  obtain ⟨r, o, hr, -, hN, hal, hsrc⟩ := drivenFile_read (adsLib_clean _) adsStored adsProper hf p
  have hB := hN.onBody (hf.full.body ⟨.ads, by simp, by simp⟩) (ads_case (X := ∅)).widths
  have hsnd : ∀ d, Calc.DiffusionOn r.plant.grid o.albedo (Calc.temp r.plant) d →
      DiffusionOf .slab adsRegions 1 adsTables (Vec.ofList [1, 1]) 0 r.plant.grid.bounds d := fun d on => hN.diffusion (Or.inr rfl) hal (hN.still on)
  have hcl : ∀ i, i < r.plant.grid.cells → Mesh.Complete (r.plant.grid.mats.v i) r.plant.grid.energies := fun i hi => hN.complete hi
  have hdl : ∀ i, i < r.plant.grid.cells → r.plant.grid.energies ≤ (r.plant.grid.mats.v i).diff.length := fun i hi => by
    rw [hN.energies]; exact holds_length (hN.diff (Or.inr rfl) i hi)
  obtain ⟨q, hq, hm, tied, qs⟩ := Calc.ads_reaches (tl := Calc.exDrivenTools 2 Calc.exFactor Calc.exMode) (o := o) (p := r.plant) (N := 2) (k := Calc.exFactor)
    (φ := Calc.exMode) (ψ := Calc.exMode) (aL := 1) (aR := 1) hB.shaped hN.furnished hcl hdl (by rw [hN.groups, hN.energies]) (fun d on => by
      obtain ⟨hc, hE, hv, hfi, -, -, S⟩ := ads_data (hsnd d on)
      have hlib : ∀ (M F : Mat Fl) (dir : Solve.Direction), M.r = d.cells * d.energies →
          Solve.eigenmodes (Calc.exDrivenTools 2 Calc.exFactor Calc.exMode).num ⟨dir, .all, o.maxIter, o.acc⟩ M F =
            ok (Calc.modeList 2 (d.cells * d.energies) Calc.exFactor Calc.exMode) := by
        intro M F dir hr
        have hr2 : M.r = 2 := by rw [hr, hc, hE]
        rw [← hr]
        refine Calc.givenLib_modes two_pos (fun n hn => ?_) (fun n h => ?_) (fun n h => ?_) rfl
        · have := Numeric.tol_lt
          interval_cases n <;> norm_num [Calc.exFactor, Calc.two] <;> norm_num at this <;> linarith
        · rw [hr2]; simp only [sum_range_succ, range_zero, sum_empty, zero_add]; interval_cases n <;> norm_num [Calc.exMode, Calc.two]
        · rw [hr2]; simp only [sum_range_succ, range_zero, sum_empty, zero_add]; interval_cases n <;> norm_num [Calc.exMode, Calc.two, abs_div]
      refine ⟨S, ?_, fun M F _ _ hr => hlib M F _ hr, fun M F _ _ hr => hlib M F _ hr⟩
      unfold Solve.fissions
      rw [hc, hE]
      simp only [sum_range_succ, range_zero, sum_empty, zero_add, zero_mul, add_zero]
      rw [hv 0 (by decide), hv 1 (by decide), (hfi 0 (by decide)).1, (hfi 1 (by decide)).1]
      norm_num [Calc.exMode, Calc.two]) two_pos
  obtain ⟨d, -, on⟩ := Calc.diffusionData_ok hB.shaped hN.furnished hcl hdl o.albedo
  obtain ⟨hc, hE, hv, hfi, -, -, -⟩ := ads_data (hsnd d on)
  have rc : r.plant.grid.cells = 2 := hN.mesh.cells
  obtain ⟨p', e, same, -, -⟩ := Calc.driven_ok (tied.1.shaped hB.shaped) (tied.1.furnished hN.furnished) (fun i hi => by
    rw [tied.1.cells] at hi
    rw [tied.1.energies]
    exact Calc.Complete.same (tied.1.mats i hi) (hcl i hi)) (Calc.DiffusionOn.tied tied on) hm (fun n h => by interval_cases n <;> norm_num [Calc.exFactor, Calc.two])
    (fun n h => by
      unfold Calc.weight
      rw [hc, hE]
      simp only [sum_range_succ, range_zero, sum_empty, zero_add, zero_mul, add_zero]
      rw [hv 0 (by decide), hv 1 (by decide), (hfi 0 (by decide)).1, (hfi 1 (by decide)).1, (hfi 0 (by decide)).2.1, (hfi 1 (by decide)).2.1, (hfi 0 (by decide)).2.2,
        (hfi 1 (by decide)).2.2]
      interval_cases n <;> norm_num [Calc.exMode, Calc.two])
    (pos := 0) (e0 := 0) (by rw [tied.1.cells, rc]; decide) (by rw [tied.1.energies, hN.energies]; exact one_pos) (s := 1) (by norm_num) (by norm_num) (qs.trans hsrc)
  refine ⟨p', ?_, hm.forth same, by rw [same.cells, tied.1.cells, rc], by rw [same.energies, tied.1.energies, hN.energies]⟩
  unfold program
  rw [hr, ok_bind, hN.solvers, Calc.problem_ads hN.kind, hq, e]

/-- the program calculates the flux of the slab with its source -/
example (p : Calc.Plant) : ∃ b d p' Φ, DiffusionOf .slab adsRegions 1 adsTables (Vec.ofList [1, 1]) 0 b d ∧
    program adsLib (Calc.exDrivenTools 2 Calc.exFactor Calc.exMode) (some adsFile) p = ok p' ∧ Calc.FluxIs p' (fun _ i => Φ i) ∧
    Calc.SourceEq d 1 1 (Calc.pointSource d 1 0 0) Φ ∧ ∀ i, i < 2 → 0 ≤ Φ i := by
  obtain ⟨b, d, hof, h⟩ := C98_partial (tl := Calc.exDrivenTools 2 Calc.exFactor Calc.exMode) (adsLib_clean _) adsStored adsProper ads_driven ads_case (by decide)
    (fun q hq => by simp only [adsTables, valueAt_one]; norm_num) ads_good (by norm_num) (by norm_num) (by decide) p
  obtain ⟨p', hrun, hm, -, -⟩ := ads_run p
  obtain ⟨-, -, h⟩ := h p' hrun
  obtain ⟨Φ, h1, h2, -, h3⟩ := h Calc.exFactor Calc.exMode Calc.exMode hm (fun n hn => by
      change n < 2 at hn
      refine ⟨?_, ?_, ?_, ?_, ⟨0, by decide, by norm_num [Calc.exMode, Calc.two]⟩, ⟨0, by decide, by norm_num [Calc.exMode, Calc.two]⟩⟩
      · interval_cases n <;> norm_num [Calc.exFactor, Calc.two]
      · interval_cases n <;> norm_num [Calc.exFactor, Calc.two]
      · simpa [Vec.ofList] using (ads_modes hof hn).1
      · simpa [Vec.ofList] using (ads_modes hof hn).2)
    (fun n n' h1 h2 e => by
      change n < 2 at h1
      change n' < 2 at h2
      interval_cases n <;> interval_cases n' <;> norm_num [Calc.exFactor, Calc.two] at e <;> rfl)
  refine ⟨b, d, p', Φ, hof, hrun, h1, ?_, h3 fun n hn => ?_⟩
  · simpa [Vec.ofList] using h2
  · change n < 2 at hn
    interval_cases n <;> norm_num [Calc.exFactor, Calc.two]

end

end Verif.Input
