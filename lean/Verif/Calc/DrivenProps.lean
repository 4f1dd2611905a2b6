import Verif.Calc.DrivenFlux
import Verif.Calc.HeatProps
import Verif.Mesh.Examples

/-! # Properties of source-driven calculations -/

namespace Verif.Calc

open Verif Outcome Finset Mesh

noncomputable section

open scoped Classical

variable {tl : Tools} {o : Settings} {p p' p1 : Plant} {d : Diffusion.Data}

theorem problem_ads (ho : o.kind = .ads) (p : Plant) : problem tl p [o] = ads tl o p := if_pos ho

/-! ### C42: the strength of the source -/

/-- **C42, partial.** The total fluxes are those of a unit source times the whole part of the strength; the criticality results are the same.
Strengths are taken below 2³², where the conversion to an unsigned integer is defined. Missing: proportionality for strengths that are not whole
numbers, which fails (`C42_false`). -/
theorem C42_partial (ho : o.kind = .ads) {s : ℝ} {a b : Nat} {f : Nat → Nat → ℝ} (h1 : problem tl { p with source := (1, a, b) } [o] = ok p1)
    (hf : FluxIs p1 f) (hs : -1 < s) (hs' : s < 4294967296) :
    ∃ p', problem tl { p with source := (s, a, b) } [o] = ok p' ∧ SameModes p1 p' ∧ p'.source = (s, a, b) ∧
      FluxIs p' (fun e i => ⌊s⌋₊ * f e i) := by
  rw [problem_ads ho] at h1 ⊢
  exact ads_scaled h1 hf hs hs'

/-- **C42, partial.** For whole strengths the flux is proportional to the strength. -/
theorem C42_whole (ho : o.kind = .ads) {n : Nat} {a b : Nat} {f : Nat → Nat → ℝ} (h1 : problem tl { p with source := (1, a, b) } [o] = ok p1)
    (hf : FluxIs p1 f) (hn : n < 4294967296) :
    ∃ p', problem tl { p with source := ((n : ℝ), a, b) } [o] = ok p' ∧ FluxIs p' (fun e i => n * f e i) := by
  obtain ⟨p', h, -, -, hf⟩ := C42_partial ho h1 hf (s := n) (by have := n.cast_nonneg (α := ℝ); linarith) (by exact_mod_cast hn)
  rw [Nat.floor_natCast] at hf
  exact ⟨p', h, hf⟩

/-- **C42, precondition.** Whenever the calculation can be done at all for the reactor, a source outside the mesh, outside the groups, at position or group zero,
or of a strength outside -1 < s < 2³² is undefined behaviour. -/
theorem C42_outside (ho : o.kind = .ads) {s0 s1 : ℝ × Nat × Nat} (h1 : problem tl { p with source := s0 } [o] = ok p1)
    (hc : p.grid.cells < 4294967296) (he : p.grid.energies < 4294967296)
    (h : ¬ (-1 < s1.1 ∧ s1.1 < 4294967296 ∧ 1 ≤ s1.2.1 ∧ s1.2.1 ≤ p.grid.cells ∧ 1 ≤ s1.2.2 ∧ s1.2.2 ≤ p.grid.energies)) :
    problem tl { p with source := s1 } [o] = Outcome.ub := by
  rw [problem_ads ho] at h1 ⊢
  exact ads_outside h1 hc he h

/-! ### C78: the balance of neutrons -/

/-- **C78, partial.** One group, a source in a cell of the mesh. If the criticality calculations stored as many modes as there are cells, all of them
solutions of the forward and the adjoint diffusion equation with different positive factors other than one, then the total flux is the only solution
of the diffusion equation with the source, cut to its whole part; below criticality it is nowhere negative. Missing: more groups
(`C78_groups_false`) and cells without fission, for which there are fewer modes (`C78_false`). -/
theorem C78_partial {m s aL aR : ℝ} {pos : Nat} {k : Nat → ℝ} {φ ψ : Nat → Nat → ℝ} (ho : o.kind = .ads) (hS : Shaped p.grid)
    (hF : Furnished p.grid) (h2 : 2 ≤ p.grid.cells) (hN : Nuclear p.grid m) (hD : Diffusive p.grid m) (ha : GoodAlbedos p.grid.geom o.albedo)
    (hT : ∀ i, i < p.grid.cells → m ≤ temp p i) (h1 : p.grid.energies = 1) (on : DiffusionOn p.grid o.albedo (temp p) d)
    (haL : aL = if p.grid.geom = .slab then o.albedo.v 0 else 1) (haR : aR = if p.grid.geom = .slab then o.albedo.v 1 else o.albedo.v 0)
    (hs : -1 < s) (hs' : s < 4294967296) (hp : pos < p.grid.cells) (hsrc : p.source = (s, pos + 1, 1)) (hrun : problem tl p [o] = ok p')
    (hm : Modal p' p.grid.cells k φ ψ)
    (hmodes : ∀ n, n < p.grid.cells → 0 < k n ∧ k n ≠ 1 ∧ Solve.DiffusionEq d aL aR (k n) (φ n) ∧ Solve.AdjointEq d aL aR (k n) (ψ n) ∧
      (∃ i, i < p.grid.cells ∧ φ n i ≠ 0) ∧ ∃ i, i < p.grid.cells ∧ ψ n i ≠ 0)
    (hinj : ∀ n n', n < p.grid.cells → n' < p.grid.cells → k n = k n' → n = n') :
    ∃ Φ : Nat → ℝ, FluxIs p' (fun _ i => Φ i) ∧ SourceEq d aL aR (pointSource d ⌊s⌋₊ 0 pos) Φ ∧
      (∀ Φ', SourceEq d aL aR (pointSource d ⌊s⌋₊ 0 pos) Φ' → ∀ i, i < p.grid.cells → Φ' i = Φ i) ∧
      ((∀ n, n < p.grid.cells → k n < 1) → ∀ i, i < p.grid.cells → 0 ≤ Φ i) := by
  obtain ⟨S, habs, hnf⟩ := on.sound hS h2 hN hD ha hT
  rw [← haL, ← haR] at S
  rw [problem_ads ho] at hrun
  exact ads_flux hS hF hN.complete h1 on S habs hnf hs hs' hp hsrc hrun hm hmodes hinj

/-! Two cells of one centimetre with one group, reflected on both sides. -/

/-- The cells produce `f 0` and `f 1` neutrons per collision. -/
def exPile (f : Nat → ℝ) : Grid where
  geom := .slab
  bounds := ⟨3, fun i => i / 100⟩
  cells := 2
  energies := 1
  nForward := 1
  nAdjoint := 1
  mats := ⟨2, fun i =>
    { exMat 20 with
      energies := 1
      tot := [constLaw 1]
      fiss := [constLaw (f i)]
      diff := [constLaw 1]
      scatt := [constLaw 0]
      nu := [constLaw 1]
      chi := [constLaw 1] }⟩

/-- A source of strength `s` in cell `n`. -/
def exDriven (f : Nat → ℝ) (s : ℝ) (n : Nat) : Plant := { exPlant (exPile f) with source := (s, n, 1) }

/-- Settings of the source-driven calculation. -/
def exDrivenSettings (E : Nat) : Settings := ⟨.ads, 1 / 1000, 100, 1, ⟨2, fun _ => 1⟩, Vec.const 0 0, E, .forward, .all⟩

theorem exPile_shaped (f : Nat → ℝ) : Shaped (exPile f) := ⟨fun h => (by cases h), rfl, fun h => absurd rfl h, fun i _ => by
    show (i : ℝ) / 100 < ((i + 1 : ℕ) : ℝ) / 100
    push_cast
    linarith⟩

theorem exPile_nuclear {f : Nat → ℝ} (hf : ∀ i, 0 ≤ f i) : Nuclear (exPile f) 0 where
  complete _ _ := ⟨by simp [exPile], by simp [exPile], by simp [exPile], Or.inr (by simp [exPile]), Or.inr (by simp [exPile])⟩
  scatt n i hn _ T _ := by
    change n < 1 at hn
    interval_cases n
    norm_num [exPile, law, Numeric.polyValue, constLaw, sum_range_succ]
  absorbs e i he _ T hT := by
    change e < 1 at he
    show ∑ f ∈ range 1, _ < _
    interval_cases e
    norm_num [exPile, law, Numeric.polyValue, constLaw, sum_range_succ]
  chi e i he _ T _ := by
    change e < 1 at he
    interval_cases e
    norm_num [exPile, law, Numeric.polyValue, constLaw, sum_range_succ]
  nu e i he _ T _ := by
    change e < 1 at he
    interval_cases e
    norm_num [exPile, law, Numeric.polyValue, constLaw, sum_range_succ]
  fiss e i he _ T _ := by
    change e < 1 at he
    interval_cases e
    have := hf i
    norm_num [exPile, law, Numeric.polyValue, constLaw, sum_range_succ]
    exact this

theorem exPile_diffusive (f : Nat → ℝ) : Diffusive (exPile f) 0 where
  laws _ _ := by simp [exPile]
  pos e i he _ T _ := by
    change e < 1 at he
    interval_cases e
    norm_num [exPile, law, Numeric.polyValue, constLaw, sum_range_succ]

theorem exDriven_albedos : GoodAlbedos .slab (exDrivenSettings 1).albedo :=
  ⟨fun _ => ⟨le_rfl, by norm_num [exDrivenSettings], by norm_num [exDrivenSettings]⟩, by norm_num [exDrivenSettings], by norm_num [exDrivenSettings],
    by norm_num [exDrivenSettings]⟩

theorem exDriven_temps (f : Nat → ℝ) (s : ℝ) (n : Nat) : ∀ i, i < (exDriven f s n).grid.cells → (0 : ℝ) ≤ temp (exDriven f s n) i := fun i _ => by
  norm_num [temp, exDriven, exPlant, exPile, exMat]

/-- the diffusion problem of the pile -/
theorem exPile_data {f : Nat → ℝ} {t : Nat → ℝ} {d : Diffusion.Data} (on : DiffusionOn (exPile f) ⟨2, fun _ => 1⟩ t d) :
    d.cells = 2 ∧ d.energies = 1 ∧ (∀ i, i < 2 → d.vol.v i = 1) ∧ (∀ i, i < 2 → d.fiss.m 0 i = f i) ∧
    (∀ i j, i < 2 → j < 2 → Solve.loss d 1 1 i j = if i = j then 2 else -1) ∧
    (∀ i j, i < 2 → j < 2 → Solve.fission d i j = if i = j then f i else 0) := by
  have hc : d.cells = 2 := on.cells
  have hE : d.energies = 1 := on.energies
  have hb : ∀ i : Nat, (exPile f).bounds.v i = i / 100 := fun _ => rfl
  have hvol : ∀ i, i < 2 → d.vol.v i = 1 := fun i hi => by
    rw [on.vol i hi]
    show ∫ _ in (100 * ((i : ℕ) / 100 : ℝ))..(100 * (((i + 1 : ℕ) : ℝ) / 100)), (1 : ℝ) = 1
    rw [intervalIntegral.integral_const, smul_eq_mul, mul_one]
    push_cast
    ring
  have hsize : ∀ i, i < 2 → d.size.v i = 1 := fun i hi => by
    rw [on.size i hi, hb, hb]
    push_cast
    ring
  have hsurf : ∀ i, i ≤ 2 → d.surf.v i = 1 := fun i hi => on.surf i hi
  have hD : ∀ i, i < 2 → d.D.m 0 i = 1 := fun i hi => by
    rw [on.D 0 i one_pos hi]
    norm_num [exPile, law, Numeric.polyValue, constLaw, sum_range_succ]
  have htot : ∀ i, i < 2 → d.tot.m 0 i = 1 := fun i hi => by
    rw [on.tot 0 i one_pos hi]
    norm_num [exPile, law, Numeric.polyValue, constLaw, sum_range_succ]
  have hfiss : ∀ i, i < 2 → d.fiss.m 0 i = f i := fun i hi => by
    rw [on.fiss 0 i one_pos hi]
    norm_num [exPile, law, Numeric.polyValue, constLaw, sum_range_succ]
  have hnu : ∀ i, i < 2 → d.nu.m 0 i = 1 := fun i hi => by
    rw [on.nu 0 i one_pos hi]
    norm_num [exPile, law, Numeric.polyValue, constLaw, sum_range_succ]
  have hchi : ∀ i, i < 2 → d.chi.m 0 i = 1 := fun i hi => by
    rw [on.chi 0 i one_pos hi]
    norm_num [exPile, law, Numeric.polyValue, constLaw, sum_range_succ]
  have hsc : ∀ i, i < 2 → d.scatt 0 0 i = 0 := fun i hi => by
    rw [on.scatt 0 0 i one_pos one_pos hi]
    norm_num [exPile, law, Numeric.polyValue, constLaw, sum_range_succ]
  refine ⟨hc, hE, hvol, hfiss, fun i j hi hj => ?_, fun i j hi hj => ?_⟩
  · have s0 := hsize 0 (by decide)
    have s1 := hsize 1 (by decide)
    have D0 := hD 0 (by decide)
    have D1 := hD 1 (by decide)
    have u1 := hsurf 1 (by decide)
    have v0 := hvol 0 (by decide)
    have v1 := hvol 1 (by decide)
    have t0 := htot 0 (by decide)
    have t1 := htot 1 (by decide)
    have c0 := hsc 0 (by decide)
    have c1 := hsc 1 (by decide)
    interval_cases i <;> interval_cases j <;>
      norm_num [Solve.loss, Diffusion.row, Diffusion.tri, Diffusion.bc, Diffusion.di, hc, s0, s1, D0, D1, u1, v0, v1, t0, t1, c0, c1]
  · unfold Solve.fission
    rw [hc, Nat.mod_eq_of_lt hi, Nat.mod_eq_of_lt hj, Nat.div_eq_of_lt hi, Nat.div_eq_of_lt hj, hchi i hi, hvol i hi, hnu i hi, hfiss i hi]
    simp

/-- two values -/
def two (x y : ℝ) : Nat → ℝ := fun i => if i = 0 then x else y

/-! the pile with fission in both cells -/

/-- Factors and modes of the pile with one half neutron per collision in both cells. -/
def exFactor : Nat → ℝ := two (1 / 2) (1 / 6)

def exMode : Nat → Nat → ℝ := fun n => two (1 / 2) (two (1 / 2) (-1 / 2) n)

theorem exMode_eq {t : Nat → ℝ} {d : Diffusion.Data} (on : DiffusionOn (exPile (two (1 / 2) (1 / 2))) ⟨2, fun _ => 1⟩ t d) {n : Nat}
    (hn : n < 2) (x : Nat) (hx : x < 2) : Eigen.act 2 (Solve.loss d 1 1) (exMode n) x = Eigen.act 2 (Solve.fission d) (exMode n) x / exFactor n ∧
      Eigen.act 2 (fun p q => Solve.loss d 1 1 q p) (exMode n) x = Eigen.act 2 (fun p q => Solve.fission d q p) (exMode n) x / exFactor n := by
  obtain ⟨-, -, -, -, hl, hf⟩ := exPile_data on
  unfold Eigen.act
  simp only [sum_range_succ, range_zero, sum_empty]
  rw [hl x 0 hx (by decide), hl x 1 hx (by decide), hf x 0 hx (by decide), hf x 1 hx (by decide), hl 0 x (by decide) hx, hl 1 x (by decide) hx,
    hf 0 x (by decide) hx, hf 1 x (by decide) hx]
  interval_cases n <;> interval_cases x <;> norm_num [exMode, exFactor, two]

/-- Library, reactor and settings of the examples: the library returns the factors `k` and the modes `φ` in both directions. -/
def exDrivenTools (N : Nat) (k : Nat → ℝ) (φ : Nat → Nat → ℝ) : Tools := exTools (givenLib N k (fun _ _ x n => φ n x))

theorem Modal.forth {q p' : Plant} {N : Nat} {k : Nat → ℝ} {φ ψ : Nat → Nat → ℝ} (h : SameModes q p') (m : Modal q N k φ ψ) : Modal p' N k φ ψ := by
  refine ⟨by rw [h.nForward]; exact m.forward, by rw [h.nAdjoint]; exact m.adjoint, by rw [h.kForward]; exact m.k,
    fun i hi => ?_, fun i hi => ?_⟩
  · rw [h.cells] at hi
    obtain ⟨x, e⟩ := h.mats i hi
    rw [e, h.energies, h.cells]
    exact m.flux i hi
  · rw [h.cells] at hi
    obtain ⟨x, e⟩ := h.mats i hi
    rw [e, h.energies, h.cells]
    exact m.adj i hi

theorem exDriven_run {f : Nat → ℝ} {N : Nat} {k : Nat → ℝ} {φ : Nat → Nat → ℝ} {s : ℝ} {pos : Nat} (hf : ∀ i, 0 ≤ f i) (hN : 0 < N)
    (hk : ∀ n, n < N → Numeric.tol < k n ∧ k n ≠ 1) (hφ : ∀ n, n < N → 0 ≤ φ n 0 + φ n 1 ∧ |φ n 0| + |φ n 1| = 1)
    (hfis : φ 0 0 * f 0 + φ 0 1 * f 1 ≠ 0) (hw : ∀ n, n < N → φ n 0 * f 0 * φ n 0 + φ n 1 * f 1 * φ n 1 ≠ 0) (hs : -1 < s) (hs' : s < 4294967296)
    (hp : pos < 2) : ∃ p', problem (exDrivenTools N k φ) (exDriven f s (pos + 1)) [exDrivenSettings 1] = ok p' ∧ Modal p' N k φ φ ∧
      p'.grid.cells = 2 ∧ p'.grid.energies = 1 ∧ FluxIs p' (fun _ i => ∑ n ∈ range N, k n / (1 - k n) *
        (⌊s⌋₊ * φ n pos / (φ n 0 * f 0 * φ n 0 + φ n 1 * f 1 * φ n 1)) * φ n i) := by
  have hS : Shaped (exDriven f s (pos + 1)).grid := exPile_shaped f
  have hF : Furnished (exDriven f s (pos + 1)).grid := ⟨rfl, fun _ _ => rfl⟩
  have hNu := exPile_nuclear hf
  have hD := exPile_diffusive f
  obtain ⟨d, -, on⟩ := diffusionData_ok hS hF hNu.complete hD.laws (exDrivenSettings 1).albedo
  obtain ⟨q, hq, hm, tied, qs⟩ := ads_reaches (tl := exDrivenTools N k φ) (o := exDrivenSettings 1) (p := exDriven f s (pos + 1)) (N := N) (k := k)
    (φ := φ) (ψ := φ) (aL := 1) (aR := 1) hS hF hNu.complete hD.laws rfl (fun d on => by
      obtain ⟨hc, hE, hv, hfi, hl, -⟩ := exPile_data on
      have hsnd := (on.sound hS le_rfl hNu hD exDriven_albedos (exDriven_temps f s (pos + 1))).1
      have hlib : ∀ (M F : Mat Fl) (dir : Solve.Direction), M.r = d.cells * d.energies →
          Solve.eigenmodes (exDrivenTools N k φ).num ⟨dir, .all, (exDrivenSettings 1).maxIter, (exDrivenSettings 1).acc⟩ M F =
            ok (modeList N (d.cells * d.energies) k φ) := by
        intro M F dir hr
        have hr2 : M.r = 2 := by rw [hr, hc, hE]
        rw [← hr]
        refine givenLib_modes hN (fun n h => (hk n h).1) (fun n h => ?_) (fun n h => ?_) rfl
        · rw [hr2]; simp only [sum_range_succ, range_zero, sum_empty, zero_add]; exact (hφ n h).1
        · rw [hr2]; simp only [sum_range_succ, range_zero, sum_empty, zero_add]; exact (hφ n h).2
      refine ⟨hsnd, ?_, fun M F _ _ hr => hlib M F _ hr, fun M F _ _ hr => hlib M F _ hr⟩
      unfold Solve.fissions
      rw [hc, hE]
      simp only [sum_range_succ, range_zero, sum_empty, zero_add, zero_mul, add_zero]
      rw [hv 0 (by decide), hv 1 (by decide), hfi 0 (by decide), hfi 1 (by decide), mul_one, mul_one]
      exact hfis) hN
  have onq : DiffusionOn q.grid (exDrivenSettings 1).albedo (temp q) d := DiffusionOn.tied tied on
  obtain ⟨hc, hE, hv, hfi, -, -⟩ := exPile_data on
  have hwt : ∀ n, weight d (φ n) (φ n) = φ n 0 * f 0 * φ n 0 + φ n 1 * f 1 * φ n 1 := fun n => by
    have h := on.nu 0 0 one_pos two_pos
    have h' := on.nu 0 1 one_pos one_lt_two
    have g := on.chi 0 0 one_pos two_pos
    have g' := on.chi 0 1 one_pos one_lt_two
    norm_num [exDriven, exPlant, exPile, law, Numeric.polyValue, constLaw, sum_range_succ] at h h' g g'
    unfold weight
    rw [hc, hE]
    simp only [sum_range_succ, range_zero, sum_empty, zero_add, zero_mul, add_zero]
    rw [hv 0 (by decide), hv 1 (by decide), hfi 0 (by decide), hfi 1 (by decide), h, h', g, g']
    ring
  obtain ⟨p', e, same, -, hflux⟩ := driven_ok (tied.1.shaped hS) (tied.1.furnished hF) (fun i hi => by
    rw [tied.1.cells] at hi
    rw [tied.1.energies]
    exact Complete.same (tied.1.mats i hi) (hNu.complete i hi)) onq hm (fun n h => (hk n h).2) (fun n h => by rw [hwt]; exact hw n h)
    (pos := pos) (e0 := 0) (by rw [tied.1.cells]; exact hp) (by rw [tied.1.energies]; exact one_pos) hs hs' (qs.trans rfl)
  have qc : q.grid.cells = 2 := tied.1.cells
  have qe : q.grid.energies = 1 := tied.1.energies
  refine ⟨p', ?_, hm.forth same, same.cells.trans qc, same.energies.trans qe, fun i hi => ⟨(hflux i hi).1, fun e he => ?_⟩⟩
  · rw [problem_ads rfl, hq, e]
  · rw [(hflux i hi).2 e he]
    rw [same.energies, qe] at he
    obtain rfl : e = 0 := by omega
    simp only [zero_mul, add_zero, hwt, hv pos hp, mul_one]

/-- Both cells multiply: the flux of a unit source in the first cell. -/
theorem exMode_run {s : ℝ} (hs : -1 < s) (hs' : s < 4294967296) : ∃ p', problem (exDrivenTools 2 exFactor exMode)
    (exDriven (two (1 / 2) (1 / 2)) s 1) [exDrivenSettings 1] = ok p' ∧ Modal p' 2 exFactor exMode exMode ∧ p'.grid.cells = 2 ∧
      p'.grid.energies = 1 ∧ FluxIs p' (fun _ => two (⌊s⌋₊ * (6 / 5)) (⌊s⌋₊ * (4 / 5))) := by
  obtain ⟨p', h, hm, hc, hE, hf⟩ := exDriven_run (f := two (1 / 2) (1 / 2)) (N := 2) (k := exFactor) (φ := exMode) (s := s) (pos := 0)
    (fun i => by unfold two; split_ifs <;> norm_num) two_pos
    (fun n hn => by
      have := Numeric.tol_lt
      interval_cases n <;> norm_num [exFactor, two] <;> norm_num at this <;> linarith)
    (fun n hn => by interval_cases n <;> norm_num [exMode, two, abs_div])
    (by norm_num [exMode, two]) (fun n hn => by interval_cases n <;> norm_num [exMode, two]) hs hs' two_pos
  refine ⟨p', h, hm, hc, hE, fun i hi => ⟨(hf i hi).1, fun e he => ?_⟩⟩
  rw [(hf i hi).2 e he]
  rw [hc] at hi
  congr 1
  interval_cases i <;> simp only [sum_range_succ, range_zero, sum_empty] <;> norm_num [exMode, exFactor, two] <;> ring

/-- The hypotheses of `C42_partial` hold for the pile: 5/2 gives twice the flux of a unit source. -/
example : ∃ p', problem (exDrivenTools 2 exFactor exMode) (exDriven (two (1 / 2) (1 / 2)) (5 / 2) 1) [exDrivenSettings 1] = ok p' ∧
    FluxIs p' (fun _ => two (12 / 5) (8 / 5)) := by
  obtain ⟨p1, h1, -, hc, -, hf⟩ := exMode_run (s := 1) (by norm_num) (by norm_num)
  obtain ⟨p', h, same, -, hf'⟩ := C42_partial (p := exDriven (two (1 / 2) (1 / 2)) 0 1) rfl (s := 5 / 2) (a := 1) (b := 1) h1 hf (by norm_num)
    (by norm_num)
  refine ⟨p', h, fun i hi => ⟨(hf' i hi).1, fun e he => ?_⟩⟩
  rw [(hf' i hi).2 e he]
  rw [same.cells, hc] at hi
  have : ⌊(5 / 2 : ℝ)⌋₊ = 2 := by rw [Nat.floor_eq_iff (by norm_num)]; norm_num
  rw [this]
  congr 1
  interval_cases i <;> norm_num [two]

example : ∃ (tl : Tools) (o : Settings) (p p1 : Plant), problem tl { p with source := (1, 1, 1) } [o] = ok p1 ∧
    problem tl { p with source := (1, 0, 1) } [o] = Outcome.ub := by
  obtain ⟨p1, h1, -⟩ := exMode_run (s := 1) (by norm_num) (by norm_num)
  exact ⟨_, _, exDriven (two (1 / 2) (1 / 2)) 0 1, p1, h1, C42_outside rfl h1 (by decide) (by decide) (fun h => by
    obtain ⟨-, -, h, -⟩ := h
    cases h)⟩

/-- **C42 fails.** A reactor in which a unit source gives a positive flux everywhere, and half a unit none at all, while three halves give the same
flux as one. -/
theorem C42_false : ∃ (tl : Tools) (o : Settings) (p p1 p2 p3 : Plant) (a b : Nat) (f : Nat → Nat → ℝ), o.kind = .ads ∧ 0 < p.grid.cells ∧
    0 < p.grid.energies ∧ (∀ e i, 0 < f e i) ∧ problem tl { p with source := (1, a, b) } [o] = ok p1 ∧ FluxIs p1 f ∧
    problem tl { p with source := (1 / 2, a, b) } [o] = ok p2 ∧ FluxIs p2 (fun _ _ => 0) ∧
    problem tl { p with source := (3 / 2, a, b) } [o] = ok p3 ∧ FluxIs p3 f := by
  obtain ⟨p1, h1, -, hc, hE, hf⟩ := exMode_run (s := 1) (by norm_num) (by norm_num)
  have hf : FluxIs p1 (fun _ => two (6 / 5) (4 / 5)) := by
    simpa using hf
  obtain ⟨p2, h2, -, -, hf2⟩ := C42_partial (p := exDriven (two (1 / 2) (1 / 2)) 0 1) rfl (s := 1 / 2) (a := 1) (b := 1) h1 hf (by norm_num)
    (by norm_num)
  obtain ⟨p3, h3, -, -, hf3⟩ := C42_partial (p := exDriven (two (1 / 2) (1 / 2)) 0 1) rfl (s := 3 / 2) (a := 1) (b := 1) h1 hf (by norm_num)
    (by norm_num)
  have e2 : ⌊(1 / 2 : ℝ)⌋₊ = 0 := by rw [Nat.floor_eq_zero]; norm_num
  have e3 : ⌊(3 / 2 : ℝ)⌋₊ = 1 := by rw [Nat.floor_eq_iff (by norm_num)]; norm_num
  rw [e2] at hf2
  rw [e3] at hf3
  refine ⟨_, _, exDriven (two (1 / 2) (1 / 2)) 0 1, p1, p2, p3, 1, 1, fun _ => two (6 / 5) (4 / 5), rfl, two_pos, one_pos, fun e i => ?_, h1, hf, h2,
    ?_, h3, ?_⟩
  · show 0 < two (6 / 5) (4 / 5) i
    unfold two
    split_ifs <;> norm_num
  · simpa using hf2
  · simpa using hf3

/-- The hypotheses of `C78_partial` hold for the pile, and the flux of a unit source in the first cell is 6/5 and 4/5. -/
example : ∃ (p' : Plant) (d : Diffusion.Data) (Φ : Nat → ℝ),
    problem (exDrivenTools 2 exFactor exMode) (exDriven (two (1 / 2) (1 / 2)) 1 1) [exDrivenSettings 1] = ok p' ∧ FluxIs p' (fun _ i => Φ i) ∧
    SourceEq d 1 1 (pointSource d 1 0 0) Φ ∧ Φ 0 = 6 / 5 ∧ Φ 1 = 4 / 5 := by
  obtain ⟨p', h, hm, hc, hE, hf⟩ := exMode_run (s := 1) (by norm_num) (by norm_num)
  have hpos : ∀ i, 0 ≤ two (1 / 2) (1 / 2) i := fun i => by unfold two; split_ifs <;> norm_num
  have hS := exPile_shaped (two (1 / 2) (1 / 2))
  have hNu := exPile_nuclear hpos
  have hD := exPile_diffusive (two (1 / 2) (1 / 2))
  have hT := exDriven_temps (two (1 / 2) (1 / 2)) 1 1
  obtain ⟨d, -, on⟩ := diffusionData_ok hS ⟨rfl, fun _ _ => rfl⟩ hNu.complete hD.laws (exDrivenSettings 1).albedo
  have S : Solve.Sound d 1 1 := (on.sound hS le_rfl hNu hD exDriven_albedos hT).1
  obtain ⟨dc, dE, -, -, -, -⟩ := exPile_data on
  have hn : d.cells * d.energies = 2 := by rw [dc, dE]
  obtain ⟨Φ, h1, h2, -, -⟩ := C78_partial (m := 0) (aL := 1) (aR := 1) (p := exDriven (two (1 / 2) (1 / 2)) 1 1) (pos := 0) (k := exFactor) (φ := exMode)
    (ψ := exMode) rfl hS ⟨rfl, fun _ _ => rfl⟩ le_rfl hNu hD exDriven_albedos hT rfl on rfl rfl (by norm_num) (by norm_num) two_pos rfl h hm
    (fun n hn2 => by
      change n < 2 at hn2
      refine ⟨?_, ?_, (Solve.equation_iff S).1 (fun x hx => ?_), (Solve.adjoint_iff S).1 (fun x hx => ?_), ⟨0, two_pos, ?_⟩, ⟨0, two_pos, ?_⟩⟩
      · interval_cases n <;> norm_num [exFactor, two]
      · interval_cases n <;> norm_num [exFactor, two]
      · rw [hn] at hx ⊢
        exact (exMode_eq on hn2 x hx).1
      · rw [hn] at hx ⊢
        exact (exMode_eq on hn2 x hx).2
      · norm_num [exMode, two]
      · norm_num [exMode, two])
    (fun n n' h1 h2 e => by
      change n < 2 at h1
      change n' < 2 at h2
      interval_cases n <;> interval_cases n' <;> norm_num [exFactor, two] at e <;> rfl)
  have key : ∀ i, i < 2 → Φ i = two (6 / 5) (4 / 5) i := fun i hi => by
    have e1 := (h1 i (by rw [hc]; exact hi)).2 0 (by rw [hE]; exact one_pos)
    have e2 := (hf i (by rw [hc]; exact hi)).2 0 (by rw [hE]; exact one_pos)
    rw [e1] at e2
    injection e2 with e2
    beta_reduce at e2
    rw [e2, Nat.floor_one, Nat.cast_one, one_mul, one_mul]
  refine ⟨p', d, Φ, h, h1, ?_, key 0 two_pos, key 1 one_lt_two⟩
  rw [Nat.floor_one, Nat.cast_one] at h2
  exact h2

/-! the pile with fission in the first cell only -/

def exReflected : Nat → ℝ := two (3 / 4) 0

/-- **C78 fails for cells without fission.** One group, two cells, fission in the first, the source in the second. There is one mode, and its factor is
one half. The library returns it and nothing else is wrong, but the flux does not satisfy the balance: the neutrons of the source are missing. The flux
in the cell of the source should be 5/6 and comes out as 1/3. -/
theorem C78_false : ∃ (tl : Tools) (o : Settings) (p p' : Plant) (d : Diffusion.Data) (k : ℝ) (φ Φ : Nat → ℝ), o.kind = .ads ∧ Shaped p.grid ∧
    Furnished p.grid ∧ Nuclear p.grid 0 ∧ Diffusive p.grid 0 ∧ GoodAlbedos p.grid.geom o.albedo ∧ p.grid.cells = 2 ∧ p.grid.energies = 1 ∧
    (∀ i, i < p.grid.cells → 0 ≤ temp p i) ∧ DiffusionOn p.grid o.albedo (temp p) d ∧ p.source = (1, 2, 1) ∧ problem tl p [o] = ok p' ∧
    Modal p' 1 (fun _ => k) (fun _ => φ) (fun _ => φ) ∧ k = 1 / 2 ∧ Solve.DiffusionEq d 1 1 k φ ∧ Solve.AdjointEq d 1 1 k φ ∧
    (∀ k' φ', k' ≠ 0 → (∃ i, i < 2 ∧ φ' i ≠ 0) → Solve.DiffusionEq d 1 1 k' φ' → k' = k) ∧
    FluxIs p' (fun _ => Φ) ∧ Φ 1 = 1 / 3 ∧ ¬ SourceEq d 1 1 (pointSource d 1 0 1) Φ ∧
    (∀ Φ', SourceEq d 1 1 (pointSource d 1 0 1) Φ' → Φ' 1 = 5 / 6) := by
  have hpos : ∀ i, 0 ≤ exReflected i := fun i => by unfold exReflected two; split_ifs <;> norm_num
  have hS := exPile_shaped exReflected
  have hNu := exPile_nuclear hpos
  have hD := exPile_diffusive exReflected
  have hT := exDriven_temps exReflected 1 2
  obtain ⟨d, -, on⟩ := diffusionData_ok hS ⟨rfl, fun _ _ => rfl⟩ hNu.complete hD.laws (exDrivenSettings 1).albedo
  have S : Solve.Sound d 1 1 := (on.sound hS le_rfl hNu hD exDriven_albedos hT).1
  obtain ⟨dc, dE, dv, -, hl, hf⟩ := exPile_data on
  have hn : d.cells * d.energies = 2 := by rw [dc, dE]
  obtain ⟨p', h, hm, hc, hE, hflux⟩ := exDriven_run (f := exReflected) (N := 1) (k := fun _ => 1 / 2) (φ := fun _ => two (2 / 3) (1 / 3)) (s := 1)
    (pos := 1) hpos one_pos (fun n _ => by
      have := Numeric.tol_lt
      norm_num at this ⊢
      linarith)
    (fun n _ => by norm_num [two]) (by norm_num [exReflected, two]) (fun n _ => by norm_num [exReflected, two]) (by norm_num) (by norm_num) one_lt_two
  have a : ∀ x, x < 2 → ∀ φ : Nat → ℝ, Eigen.act 2 (Solve.loss d 1 1) φ x = (if x = 0 then 2 * φ 0 - φ 1 else 2 * φ 1 - φ 0) ∧
      Eigen.act 2 (fun p q => Solve.loss d 1 1 q p) φ x = (if x = 0 then 2 * φ 0 - φ 1 else 2 * φ 1 - φ 0) ∧
      Eigen.act 2 (Solve.fission d) φ x = (if x = 0 then 3 / 4 * φ 0 else 0) ∧
      Eigen.act 2 (fun p q => Solve.fission d q p) φ x = (if x = 0 then 3 / 4 * φ 0 else 0) := by
    intro x hx φ
    unfold Eigen.act
    simp only [sum_range_succ, range_zero, sum_empty]
    rw [hl x 0 hx two_pos, hl x 1 hx one_lt_two, hf x 0 hx two_pos, hf x 1 hx one_lt_two, hl 0 x two_pos hx, hl 1 x one_lt_two hx,
      hf 0 x two_pos hx, hf 1 x one_lt_two hx]
    interval_cases x <;> norm_num [exReflected, two] <;> ring
  have src : ∀ Φ', SourceEq d 1 1 (pointSource d 1 0 1) Φ' → 2 * Φ' 0 - Φ' 1 = 3 / 4 * Φ' 0 ∧ 2 * Φ' 1 - Φ' 0 = 1 := by
    intro Φ' hΦ
    have h := (source_iff S).2 hΦ
    rw [hn] at h
    have h0 := h 0 two_pos
    have h1 := h 1 one_lt_two
    obtain ⟨u1, -, u2, -⟩ := a 0 two_pos Φ'
    obtain ⟨w1, -, w2, -⟩ := a 1 one_lt_two Φ'
    rw [u1, u2, dc] at h0
    rw [w1, w2, dc] at h1
    norm_num [pointSource, dv] at h0 h1
    exact ⟨h0, h1⟩
  refine ⟨_, _, exDriven exReflected 1 2, p', d, 1 / 2, two (2 / 3) (1 / 3), two (2 / 3) (1 / 3), rfl, hS, ⟨rfl, fun _ _ => rfl⟩, hNu, hD,
    exDriven_albedos, rfl, rfl, hT, on, rfl, h, hm, rfl, (Solve.equation_iff S).1 (fun x hx => ?_), (Solve.adjoint_iff S).1 (fun x hx => ?_), ?_, ?_, ?_,
    fun hΦ => ?_, fun Φ' hΦ => ?_⟩
  · rw [hn] at hx ⊢
    rw [(a x hx _).1, (a x hx _).2.2.1]
    interval_cases x <;> norm_num [two]
  · rw [hn] at hx ⊢
    rw [(a x hx _).2.1, (a x hx _).2.2.2]
    interval_cases x <;> norm_num [two]
  · rintro k' φ' hk ⟨i, hi, h0⟩ he
    have h := (Solve.equation_iff S).2 he
    rw [hn] at h
    have e0 := h 0 two_pos
    have e1 := h 1 one_lt_two
    rw [(a 0 two_pos φ').1, (a 0 two_pos φ').2.2.1] at e0
    rw [(a 1 one_lt_two φ').1, (a 1 one_lt_two φ').2.2.1] at e1
    norm_num at e0 e1
    have h1 : φ' 0 = 2 * φ' 1 := by linarith
    have hne : φ' 1 ≠ 0 := fun h => by interval_cases i <;> [exact h0 (by rw [h1, h, mul_zero]); exact h0 h]
    rw [h1, eq_div_iff hk] at e0
    have : (k' * 3 - 3 / 2) * φ' 1 = 0 := by linear_combination e0
    have := (mul_eq_zero.1 this).resolve_right hne
    linarith
  · intro i hi
    refine ⟨(hflux i hi).1, fun e he => ?_⟩
    rw [(hflux i hi).2 e he]
    congr 1
    norm_num [two, exReflected]
  · norm_num [two]
  · have := src _ hΦ
    norm_num [two] at this
  · have := src _ hΦ
    linarith [this.1, this.2]

/-! Two groups: fast neutrons are born and slow neutrons cause the fissions. -/

/-- Two cells of one centimetre, reflected on both sides. -/
def exTwoGroup : Grid where
  geom := .slab
  bounds := ⟨3, fun i => i / 100⟩
  cells := 2
  energies := 2
  nForward := 1
  nAdjoint := 1
  mats := ⟨2, fun _ =>
    { exMat 20 with
      energies := 2
      tot := [constLaw 2, constLaw (1 / 2)]
      fiss := [constLaw 0, constLaw (1 / 2)]
      diff := [constLaw (1 / 2), constLaw (1 / 2)]
      scatt := [constLaw 0, constLaw 1, constLaw 0, constLaw 0]
      nu := [constLaw 1, constLaw 1]
      chi := [constLaw 1, constLaw 0] }⟩

/-- A unit source in the first cell and the first group. -/
def exTwoPlant : Plant := { exPlant exTwoGroup with source := (1, 1, 1) }

theorem exTwoGroup_shaped : Shaped exTwoGroup := ⟨fun h => (by cases h), rfl, fun h => absurd rfl h, fun i _ => by
    show (i : ℝ) / 100 < ((i + 1 : ℕ) : ℝ) / 100
    push_cast
    linarith⟩

theorem exTwoGroup_nuclear : Nuclear exTwoGroup 0 where
  complete _ _ := ⟨by simp [exTwoGroup], by simp [exTwoGroup], by simp [exTwoGroup], Or.inr (by simp [exTwoGroup]), Or.inr (by simp [exTwoGroup])⟩
  scatt n i hn _ T _ := by
    change n < 4 at hn
    interval_cases n <;> norm_num [exTwoGroup, law, Numeric.polyValue, constLaw, sum_range_succ]
  absorbs e i he _ T hT := by
    change e < 2 at he
    show ∑ f ∈ range 2, _ < _
    interval_cases e <;> norm_num [exTwoGroup, law, Numeric.polyValue, constLaw, sum_range_succ]
  chi e i he _ T _ := by
    change e < 2 at he
    interval_cases e <;> norm_num [exTwoGroup, law, Numeric.polyValue, constLaw, sum_range_succ]
  nu e i he _ T _ := by
    change e < 2 at he
    interval_cases e <;> norm_num [exTwoGroup, law, Numeric.polyValue, constLaw, sum_range_succ]
  fiss e i he _ T _ := by
    change e < 2 at he
    interval_cases e <;> norm_num [exTwoGroup, law, Numeric.polyValue, constLaw, sum_range_succ]

theorem exTwoGroup_diffusive : Diffusive exTwoGroup 0 where
  laws _ _ := by simp [exTwoGroup]
  pos e i he _ T _ := by
    change e < 2 at he
    interval_cases e <;> norm_num [exTwoGroup, law, Numeric.polyValue, constLaw, sum_range_succ]

/-- the four values of a flux -/
def four (a b c d : ℝ) : Nat → ℝ := fun i => if i = 0 then a else if i = 1 then b else if i = 2 then c else d

theorem exTwoGroup_data {t : Nat → ℝ} {d : Diffusion.Data} (on : DiffusionOn exTwoGroup ⟨2, fun _ => 1⟩ t d) :
    d.cells = 2 ∧ d.energies = 2 ∧ (∀ i, i < 2 → d.vol.v i = 1) ∧
    (∀ i, i < 2 → d.fiss.m 0 i = 0 ∧ d.fiss.m 1 i = 1 / 2 ∧ d.nu.m 0 i = 1 ∧ d.nu.m 1 i = 1 ∧ d.chi.m 0 i = 1 ∧ d.chi.m 1 i = 0) ∧
    (∀ φ : Nat → ℝ, Eigen.act 4 (Solve.loss d 1 1) φ 0 = 5 / 2 * φ 0 - φ 1 / 2 ∧ Eigen.act 4 (Solve.loss d 1 1) φ 1 = 5 / 2 * φ 1 - φ 0 / 2 ∧
      Eigen.act 4 (Solve.loss d 1 1) φ 2 = φ 2 - φ 3 / 2 - φ 0 ∧ Eigen.act 4 (Solve.loss d 1 1) φ 3 = φ 3 - φ 2 / 2 - φ 1 ∧
      Eigen.act 4 (fun p q => Solve.loss d 1 1 q p) φ 0 = 5 / 2 * φ 0 - φ 1 / 2 - φ 2 ∧
      Eigen.act 4 (fun p q => Solve.loss d 1 1 q p) φ 1 = 5 / 2 * φ 1 - φ 0 / 2 - φ 3 ∧
      Eigen.act 4 (fun p q => Solve.loss d 1 1 q p) φ 2 = φ 2 - φ 3 / 2 ∧ Eigen.act 4 (fun p q => Solve.loss d 1 1 q p) φ 3 = φ 3 - φ 2 / 2) ∧
    (∀ φ : Nat → ℝ, Eigen.act 4 (Solve.fission d) φ 0 = φ 2 / 2 ∧ Eigen.act 4 (Solve.fission d) φ 1 = φ 3 / 2 ∧
      Eigen.act 4 (Solve.fission d) φ 2 = 0 ∧ Eigen.act 4 (Solve.fission d) φ 3 = 0 ∧
      Eigen.act 4 (fun p q => Solve.fission d q p) φ 0 = 0 ∧ Eigen.act 4 (fun p q => Solve.fission d q p) φ 1 = 0 ∧
      Eigen.act 4 (fun p q => Solve.fission d q p) φ 2 = φ 0 / 2 ∧ Eigen.act 4 (fun p q => Solve.fission d q p) φ 3 = φ 1 / 2) ∧
    Solve.fission d 0 2 = 1 / 2 ∧ Solve.fission d 2 0 = 0 := by
  have hc : d.cells = 2 := on.cells
  have hE : d.energies = 2 := on.energies
  have hb : ∀ i : Nat, exTwoGroup.bounds.v i = i / 100 := fun _ => rfl
  have hvol : ∀ i, i < 2 → d.vol.v i = 1 := fun i hi => by
    rw [on.vol i hi]
    show ∫ _ in (100 * ((i : ℕ) / 100 : ℝ))..(100 * (((i + 1 : ℕ) : ℝ) / 100)), (1 : ℝ) = 1
    rw [intervalIntegral.integral_const, smul_eq_mul, mul_one]
    push_cast
    ring
  have hsize : ∀ i, i < 2 → d.size.v i = 1 := fun i hi => by
    rw [on.size i hi, hb, hb]
    push_cast
    ring
  have hsurf : ∀ i, i ≤ 2 → d.surf.v i = 1 := fun i hi => on.surf i hi
  have hD : ∀ e i, e < 2 → i < 2 → d.D.m e i = 1 / 2 := fun e i he hi => by
    rw [on.D e i he hi]
    interval_cases e <;> norm_num [exTwoGroup, law, Numeric.polyValue, constLaw, sum_range_succ]
  have htot : ∀ i, i < 2 → d.tot.m 0 i = 2 ∧ d.tot.m 1 i = 1 / 2 := fun i hi => by
    rw [on.tot 0 i two_pos hi, on.tot 1 i one_lt_two hi]
    norm_num [exTwoGroup, law, Numeric.polyValue, constLaw, sum_range_succ]
  have hmat : ∀ i, i < 2 → d.fiss.m 0 i = 0 ∧ d.fiss.m 1 i = 1 / 2 ∧ d.nu.m 0 i = 1 ∧ d.nu.m 1 i = 1 ∧ d.chi.m 0 i = 1 ∧ d.chi.m 1 i = 0 :=
    fun i hi => by
    rw [on.fiss 0 i two_pos hi, on.fiss 1 i one_lt_two hi, on.nu 0 i two_pos hi, on.nu 1 i one_lt_two hi, on.chi 0 i two_pos hi,
      on.chi 1 i one_lt_two hi]
    norm_num [exTwoGroup, law, Numeric.polyValue, constLaw, sum_range_succ]
  have hsc : ∀ i, i < 2 → d.scatt 0 0 i = 0 ∧ d.scatt 0 1 i = 1 ∧ d.scatt 1 0 i = 0 ∧ d.scatt 1 1 i = 0 := fun i hi => by
    rw [on.scatt 0 0 i two_pos two_pos hi, on.scatt 0 1 i two_pos one_lt_two hi, on.scatt 1 0 i one_lt_two two_pos hi,
      on.scatt 1 1 i one_lt_two one_lt_two hi]
    norm_num [exTwoGroup, law, Numeric.polyValue, constLaw, sum_range_succ]
  have s0 := hsize 0 (by decide)
  have s1 := hsize 1 (by decide)
  have D0 := hD 0 0 (by decide) (by decide)
  have D1 := hD 0 1 (by decide) (by decide)
  have D2 := hD 1 0 (by decide) (by decide)
  have D3 := hD 1 1 (by decide) (by decide)
  have u1 := hsurf 1 (by decide)
  have v0 := hvol 0 (by decide)
  have v1 := hvol 1 (by decide)
  obtain ⟨t0, t1⟩ := htot 0 (by decide)
  obtain ⟨t2, t3⟩ := htot 1 (by decide)
  obtain ⟨c1, c2, c3, c4⟩ := hsc 0 (by decide)
  obtain ⟨c5, c6, c7, c8⟩ := hsc 1 (by decide)
  obtain ⟨f1, f2, f3, f4, f5, f6⟩ := hmat 0 (by decide)
  obtain ⟨f7, f8, f9, f10, f11, f12⟩ := hmat 1 (by decide)
  have hl : ∀ p q, p < 4 → q < 4 → Solve.loss d 1 1 p q = (if p = q then (if p < 2 then 5 / 2 else 1) else if p / 2 = q / 2 then -1 / 2 else
      if p = q + 2 then -1 else 0) := by
    intro p q hp hq
    interval_cases p <;> interval_cases q <;>
      norm_num [Solve.loss, Diffusion.row, Diffusion.tri, Diffusion.bc, Diffusion.di, hc, s0, s1, D0, D1, D2, D3, u1, v0, v1, t0, t1, t2, t3,
        c1, c2, c3, c4, c5, c6, c7, c8]
  have hf : ∀ p q, p < 4 → q < 4 → Solve.fission d p q = (if q = p + 2 then 1 / 2 else 0) := by
    intro p q hp hq
    interval_cases p <;> interval_cases q <;>
      norm_num [Solve.fission, hc, v0, v1, f1, f2, f3, f4, f5, f6, f7, f8, f9, f10, f11, f12]
  refine ⟨hc, hE, hvol, hmat, fun φ => ?_, fun φ => ?_, ?_, ?_⟩
  · unfold Eigen.act
    simp only [sum_range_succ, range_zero, sum_empty]
    have e : ∀ p q (hp : p < 4) (hq : q < 4), Solve.loss d 1 1 p q = _ := hl
    rw [e 0 0 (by decide) (by decide), e 0 1 (by decide) (by decide), e 0 2 (by decide) (by decide), e 0 3 (by decide) (by decide),
      e 1 0 (by decide) (by decide), e 1 1 (by decide) (by decide), e 1 2 (by decide) (by decide), e 1 3 (by decide) (by decide),
      e 2 0 (by decide) (by decide), e 2 1 (by decide) (by decide), e 2 2 (by decide) (by decide), e 2 3 (by decide) (by decide),
      e 3 0 (by decide) (by decide), e 3 1 (by decide) (by decide), e 3 2 (by decide) (by decide), e 3 3 (by decide) (by decide)]
    norm_num
    refine ⟨?_, ?_, ?_, ?_, ?_, ?_, ?_, ?_⟩ <;> ring
  · unfold Eigen.act
    simp only [sum_range_succ, range_zero, sum_empty]
    rw [hf 0 0 (by decide) (by decide), hf 0 1 (by decide) (by decide), hf 0 2 (by decide) (by decide), hf 0 3 (by decide) (by decide),
      hf 1 0 (by decide) (by decide), hf 1 1 (by decide) (by decide), hf 1 2 (by decide) (by decide), hf 1 3 (by decide) (by decide),
      hf 2 0 (by decide) (by decide), hf 2 1 (by decide) (by decide), hf 2 2 (by decide) (by decide), hf 2 3 (by decide) (by decide),
      hf 3 0 (by decide) (by decide), hf 3 1 (by decide) (by decide), hf 3 2 (by decide) (by decide), hf 3 3 (by decide) (by decide)]
    norm_num
    refine ⟨?_, ?_, ?_, ?_⟩ <;> ring
  · rw [hf 0 2 (by decide) (by decide)]; norm_num
  · rw [hf 2 0 (by decide) (by decide)]; norm_num

/-- Factors, modes and adjoint modes. -/
def exTwoFactor : Nat → ℝ := two (1 / 2) (1 / 9)

def exTwoMode : Nat → Nat → ℝ := fun n => if n = 0 then four (1 / 6) (1 / 6) (1 / 3) (1 / 3) else four (3 / 10) (-3 / 10) (1 / 5) (-1 / 5)

def exTwoAdjoint : Nat → Nat → ℝ := fun n => if n = 0 then four (1 / 6) (1 / 6) (1 / 3) (1 / 3) else four (1 / 8) (-1 / 8) (3 / 8) (-3 / 8)

/-- A library that returns them. -/
def exTwoTools : Tools :=
  exTools (givenLib 2 exTwoFactor (fun _ F x n => if F.m 0 2 = .fin 0 then exTwoAdjoint n x else exTwoMode n x))

theorem exTwo_sums (n : Nat) (hn : n < 2) : (0 ≤ ∑ x ∈ range 4, exTwoMode n x ∧ ∑ x ∈ range 4, |exTwoMode n x| = 1) ∧
    0 ≤ ∑ x ∈ range 4, exTwoAdjoint n x ∧ ∑ x ∈ range 4, |exTwoAdjoint n x| = 1 := by
  simp only [sum_range_succ, range_zero, sum_empty]
  interval_cases n <;> norm_num [exTwoMode, exTwoAdjoint, four, abs_div]

/-- **C78 fails for two groups.** Two cells with the same material, the source in the first cell and the first group. All modes with positive factor are
found and stored, but they are weighted with a production that multiplies the flux of each group with the fission cross sections of all groups. The first group gets
twice the flux it should have over both cells together. -/
theorem C78_groups_false : ∃ (tl : Tools) (o : Settings) (p p' : Plant) (d : Diffusion.Data) (k : Nat → ℝ) (φ ψ : Nat → Nat → ℝ) (Φ : Nat → Nat → ℝ),
    o.kind = .ads ∧ Shaped p.grid ∧
    Furnished p.grid ∧ Nuclear p.grid 0 ∧ Diffusive p.grid 0 ∧ GoodAlbedos p.grid.geom o.albedo ∧ p.grid.cells = 2 ∧ p.grid.energies = 2 ∧
    (∀ i, i < p.grid.cells → 0 ≤ temp p i) ∧ DiffusionOn p.grid o.albedo (temp p) d ∧ p.source = (1, 1, 1) ∧ problem tl p [o] = ok p' ∧
    Modal p' 2 k φ ψ ∧ k 0 = 1 / 2 ∧ k 1 = 1 / 9 ∧ (∀ n, n < 2 → Solve.DiffusionEq d 1 1 (k n) (φ n) ∧ Solve.AdjointEq d 1 1 (k n) (ψ n)) ∧
    (∀ k' φ', k' ≠ 0 → (∃ i, i < 4 ∧ φ' i ≠ 0) → Solve.DiffusionEq d 1 1 k' φ' → k' = k 0 ∨ k' = k 1) ∧
    FluxIs p' Φ ∧ Φ 0 0 + Φ 0 1 = 2 ∧ ¬ SourceEq d 1 1 (pointSource d 1 0 0) (fun x => Φ (x / 2) (x % 2)) ∧
    (∀ Φ', SourceEq d 1 1 (pointSource d 1 0 0) Φ' → Φ' 0 + Φ' 1 = 1) := by
  have hS : Shaped exTwoPlant.grid := exTwoGroup_shaped
  have hF : Furnished exTwoPlant.grid := ⟨rfl, fun _ _ => rfl⟩
  have hNu := exTwoGroup_nuclear
  have hD := exTwoGroup_diffusive
  have hT : ∀ i, i < exTwoPlant.grid.cells → 0 ≤ temp exTwoPlant i := fun i _ => by norm_num [temp, exTwoPlant, exPlant, exTwoGroup, exMat]
  have ha : GoodAlbedos exTwoPlant.grid.geom (exDrivenSettings 2).albedo := exDriven_albedos
  obtain ⟨d, -, on⟩ := diffusionData_ok hS hF hNu.complete hD.laws (exDrivenSettings 2).albedo
  have S : Solve.Sound d 1 1 := (on.sound hS le_rfl hNu hD ha hT).1
  obtain ⟨dc, dE, dv, df, hl, hf, f02, f20⟩ := exTwoGroup_data on
  have hn : d.cells * d.energies = 4 := by rw [dc, dE]
  obtain ⟨q, hq, hm, tied, qs⟩ := ads_reaches (tl := exTwoTools) (o := exDrivenSettings 2) (p := exTwoPlant) (N := 2) (k := exTwoFactor)
    (φ := exTwoMode) (ψ := exTwoAdjoint) (aL := 1) (aR := 1) hS hF hNu.complete hD.laws rfl (fun d on => by
      obtain ⟨hc, hE, hv, hmat, -, -, f02, f20⟩ := exTwoGroup_data on
      have hn : d.cells * d.energies = 4 := by rw [hc, hE]
      have hk : ∀ n, n < 2 → Numeric.tol < exTwoFactor n := fun n h => by
        have := Numeric.tol_lt
        interval_cases n <;> norm_num [exTwoFactor, two] <;> norm_num at this <;> linarith
      refine ⟨(on.sound hS le_rfl hNu hD ha hT).1, ?_, fun M F _ hF hr => ?_, fun M F _ hF hr => ?_⟩
      · unfold Solve.fissions
        rw [hc, hE]
        simp only [sum_range_succ, range_zero, sum_empty, zero_add, zero_mul, add_zero]
        obtain ⟨e1, e2, -⟩ := hmat 0 two_pos
        obtain ⟨e3, e4, -⟩ := hmat 1 one_lt_two
        rw [hv 0 two_pos, hv 1 one_lt_two, e1, e2, e3, e4]
        norm_num [exTwoMode, four]
      · have e := hF 0 2 (by rw [hn]; decide) (by rw [hn]; decide)
        rw [f02] at e
        have hne : ¬ F.m 0 2 = .fin 0 := by rw [e]; norm_num
        rw [hn] at hr
        have g := givenLib_modes (N := 2) (k := exTwoFactor) (V := fun _ F x n => if F.m 0 2 = .fin 0 then exTwoAdjoint n x else exTwoMode n x) (M := M) (F := F)
          (o := ⟨.forward, .all, (exDrivenSettings 2).maxIter, (exDrivenSettings 2).acc⟩) two_pos hk
        simp only [if_neg hne, hr] at g
        rw [hn]
        exact g (fun n h => (exTwo_sums n h).1.1) (fun n h => (exTwo_sums n h).1.2) trivial
      · have e := hF 0 2 (by rw [hn]; decide) (by rw [hn]; decide)
        beta_reduce at e
        rw [f20] at e
        rw [hn] at hr
        have g := givenLib_modes (N := 2) (k := exTwoFactor) (V := fun _ F x n => if F.m 0 2 = .fin 0 then exTwoAdjoint n x else exTwoMode n x) (M := M) (F := F)
          (o := ⟨.adjoint, .all, (exDrivenSettings 2).maxIter, (exDrivenSettings 2).acc⟩) two_pos hk
        simp only [if_pos e, hr] at g
        rw [hn]
        exact g (fun n h => (exTwo_sums n h).2.1) (fun n h => (exTwo_sums n h).2.2) trivial) two_pos
  have onq : DiffusionOn q.grid (exDrivenSettings 2).albedo (temp q) d := DiffusionOn.tied tied on
  have hwt : weight d (exTwoMode 0) (exTwoAdjoint 0) = 1 / 36 ∧ weight d (exTwoMode 1) (exTwoAdjoint 1) = 3 / 80 := by
    obtain ⟨e1, e2, e3, e4, e5, e6⟩ := df 0 two_pos
    obtain ⟨e7, e8, e9, e10, e11, e12⟩ := df 1 one_lt_two
    unfold weight
    rw [dc, dE]
    simp only [sum_range_succ, range_zero, sum_empty, zero_add, zero_mul, add_zero]
    rw [dv 0 two_pos, dv 1 one_lt_two, e1, e2, e3, e4, e5, e6, e7, e8, e9, e10, e11, e12]
    norm_num [exTwoMode, exTwoAdjoint, four]
  obtain ⟨p', e, same, -, hflux⟩ := driven_ok (tied.1.shaped hS) (tied.1.furnished hF) (fun i hi => by
    rw [tied.1.cells] at hi
    rw [tied.1.energies]
    exact Complete.same (tied.1.mats i hi) (hNu.complete i hi)) onq hm (fun n h => by interval_cases n <;> norm_num [exTwoFactor, two])
    (fun n h => by interval_cases n <;> [rw [hwt.1]; rw [hwt.2]] <;> norm_num)
    (pos := 0) (e0 := 0) (s := 1) (by rw [tied.1.cells]; exact two_pos) (by rw [tied.1.energies]; exact two_pos) (by norm_num) (by norm_num) (qs.trans rfl)
  have qc : q.grid.cells = 2 := tied.1.cells
  have qe : q.grid.energies = 2 := tied.1.energies
  have hΦ : FluxIs p' (fun e i => four (9 / 8) (7 / 8) (25 / 12) (23 / 12) (i + 2 * e)) := by
    intro i hi
    refine ⟨(hflux i hi).1, fun e he => ?_⟩
    rw [(hflux i hi).2 e he]
    rw [same.cells, qc] at hi
    rw [same.energies, qe] at he
    congr 1
    simp only [sum_range_succ, range_zero, sum_empty, hwt.1, hwt.2, dv 0 two_pos, qc]
    interval_cases i <;> interval_cases e <;> norm_num [exTwoMode, exTwoAdjoint, exTwoFactor, two, four]
  have src : ∀ Φ', SourceEq d 1 1 (pointSource d 1 0 0) Φ' → 5 / 2 * Φ' 0 - Φ' 1 / 2 = Φ' 2 / 2 + 1 ∧ 5 / 2 * Φ' 1 - Φ' 0 / 2 = Φ' 3 / 2 ∧
      Φ' 2 - Φ' 3 / 2 - Φ' 0 = 0 ∧ Φ' 3 - Φ' 2 / 2 - Φ' 1 = 0 := by
    intro Φ' hs
    have h := (source_iff S).2 hs
    rw [hn] at h
    have h0 := h 0 (by decide)
    have h1 := h 1 (by decide)
    have h2 := h 2 (by decide)
    have h3 := h 3 (by decide)
    rw [(hl Φ').1, (hf Φ').1, dc] at h0
    rw [(hl Φ').2.1, (hf Φ').2.1, dc] at h1
    rw [(hl Φ').2.2.1, (hf Φ').2.2.1, dc] at h2
    rw [(hl Φ').2.2.2.1, (hf Φ').2.2.2.1, dc] at h3
    norm_num [pointSource, dv] at h0 h1 h2 h3
    exact ⟨h0, h1, h2, h3⟩
  refine ⟨exTwoTools, exDrivenSettings 2, exTwoPlant, p', d, exTwoFactor, exTwoMode, exTwoAdjoint, _, rfl, hS, hF, hNu, hD, ha, rfl, rfl, hT, on, rfl,
    by rw [problem_ads rfl, hq, e], hm.forth same, rfl, rfl, fun n h => ⟨(Solve.equation_iff S).1 (fun x hx => ?_), (Solve.adjoint_iff S).1 (fun x hx => ?_)⟩,
    ?_, hΦ, by norm_num [four], fun hs => ?_, fun Φ' hs => ?_⟩
  · rw [hn] at hx ⊢
    obtain ⟨a0, a1, a2, a3, -⟩ := hl (exTwoMode n)
    obtain ⟨b0, b1, b2, b3, -⟩ := hf (exTwoMode n)
    interval_cases x
    · rw [a0, b0]; interval_cases n <;> norm_num [exTwoMode, exTwoFactor, two, four]
    · rw [a1, b1]; interval_cases n <;> norm_num [exTwoMode, exTwoFactor, two, four]
    · rw [a2, b2]; interval_cases n <;> norm_num [exTwoMode, exTwoFactor, two, four]
    · rw [a3, b3]; interval_cases n <;> norm_num [exTwoMode, exTwoFactor, two, four]
  · rw [hn] at hx ⊢
    obtain ⟨-, -, -, -, a0, a1, a2, a3⟩ := hl (exTwoAdjoint n)
    obtain ⟨-, -, -, -, b0, b1, b2, b3⟩ := hf (exTwoAdjoint n)
    interval_cases x
    · rw [a0, b0]; interval_cases n <;> norm_num [exTwoAdjoint, exTwoFactor, two, four]
    · rw [a1, b1]; interval_cases n <;> norm_num [exTwoAdjoint, exTwoFactor, two, four]
    · rw [a2, b2]; interval_cases n <;> norm_num [exTwoAdjoint, exTwoFactor, two, four]
    · rw [a3, b3]; interval_cases n <;> norm_num [exTwoAdjoint, exTwoFactor, two, four]
  · rintro k' φ' hk ⟨i, hi, h0⟩ he
    have h := (Solve.equation_iff S).2 he
    rw [hn] at h
    have e0 := h 0 (by decide)
    have e1 := h 1 (by decide)
    have e2 := h 2 (by decide)
    have e3 := h 3 (by decide)
    rw [(hl φ').1, (hf φ').1, eq_div_iff hk] at e0
    rw [(hl φ').2.1, (hf φ').2.1, eq_div_iff hk] at e1
    rw [(hl φ').2.2.1, (hf φ').2.2.1, zero_div] at e2
    rw [(hl φ').2.2.2.1, (hf φ').2.2.2.1, zero_div] at e3
    have p1 : (k' - 1 / 2) * (φ' 2 + φ' 3) = 0 := by linear_combination e0 + e1 + 2 * k' * (e2 + e3)
    have p2 : (k' - 1 / 9) * (φ' 2 - φ' 3) = 0 := by linear_combination 2 / 9 * (e0 - e1) + 2 / 3 * k' * (e2 - e3)
    by_cases z1 : φ' 2 + φ' 3 = 0
    · by_cases z2 : φ' 2 - φ' 3 = 0
      · exfalso
        have y2 : φ' 2 = 0 := by linarith
        have y3 : φ' 3 = 0 := by linarith
        refine h0 ?_
        interval_cases i <;> linarith
      · right
        have := (mul_eq_zero.1 p2).resolve_right z2
        show k' = 1 / 9
        linarith
    · left
      have := (mul_eq_zero.1 p1).resolve_right z1
      show k' = 1 / 2
      linarith
  · have := src _ hs
    norm_num [four] at this
  · obtain ⟨a1, a2, a3, a4⟩ := src _ hs
    linarith

end

end Verif.Calc
