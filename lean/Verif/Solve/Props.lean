import Verif.Solve.Examples

/-!
# Theorems about the criticality solvers, from input data to stored results
-/

namespace Verif.Solve

open Verif Outcome Finset Eigen Filter Topology

noncomputable section

open scoped Classical

variable {d : Diffusion.Data} {aL aR : ℝ} {lib : Numerics} {power : ℝ} {volM : Vec ℝ}

/-! ### C58: the equation solved -/

/-- **C58.** The matrices assembled for the forward calculation state the multigroup diffusion equation on the mesh: a flux balances them
exactly if collisions plus net outflow equal scattering in plus fission neutrons over `k` in each cell and group, with the currents of
Fick's law and the albedo conditions. -/
theorem C58_forward (S : Sound d aL aR) : ∃ M F, Diffusion.assemble d .forward = ok (M, F) ∧
    ∀ k φ, Balances (d.cells * d.energies) M F k φ ↔ DiffusionEq d aL aR k φ := by
  obtain ⟨M, F, h, -, eM, eF⟩ := forward_ok S
  refine ⟨M, F, h, fun k φ => ?_⟩
  rw [← equation_iff S]
  refine forall_congr' (fun p => forall_congr' (fun hp => ?_))
  have e1 : ∑ q ∈ range (d.cells * d.energies), M.m p q * φ q = act (d.cells * d.energies) (loss d aL aR) φ p :=
    sum_congr rfl (fun q hq => by rw [Fl.fin.inj (eM p q hp (mem_range.1 hq))])
  have e2 : ∑ q ∈ range (d.cells * d.energies), F.m p q * φ q = act (d.cells * d.energies) (fission d) φ p :=
    sum_congr rfl (fun q hq => by rw [Fl.fin.inj (eF p q hp (mem_range.1 hq))])
  rw [e1, e2]

/-- **C58.** The matrices of the adjoint calculation state the adjoint equation: scattering and fission with the groups exchanged, the
same currents. -/
theorem C58_adjoint (S : Sound d aL aR) : ∃ M F, Diffusion.assemble d .adjoint = ok (M, F) ∧
    ∀ k φ, Balances (d.cells * d.energies) M F k φ ↔ AdjointEq d aL aR k φ := by
  obtain ⟨M, F, h, -, eM, eF⟩ := adjoint_ok S
  refine ⟨M, F, h, fun k φ => ?_⟩
  rw [← adjoint_iff S]
  refine forall_congr' (fun p => forall_congr' (fun hp => ?_))
  have e1 : ∑ q ∈ range (d.cells * d.energies), M.m p q * φ q = act (d.cells * d.energies) (fun p q => loss d aL aR q p) φ p :=
    sum_congr rfl (fun q hq => by rw [Fl.fin.inj (eM p q hp (mem_range.1 hq))])
  have e2 : ∑ q ∈ range (d.cells * d.energies), F.m p q * φ q = act (d.cells * d.energies) (fun p q => fission d q p) φ p :=
    sum_congr rfl (fun q hq => by rw [Fl.fin.inj (eF p q hp (mem_range.1 hq))])
  rw [e1, e2]

example : ∃ M F, Diffusion.assemble Diffusion.exSlab .forward = ok (M, F) ∧
    ∀ k φ, Balances 6 M F k φ ↔ DiffusionEq Diffusion.exSlab (1 / 2) 0 k φ := C58_forward exSlab_sound

example : ∃ M F, Diffusion.assemble Diffusion.exSlab .adjoint = ok (M, F) ∧
    ∀ k φ, Balances 6 M F k φ ↔ AdjointEq Diffusion.exSlab (1 / 2) 0 k φ := C58_adjoint exSlab_sound

/-! ### C59: production, absorption, leakage -/

/-- **C59.** Neutron balance of the whole mesh. For every solution of the equations solved, production over `k` is absorption plus what
leaks through the two boundaries, provided the fission spectrum adds up to one where neutrons are produced. -/
theorem C59_balance (S : Sound d aL aR)
    (hchi : ∀ i, i < d.cells → (∃ g, g < d.energies ∧ d.nu.m g i * d.fiss.m g i ≠ 0) → ∑ g ∈ range d.energies, d.chi.m g i = 1) :
    ∃ M F, Diffusion.assemble d .forward = ok (M, F) ∧ ∀ k φ, Balances (d.cells * d.energies) M F k φ →
      ∃ J, Currents d aL aR φ J ∧ (∑ i ∈ range d.cells, d.vol.v i * production d φ i) / k =
        ∑ i ∈ range d.cells, d.vol.v i * absorption d φ i + ∑ g ∈ range d.energies, (J g d.cells - J g 0) := by
  obtain ⟨M, F, h, hiff⟩ := C58_forward S
  refine ⟨M, F, h, fun k φ hb => ?_⟩
  obtain ⟨J, hJ, he⟩ := (hiff k φ).1 hb
  refine ⟨J, hJ, ?_⟩
  exact global_balance hchi he

/-- **C59, leakage.** For a flux without negative entries nothing comes in through the boundaries on balance, and with reflecting boundaries
nothing goes out. -/
theorem C59_leakage (S : Sound d aL aR) (hsurf : ∀ i, i ≤ d.cells → 0 ≤ d.surf.v i) {φ : Nat → ℝ} {J : Nat → Nat → ℝ}
    (hφ : ∀ p, p < d.cells * d.energies → 0 ≤ φ p) (hJ : Currents d aL aR φ J) {g : Nat} (hg : g < d.energies) :
    0 ≤ J g d.cells ∧ 0 ≤ -(J g 0) ∧ (aR = 1 → J g d.cells = 0) ∧ (aL = 1 → J g 0 = 0) := by
  have hc := S.cells
  obtain ⟨r1, r2⟩ := boundary_current (S.pos.D_pos g hg (d.cells - 1) (by omega)) (S.pos.size_pos (d.cells - 1) (by omega)) S.right.1
    S.right.2 (hsurf d.cells le_rfl) (hφ _ (flat_lt (by omega) hg)) (hJ.right g hg)
  obtain ⟨l1, l2⟩ := boundary_current (S.pos.D_pos g hg 0 (by omega)) (S.pos.size_pos 0 (by omega)) S.left.1
    S.left.2 (hsurf 0 (Nat.zero_le _)) (hφ _ (flat_lt (by omega) hg)) (hJ.left g hg)
  exact ⟨r1, l1, r2, fun h => by have := l2 h; linarith⟩

/-- **C59, consequence.** The multiplication factor of a physical flux never exceeds production over absorption, and equals it for
reflecting boundaries. -/
theorem C59_multiplication (S : Sound d aL aR) (habs : Diffusion.Absorbing d)
    (hchi : ∀ i, i < d.cells → (∃ g, g < d.energies ∧ d.nu.m g i * d.fiss.m g i ≠ 0) → ∑ g ∈ range d.energies, d.chi.m g i = 1) :
    ∃ M F, Diffusion.assemble d .forward = ok (M, F) ∧ ∀ k φ, 0 < k → Physical d.cells d.energies φ →
      Balances (d.cells * d.energies) M F k φ →
      0 < ∑ i ∈ range d.cells, d.vol.v i * absorption d φ i ∧
      k ≤ (∑ i ∈ range d.cells, d.vol.v i * production d φ i) / ∑ i ∈ range d.cells, d.vol.v i * absorption d φ i ∧
      (aL = 1 → aR = 1 →
        k = (∑ i ∈ range d.cells, d.vol.v i * production d φ i) / ∑ i ∈ range d.cells, d.vol.v i * absorption d φ i) := by
  obtain ⟨M, F, h, hb⟩ := C59_balance S hchi
  refine ⟨M, F, h, fun k φ hk hφ hB => ?_⟩
  obtain ⟨J, hJ, e⟩ := hb k φ hB
  have hpos := absorption_pos habs hφ
  have hleak : 0 ≤ ∑ g ∈ range d.energies, (J g d.cells - J g 0) := sum_nonneg (fun g hg => by
    obtain ⟨h1, h2, -⟩ := C59_leakage S habs.surf_nonneg hφ.1 hJ (mem_range.1 hg)
    linarith)
  refine ⟨hpos, ?_, fun h1 h2 => ?_⟩
  · rw [le_div_iff₀ hpos]
    have := mul_le_mul_of_nonneg_left (show ∑ i ∈ range d.cells, d.vol.v i * absorption d φ i ≤
      (∑ i ∈ range d.cells, d.vol.v i * production d φ i) / k by rw [e]; linarith) hk.le
    rwa [mul_div_cancel₀ _ hk.ne'] at this
  · have h0 : ∑ g ∈ range d.energies, (J g d.cells - J g 0) = 0 := sum_eq_zero (fun g hg => by
      obtain ⟨-, -, h3, h4⟩ := C59_leakage S habs.surf_nonneg hφ.1 hJ (mem_range.1 hg)
      rw [h3 h2, h4 h1, sub_zero])
    rw [h0, add_zero, div_eq_iff hk.ne'] at e
    rw [e, mul_div_cancel_left₀ _ hpos.ne']

/-- the spectrum of the example adds up to one -/
example : ∃ M F, Diffusion.assemble Diffusion.exSlab .forward = ok (M, F) ∧ ∀ k φ, 0 < k → Physical 3 2 φ → Balances 6 M F k φ →
    k ≤ (∑ i ∈ range 3, Diffusion.exSlab.vol.v i * production Diffusion.exSlab φ i) /
      ∑ i ∈ range 3, Diffusion.exSlab.vol.v i * absorption Diffusion.exSlab φ i := by
  obtain ⟨M, F, h, hall⟩ := C59_multiplication exSlab_sound exSlab_absorbing (fun i _ _ => by norm_num [Diffusion.exSlab, sum_range_succ])
  exact ⟨M, F, h, fun k φ hk hφ hb => (hall k φ hk hφ hb).2.1⟩

/-! ### C60: whatever is returned is physical -/

/-- **C60.** If the forward calculation of the fundamental mode returns, then with non-negative data it has stored one positive k-factor, a
flux without negative entries that adds up to one, and heat sources that add up to the thermal power, are distributed like the
fissions and are not negative. Old heat sources are kept, adjoint results are left alone. -/
theorem C60_diffusion (S : Sound d aL aR) (habs : Diffusion.Absorbing d) (hf : NonnegFission d) (hlib : SolvesRegular lib)
    (hV : Volumes d.cells volM) {maxIter : Int} {acc : ℝ} {s s' : State}
    (h : diffusion lib ⟨.forward, .fundamental, maxIter, acc⟩ d power volM s = ok s') :
    ∃ (k : ℝ) (φ : Nat → ℝ), Reports s'.forward d.cells d.energies k φ ∧ 0 < k ∧
      (∀ p, p < d.cells * d.energies → 0 ≤ φ p) ∧ ∑ p ∈ range (d.cells * d.energies), φ p = 1 ∧
      Heats d.cells power volM (fissions d φ) s'.heat ∧ (0 ≤ power → ∀ i, i < d.cells → 0 ≤ s'.heat.v i) ∧
      0 < ∑ i ∈ range d.cells, fissions d φ i ∧ s'.oldHeat = s.heat ∧ s'.adjoint = s.adjoint := by
  obtain ⟨M, F, sq, eM, eF, hrun⟩ := forward_run S
  obtain ⟨hM, hsolv⟩ := loss_inverse S habs
  rw [hrun] at h
  obtain ⟨ms, h1, h2⟩ := bind_eq_ok.1 h
  obtain ⟨kf, φf, h3, rfl⟩ := eigenmodes_fundamental.1 h1
  obtain ⟨k, φ, rfl, hk, hn, hv, hs⟩ := C53_positive sq eF (solves_of_lib hlib sq.1 sq.2.1 eM hsolv) hM
    (fun i j hi hj => fission_nonneg habs.vol_pos hf hi hj) h3
  obtain ⟨hr, ha, ho, x, xn, xv, hh⟩ := setForward_one hn (fun i hi => (hv i hi).1) h2
  obtain ⟨hH, h0⟩ := heat_of S.wf hV (by have := S.cells; omega) xn xv hh
  exact ⟨k, φ, hr, hk, fun p hp => (hv p hp).2, hs, hH, fun hp => heats_nonneg hV hH hp (fun i hi =>
    fissions_nonneg habs.vol_pos hf.fiss (fun p hp => (hv p hp).2) hi) h0,
    lt_of_le_of_ne (sum_nonneg fun i hi => fissions_nonneg habs.vol_pos hf.fiss (fun p hp => (hv p hp).2) (mem_range.1 hi)) (Ne.symm h0), ho, ha⟩

/-- the hypotheses hold for the slab of three cells -/
example {s s' : State} (h : diffusion exLib ⟨.forward, .fundamental, 100, 1 / 1000⟩ Diffusion.exSlab 50 ⟨3, fun _ => 1⟩ s = ok s') :
    ∃ (k : ℝ) (φ : Nat → ℝ), Reports s'.forward 3 2 k φ ∧ 0 < k ∧ ∑ i ∈ range 3, s'.heat.v i * 1 = 50 := by
  obtain ⟨k, φ, h1, h2, -, -, h3, -⟩ := C60_diffusion exSlab_sound exSlab_absorbing exSlab_fission exLib_solves
    ⟨rfl, fun _ _ => one_pos⟩ h
  exact ⟨k, φ, h1, h2, h3.2.1⟩

/-! ### C61: what a calculation leaves alone -/

/-- **C61.** The forward calculation, of whatever modes, changes nothing but the forward results, the heat sources and the remembered old
heat sources, which become those before the calculation. -/
theorem C61_forward {o : Options} (ho : o.direction = .forward) {s s' : State} (h : diffusion lib o d power volM s = ok s') :
    s'.adjoint = s.adjoint ∧ s'.oldHeat = s.heat := by
  unfold diffusion at h
  rw [ho] at h
  dsimp only at h
  obtain ⟨A, -, h⟩ := bind_eq_ok.1 h
  obtain ⟨ms, -, h⟩ := bind_eq_ok.1 h
  unfold setForward at h
  obtain ⟨st, -, h⟩ := bind_eq_ok.1 h
  obtain ⟨x, -, h⟩ := bind_eq_ok.1 h
  obtain ⟨q, -, h⟩ := bind_eq_ok.1 h
  injection h with h
  subst h
  exact ⟨rfl, rfl⟩

/-- **C61.** The adjoint calculation changes nothing but the adjoint results and the remembered old heat sources: forward k-factors,
forward fluxes and heat sources stay. -/
theorem C61_adjoint {o : Options} (ho : o.direction = .adjoint) {s s' : State} (h : diffusion lib o d power volM s = ok s') :
    s'.forward = s.forward ∧ s'.heat = s.heat ∧ s'.oldHeat = s.heat := by
  unfold diffusion at h
  rw [ho] at h
  dsimp only at h
  obtain ⟨A, -, h⟩ := bind_eq_ok.1 h
  obtain ⟨ms, -, h⟩ := bind_eq_ok.1 h
  unfold setAdjoint at h
  obtain ⟨st, -, h⟩ := bind_eq_ok.1 h
  injection h with h
  subst h
  exact ⟨rfl, rfl, rfl⟩

/-! ### C62: convergence to the one physical solution -/

/-- **C62.** For a regular problem the diffusion equation has exactly one physical solution up to scaling, and the forward calculation
converges to it. -/
theorem C62_forward (R : Regular d aL aR) (hf : ∀ g i, g < d.energies → i < d.cells → 0 ≤ d.fiss.m g i) (hlib : SolvesRegular lib)
    (hV : Volumes d.cells volM) (s : State) :
    ∃ (k : ℝ) (φ : Nat → ℝ), 0 < k ∧ Physical d.cells d.energies φ ∧ ∑ p ∈ range (d.cells * d.energies), φ p = 1 ∧
      DiffusionEq d aL aR k φ ∧
      (∀ k' ψ, Physical d.cells d.energies ψ → DiffusionEq d aL aR k' ψ →
        k' = k ∧ ∃ c, ∀ p, p < d.cells * d.energies → ψ p = c * φ p) ∧
      Converges (fun maxIter acc => diffusion lib ⟨.forward, .fundamental, maxIter, acc⟩ d power volM s) State.forward
        d.cells d.energies (DiffusionGenerations d aL aR) k φ := by
  obtain ⟨M, F, sq, eM, eF, hrun⟩ := forward_run R.sound
  obtain ⟨hM, hsolv⟩ := loss_inverse R.sound R.absorbing
  obtain ⟨k, φ, κ, y, hk, he, h0, h1, hu, tk, ty, y0, -, ye, hpow, hret, hon, hex⟩ := run_all sq eF (solves_of_lib hlib sq.1 sq.2.1 eM hsolv) hM
    (loss_off R.sound R.absorbing) (fission_factored R.absorbing.vol_pos R.multiplying) R.connected R.fission_pos
  refine ⟨k, φ, hk, ⟨h0, he.1⟩, h1, (equation_iff R.sound).1 he.2, fun k' ψ hψ heq => ?_, κ, y,
    hpow.generations (fun φ g i _ hi => fission_apply φ hi) (fun _ _ => (source_balance R.sound).1), tk, ty, ?_, ?_, ?_⟩
  · exact hu k' ψ ⟨hψ.2, (equation_iff R.sound).2 heq⟩ hψ.1
  · intro maxIter acc s' h
    dsimp only at h
    rw [hrun] at h
    obtain ⟨ms, h2, h3⟩ := bind_eq_ok.1 h
    obtain ⟨kf, φf, h4, rfl⟩ := eigenmodes_fundamental.1 h2
    obtain ⟨n, hn, hc, hno, rfl, hφn, hφv⟩ := hret maxIter acc kf φf h4
    exact ⟨n, hn, hc, hno, (setForward_one hφn hφv h3).1⟩
  · intro maxIter acc q g1 g2 g3
    obtain ⟨kf, φf, h4⟩ := hon maxIter acc q g1 g2 g3
    obtain ⟨n, -, -, -, rfl, hφn, hφv⟩ := hret maxIter acc kf φf h4
    dsimp only
    rw [hrun, eigenmodes_fundamental.2 ⟨_, _, h4, rfl⟩, ok_bind]
    refine setForward_ok _ hφn hφv (fun x xn xv => heat_exists R.wf hV ?_ xn xv)
    obtain ⟨p, hp, hpe⟩ := R.some_site
    exact (fissions_pos R.absorbing.vol_pos hf (y0 (n + 1)) hp (ye (n + 1) p (R.site_lt hp) hpe)).ne'
  · intro acc hacc
    obtain ⟨n0, hn0⟩ := hex acc hacc
    refine ⟨n0, fun maxIter g1 g2 => ?_⟩
    obtain ⟨kf, φf, h4⟩ := hn0 maxIter g1 g2
    obtain ⟨n, -, -, -, rfl, hφn, hφv⟩ := hret maxIter acc kf φf h4
    dsimp only
    rw [hrun, eigenmodes_fundamental.2 ⟨_, _, h4, rfl⟩, ok_bind]
    refine setForward_ok _ hφn hφv (fun x xn xv => heat_exists R.wf hV ?_ xn xv)
    obtain ⟨p, hp, hpe⟩ := R.some_site
    exact (fissions_pos R.absorbing.vol_pos hf (y0 (n + 1)) hp (ye (n + 1) p (R.site_lt hp) hpe)).ne'

/-- **C62.** The same for the adjoint calculation, and both converge to the same k-factor. -/
theorem C62_adjoint (R : Regular d aL aR) (hlib : SolvesRegular lib) (s : State) :
    ∃ (k : ℝ) (φ : Nat → ℝ), 0 < k ∧ Physical d.cells d.energies φ ∧ ∑ p ∈ range (d.cells * d.energies), φ p = 1 ∧
      AdjointEq d aL aR k φ ∧
      (∀ k' ψ, Physical d.cells d.energies ψ → AdjointEq d aL aR k' ψ →
        k' = k ∧ ∃ c, ∀ p, p < d.cells * d.energies → ψ p = c * φ p) ∧
      (∀ k' ψ, Physical d.cells d.energies ψ → DiffusionEq d aL aR k' ψ → k' = k) ∧
      Converges (fun maxIter acc => diffusion lib ⟨.adjoint, .fundamental, maxIter, acc⟩ d power volM s) State.adjoint
        d.cells d.energies (AdjointGenerations d aL aR) k φ := by
  obtain ⟨M, F, sq, eM, eF, hrun⟩ := adjoint_run R.sound
  obtain ⟨hM, hsolv⟩ := loss_inverse R.sound R.absorbing
  have hMt := inverse_transpose hM hsolv
  obtain ⟨k, φ, κ, y, hk, he, h0, h1, hu, tk, ty, y0, -, ye, hpow, hret, hon, hex⟩ := run_all sq eF
    (solves_of_lib hlib sq.1 sq.2.1 eM (solvable_of_positive hMt)) hMt
    (fun i j hi hj hne => loss_off R.sound R.absorbing j i hj hi (Ne.symm hne)) (adjoint_factored R.absorbing.vol_pos R.multiplying)
    R.connected_adjoint (by obtain ⟨x, y, hx, hy, h⟩ := R.fission_pos; exact ⟨y, x, hy, hx, h⟩)
  refine ⟨k, φ, hk, ⟨h0, he.1⟩, h1, (adjoint_iff R.sound).1 he.2, fun k' ψ hψ heq => ?_, fun k' ψ hψ heq => ?_, κ, y,
    hpow.generations (fun φ g i _ hi => adjoint_fission_apply φ hi) (fun _ _ => (adjoint_balance R.sound).1), tk, ty, ?_, ?_, ?_⟩
  · exact hu k' ψ ⟨hψ.2, (adjoint_iff R.sound).2 heq⟩ hψ.1
  · exact R.same_k ⟨hψ.2, (equation_iff R.sound).2 heq⟩ hψ.1 he h0
  · intro maxIter acc s' h
    dsimp only at h
    rw [hrun] at h
    obtain ⟨ms, h2, h3⟩ := bind_eq_ok.1 h
    obtain ⟨kf, φf, h4, rfl⟩ := eigenmodes_fundamental.1 h2
    obtain ⟨n, hn, hc, hno, rfl, hφn, hφv⟩ := hret maxIter acc kf φf h4
    obtain ⟨st, h5, hr⟩ := setAdjoint_one (k := κ (n + 1)) { s with oldHeat := s.heat } hφn hφv
    rw [h5] at h3
    injection h3 with h3
    subst h3
    exact ⟨n, hn, hc, hno, hr⟩
  · intro maxIter acc q g1 g2 g3
    obtain ⟨kf, φf, h4⟩ := hon maxIter acc q g1 g2 g3
    obtain ⟨n, -, -, -, rfl, hφn, hφv⟩ := hret maxIter acc kf φf h4
    obtain ⟨st, h5, -⟩ := setAdjoint_one (k := κ (n + 1)) { s with oldHeat := s.heat } hφn hφv
    dsimp only
    rw [hrun, eigenmodes_fundamental.2 ⟨_, _, h4, rfl⟩, ok_bind, h5]
    exact ⟨_, rfl⟩
  · intro acc hacc
    obtain ⟨n0, hn0⟩ := hex acc hacc
    refine ⟨n0, fun maxIter g1 g2 => ?_⟩
    obtain ⟨kf, φf, h4⟩ := hn0 maxIter g1 g2
    obtain ⟨n, -, -, -, rfl, hφn, hφv⟩ := hret maxIter acc kf φf h4
    obtain ⟨st, h5, -⟩ := setAdjoint_one (k := κ (n + 1)) { s with oldHeat := s.heat } hφn hφv
    dsimp only
    rw [hrun, eigenmodes_fundamental.2 ⟨_, _, h4, rfl⟩, ok_bind, h5]
    exact ⟨_, rfl⟩

/-- **C62.** The generations are determined by the data: there is only one sequence of k-factors and one of fluxes. -/
theorem C62_generations (S : Sound d aL aR) (habs : Diffusion.Absorbing d) {κ κ' : Nat → ℝ} {y y' : Nat → Nat → ℝ}
    (h : DiffusionGenerations d aL aR κ y) (h' : DiffusionGenerations d aL aR κ' y') :
    ∀ j, κ j = κ' j ∧ ∀ p, p < d.cells * d.energies → y j p = y' j p := by
  obtain ⟨hM, -⟩ := loss_inverse S habs
  refine generations_unique (fun φ ψ g i hg hi e => ?_) (fun q q' φ ψ hq e1 e2 => ?_) h h'
  · rw [← fission_apply φ hi, ← fission_apply ψ hi]
    exact act_congr e _
  · refine inverse_inj hM (fun p hp => ?_)
    obtain ⟨i, g, hi, hg, rfl⟩ := flat_surj hp
    rw [(source_balance S).2 e1 g i hg hi, (source_balance S).2 e2 g i hg hi, hq g i hg hi]

/-- **C62.** The same for the adjoint calculation. -/
theorem C62_generations_adjoint (S : Sound d aL aR) (habs : Diffusion.Absorbing d) {κ κ' : Nat → ℝ} {y y' : Nat → Nat → ℝ}
    (h : AdjointGenerations d aL aR κ y) (h' : AdjointGenerations d aL aR κ' y') :
    ∀ j, κ j = κ' j ∧ ∀ p, p < d.cells * d.energies → y j p = y' j p := by
  obtain ⟨hM, hsolv⟩ := loss_inverse S habs
  have hMt := inverse_transpose hM hsolv
  refine generations_unique (fun φ ψ g i hg hi e => ?_) (fun q q' φ ψ hq e1 e2 => ?_) h h'
  · rw [← adjoint_fission_apply φ hi, ← adjoint_fission_apply ψ hi]
    exact act_congr e _
  · refine inverse_inj hMt (fun p hp => ?_)
    obtain ⟨i, g, hi, hg, rfl⟩ := flat_surj hp
    rw [(adjoint_balance S).2 e1 g i hg hi, (adjoint_balance S).2 e2 g i hg hi, hq g i hg hi]

/-- the generations of the slab (there are some, by the examples below) -/
example {κ κ' : Nat → ℝ} {y y' : Nat → Nat → ℝ} (h : DiffusionGenerations Diffusion.exSlab (1 / 2) 0 κ y)
    (h' : DiffusionGenerations Diffusion.exSlab (1 / 2) 0 κ' y') : κ 7 = κ' 7 ∧ y 7 5 = y' 7 5 :=
  have k := C62_generations exSlab_sound exSlab_absorbing h h' 7
  ⟨k.1, k.2 5 (by norm_num [Diffusion.exSlab])⟩

example {κ κ' : Nat → ℝ} {y y' : Nat → Nat → ℝ} (h : AdjointGenerations Diffusion.exSlab (1 / 2) 0 κ y)
    (h' : AdjointGenerations Diffusion.exSlab (1 / 2) 0 κ' y') : κ 7 = κ' 7 ∧ y 7 5 = y' 7 5 :=
  have k := C62_generations_adjoint exSlab_sound exSlab_absorbing h h' 7
  ⟨k.1, k.2 5 (by norm_num [Diffusion.exSlab])⟩

/-- both calculations of the slab converge -/
example (s : State) : ∃ (k : ℝ) (φ : Nat → ℝ), 0 < k ∧ DiffusionEq Diffusion.exSlab (1 / 2) 0 k φ ∧
    Converges (fun maxIter acc => diffusion exLib ⟨.forward, .fundamental, maxIter, acc⟩ Diffusion.exSlab 50 ⟨3, fun _ => 1⟩ s)
      State.forward 3 2 (DiffusionGenerations Diffusion.exSlab (1 / 2) 0) k φ := by
  obtain ⟨k, φ, h1, -, -, h2, -, h3⟩ := C62_forward (power := 50) (volM := ⟨3, fun _ => 1⟩) exSlab_regular exSlab_fission.fiss
    exLib_solves ⟨rfl, fun _ _ => one_pos⟩ s
  exact ⟨k, φ, h1, h2, h3⟩

example (s : State) : ∃ (k : ℝ) (φ : Nat → ℝ), 0 < k ∧ AdjointEq Diffusion.exSlab (1 / 2) 0 k φ ∧
    Converges (fun maxIter acc => diffusion exLib ⟨.adjoint, .fundamental, maxIter, acc⟩ Diffusion.exSlab 50 ⟨3, fun _ => 1⟩ s)
      State.adjoint 3 2 (AdjointGenerations Diffusion.exSlab (1 / 2) 0) k φ := by
  obtain ⟨k, φ, h1, -, -, h2, -, -, h3⟩ := C62_adjoint (power := 50) (volM := ⟨3, fun _ => 1⟩) exSlab_regular exLib_solves s
  exact ⟨k, φ, h1, h2, h3⟩

/-! ### C63: infinite medium -/

/-- **C63.** With reflecting boundaries and the same medium everywhere the forward calculation converges to the multiplication factor and
the spectrum of the infinite medium, with a flux that is the same in all cells. -/
theorem C63_diffusion (R : Regular d 1 1) (hf : ∀ g i, g < d.energies → i < d.cells → 0 ≤ d.fiss.m g i) (hlib : SolvesRegular lib)
    (hV : Volumes d.cells volM) (s : State) {k : ℝ} {sp : Nat → ℝ} (h0 : ∀ g, g < d.energies → 0 ≤ sp g)
    (h1 : ∑ g ∈ range d.energies, sp g = 1)
    (hinf : ∀ i, i < d.cells → InfiniteMedium d.energies (fun g => d.tot.m g i) (fun g h => d.scatt g h i) (fun g => d.chi.m g i)
      (fun g => d.nu.m g i * d.fiss.m g i) k sp) :
    Converges (fun maxIter acc => diffusion lib ⟨.forward, .fundamental, maxIter, acc⟩ d power volM s) State.forward
      d.cells d.energies (DiffusionGenerations d 1 1) k (fun p => sp (p / d.cells) / d.cells) := by
  obtain ⟨kt, φ, hk, hφ, hs, heq, hu, hc⟩ := C62_forward (power := power) R hf hlib hV s
  have hcp : 0 < d.cells := by have := R.cells; omega
  have hphys : Physical d.cells d.energies (fun p => sp (p / d.cells) / d.cells) := by
    refine ⟨fun p hp => ?_, ?_⟩
    · obtain ⟨i, g, hi, hg, rfl⟩ := flat_surj hp
      dsimp only
      rw [flat_div hi]
      exact div_nonneg (h0 g hg) (Nat.cast_nonneg _)
    · by_contra hcon
      push Not at hcon
      have : ∑ g ∈ range d.energies, sp g = 0 := sum_eq_zero (fun g hg => by
        have := hcon (0 + g * d.cells) (flat_lt hcp (mem_range.1 hg))
        rw [flat_div hcp] at this
        exact (div_eq_zero_iff.1 this).resolve_right (by exact_mod_cast hcp.ne'))
      rw [this] at h1
      exact zero_ne_one h1
  have heq' := flat_solves R.sound (sp := fun g => sp g / d.cells) (k := k) (fun i hi g hg => by
    have := hinf i hi g hg
    dsimp only at this ⊢
    rw [mul_div_assoc', this, add_div, sum_div]
    congr 1
    · exact sum_congr rfl (fun h _ => by ring)
    · rw [mul_div_assoc, mul_div_assoc, div_right_comm, mul_div_assoc, sum_div]
      congr 2
      exact sum_congr rfl (fun h _ => by ring))
  obtain ⟨e, c, hc'⟩ := hu k _ hphys heq'
  subst e
  have hsum : ∑ p ∈ range (d.cells * d.energies), sp (p / d.cells) / d.cells = 1 := by
    rw [sum_flat, ← h1]
    refine sum_congr rfl (fun g hg => ?_)
    rw [sum_congr rfl (fun i hi => by rw [flat_div (mem_range.1 hi)]), sum_const, card_range, nsmul_eq_mul,
      mul_div_cancel₀ _ (by exact_mod_cast hcp.ne')]
  have c1 : c = 1 := by
    rw [sum_congr rfl (fun p hp => hc' p (mem_range.1 hp)), ← mul_sum, hs, mul_one] at hsum
    exact hsum
  obtain ⟨κ, y, hg, tk, ty, ha, hb⟩ := hc
  refine ⟨κ, y, hg, tk, fun p hp => ?_, ha, hb⟩
  have e := hc' p hp
  rw [c1, one_mul] at e
  dsimp only
  rw [e]
  exact ty p hp

/-- the medium of the example has k = 1/2 and the spectrum 2/3, 1/3 -/
example (s : State) : Converges (fun maxIter acc => diffusion exLib ⟨.forward, .fundamental, maxIter, acc⟩ exMedium 50 ⟨3, fun _ => 1⟩ s)
    State.forward 3 2 (DiffusionGenerations exMedium 1 1) (1 / 2) (fun p => (if p / 3 = 0 then 2 / 3 else 1 / 3) / (3 : ℕ)) :=
  C63_diffusion exMedium_regular exMedium_fiss exLib_solves ⟨rfl, fun _ _ => one_pos⟩ s (sp := fun g => if g = 0 then 2 / 3 else 1 / 3)
    (fun g _ => by positivity) (by norm_num [exMedium, sum_range_succ]) (fun i _ => exMedium_infinite i)

/-! ### C64: the fundamental and the all-modes calculation agree -/

/-- **C64.** If the library finds the eigenvalues (all real) and eigenvectors of the matrices, the forward calculation of all modes stores the
physical solution, to which the calculation of the fundamental mode converges (C62), as the first mode, and every other mode with its
own k-factor, not above the first, and a flux that solves the diffusion equation with it. It returns if the k-factor is above the tolerance.
The heat sources are those of the first mode. -/
theorem C64_forward (R : Regular d aL aR) (hf : ∀ g i, g < d.energies → i < d.cells → 0 ≤ d.fiss.m g i) (hsort : SortsDown lib.sort)
    (hV : Volumes d.cells volM) (maxIter : Int) (acc : ℝ) (s : State) :
    ∃ (M F : Mat ℝ) (k : ℝ) (φ : Nat → ℝ), Diffusion.assemble d .forward = ok (M, F) ∧ Physical d.cells d.energies φ ∧
      ∑ p ∈ range (d.cells * d.energies), φ p = 1 ∧ DiffusionEq d aL aR k φ ∧ (FindsModes lib (d.cells * d.energies) M F →
        (10 / 2 ^ 52 < k → ∃ s', diffusion lib ⟨.forward, .all, maxIter, acc⟩ d power volM s = ok s') ∧
        ∀ s', diffusion lib ⟨.forward, .all, maxIter, acc⟩ d power volM s = ok s' →
          ListsModes s'.forward d.cells d.energies (DiffusionEq d aL aR) k φ ∧ Heats d.cells power volM (fissions d φ) s'.heat) := by
  obtain ⟨sol, St⟩ := R.setting
  obtain ⟨M, F, h, sq, eM, eF⟩ := forward_ok R.sound
  obtain ⟨k, φ, hk, he, h0, h1, -⟩ := St.fundamental
  have mM : ∀ p q, p < d.cells * d.energies → q < d.cells * d.energies → M.m p q = loss d aL aR p q := fun p q hp hq =>
    Fl.fin.inj (eM p q hp hq)
  have mF : ∀ p q, p < d.cells * d.energies → q < d.cells * d.energies → F.m p q = fission d p q := fun p q hp hq =>
    Fl.fin.inj (eF p q hp hq)
  have he' : Eigenpair (d.cells * d.energies) M.m F.m k φ :=
    Eigenpair.congr' (fun p q hp hq => (mM p q hp hq).symm) (fun p q hp hq => (mF p q hp hq).symm) he
  refine ⟨M, F, k, φ, h, ⟨h0, he.1⟩, h1, (equation_iff R.sound).1 he.2, fun hfm => ?_⟩
  obtain ⟨m1, m2⟩ := modes_all hsort sq (fun p q _ _ => rfl) (fun p q _ _ => rfl) hfm he' h0 h1
    (fun k' ψ hψ => St.dominates he h0 (Eigenpair.congr' mM mF hψ)) .forward maxIter acc
  have hrun : diffusion lib ⟨.forward, .all, maxIter, acc⟩ d power volM s =
      eigenmodes lib ⟨.forward, .all, maxIter, acc⟩ (lift M) (lift F) >>= fun ms =>
        setForward d.cells d.energies (Diffusion.newHeatSource d power volM) ms { s with oldHeat := s.heat } := by
    unfold diffusion
    dsimp only
    rw [h, ok_bind]
  have after : ∀ l, eigenmodes lib ⟨.forward, .all, maxIter, acc⟩ (lift M) (lift F) = ok l → ∃ st x,
      store d.cells d.energies l = ok st ∧ ListsModes st d.cells d.energies (DiffusionEq d aL aR) k φ ∧ heatModes l = ok [x] ∧
      x.n = d.cells * d.energies ∧ ∀ p, p < d.cells * d.energies → x.v p = φ p := by
    intro l hl
    obtain ⟨⟨x, hx0, xn, xv⟩, g2, g3⟩ := m2 l hl
    obtain ⟨st, hst, hm⟩ := store_all (eqn := DiffusionEq d aL aR) ⟨x, hx0, xn, xv⟩ (fun m hm => by
      obtain ⟨k', y, q1, q2, q3, q4, q5, q6⟩ := g2 m hm
      exact ⟨k', y, q1, q2, q3, q4, q5, q6.1, (equation_iff R.sound).1 (Eigenpair.congr' mM mF q6).2⟩) g3
    obtain ⟨z, hz, zn, zv⟩ := heatModes_first hx0 (y := φ) (fun i hi => xv i (by rw [← xn]; exact hi))
    exact ⟨st, z, hst, hm, hz, by rw [zn, xn], fun p hp => zv p (by rw [xn]; exact hp)⟩
  constructor
  · intro hkt
    obtain ⟨l, hl⟩ := m1 hkt
    obtain ⟨st, x, a1, -, a3, a4, a5⟩ := after l hl
    obtain ⟨p, hp, hpe⟩ := R.some_site
    have hem := (St.eigen_emission he h0).2.1 ⟨p, mem_filter.2 ⟨mem_range.2 (R.site_lt hp), hpe⟩⟩
    obtain ⟨q, hq⟩ := heat_exists (power := power) R.wf hV (fissions_pos R.absorbing.vol_pos hf h0 hp hem).ne' a4 a5
    rw [hrun, hl, ok_bind]
    unfold setForward
    rw [a1, ok_bind, a3, ok_bind, hq, ok_bind]
    exact ⟨_, rfl⟩
  · intro s' hs
    rw [hrun] at hs
    obtain ⟨l, hl, hs⟩ := bind_eq_ok.1 hs
    obtain ⟨st, x, a1, a2, a3, a4, a5⟩ := after l hl
    unfold setForward at hs
    rw [a1, ok_bind, a3, ok_bind] at hs
    obtain ⟨q, hq, hs⟩ := bind_eq_ok.1 hs
    injection hs with hs
    subst hs
    exact ⟨a2, (heat_of R.wf hV (by have := R.cells; omega) a4 a5 hq).1⟩

/-- **C64.** The same for the adjoint calculation. -/
theorem C64_adjoint (R : Regular d aL aR) (hsort : SortsDown lib.sort) (maxIter : Int) (acc : ℝ) (s : State) :
    ∃ (M F : Mat ℝ) (k : ℝ) (φ : Nat → ℝ), Diffusion.assemble d .adjoint = ok (M, F) ∧ Physical d.cells d.energies φ ∧
      ∑ p ∈ range (d.cells * d.energies), φ p = 1 ∧ AdjointEq d aL aR k φ ∧ (FindsModes lib (d.cells * d.energies) M F →
        (10 / 2 ^ 52 < k → ∃ s', diffusion lib ⟨.adjoint, .all, maxIter, acc⟩ d power volM s = ok s') ∧
        ∀ s', diffusion lib ⟨.adjoint, .all, maxIter, acc⟩ d power volM s = ok s' →
          ListsModes s'.adjoint d.cells d.energies (AdjointEq d aL aR) k φ) := by
  obtain ⟨sol, St⟩ := R.setting_adjoint
  obtain ⟨M, F, h, sq, eM, eF⟩ := adjoint_ok R.sound
  obtain ⟨k, φ, hk, he, h0, h1, -⟩ := St.fundamental
  have mM : ∀ p q, p < d.cells * d.energies → q < d.cells * d.energies → M.m p q = loss d aL aR q p := fun p q hp hq =>
    Fl.fin.inj (eM p q hp hq)
  have mF : ∀ p q, p < d.cells * d.energies → q < d.cells * d.energies → F.m p q = fission d q p := fun p q hp hq =>
    Fl.fin.inj (eF p q hp hq)
  have he' : Eigenpair (d.cells * d.energies) M.m F.m k φ :=
    Eigenpair.congr' (fun p q hp hq => (mM p q hp hq).symm) (fun p q hp hq => (mF p q hp hq).symm) he
  refine ⟨M, F, k, φ, h, ⟨h0, he.1⟩, h1, (adjoint_iff R.sound).1 he.2, fun hfm => ?_⟩
  obtain ⟨m1, m2⟩ := modes_all hsort sq (fun p q _ _ => rfl) (fun p q _ _ => rfl) hfm he' h0 h1
    (fun k' ψ hψ => St.dominates he h0 (Eigenpair.congr' mM mF hψ)) .adjoint maxIter acc
  have hrun : diffusion lib ⟨.adjoint, .all, maxIter, acc⟩ d power volM s =
      eigenmodes lib ⟨.adjoint, .all, maxIter, acc⟩ (lift M) (lift F) >>= fun ms =>
        setAdjoint d.cells d.energies ms { s with oldHeat := s.heat } := by
    unfold diffusion
    dsimp only
    rw [h, ok_bind]
  have after : ∀ l, eigenmodes lib ⟨.adjoint, .all, maxIter, acc⟩ (lift M) (lift F) = ok l → ∃ st,
      store d.cells d.energies l = ok st ∧ ListsModes st d.cells d.energies (AdjointEq d aL aR) k φ := by
    intro l hl
    obtain ⟨g1, g2, g3⟩ := m2 l hl
    exact store_all (eqn := AdjointEq d aL aR) g1 (fun m hm => by
      obtain ⟨k', y, q1, q2, q3, q4, q5, q6⟩ := g2 m hm
      exact ⟨k', y, q1, q2, q3, q4, q5, q6.1, (adjoint_iff R.sound).1 (Eigenpair.congr' mM mF q6).2⟩) g3
  constructor
  · intro hkt
    obtain ⟨l, hl⟩ := m1 hkt
    obtain ⟨st, a1, -⟩ := after l hl
    rw [hrun, hl, ok_bind]
    unfold setAdjoint
    rw [a1, ok_bind]
    exact ⟨_, rfl⟩
  · intro s' hs
    rw [hrun] at hs
    obtain ⟨l, hl, hs⟩ := bind_eq_ok.1 hs
    obtain ⟨st, a1, a2⟩ := after l hl
    unfold setAdjoint at hs
    rw [a1, ok_bind] at hs
    injection hs with hs
    subst hs
    exact a2

/-- the library finds the mode of the reactor of two cells, and the calculation stores it -/
example (s : State) : ∃ s', diffusion exLib ⟨.forward, .all, 0, 0⟩ exTwo 50 ⟨2, fun _ => 1⟩ s = ok s' ∧
    HasMode s'.forward 2 1 0 (4 / 3) (fun p => if p = 0 then 2 / 3 else 1 / 3) := by
  obtain ⟨M, F, k, φ, h, hφ, hs, heq, hall⟩ := C64_forward (lib := exLib) (power := 50) (volM := ⟨2, fun _ => 1⟩) exTwo_regular exTwo_fiss
    exSort_sorts ⟨rfl, fun _ _ => one_pos⟩ 0 0 s
  obtain ⟨M', F', h', -, eM, eF⟩ := forward_ok exTwo_regular.sound
  rw [h] at h'
  cases h'
  obtain ⟨r1, r2⟩ := hall (exTwo_modes (fun p q hp hq => Fl.fin.inj (eM p q hp hq)) (fun p q hp hq => Fl.fin.inj (eF p q hp hq)))
  obtain ⟨hk, hv⟩ := exTwo_solution hφ hs heq
  obtain ⟨s', hs'⟩ := r1 (by rw [hk]; norm_num)
  refine ⟨s', hs', ?_⟩
  obtain ⟨g1, g2, g3⟩ := (r2 s' hs').1.2.1
  rw [hk] at g2
  refine ⟨g1, g2, fun g i hg hi => ?_⟩
  rw [g3 g i hg hi]
  exact congrArg Fl.fin (hv _ (flat_lt (c := 2) (E := 1) hi hg))

/-! ### C65: more absorption or leakage, less k -/

/-- **C65.** If a regular problem is made less reactive (higher total cross sections, less scattering, less fission emission, lower albedos,
on the same mesh), the k-factor its calculation converges to does not rise. -/
theorem C65_diffusion {d' : Diffusion.Data} {aL' aR' power' : ℝ} {volM' : Vec ℝ} (R : Regular d aL aR) (R' : Regular d' aL' aR')
    (w : LessReactive d d' aL aR aL' aR') (hf : ∀ g i, g < d.energies → i < d.cells → 0 ≤ d.fiss.m g i)
    (hf' : ∀ g i, g < d'.energies → i < d'.cells → 0 ≤ d'.fiss.m g i) (hlib : SolvesRegular lib) (hV : Volumes d.cells volM)
    (hV' : Volumes d'.cells volM') (s s' : State) :
    ∃ (k k' : ℝ) (φ φ' : Nat → ℝ),
      Converges (fun maxIter acc => diffusion lib ⟨.forward, .fundamental, maxIter, acc⟩ d power volM s) State.forward
        d.cells d.energies (DiffusionGenerations d aL aR) k φ ∧
      Converges (fun maxIter acc => diffusion lib ⟨.forward, .fundamental, maxIter, acc⟩ d' power' volM' s') State.forward
        d'.cells d'.energies (DiffusionGenerations d' aL' aR') k' φ' ∧ k' ≤ k := by
  obtain ⟨k, φ, hk, hφ, hs, heq, hu, hc⟩ := C62_forward (power := power) R hf hlib hV s
  obtain ⟨k', φ', hk', hφ', hs', heq', hu', hc'⟩ := C62_forward (power := power') R' hf' hlib hV' s'
  refine ⟨k, k', φ, φ', hc, hc', ?_⟩
  obtain ⟨sol, St⟩ := R.setting
  have h1 := (loss_inverse R'.sound R'.absorbing).1
  have h2 : Eigenpair (d'.cells * d'.energies) (loss d' aL' aR') (fission d') k' φ' := ⟨hφ'.2, (equation_iff R'.sound).2 heq'⟩
  have h3 := hφ'.1
  rw [w.cells, w.energies] at h1 h2 h3
  exact St.k_monotone h1 (fun p q hp hq => w.loss_le R.sound R'.sound R.absorbing hp hq) (fun p q hp hq => w.fission_le R.absorbing hp hq)
    ⟨hφ.2, (equation_iff R.sound).2 heq⟩ hφ.1 h2 h3

/-- adding absorption and removing the reflector of the slab -/
example (s : State) : ∃ (k k' : ℝ) (φ φ' : Nat → ℝ),
    Converges (fun maxIter acc => diffusion exLib ⟨.forward, .fundamental, maxIter, acc⟩ Diffusion.exSlab 50 ⟨3, fun _ => 1⟩ s)
      State.forward 3 2 (DiffusionGenerations Diffusion.exSlab (1 / 2) 0) k φ ∧
    Converges (fun maxIter acc => diffusion exLib ⟨.forward, .fundamental, maxIter, acc⟩ exWorse 50 ⟨3, fun _ => 1⟩ s)
      State.forward 3 2 (DiffusionGenerations exWorse 0 0) k' φ' ∧ k' ≤ k :=
  C65_diffusion exSlab_regular exWorse_regular exWorse_less exSlab_fission.fiss exSlab_fission.fiss exLib_solves
    ⟨rfl, fun _ _ => one_pos⟩ ⟨rfl, fun _ _ => one_pos⟩ s s

/-! ### C66: options left out -/

/-- **C66 fails: direction.** Without a direction the solver uses a null pointer. -/
theorem C66_direction {o : Options} (ho : o.direction = .undefined) (s : State) : diffusion lib o d power volM s = ub := by
  unfold diffusion
  rw [ho]

/-- **C66 fails: eigenmodes, forward.** Without a choice of eigenmodes the forward calculation reads the flux of a mode that does not exist. -/
theorem C66_modes (S : Sound d aL aR) (hE : 0 < d.energies) {o : Options} (ho : o.direction = .forward) (hm : o.modes = .undefined)
    (s : State) : diffusion lib o d power volM s = ub := by
  obtain ⟨dir, m, maxIter, acc⟩ := o
  dsimp only at ho hm
  subst ho
  subst hm
  obtain ⟨M, F, -, -, -, hrun⟩ := forward_run S
  rw [hrun, eigenmodes_undefined, ok_bind]
  unfold setForward store heatModes
  rw [if_pos (by simp), ok_bind, ok_bind, Diffusion.C17_no_modes (by have := S.cells; omega) hE, ub_bind]

/-- **C66 fails: eigenmodes, adjoint.** Without a choice of eigenmodes the adjoint calculation ends normally without any result; asking for
its k-factor is undefined. -/
theorem C66_adjoint (S : Sound d aL aR) {o : Options} (ho : o.direction = .adjoint) (hm : o.modes = .undefined) (s : State) :
    ∃ s', diffusion lib o d power volM s = ok s' ∧ s'.adjoint.k = [] ∧ s'.adjoint.modes = 0 ∧ kFactor s'.adjoint.k = ub := by
  obtain ⟨dir, m, maxIter, acc⟩ := o
  dsimp only at ho hm
  subst ho
  subst hm
  obtain ⟨M, F, -, -, -, hrun⟩ := adjoint_run S
  rw [hrun, eigenmodes_undefined, ok_bind]
  unfold setAdjoint store
  rw [if_pos (by simp), ok_bind]
  exact ⟨_, rfl, rfl, rfl, rfl⟩

/-- **C66, what holds.** With a direction but any undefined option nothing is ever reported: whenever the calculation returns normally with
a k-factor stored for its direction, a choice of eigenmodes had been made. -/
theorem C66_partial (S : Sound d aL aR) (hE : 0 < d.energies) {o : Options} {s s' : State}
    (h : diffusion lib o d power volM s = ok s') :
    (o.direction = .forward ∧ o.modes ≠ .undefined) ∨ (o.direction = .adjoint ∧ (o.modes = .undefined → s'.adjoint.k = [])) := by
  rcases hd : o.direction with _ | _ | _
  · rw [C66_direction hd] at h; cases h
  · refine Or.inl ⟨rfl, fun hm => ?_⟩
    rw [C66_modes S hE hd hm] at h
    cases h
  · refine Or.inr ⟨rfl, fun hm => ?_⟩
    obtain ⟨s2, h2, hk, -⟩ := C66_adjoint (lib := lib) (power := power) (volM := volM) S hd hm s
    rw [h2] at h
    cases h
    exact hk

example (s : State) : diffusion exLib ⟨.forward, .undefined, 100, 1 / 1000⟩ Diffusion.exSlab 50 ⟨3, fun _ => 1⟩ s = ub :=
  C66_modes exSlab_sound two_pos rfl rfl s

example (s : State) : ∃ s', diffusion exLib ⟨.adjoint, .undefined, 100, 1 / 1000⟩ Diffusion.exSlab 50 ⟨3, fun _ => 1⟩ s = ok s' ∧
    kFactor s'.adjoint.k = ub := by
  obtain ⟨s', h, -, -, hk⟩ := C66_adjoint (lib := exLib) (power := 50) (volM := ⟨3, fun _ => 1⟩)
    (o := ⟨.adjoint, .undefined, 100, 1 / 1000⟩) exSlab_sound rfl rfl s
  exact ⟨s', h, hk⟩

/-! ### C30: relaxation of the heat sources -/

/-- **C30.** Relaxation replaces each heat source by the weighted mean of the new and the old one and changes nothing else. -/
theorem C30_neutronics {par : ℝ} {s : State} (hn : s.heat.n = s.oldHeat.n) :
    ∃ s', relax par s = ok s' ∧ s'.heat.n = s.heat.n ∧
      (∀ i, i < s.heat.n → s'.heat.v i = par * s.heat.v i + (1 - par) * s.oldHeat.v i) ∧
      s'.forward = s.forward ∧ s'.adjoint = s.adjoint ∧ s'.oldHeat = s.oldHeat := by
  unfold relax
  rw [if_pos hn]
  exact ⟨_, rfl, rfl, fun i _ => by dsimp only; ring, rfl, rfl, rfl⟩

/-- **C30, power.** If the old and the new heat sources both add up to the power, so do the relaxed ones, whatever the parameter. -/
theorem C30_power {par : ℝ} {s s' : State} (h : relax par s = ok s')
    (h1 : ∑ i ∈ range s.heat.n, s.heat.v i * volM.v i = power) (h2 : ∑ i ∈ range s.heat.n, s.oldHeat.v i * volM.v i = power) :
    ∑ i ∈ range s'.heat.n, s'.heat.v i * volM.v i = power := by
  unfold relax at h
  split_ifs at h
  injection h with h
  subst h
  dsimp only
  have : ∀ i ∈ range s.heat.n, (s.heat.v i * par + s.oldHeat.v i * (1 - par)) * volM.v i =
      par * (s.heat.v i * volM.v i) + (1 - par) * (s.oldHeat.v i * volM.v i) := fun i _ => by ring
  rw [sum_congr rfl this, sum_add_distrib, ← mul_sum, ← mul_sum, h1, h2]
  ring

/-- **C30, precondition.** Fields of different length are undefined behaviour. -/
theorem C30_lengths {par : ℝ} {s : State} (hn : s.heat.n ≠ s.oldHeat.n) : relax par s = ub := by
  unfold relax
  rw [if_neg hn]

example (a : Stored) : ∃ s', relax (1 / 4) ⟨a, a, ⟨2, fun _ => 8⟩, ⟨2, fun i => 4 * i⟩⟩ = ok s' ∧ s'.heat.v 0 = 2 ∧ s'.heat.v 1 = 5 := by
  obtain ⟨s', h, -, hv, -⟩ := C30_neutronics (par := 1 / 4) (s := ⟨a, a, ⟨2, fun _ => 8⟩, ⟨2, fun i => 4 * i⟩⟩) rfl
  refine ⟨s', h, ?_, ?_⟩
  · rw [hv 0 two_pos]; norm_num
  · rw [hv 1 one_lt_two]; norm_num

/-! ### C52: false convergence of a whole calculation -/

/-- **C52 fails in a diffusion calculation.** In a reflected reactor in which collisions less scattering in, times the volume, is one in each
cell and group, the calculation of the fundamental mode stops in the first pass with k-factor 1 and a flat flux, whatever the
fission data. -/
theorem C52_diffusion (S : Sound d 1 1) (habs : Diffusion.Absorbing d) (hlib : SolvesRegular lib) (hV : Volumes d.cells volM)
    (hone : ∀ g i, g < d.energies → i < d.cells → (d.tot.m g i - ∑ h ∈ range d.energies, d.scatt h g i) * d.vol.v i = 1)
    (hprod : ∃ g i, g < d.energies ∧ i < d.cells ∧ d.chi.m g i * ∑ h ∈ range d.energies, d.nu.m h i * d.fiss.m h i ≠ 0)
    (hfiss : ∑ i ∈ range d.cells, fissions d (fun _ => 1) i ≠ 0) {maxIter : Int} {acc : ℝ} (hacc : 0 < acc) (h1 : 1 ≤ maxIter)
    (h2 : maxIter ≤ 2147483647) (s : State) :
    ∃ s', diffusion lib ⟨.forward, .fundamental, maxIter, acc⟩ d power volM s = ok s' ∧
      Reports s'.forward d.cells d.energies 1 (fun _ => 1 / (d.cells * d.energies : ℕ)) := by
  obtain ⟨M, F, sq, eM, eF, hrun⟩ := forward_run S
  obtain ⟨hM, hsolv⟩ := loss_inverse S habs
  have hflat : ∀ p, p < d.cells * d.energies → act (d.cells * d.energies) (loss d 1 1) (fun _ => 1) p = 1 := by
    intro p hp
    obtain ⟨i, g, hi, hg, rfl⟩ := flat_surj hp
    rw [flat_loss S hg hi]
    exact hone g i hg hi
  have hq : ∀ p, p < d.cells * d.energies → lib.qr M (rhs (d.cells * d.energies) (fun _ => 1)) p = .fin 1 := by
    obtain ⟨x, hx, hx'⟩ := solves_of_lib hlib sq.1 sq.2.1 eM hsolv (fun _ => 1)
    intro p hp
    rw [hx p hp, injective_of_positive hM x (fun _ => 1) (fun i hi => by rw [hx' i hi, hflat i hi]) p hp]
  obtain ⟨g, i, hg, hi, hne⟩ := hprod
  obtain ⟨φ, h3, hn, hv⟩ := C52_flat (maxIter := maxIter) sq eF hq ⟨i + g * d.cells, flat_lt hi hg, by
    have := fission_apply (d := d) (g := g) (fun _ => 1) hi
    unfold act at this
    simp only [mul_one] at this
    rw [this]
    unfold production
    simp only [mul_one]
    exact mul_ne_zero (habs.vol_pos i hi).ne' hne⟩ hacc h1 h2
  have hpos : 0 < d.cells * d.energies := Nat.mul_pos (by omega) (by omega)
  obtain ⟨s', hs'⟩ := setForward_ok (k := 1) (heat := Diffusion.newHeatSource d power volM) { s with oldHeat := s.heat } hn hv
    (fun x xn xv => heat_exists S.wf hV (by
      have : ∀ i ∈ range d.cells, fissions d (fun _ => 1 / ((d.cells * d.energies : ℕ) : ℝ)) i =
          1 / ((d.cells * d.energies : ℕ) : ℝ) * fissions d (fun _ => 1) i := by
        intro i _
        unfold fissions
        rw [mul_sum]
        exact sum_congr rfl (fun e _ => by ring)
      rw [sum_congr rfl this, ← mul_sum]
      exact mul_ne_zero (one_div_ne_zero (by exact_mod_cast hpos.ne')) hfiss) xn xv)
  refine ⟨s', ?_, (setForward_one hn hv hs').1⟩
  rw [hrun, eigenmodes_fundamental.2 ⟨_, _, h3, rfl⟩, ok_bind, hs']

/-- **C52, witness.** A reflected reactor of two cells with fission in one of them: its k-factor is 4/3, but the calculation returns 1 with a flat
flux for every accuracy and every iteration limit. -/
theorem C52_diffusion_false : ∃ (d : Diffusion.Data) (volM : Vec ℝ) (lib : Numerics), Regular d 1 1 ∧ Volumes d.cells volM ∧ SolvesRegular lib ∧
    (∀ k φ, Physical d.cells d.energies φ → DiffusionEq d 1 1 k φ → k = 4 / 3) ∧
    ∀ (maxIter : Int) (acc power : ℝ) (s : State), 0 < acc → 1 ≤ maxIter → maxIter ≤ 2147483647 →
      ∃ s', diffusion lib ⟨.forward, .fundamental, maxIter, acc⟩ d power volM s = ok s' ∧
        Reports s'.forward d.cells d.energies 1 (fun _ => 1 / 2) := by
  refine ⟨exTwo, ⟨2, fun _ => 1⟩, exLib, exTwo_regular, ⟨rfl, fun _ _ => one_pos⟩, exLib_solves, fun k φ hφ heq => exTwo_k hφ heq, ?_⟩
  intro maxIter acc power s hacc h1 h2
  obtain ⟨s', h, hr⟩ := C52_diffusion (power := power) exTwo_regular.sound exTwo_regular.absorbing exLib_solves
    (volM := ⟨2, fun _ => 1⟩) ⟨rfl, fun _ _ => one_pos⟩ (fun g i _ _ => by simp [exTwo])
    ⟨0, 0, one_pos, two_pos, by norm_num [exTwo]⟩ (by norm_num [exTwo, fissions, sum_range_succ]) hacc h1 h2 s
  refine ⟨s', h, ?_⟩
  have : (fun _ : Nat => 1 / ((exTwo.cells * exTwo.energies : ℕ) : ℝ)) = fun _ => 1 / 2 := by norm_num [exTwo]
  rwa [this] at hr

end

end Verif.Solve
