import Verif.Solve.TransportExamples

/-!
# Theorems about the transport criticality solver, from input data to stored results

`hself` asks, except in a slab, for positive probabilities of a collision in the cell of birth, as the code computes them; `C51_thick` gives
a condition on the input for it.
-/

namespace Verif.Solve

open Verif Outcome Finset Eigen Filter Topology

noncomputable section

open scoped Classical

variable {d : CPM.Data} {geom : Diffusion.Geom} {lib : Numerics} {power : ℝ} {volM : Vec ℝ}

/-! ### C51: a condition on the input -/

/-- **C51.** If the rings of a cylinder or sphere are optically thick enough (any slab is), all collision probabilities the code computes,
those for the cell of birth included, are positive. -/
theorem C51_thick (B : Body d geom) (hthick : Thick d geom) : ∃ G, CPM.vacuumCPs d CPM.E3 CPM.Ki3 geom = ok G ∧
    ∀ h i j, h < d.energies → i < d.cells → j < d.cells → 0 < G.v (i, j, h) := by
  obtain ⟨G, hG, -⟩ := CPM.vacuum_sound B.wf B.pos B.mesh B.cells
  exact ⟨G, hG, all_pos B hG (fun _ h i hh hi => thick_self B hthick hG hh hi)⟩

example : ∃ G, CPM.vacuumCPs CPM.exRound CPM.E3 CPM.Ki3 .cylinder = ok G ∧ 0 < G.v (0, 0, 0) ∧ 0 < G.v (0, 1, 1) := by
  obtain ⟨G, h, hp⟩ := C51_thick exRod_body exRod_thick
  exact ⟨G, h, hp 0 0 0 two_pos two_pos two_pos, hp 1 0 1 one_lt_two two_pos one_lt_two⟩

/-- also in a ball -/
example : ∃ G, CPM.vacuumCPs (exCell (1 / 4) (1 / 2)) CPM.E3 CPM.Ki3 .sphere = ok G ∧ 0 < G.v (0, 0, 0) := by
  obtain ⟨G, h, hp⟩ := C51_thick (exCell_body (f := 1 / 2) (by norm_num : (0 : ℝ) ≤ 1 / 4) (by norm_num)) exCell_thick
  exact ⟨G, h, hp 0 0 0 one_pos one_pos one_pos⟩

/-! ### C67: whatever is returned is physical -/

/-- **C67.** If the transport calculation of the fundamental mode returns, then with non-negative data it has stored one positive k-factor, a
flux without negative entries that adds up to one, and heat sources that add up to the thermal power, are distributed like the
fissions and are not negative. Old heat sources are kept, adjoint results are left alone. -/
theorem C67_transport (B : Body d geom) (hf : NonnegFission (reactions d)) (hlib : SolvesRegular lib)
    (hself : geom ≠ .slab → ∀ G, CPM.vacuumCPs d CPM.E3 CPM.Ki3 geom = ok G → ∀ h i, h < d.energies → i < d.cells → 0 ≤ G.v (i, i, h))
    (hV : Volumes d.cells volM) {dir : Direction} {maxIter : Int} {acc : ℝ} {s s' : State}
    (h : transport lib ⟨dir, .fundamental, maxIter, acc⟩ d CPM.E3 CPM.Ki3 geom power volM s = ok s') :
    ∃ (k : ℝ) (φ : Nat → ℝ), Reports s'.forward d.cells d.energies k φ ∧ 0 < k ∧
      (∀ p, p < d.cells * d.energies → 0 ≤ φ p) ∧ ∑ p ∈ range (d.cells * d.energies), φ p = 1 ∧
      Heats d.cells power volM (fissions (reactions d) φ) s'.heat ∧ (0 ≤ power → ∀ i, i < d.cells → 0 ≤ s'.heat.v i) ∧
      0 < ∑ i ∈ range d.cells, fissions (reactions d) φ i ∧ s'.oldHeat = s.heat ∧ s'.adjoint = s.adjoint := by
  obtain ⟨G, hG, sd⟩ := CPM.vacuum_sound B.wf B.pos B.mesh B.cells
  have hs : ∀ h i, h < d.energies → i < d.cells → 0 ≤ G.v (i, i, h) := fun h i hh hi => by
    by_cases hg : geom = .slab
    · exact ((CPM.vacuum_strict B.wf B.pos B.mesh B.cells hG hh hi hi).2 hg).le
    · exact hself hg G hG h i hh hi
  obtain ⟨M, F, -, sq, eM, eF, hrun⟩ := body_run B hG sd
  obtain ⟨hM, hsolv⟩ := tloss_inverse B sd hs
  rw [hrun] at h
  obtain ⟨ms, h1, h2⟩ := bind_eq_ok.1 h
  obtain ⟨kf, φf, h3, rfl⟩ := eigenmodes_fundamental.1 h1
  obtain ⟨k, φ, rfl, hk, hn, hv, h1s⟩ := C53_positive sq eF (solves_of_lib hlib sq.1 sq.2.1 eM hsolv) hM
    (fun i j hi hj => tfission_nonneg B sd hs hf hi hj) h3
  obtain ⟨hr, ha, ho, x, xn, xv, hh⟩ := setForward_one hn (fun i hi => (hv i hi).1) h2
  obtain ⟨hH, h0⟩ := heat_of (reactions_wf B.wf) hV B.cells xn xv hh
  exact ⟨k, φ, hr, hk, fun p hp => (hv p hp).2, h1s, hH, fun hp => heats_nonneg hV hH hp (fun i hi =>
    fissions_nonneg (d := reactions d) B.pos.vol_pos hf.fiss (fun p hp => (hv p hp).2) hi) h0,
    lt_of_le_of_ne (sum_nonneg fun i hi => fissions_nonneg (d := reactions d) B.pos.vol_pos hf.fiss (fun p hp => (hv p hp).2) (mem_range.1 hi)) (Ne.symm h0), ho, ha⟩

/-- the hypotheses hold for a slab of two cells -/
example {s s' : State} (h : transport exLib ⟨.undefined, .fundamental, 100, 1 / 1000⟩ CPM.exSlab CPM.E3 CPM.Ki3 .slab 50 ⟨2, fun _ => 1⟩ s =
    ok s') : ∃ (k : ℝ) (φ : Nat → ℝ), Reports s'.forward 2 2 k φ ∧ 0 < k ∧ ∑ i ∈ range 2, s'.heat.v i * 1 = 50 := by
  obtain ⟨k, φ, h1, h2, -, -, h3, -⟩ := C67_transport exPlate_body exPlate_fission exLib_solves (fun hne => absurd rfl hne)
    ⟨rfl, fun _ _ => one_pos⟩ h
  exact ⟨k, φ, h1, h2, h3.2.1⟩

/-! ### C68: convergence to the one physical solution -/

/-- **C68.** The integral transport equation has exactly one physical solution up to scaling, and the calculation of the fundamental mode
converges to it. -/
theorem C68_transport (B : Body d geom) (m : Multiplying (reactions d)) (hl : GroupsLinked d)
    (hf : ∀ g i, g < d.energies → i < d.cells → 0 ≤ d.fiss.m g i)
    (hself : geom ≠ .slab → ∀ G, CPM.vacuumCPs d CPM.E3 CPM.Ki3 geom = ok G → ∀ h i, h < d.energies → i < d.cells → 0 < G.v (i, i, h))
    (hlib : SolvesRegular lib) (hV : Volumes d.cells volM) (dir : Direction) (s : State) :
    ∃ (G : CPM.Ten3) (k : ℝ) (φ : Nat → ℝ), CPM.vacuumCPs d CPM.E3 CPM.Ki3 geom = ok G ∧ 0 < k ∧ Physical d.cells d.energies φ ∧
      ∑ p ∈ range (d.cells * d.energies), φ p = 1 ∧ TransportEq d G.v k φ ∧
      (∀ k' ψ, Physical d.cells d.energies ψ → TransportEq d G.v k' ψ →
        k' = k ∧ ∃ c, ∀ p, p < d.cells * d.energies → ψ p = c * φ p) ∧
      Converges (fun maxIter acc => transport lib ⟨dir, .fundamental, maxIter, acc⟩ d CPM.E3 CPM.Ki3 geom power volM s) State.forward
        d.cells d.energies (TransportGenerations d G.v) k φ := by
  obtain ⟨G, hG, sd⟩ := CPM.vacuum_sound B.wf B.pos B.mesh B.cells
  have hpos := all_pos B hG (fun hg => hself hg G hG)
  have hs : ∀ h i, h < d.energies → i < d.cells → 0 ≤ G.v (i, i, h) := fun h i hh hi => (hpos h i i hh hi hi).le
  obtain ⟨M, F, -, sq, eM, eF, hrun⟩ := body_run B hG sd
  obtain ⟨hM, hsolv⟩ := tloss_inverse B sd hs
  obtain ⟨k, φ, κ, y, hk, he, h0, h1, hu, tk, ty, y0, -, ye, hpow, hret, hon, hex⟩ := run_all sq eF (solves_of_lib hlib sq.1 sq.2.1 eM hsolv) hM
    (tloss_off B sd hs) (tfission_factored B sd hs m) (tconnected B sd hpos m hl) (tfission_pos B sd hpos m)
  refine ⟨G, k, φ, hG, hk, ⟨h0, he.1⟩, h1, transport_iff.1 he.2, fun k' ψ hψ heq => ?_, κ, y,
    hpow.generations (fun φ g i _ hi => tfission_apply φ hi) (fun _ _ => transport_source.1), tk, ty, ?_, ?_, ?_⟩
  · exact hu k' ψ ⟨hψ.2, transport_iff.2 heq⟩ hψ.1
  · intro maxIter acc s' h
    dsimp only at h
    rw [hrun] at h
    obtain ⟨ms, h2, h3⟩ := bind_eq_ok.1 h
    obtain ⟨kf, φf, h4, rfl⟩ := eigenmodes_fundamental.1 h2
    obtain ⟨n, hn, hc, hno, rfl, hφn, hφv⟩ := hret maxIter acc kf φf h4
    exact ⟨n, hn, hc, hno, (setForward_one hφn hφv h3).1⟩
  · intro maxIter acc q g1 g2 g3
    obtain ⟨kf, φf, h4⟩ := hon maxIter acc q g1 g2 g3
    obtain ⟨n, -, -, -, rfl, hφn, hφv⟩ := hret maxIter acc kf φf h4
    dsimp only
    rw [hrun, eigenmodes_fundamental.2 ⟨_, _, h4, rfl⟩, ok_bind]
    refine setForward_ok _ hφn hφv (fun x xn xv => heat_exists (reactions_wf B.wf) hV ?_ xn xv)
    obtain ⟨i, g, hi, hg, hp⟩ := m.somewhere
    exact (fissions_pos (d := reactions d) B.pos.vol_pos hf (y0 (n + 1)) hi
      (ye (n + 1) i (site_lt m hi) (emits_of_fissile (d := reactions d) hi ⟨g, hg, hp⟩))).ne'
  · intro acc hacc
    obtain ⟨n0, hn0⟩ := hex acc hacc
    refine ⟨n0, fun maxIter g1 g2 => ?_⟩
    obtain ⟨kf, φf, h4⟩ := hn0 maxIter g1 g2
    obtain ⟨n, -, -, -, rfl, hφn, hφv⟩ := hret maxIter acc kf φf h4
    dsimp only
    rw [hrun, eigenmodes_fundamental.2 ⟨_, _, h4, rfl⟩, ok_bind]
    refine setForward_ok _ hφn hφv (fun x xn xv => heat_exists (reactions_wf B.wf) hV ?_ xn xv)
    obtain ⟨i, g, hi, hg, hp⟩ := m.somewhere
    exact (fissions_pos (d := reactions d) B.pos.vol_pos hf (y0 (n + 1)) hi
      (ye (n + 1) i (site_lt m hi) (emits_of_fissile (d := reactions d) hi ⟨g, hg, hp⟩))).ne'

/-- **C68.** The generations are determined by the data: there is only one sequence of k-factors and one of fluxes. -/
theorem C68_generations (B : Body d geom) {G : CPM.Ten3} (hG : CPM.vacuumCPs d CPM.E3 CPM.Ki3 geom = ok G)
    (hself : geom ≠ .slab → ∀ h i, h < d.energies → i < d.cells → 0 < G.v (i, i, h)) {κ κ' : Nat → ℝ} {y y' : Nat → Nat → ℝ}
    (h : TransportGenerations d G.v κ y) (h' : TransportGenerations d G.v κ' y') :
    ∀ j, κ j = κ' j ∧ ∀ p, p < d.cells * d.energies → y j p = y' j p := by
  obtain ⟨G', hG', sd⟩ := CPM.vacuum_sound B.wf B.pos B.mesh B.cells
  rw [hG] at hG'
  cases hG'
  have hpos := all_pos B hG hself
  obtain ⟨hM, -⟩ := tloss_inverse B sd (fun h i hh hi => (hpos h i i hh hi hi).le)
  refine generations_unique (fun φ ψ g i hg hi e => ?_) (fun q q' φ ψ hq e1 e2 => ?_) h h'
  · rw [← tfission_apply φ hi, ← tfission_apply ψ hi]
    exact act_congr e _
  · refine inverse_inj hM (fun p hp => ?_)
    obtain ⟨i, g, hi, hg, rfl⟩ := flat_surj hp
    rw [transport_source.2 e1 g i hg hi, transport_source.2 e2 g i hg hi, hq g i hg hi]

/-- the generations of a slab (there are some, by the example below) -/
example {G : CPM.Ten3} (hG : CPM.vacuumCPs CPM.exSlab CPM.E3 CPM.Ki3 .slab = ok G) {κ κ' : Nat → ℝ} {y y' : Nat → Nat → ℝ}
    (h : TransportGenerations CPM.exSlab G.v κ y) (h' : TransportGenerations CPM.exSlab G.v κ' y') : κ 7 = κ' 7 ∧ y 7 3 = y' 7 3 :=
  have k := C68_generations exPlate_body hG (fun h => absurd rfl h) h h' 7
  ⟨k.1, k.2 3 (by norm_num [CPM.exSlab])⟩

/-- a slab and a rod, two cells and two groups each -/
example (s : State) : ∃ (G : CPM.Ten3) (k : ℝ) (φ : Nat → ℝ), 0 < k ∧
    Converges (fun maxIter acc => transport exLib ⟨.forward, .fundamental, maxIter, acc⟩ CPM.exSlab CPM.E3 CPM.Ki3 .slab 50
      ⟨2, fun _ => 1⟩ s) State.forward 2 2 (TransportGenerations CPM.exSlab G.v) k φ := by
  obtain ⟨G, k, φ, -, h1, -, -, -, -, h3⟩ := C68_transport (power := 50) (volM := ⟨2, fun _ => 1⟩) exPlate_body exPlate_multiplying
    exPlate_linked exPlate_fission.fiss (fun hne => absurd rfl hne) exLib_solves ⟨rfl, fun _ _ => one_pos⟩ .forward s
  exact ⟨G, k, φ, h1, h3⟩

example (s : State) : ∃ (G : CPM.Ten3) (k : ℝ) (φ : Nat → ℝ), 0 < k ∧
    Converges (fun maxIter acc => transport exLib ⟨.forward, .fundamental, maxIter, acc⟩ CPM.exRound CPM.E3 CPM.Ki3 .cylinder 50
      ⟨2, fun _ => 1⟩ s) State.forward 2 2 (TransportGenerations CPM.exRound G.v) k φ := by
  obtain ⟨G, k, φ, -, h1, -, -, -, -, h3⟩ := C68_transport (power := 50) (volM := ⟨2, fun _ => 1⟩) exRod_body exRod_multiplying
    exRod_linked exPlate_fission.fiss (fun _ G hG h i hh hi => thick_self exRod_body exRod_thick hG hh hi) exLib_solves
    ⟨rfl, fun _ _ => one_pos⟩ .forward s
  exact ⟨G, k, φ, h1, h3⟩

/-! ### C69: infinite medium -/

/-- **C69.** In a body closed by an albedo of one, with the same medium everywhere, the transport calculation converges to the multiplication
factor and the spectrum of the infinite medium, with a flux that is the same in all cells: the same as the diffusion calculation
(C63). -/
theorem C69_transport (B : Body d geom) (m : Multiplying (reactions d)) (hl : GroupsLinked d)
    (hf : ∀ g i, g < d.energies → i < d.cells → 0 ≤ d.fiss.m g i)
    (hself : geom ≠ .slab → ∀ G, CPM.vacuumCPs d CPM.E3 CPM.Ki3 geom = ok G → ∀ h i, h < d.energies → i < d.cells → 0 < G.v (i, i, h))
    (hlib : SolvesRegular lib) (hV : Volumes d.cells volM) (dir : Direction) (s : State) (hclosed : d.albedo.v 0 = 1)
    {k : ℝ} {sp : Nat → ℝ} (h0 : ∀ g, g < d.energies → 0 ≤ sp g) (h1 : ∑ g ∈ range d.energies, sp g = 1)
    (hinf : ∀ i, i < d.cells → InfiniteMedium d.energies (fun g => d.tot.m g i) (fun g h => d.scatt g h i) (fun g => d.chi.m g i)
      (fun g => d.nu.m g i * d.fiss.m g i) k sp) :
    Converges (fun maxIter acc => transport lib ⟨dir, .fundamental, maxIter, acc⟩ d CPM.E3 CPM.Ki3 geom power volM s) State.forward
      d.cells d.energies (fun κ y => ∃ G, CPM.vacuumCPs d CPM.E3 CPM.Ki3 geom = ok G ∧ TransportGenerations d G.v κ y) k
      (fun p => sp (p / d.cells) / d.cells) := by
  obtain ⟨G, kt, φ, hG, hk, hφ, hs, heq, hu, hc⟩ := C68_transport (power := power) B m hl hf hself hlib hV dir s
  obtain ⟨G', hG', sd⟩ := CPM.vacuum_sound B.wf B.pos B.mesh B.cells
  rw [hG] at hG'
  cases hG'
  have hcp := B.cells
  have hphys : Physical d.cells d.energies (fun p => sp (p / d.cells) / d.cells) := by
    refine ⟨fun p hp => ?_, ?_⟩
    · obtain ⟨i, g, hi, hg, rfl⟩ := flat_surj hp
      dsimp only
      rw [flat_div hi]
      exact div_nonneg (h0 g hg) (Nat.cast_nonneg _)
    · by_contra hcon
      push Not at hcon
      have : ∑ g ∈ range d.energies, sp g = 0 := sum_eq_zero (fun g hg => by
        have := hcon (0 + g * d.cells) (flat_lt hcp (mem_range.1 hg))
        rw [flat_div hcp] at this
        exact (div_eq_zero_iff.1 this).resolve_right (by exact_mod_cast hcp.ne'))
      rw [this] at h1
      exact zero_ne_one h1
  have heq' := flat_transport B sd hclosed (sp := fun g => sp g / d.cells) (k := k) (fun i hi g hg => by
    have := hinf i hi g hg
    dsimp only at this ⊢
    rw [mul_div_assoc', this, add_div, sum_div]
    congr 1
    · exact sum_congr rfl (fun h _ => by ring)
    · rw [mul_div_assoc, mul_div_assoc, div_right_comm, mul_div_assoc, sum_div]
      congr 2
      exact sum_congr rfl (fun h _ => by ring))
  obtain ⟨e, c, hc'⟩ := hu k _ hphys heq'
  subst e
  have hsum : ∑ p ∈ range (d.cells * d.energies), sp (p / d.cells) / d.cells = 1 := by
    rw [sum_flat, ← h1]
    refine sum_congr rfl (fun g hg => ?_)
    rw [sum_congr rfl (fun i hi => by rw [flat_div (mem_range.1 hi)]), sum_const, card_range, nsmul_eq_mul,
      mul_div_cancel₀ _ (by exact_mod_cast hcp.ne')]
  have c1 : c = 1 := by
    rw [sum_congr rfl (fun p hp => hc' p (mem_range.1 hp)), ← mul_sum, hs, mul_one] at hsum
    exact hsum
  obtain ⟨κ, y, hg, tk, ty, ha, hb⟩ := hc
  refine ⟨κ, y, ⟨G, hG, hg⟩, tk, fun p hp => ?_, ha, hb⟩
  have e := hc' p hp
  rw [c1, one_mul] at e
  dsimp only
  rw [e]
  exact ty p hp

/-- the medium of the example has k = 1/2 and the spectrum 2/3, 1/3 -/
example (s : State) : Converges (fun maxIter acc => transport exLib ⟨.forward, .fundamental, maxIter, acc⟩ exRod CPM.E3 CPM.Ki3 .cylinder 50
    ⟨2, fun _ => 1⟩ s) State.forward 2 2 (fun κ y => ∃ G, CPM.vacuumCPs exRod CPM.E3 CPM.Ki3 .cylinder = ok G ∧ TransportGenerations exRod G.v κ y)
    (1 / 2) (fun p => (if p / 2 = 0 then 2 / 3 else 1 / 3) / (2 : ℕ)) :=
  C69_transport exClosed_body exClosed_multiplying exClosed_linked exClosed_fiss
    (fun _ G hG h i hh hi => thick_self exClosed_body exClosed_thick hG hh hi) exLib_solves ⟨rfl, fun _ _ => one_pos⟩ .forward s rfl
    (sp := fun g => if g = 0 then 2 / 3 else 1 / 3) (fun g _ => by positivity) (by norm_num [exRod, sum_range_succ])
    (fun i _ => exClosed_infinite i)

/-! ### C70: the fundamental and the all-modes calculation agree -/

/-- **C70.** If the library finds the eigenvalues (all real) and eigenvectors of the matrices, the transport calculation of all modes stores
the physical solution, to which the calculation of the fundamental mode converges (C68), as the first mode, and every other mode with
its own k-factor, not above the first, and a flux that solves the transport equation with it. It returns if the k-factor is above the
tolerance. The heat sources are those of the first mode. -/
theorem C70_transport (B : Body d geom) (m : Multiplying (reactions d)) (hl : GroupsLinked d)
    (hf : ∀ g i, g < d.energies → i < d.cells → 0 ≤ d.fiss.m g i)
    (hself : geom ≠ .slab → ∀ G, CPM.vacuumCPs d CPM.E3 CPM.Ki3 geom = ok G → ∀ h i, h < d.energies → i < d.cells → 0 < G.v (i, i, h))
    (hsort : SortsDown lib.sort) (hV : Volumes d.cells volM) (dir : Direction) (maxIter : Int) (acc : ℝ) (s : State) :
    ∃ (G : CPM.Ten3) (M F : Mat ℝ) (k : ℝ) (φ : Nat → ℝ), CPM.vacuumCPs d CPM.E3 CPM.Ki3 geom = ok G ∧ CPM.assemble d G = ok (M, F) ∧
      Physical d.cells d.energies φ ∧ ∑ p ∈ range (d.cells * d.energies), φ p = 1 ∧ TransportEq d G.v k φ ∧
      (FindsModes lib (d.cells * d.energies) M F →
        (10 / 2 ^ 52 < k → ∃ s', transport lib ⟨dir, .all, maxIter, acc⟩ d CPM.E3 CPM.Ki3 geom power volM s = ok s') ∧
        ∀ s', transport lib ⟨dir, .all, maxIter, acc⟩ d CPM.E3 CPM.Ki3 geom power volM s = ok s' →
          ListsModes s'.forward d.cells d.energies (TransportEq d G.v) k φ ∧
          Heats d.cells power volM (fissions (reactions d) φ) s'.heat) := by
  obtain ⟨G, hG, sd⟩ := CPM.vacuum_sound B.wf B.pos B.mesh B.cells
  have hpos := all_pos B hG (fun hg => hself hg G hG)
  obtain ⟨M, F, h, sq, eM, eF, hrun⟩ := body_run B hG sd
  obtain ⟨sol, St⟩ := tsetting B sd hpos m hl
  obtain ⟨k, φ, hk, he, h0, h1, -⟩ := St.fundamental
  have mM : ∀ p q, p < d.cells * d.energies → q < d.cells * d.energies → M.m p q = tloss d G.v p q := fun p q hp hq =>
    Fl.fin.inj (eM p q hp hq)
  have mF : ∀ p q, p < d.cells * d.energies → q < d.cells * d.energies → F.m p q = tfission d G.v p q := fun p q hp hq =>
    Fl.fin.inj (eF p q hp hq)
  have he' : Eigenpair (d.cells * d.energies) M.m F.m k φ :=
    Eigenpair.congr' (fun p q hp hq => (mM p q hp hq).symm) (fun p q hp hq => (mF p q hp hq).symm) he
  refine ⟨G, M, F, k, φ, hG, h, ⟨h0, he.1⟩, h1, transport_iff.1 he.2, fun hfm => ?_⟩
  obtain ⟨m1, m2⟩ := modes_all hsort sq (fun p q _ _ => rfl) (fun p q _ _ => rfl) hfm he' h0 h1
    (fun k' ψ hψ => St.dominates he h0 (Eigenpair.congr' mM mF hψ)) dir maxIter acc
  have after : ∀ l, eigenmodes lib ⟨dir, .all, maxIter, acc⟩ (lift M) (lift F) = ok l → ∃ st x,
      store d.cells d.energies l = ok st ∧ ListsModes st d.cells d.energies (TransportEq d G.v) k φ ∧ heatModes l = ok [x] ∧
      x.n = d.cells * d.energies ∧ ∀ p, p < d.cells * d.energies → x.v p = φ p := by
    intro l hl
    obtain ⟨⟨x, hx0, xn, xv⟩, g2, g3⟩ := m2 l hl
    obtain ⟨st, hst, hm⟩ := store_all (eqn := TransportEq d G.v) ⟨x, hx0, xn, xv⟩ (fun m hm => by
      obtain ⟨k', y, q1, q2, q3, q4, q5, q6⟩ := g2 m hm
      exact ⟨k', y, q1, q2, q3, q4, q5, q6.1, transport_iff.1 (Eigenpair.congr' mM mF q6).2⟩) g3
    obtain ⟨z, hz, zn, zv⟩ := heatModes_first hx0 (y := φ) (fun i hi => xv i (by rw [← xn]; exact hi))
    exact ⟨st, z, hst, hm, hz, by rw [zn, xn], fun p hp => zv p (by rw [xn]; exact hp)⟩
  constructor
  · intro hkt
    obtain ⟨l, hl⟩ := m1 hkt
    obtain ⟨st, x, a1, -, a3, a4, a5⟩ := after l hl
    obtain ⟨i, g, hi, hg, hp⟩ := m.somewhere
    have hem := (St.eigen_emission he h0).2.1 ⟨i, mem_filter.2 ⟨mem_range.2 (site_lt m hi),
      emits_of_fissile (d := reactions d) hi ⟨g, hg, hp⟩⟩⟩
    obtain ⟨q, hq⟩ := heat_exists (d := reactions d) (power := power) (reactions_wf B.wf) hV
      (fissions_pos (d := reactions d) B.pos.vol_pos hf h0 hi hem).ne' a4 a5
    rw [hrun, hl, ok_bind]
    unfold setForward
    rw [a1, ok_bind, a3, ok_bind, hq, ok_bind]
    exact ⟨_, rfl⟩
  · intro s' hs
    rw [hrun] at hs
    obtain ⟨l, hl, hs⟩ := bind_eq_ok.1 hs
    obtain ⟨st, x, a1, a2, a3, a4, a5⟩ := after l hl
    unfold setForward at hs
    rw [a1, ok_bind, a3, ok_bind] at hs
    obtain ⟨q, hq, hs⟩ := bind_eq_ok.1 hs
    injection hs with hs
    subst hs
    exact ⟨a2, (heat_of (d := reactions d) (reactions_wf B.wf) hV B.cells a4 a5 hq).1⟩

/-- the library finds the mode of a closed ball, and the calculation stores it -/
example (s : State) : ∃ s', transport exLib ⟨.undefined, .all, 0, 0⟩ (exCell (1 / 4) (1 / 2)) CPM.E3 CPM.Ki3 .sphere 50 ⟨1, fun _ => 1⟩ s =
    ok s' ∧ HasMode s'.forward 1 1 0 (4 / 3) (fun _ => 1) := by
  have B := exCell_body (f := 1 / 2) (by norm_num : (0 : ℝ) ≤ 1 / 4) (by norm_num)
  obtain ⟨G, M, F, k, φ, hG, h, hφ, hs, heq, hall⟩ := C70_transport (lib := exLib) (power := 50) (volM := ⟨1, fun _ => 1⟩) B
    (exCell_multiplying (by norm_num)) (exCell_linked (by norm_num)) (fun _ _ _ _ => by norm_num [exCell])
    (fun _ G hG h i hh hi => thick_self B exCell_thick hG hh hi) exSort_sorts ⟨rfl, fun _ _ => one_pos⟩ .undefined 0 0 s
  obtain ⟨G', hG', sd⟩ := CPM.vacuum_sound B.wf B.pos B.mesh B.cells
  rw [hG] at hG'
  cases hG'
  obtain ⟨M', F', h', -, eM, eF, -⟩ := body_run B hG sd
  rw [h] at h'
  cases h'
  obtain ⟨r1, r2⟩ := hall (exCell_modes sd (Fl.fin.inj (eM 0 0 one_pos one_pos)) (Fl.fin.inj (eF 0 0 one_pos one_pos)))
  have hk : k = 4 / 3 := by
    rw [exCell_k (by norm_num) (by norm_num) sd hφ heq]; norm_num
  have h1 : φ 0 = 1 := by simpa [exCell] using hs
  obtain ⟨s', hs'⟩ := r1 (by rw [hk]; norm_num)
  refine ⟨s', hs', ?_⟩
  obtain ⟨g1, g2, g3⟩ := (r2 s' hs').1.2.1
  rw [hk] at g2
  refine ⟨g1, g2, fun g i hg hi => ?_⟩
  have e := g3 g i hg hi
  interval_cases g
  interval_cases i
  rw [e]
  exact congrArg Fl.fin h1

/-! ### C71: less scattering, fission or reflection, less k -/

/-- **C71.** If a transport problem is made less multiplying (less scattering, that is more absorption at the same total cross section, less
fission emission, a lower albedo, on the same mesh), the k-factor its calculation converges to does not rise. -/
theorem C71_transport {d' : CPM.Data} {power' : ℝ} {volM' : Vec ℝ} (B : Body d geom) (B' : Body d' geom) (w : LessMultiplying d d')
    (m : Multiplying (reactions d)) (m' : Multiplying (reactions d')) (hl : GroupsLinked d) (hl' : GroupsLinked d')
    (hf : ∀ g i, g < d.energies → i < d.cells → 0 ≤ d.fiss.m g i) (hf' : ∀ g i, g < d'.energies → i < d'.cells → 0 ≤ d'.fiss.m g i)
    (hself : geom ≠ .slab → ∀ G, CPM.vacuumCPs d CPM.E3 CPM.Ki3 geom = ok G → ∀ h i, h < d.energies → i < d.cells → 0 < G.v (i, i, h))
    (hlib : SolvesRegular lib) (hV : Volumes d.cells volM) (hV' : Volumes d'.cells volM') (dir : Direction) (s s' : State) :
    ∃ (k k' : ℝ) (φ φ' : Nat → ℝ),
      Converges (fun maxIter acc => transport lib ⟨dir, .fundamental, maxIter, acc⟩ d CPM.E3 CPM.Ki3 geom power volM s) State.forward
        d.cells d.energies (fun κ y => ∃ G, CPM.vacuumCPs d CPM.E3 CPM.Ki3 geom = ok G ∧ TransportGenerations d G.v κ y) k φ ∧
      Converges (fun maxIter acc => transport lib ⟨dir, .fundamental, maxIter, acc⟩ d' CPM.E3 CPM.Ki3 geom power' volM' s') State.forward
        d'.cells d'.energies (fun κ y => ∃ G, CPM.vacuumCPs d' CPM.E3 CPM.Ki3 geom = ok G ∧ TransportGenerations d' G.v κ y) k' φ' ∧ k' ≤ k := by
  have hself' : geom ≠ .slab → ∀ G, CPM.vacuumCPs d' CPM.E3 CPM.Ki3 geom = ok G → ∀ h i, h < d'.energies → i < d'.cells →
      0 < G.v (i, i, h) := fun hg G hG h i hh hi =>
    hself hg G (by rw [← same_vacuum w]; exact hG) h i (by rw [← w.energies]; exact hh) (by rw [← w.cells]; exact hi)
  obtain ⟨G, k, φ, hG, hk, hφ, hs, heq, hu, hc⟩ := C68_transport (power := power) B m hl hf hself hlib hV dir s
  obtain ⟨G', k', φ', hG', hk', hφ', hs', heq', hu', hc'⟩ := C68_transport (power := power') B' m' hl' hf' hself' hlib hV' dir s'
  refine ⟨k, k', φ, φ', hc.imp (fun _ _ h => ⟨G, hG, h⟩), hc'.imp (fun _ _ h => ⟨G', hG', h⟩), ?_⟩
  obtain ⟨G1, hG1, sd⟩ := CPM.vacuum_sound B.wf B.pos B.mesh B.cells
  obtain ⟨G2, hG2, sd'⟩ := CPM.vacuum_sound B'.wf B'.pos B'.mesh B'.cells
  have hpos := all_pos B hG (fun hg => hself hg G hG)
  have hpos' := all_pos B' hG' (fun hg => hself' hg G' hG')
  rw [hG'] at hG2
  cases hG2
  rw [same_vacuum w, hG] at hG'
  cases hG'
  rw [hG] at hG1
  cases hG1
  obtain ⟨sol, St⟩ := tsetting B sd hpos m hl
  have h1 := (tloss_inverse B' sd' (fun h i hh hi => (hpos' h i i hh hi hi).le)).1
  have h2 : Eigenpair (d'.cells * d'.energies) (tloss d' G.v) (tfission d' G.v) k' φ' := ⟨hφ'.2, transport_iff.2 heq'⟩
  have h3 := hφ'.1
  rw [w.cells, w.energies] at h1 h2 h3
  refine St.k_monotone h1 (fun p q hp hq => ?_) (fun p q hp hq => ?_) ⟨hφ.2, transport_iff.2 heq⟩ hφ.1 h2 h3
  · obtain ⟨i, g, hi, hg, rfl⟩ := flat_surj hp
    obtain ⟨j, h, hj, hh, rfl⟩ := flat_surj hq
    have e := tloss_flat (d := d') (P := G.v) (g := g) (h := h) (i := i) (j := j) (by rw [w.cells]; exact hi) (by rw [w.cells]; exact hj)
    rw [w.cells] at e
    rw [tloss_flat hi hj, e]
    refine sub_le_sub_left (mul_le_mul (response_mono w B B' sd sd' hg hi hj) (w.scatt h g j hh hg hj) ?_
      (response_pos B sd hpos hg hi hj).le) _
    exact B'.absorbing.scatt_nonneg h g j (by rw [w.energies]; exact hh) (by rw [w.energies]; exact hg) (by rw [w.cells]; exact hj)
  · obtain ⟨i, g, hi, hg, rfl⟩ := flat_surj hp
    obtain ⟨j, h, hj, hh, rfl⟩ := flat_surj hq
    have e := tfission_flat (d := d') (P := G.v) (g := g) (h := h) (i := i) (j := j) (by rw [w.cells]; exact hi)
      (by rw [w.cells]; exact hj)
    rw [w.cells] at e
    rw [tfission_flat hi hj, e]
    exact mul_le_mul (response_mono w B B' sd sd' hg hi hj) (w.emission g h j hg hh hj)
      (mul_nonneg (m'.chi_nonneg g j (by show g < d'.energies; rw [w.energies]; exact hg) (by show j < d'.cells; rw [w.cells]; exact hj))
        (m'.prod_nonneg h j (by show h < d'.energies; rw [w.energies]; exact hh) (by show j < d'.cells; rw [w.cells]; exact hj)))
      (response_pos B sd hpos hg hi hj).le

/-- removing the reflector and half of the scattering of the slab -/
example (s : State) : ∃ (k k' : ℝ) (φ φ' : Nat → ℝ),
    Converges (fun maxIter acc => transport exLib ⟨.forward, .fundamental, maxIter, acc⟩ CPM.exSlab CPM.E3 CPM.Ki3 .slab 50 ⟨2, fun _ => 1⟩ s)
      State.forward 2 2 (fun κ y => ∃ G, CPM.vacuumCPs CPM.exSlab CPM.E3 CPM.Ki3 .slab = ok G ∧ TransportGenerations CPM.exSlab G.v κ y) k φ ∧
    Converges (fun maxIter acc => transport exLib ⟨.forward, .fundamental, maxIter, acc⟩ exBare CPM.E3 CPM.Ki3 .slab 50 ⟨2, fun _ => 1⟩ s)
      State.forward 2 2 (fun κ y => ∃ G, CPM.vacuumCPs exBare CPM.E3 CPM.Ki3 .slab = ok G ∧ TransportGenerations exBare G.v κ y) k' φ' ∧ k' ≤ k :=
  C71_transport exPlate_body exBare_body exBare_less exPlate_multiplying exBare_multiplying exPlate_linked exBare_linked
    exPlate_fission.fiss exPlate_fission.fiss (fun hne => absurd rfl hne) exLib_solves ⟨rfl, fun _ _ => one_pos⟩
    ⟨rfl, fun _ _ => one_pos⟩ .forward s s

/-! ### C72: neutron balance of the whole body -/

/-- **C72.** For every physical solution of the transport equation (fission spectra adding up to one) neutron production over `k` is absorption
plus leakage: what is emitted, escapes and is not sent back. So `k` is at most production over absorption, and equal to it in a closed
body. -/
theorem C72_transport (B : Body d geom) (hf : NonnegFission (reactions d))
    (hchi : ∀ i, i < d.cells → (∃ g, g < d.energies ∧ d.nu.m g i * d.fiss.m g i ≠ 0) → ∑ g ∈ range d.energies, d.chi.m g i = 1) :
    ∃ G, CPM.vacuumCPs d CPM.E3 CPM.Ki3 geom = ok G ∧ ∀ k φ, 0 < k → Physical d.cells d.energies φ → TransportEq d G.v k φ →
      (∑ i ∈ range d.cells, d.vol.v i * production (reactions d) φ i) / k =
        ∑ i ∈ range d.cells, d.vol.v i * absorption (reactions d) φ i +
        ∑ g ∈ range d.energies, ∑ j ∈ range d.cells, d.vol.v j *
          (scatterIn (reactions d) φ g j + d.chi.m g j * production (reactions d) φ j / k) *
          (CPM.escape d G.v g j * (1 - d.albedo.v 0) / (1 - d.albedo.v 0 * CPM.crossing d d.surface (CPM.escape d G.v g) g)) ∧
      0 < ∑ i ∈ range d.cells, d.vol.v i * absorption (reactions d) φ i ∧
      k ≤ (∑ i ∈ range d.cells, d.vol.v i * production (reactions d) φ i) /
        ∑ i ∈ range d.cells, d.vol.v i * absorption (reactions d) φ i ∧
      (d.albedo.v 0 = 1 → k = (∑ i ∈ range d.cells, d.vol.v i * production (reactions d) φ i) /
        ∑ i ∈ range d.cells, d.vol.v i * absorption (reactions d) φ i) := by
  obtain ⟨G, hG, sd⟩ := CPM.vacuum_sound B.wf B.pos B.mesh B.cells
  refine ⟨G, hG, fun k φ hk hφ heq => ?_⟩
  have e := transport_balance B sd hchi heq
  have hpos := absorbed_pos B hφ
  have hleak : 0 ≤ ∑ g ∈ range d.energies, ∑ j ∈ range d.cells, d.vol.v j *
      (scatterIn (reactions d) φ g j + d.chi.m g j * production (reactions d) φ j / k) *
      (CPM.escape d G.v g j * (1 - d.albedo.v 0) / (1 - d.albedo.v 0 * CPM.crossing d d.surface (CPM.escape d G.v g) g)) := by
    refine sum_nonneg (fun g hg => sum_nonneg (fun j hj => ?_))
    have hg := mem_range.1 hg
    have hj := mem_range.1 hj
    have h1 : 0 ≤ scatterIn (reactions d) φ g j := sum_nonneg (fun h hh =>
      mul_nonneg (B.absorbing.scatt_nonneg h g j (mem_range.1 hh) hg hj) (hφ.1 _ (flat_lt hj (mem_range.1 hh))))
    have h2 : 0 ≤ production (reactions d) φ j := sum_nonneg (fun h hh =>
      mul_nonneg (hf.prod h j (mem_range.1 hh) hj) (hφ.1 _ (flat_lt hj (mem_range.1 hh))))
    have h3 := hf.chi g j hg hj
    have h4 := sd.esc g j hg hj
    have h5 := B.albedo.2
    have h6 := body_den B sd hg
    rw [mul_comm (CPM.crossing d d.surface (CPM.escape d G.v g) g)] at h6
    refine mul_nonneg (mul_nonneg (B.pos.vol_pos j hj).le (add_nonneg h1 (div_nonneg (mul_nonneg h3 h2) hk.le)))
      (div_nonneg (mul_nonneg h4 (sub_nonneg.2 h5)) h6.le)
  refine ⟨e, hpos, ?_, fun ha => ?_⟩
  · rw [le_div_iff₀ hpos]
    have := mul_le_mul_of_nonneg_left (show ∑ i ∈ range d.cells, d.vol.v i * absorption (reactions d) φ i ≤
      (∑ i ∈ range d.cells, d.vol.v i * production (reactions d) φ i) / k by rw [e]; linarith) hk.le
    rwa [mul_div_cancel₀ _ hk.ne'] at this
  · rw [ha, sub_self] at e
    simp only [mul_zero, zero_div, sum_const_zero, add_zero] at e
    rw [div_eq_iff hk.ne'] at e
    rw [e, mul_div_cancel_left₀ _ hpos.ne']

/-- the slab leaks; the spectrum adds up to one -/
example : ∃ G, CPM.vacuumCPs CPM.exSlab CPM.E3 CPM.Ki3 .slab = ok G ∧ ∀ k φ, 0 < k → Physical 2 2 φ → TransportEq CPM.exSlab G.v k φ →
    k ≤ (∑ i ∈ range 2, CPM.exSlab.vol.v i * production (reactions CPM.exSlab) φ i) /
      ∑ i ∈ range 2, CPM.exSlab.vol.v i * absorption (reactions CPM.exSlab) φ i := by
  obtain ⟨G, h, hall⟩ := C72_transport exPlate_body exPlate_fission (fun i _ _ => by norm_num [CPM.exSlab, sum_range_succ])
  exact ⟨G, h, fun k φ hk hφ hb => (hall k φ hk hφ hb).2.2.1⟩

/-! ### C61: what a calculation leaves alone -/

/-- **C61, transport.** The transport calculation, of whatever modes and whatever functions it uses, changes nothing but the forward results,
the heat sources and the remembered old heat sources, which become those before the calculation. -/
theorem C61_transport {o : Options} {e3 ki3 : ℝ → ℝ} {s s' : State} (h : transport lib o d e3 ki3 geom power volM s = ok s') :
    s'.adjoint = s.adjoint ∧ s'.oldHeat = s.heat := by
  unfold transport at h
  obtain ⟨P, -, h⟩ := bind_eq_ok.1 h
  obtain ⟨A, -, h⟩ := bind_eq_ok.1 h
  obtain ⟨ms, -, h⟩ := bind_eq_ok.1 h
  unfold setForward at h
  obtain ⟨st, -, h⟩ := bind_eq_ok.1 h
  obtain ⟨x, -, h⟩ := bind_eq_ok.1 h
  obtain ⟨q, -, h⟩ := bind_eq_ok.1 h
  injection h with h
  subst h
  exact ⟨rfl, rfl⟩

/-! ### C66: options left out -/

/-- **C66, transport.** The direction does not matter in a transport calculation. -/
theorem C66_transport_direction {e3 ki3 : ℝ → ℝ} (dir dir' : Direction) (m : ModesKind) (maxIter : Int) (acc : ℝ) (s : State) :
    transport lib ⟨dir, m, maxIter, acc⟩ d e3 ki3 geom power volM s = transport lib ⟨dir', m, maxIter, acc⟩ d e3 ki3 geom power volM s := by
  unfold transport eigenmodes
  cases m <;> rfl

/-- **C66 fails: eigenmodes, transport.** Without a choice of eigenmodes the transport calculation reads the flux of a mode that does not
exist. -/
theorem C66_transport_modes (B : Body d geom) (hE : 0 < d.energies) {o : Options} (hm : o.modes = .undefined) (s : State) :
    transport lib o d CPM.E3 CPM.Ki3 geom power volM s = ub := by
  obtain ⟨dir, m, maxIter, acc⟩ := o
  dsimp only at hm
  subst hm
  obtain ⟨G, hG, sd⟩ := CPM.vacuum_sound B.wf B.pos B.mesh B.cells
  obtain ⟨M, F, -, -, -, -, hrun⟩ := body_run B hG sd
  rw [hrun, eigenmodes_undefined, ok_bind]
  unfold setForward store heatModes
  rw [if_pos (by simp), ok_bind, ok_bind, Diffusion.C17_no_modes (by exact B.cells) (by exact hE), ub_bind]

example (s : State) : transport exLib ⟨.forward, .undefined, 100, 1 / 1000⟩ CPM.exSlab CPM.E3 CPM.Ki3 .slab 50 ⟨2, fun _ => 1⟩ s = ub :=
  C66_transport_modes exPlate_body two_pos rfl s

/-! ### C52: false convergence of a whole calculation -/

/-- **C52 fails in a transport calculation.** Without scattering the calculation of the fundamental mode stops in the first pass with k-factor
1 and a flat flux, whatever the geometry, the albedo and the fission data. -/
theorem C52_transport (B : Body d geom) (hE : 0 < d.energies) (hlib : SolvesRegular lib) (hV : Volumes d.cells volM)
    (hscatt : ∀ g h i, g < d.energies → h < d.energies → i < d.cells → d.scatt g h i = 0)
    (hfiss : ∑ i ∈ range d.cells, fissions (reactions d) (fun _ => 1) i ≠ 0)
    (hprod : ∀ G, CPM.vacuumCPs d CPM.E3 CPM.Ki3 geom = ok G → ∃ g i, g < d.energies ∧ i < d.cells ∧
      ∑ j ∈ range d.cells, response d G.v g i j * (d.chi.m g j * ∑ h ∈ range d.energies, d.nu.m h j * d.fiss.m h j) ≠ 0)
    (dir : Direction) {maxIter : Int} {acc : ℝ} (hacc : 0 < acc) (h1 : 1 ≤ maxIter) (h2 : maxIter ≤ 2147483647) (s : State) :
    ∃ s', transport lib ⟨dir, .fundamental, maxIter, acc⟩ d CPM.E3 CPM.Ki3 geom power volM s = ok s' ∧
      Reports s'.forward d.cells d.energies 1 (fun _ => 1 / (d.cells * d.energies : ℕ)) := by
  obtain ⟨G, hG, sd⟩ := CPM.vacuum_sound B.wf B.pos B.mesh B.cells
  obtain ⟨M, F, -, sq, eM, eF, hrun⟩ := body_run B hG sd
  have hact : ∀ (x : Nat → ℝ) p, p < d.cells * d.energies → act (d.cells * d.energies) (tloss d G.v) x p = x p := by
    intro x p hp
    obtain ⟨i, g, hi, hg, rfl⟩ := flat_surj hp
    rw [tloss_apply x hg hi, sum_eq_zero, sub_zero]
    intro j hj
    have : scatterIn (reactions d) x g j = 0 := sum_eq_zero (fun h hh => by
      show d.scatt h g j * _ = 0
      rw [hscatt h g j (mem_range.1 hh) hg (mem_range.1 hj), zero_mul])
    rw [this, mul_zero]
  have hq : ∀ p, p < d.cells * d.energies → lib.qr (lift M) (rhs (d.cells * d.energies) (fun _ => 1)) p = .fin 1 := by
    obtain ⟨x, hx, hx'⟩ := solves_of_lib hlib sq.1 sq.2.1 eM (fun b => ⟨b, fun p hp => hact b p hp⟩) (fun _ => 1)
    intro p hp
    rw [hx p hp, ← hact x p hp, hx' p hp]
  obtain ⟨g, i, hg, hi, hne⟩ := hprod G hG
  obtain ⟨φ, h3, hn, hv⟩ := C52_flat (maxIter := maxIter) sq eF hq ⟨i + g * d.cells, flat_lt hi hg, by
    have := tfission_apply (d := d) (P := G.v) (g := g) (fun _ => 1) hi
    unfold act production at this
    simp only [mul_one] at this
    rw [this]
    exact hne⟩ hacc h1 h2
  have hpos : 0 < d.cells * d.energies := Nat.mul_pos B.cells hE
  obtain ⟨s', hs'⟩ := setForward_ok (k := 1) (heat := Diffusion.newHeatSource (reactions d) power volM) { s with oldHeat := s.heat } hn hv
    (fun x xn xv => heat_exists (d := reactions d) (reactions_wf B.wf) hV (by
      have : ∀ i ∈ range d.cells, fissions (reactions d) (fun _ => 1 / ((d.cells * d.energies : ℕ) : ℝ)) i =
          1 / ((d.cells * d.energies : ℕ) : ℝ) * fissions (reactions d) (fun _ => 1) i := by
        intro i _
        unfold fissions
        rw [mul_sum]
        exact sum_congr rfl (fun e _ => by ring)
      show ∑ i ∈ range d.cells, fissions (reactions d) (fun _ => 1 / ((d.cells * d.energies : ℕ) : ℝ)) i ≠ 0
      rw [sum_congr rfl this, ← mul_sum]
      exact mul_ne_zero (one_div_ne_zero (by exact_mod_cast hpos.ne')) hfiss) xn xv)
  refine ⟨s', ?_, (setForward_one hn hv hs').1⟩
  rw [hrun, eigenmodes_fundamental.2 ⟨_, _, h3, rfl⟩, ok_bind, hs']

/-- **C52, transport witness.** A closed ball of one cell and one group without scattering that emits `2 f` neutrons per collision: its k-factor
is `2 f`, but the calculation returns 1 for every accuracy and every iteration limit. -/
theorem C52_transport_false {f : ℝ} (hf : 0 < f) : ∃ (d : CPM.Data) (volM : Vec ℝ) (lib : Numerics), Body d .sphere ∧ Thick d .sphere ∧
    Multiplying (reactions d) ∧ Volumes d.cells volM ∧ SolvesRegular lib ∧
    (∃ G, CPM.vacuumCPs d CPM.E3 CPM.Ki3 .sphere = ok G ∧
      ∀ k φ, Physical d.cells d.energies φ → TransportEq d G.v k φ → k = 2 * f) ∧
    ∀ (dir : Direction) (maxIter : Int) (acc power : ℝ) (s : State), 0 < acc → 1 ≤ maxIter → maxIter ≤ 2147483647 →
      ∃ s', transport lib ⟨dir, .fundamental, maxIter, acc⟩ d CPM.E3 CPM.Ki3 .sphere power volM s = ok s' ∧
        Reports s'.forward d.cells d.energies 1 (fun _ => 1) := by
  have B := exCell_body (f := f) (le_refl (0 : ℝ)) one_pos
  refine ⟨exCell 0 f, ⟨1, fun _ => 1⟩, exLib, B, exCell_thick, exCell_multiplying hf, ⟨rfl, fun _ _ => one_pos⟩, exLib_solves, ?_, ?_⟩
  · obtain ⟨G, hG, sd⟩ := CPM.vacuum_sound B.wf B.pos B.mesh B.cells
    refine ⟨G, hG, fun k φ hφ heq => ?_⟩
    rw [exCell_k le_rfl one_pos sd hφ heq]
    simp
  · intro dir maxIter acc power s hacc h1 h2
    obtain ⟨s', h, hr⟩ := C52_transport (power := power) (volM := ⟨1, fun _ => 1⟩) B one_pos exLib_solves ⟨rfl, fun _ _ => one_pos⟩
      (fun _ _ _ _ _ _ => rfl) (by
        have : 0 < f * (32 / 3 * Real.pi) := by have := Real.pi_pos; positivity
        simpa [exCell, fissions, reactions, sum_range_succ] using this.ne') (fun G hG => by
        obtain ⟨G', hG', sd⟩ := CPM.vacuum_sound B.wf B.pos B.mesh B.cells
        rw [hG] at hG'
        cases hG'
        refine ⟨0, 0, one_pos, one_pos, ?_⟩
        have hc : (exCell 0 f).cells = 1 := rfl
        have he : (exCell 0 f).energies = 1 := rfl
        have hx : (exCell 0 f).chi.m 0 0 = 1 := rfl
        have hn : (exCell 0 f).nu.m 0 0 = 2 := rfl
        have hff : (exCell 0 f).fiss.m 0 0 = f := rfl
        rw [hc, sum_range_one, he, sum_range_one, exCell_response le_rfl one_pos sd, hx, hn, hff]
        simpa using hf.ne') dir hacc h1 h2 s
    refine ⟨s', h, ?_⟩
    have : (fun _ : Nat => 1 / (((exCell 0 f).cells * (exCell 0 f).energies : ℕ) : ℝ)) = fun _ => 1 := by norm_num [exCell]
    rwa [this] at hr

end

end Verif.Solve
