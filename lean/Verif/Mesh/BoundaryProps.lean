import Verif.Mesh.Chain

/-! # Theorems about the surface used by the boundary condition of the transport code -/

namespace Verif.Mesh

open Verif Outcome Finset

noncomputable section

/-- **C74, full or no reflection.** In every geometry: with albedo 1 no neutron is lost, with albedo 0 exactly those escaping. -/
theorem C74_extremes {M : Grid} {a : ℝ} (f : Fit M a) :
    ∃ d G p B, transportData M M.energies ⟨1, fun _ => a⟩ = ok d ∧ CPM.vacuumCPs d CPM.E3 CPM.Ki3 M.geom = ok G ∧
      CPM.applyBC d G = ok p ∧ CPM.balanceCheck d p = ok B ∧ ∀ h i, h < M.energies → i < M.cells →
        (a = 1 → B.m h i = 1) ∧ (a = 0 → B.m h i = 1 - CPM.escape d G.v h i) ∧
        1 - CPM.escape d G.v h i ≤ B.m h i ∧ B.m h i ≤ 1 := by
  obtain ⟨d, G, p, B, h1, h2, h3, h4, body, s, hc, hE, -, -, hv⟩ := balance_chain f
  refine ⟨d, G, p, B, h1, h2, h3, h4, fun h i hh hi => ?_⟩
  obtain ⟨b, pos⟩ := hv h i hh hi
  have he := s.esc h i (by omega) (by omega)
  have hx := CPM.crossing_lt_one body.pos s (h := h) (by omega)
  have ha := f.albedo
  have hle : (1 - a) / (1 - a * CPM.crossing d d.surface (CPM.escape d G.v h) h) ≤ 1 := by
    rw [div_le_one pos]
    nlinarith
  have h0 : 0 ≤ (1 - a) / (1 - a * CPM.crossing d d.surface (CPM.escape d G.v h) h) := div_nonneg (by linarith) pos.le
  rw [b, mul_div_assoc]
  refine ⟨fun h => by rw [h]; ring, fun h => by rw [h]; norm_num, ?_, ?_⟩ <;> nlinarith

example : Fit (exGrid .sphere) 1 := exGrid_fit (by decide) (by norm_num) (by norm_num)

/-- **C74 (partial: cylinders).** For a cylinder without a hole the surface is the true one, and the probability `X` of crossing the cylinder is a
probability: a neutron that escapes is lost at once with probability `1 - a`, after one crossing with probability `a X (1 - a)`, … -/
theorem C74_cylinder_partial {M : Grid} {a : ℝ} (f : Fit M a) (hg : M.geom = .cylinder) (h0 : M.bounds.v 0 = 0) :
    ∃ d G p B, transportData M M.energies ⟨1, fun _ => a⟩ = ok d ∧ CPM.vacuumCPs d CPM.E3 CPM.Ki3 M.geom = ok G ∧
      CPM.applyBC d G = ok p ∧ CPM.balanceCheck d p = ok B ∧ ∀ h i, h < M.energies → i < M.cells →
        ∃ X, X = CPM.crossing d (2 * Real.pi * d.radii.v d.cells) (CPM.escape d G.v h) h ∧ 0 ≤ X ∧ X < 1 ∧
          HasSum (fun n : ℕ => CPM.escape d G.v h i * (a * X) ^ n * (1 - a)) (1 - B.m h i) := by
  obtain ⟨d, G, p, B, h1, h2, h3, h4, body, s, hc, hE, hr, hS, hv⟩ := balance_chain f
  have hsurf : d.surface = 2 * Real.pi * d.radii.v d.cells := by
    rw [hS _ ((C31_external_partial f.shaped).2 (by rw [hg]; decide)), hg, hr, hc]
    rfl
  have mesh := body.mesh
  rw [hg] at mesh
  obtain ⟨G', eG, hX⟩ := CPM.C49_cylinder body.wf body.pos mesh body.cells (by rw [hr, h0, mul_zero]) hsurf
  have : G' = G := by
    have := eG CPM.E3
    rw [hg, this] at h2
    injection h2
  subst this
  refine ⟨d, G', p, B, h1, h2, h3, h4, fun h i hh hi => ?_⟩
  obtain ⟨b, pos⟩ := hv h i hh hi
  obtain ⟨x0, x1⟩ := hX h (by omega)
  refine ⟨_, rfl, by rw [← hsurf]; exact x0, by rw [← hsurf]; exact x1, ?_⟩
  rw [b, ← hsurf]
  set X := CPM.crossing d d.surface (CPM.escape d G'.v h) h
  have ha := f.albedo
  have hax : a * X < 1 := by linarith
  have := (hasSum_geometric_of_lt_one (mul_nonneg ha.1 x0) hax).mul_left (CPM.escape d G'.v h i * (1 - a))
  have e1 : (fun n : ℕ => CPM.escape d G'.v h i * (a * X) ^ n * (1 - a)) =
      fun n : ℕ => CPM.escape d G'.v h i * (1 - a) * (a * X) ^ n := funext (fun n => by ring)
  rw [e1, sub_sub_cancel, div_eq_mul_inv]
  exact this

example : Fit (exGrid .cylinder) 0.5 ∧ (exGrid .cylinder).bounds.v 0 = 0 :=
  ⟨exGrid_fit (by decide) (by norm_num) (by norm_num), by norm_num [exGrid]⟩

/-- **C74, spheres: false.** For every ball with an albedo strictly between 0 and 1 the number of collisions of neutrons born in a cell from which
neutrons escape is wrong: with `X` the probability of crossing the ball, losses should be `e (1 - a) / (1 - a X)`, but the code uses a surface ten thousand
times too large. For albedos up to 0.9 at least 99.9 % of the escaping neutrons are lost, as if there were nearly no reflection. -/
theorem C74_sphere_false {M : Grid} {a : ℝ} (f : Fit M a) (hg : M.geom = .sphere) (h0 : M.bounds.v 0 = 0) (ha0 : 0 < a) (ha1 : a < 1) :
    ∃ d G p B, transportData M M.energies ⟨1, fun _ => a⟩ = ok d ∧ CPM.vacuumCPs d CPM.E3 CPM.Ki3 M.geom = ok G ∧
      CPM.applyBC d G = ok p ∧ CPM.balanceCheck d p = ok B ∧
      (∀ h, h < M.energies → ∃ i, i < M.cells ∧ 0 < CPM.escape d G.v h i) ∧ ∀ h i, h < M.energies → i < M.cells →
        ∃ X, X = CPM.crossing d (4 * Real.pi * d.radii.v d.cells ^ 2) (CPM.escape d G.v h) h ∧ -(1 / 10 ^ 9) ≤ X ∧ X < 1 ∧
          1 - B.m h i = CPM.escape d G.v h i * (1 - a) / (1 - a * (1 - (1 - X) / 10000)) ∧
          (0 < CPM.escape d G.v h i → CPM.escape d G.v h i * (1 - a) / (1 - a * X) < 1 - B.m h i) ∧
          (a ≤ 9 / 10 → 999 / 1000 * CPM.escape d G.v h i ≤ 1 - B.m h i) := by
  obtain ⟨d, G, p, B, h1, h2, h3, h4, body, s, hc, hE, hr, hS, hv⟩ := balance_chain f
  have hsurf : d.surface = 10000 * (4 * Real.pi * d.radii.v d.cells ^ 2) := by
    rw [hS _ (C31_external_sphere_false f.shaped hg f.cells).1, hr, hc]
    rfl
  have mesh := body.mesh
  rw [hg] at mesh
  have hp : 0 < 4 * Real.pi * d.radii.v d.cells ^ 2 := by
    have := body.pos.surface_pos
    rw [hsurf] at this
    linarith
  obtain ⟨G', eG, hX⟩ := CPM.C49_sphere (d := { d with surface := 4 * Real.pi * d.radii.v d.cells ^ 2 })
    ⟨body.wf.albedo_n, body.wf.radii_n, body.wf.vol_n, body.wf.tot_r, body.wf.tot_c, body.wf.fiss_r, body.wf.fiss_c, body.wf.nu_r,
      body.wf.nu_c, body.wf.chi_r, body.wf.chi_c⟩ ⟨body.pos.tot_pos, body.pos.vol_pos, hp⟩ ⟨mesh.first, mesh.incr⟩ body.cells
    (by show d.radii.v 0 = 0; rw [hr, h0, mul_zero]) rfl
  have : G' = G := by
    have h5 : CPM.vacuumCPs d CPM.E3 CPM.Ki3 .sphere = ok G' := eG CPM.E3 CPM.Ki3
    rw [hg, h5] at h2
    injection h2
  subst this
  refine ⟨d, G', p, B, h1, h2, h3, h4, fun h hh => ?_, fun h i hh hi => ?_⟩
  · obtain ⟨i, hi, hp⟩ := s.out h (by omega)
    exact ⟨i, by omega, hp⟩
  obtain ⟨b, pos⟩ := hv h i hh hi
  obtain ⟨x0, x1⟩ : -(1 / 10 ^ 9) ≤ CPM.crossing d (4 * Real.pi * d.radii.v d.cells ^ 2) (CPM.escape d G'.v h) h ∧
    CPM.crossing d (4 * Real.pi * d.radii.v d.cells ^ 2) (CPM.escape d G'.v h) h < 1 := hX h (show h < d.energies by omega)
  have he := s.esc h i (by omega) (by omega)
  have hcr : CPM.crossing d d.surface (CPM.escape d G'.v h) h =
      1 - (1 - CPM.crossing d (4 * Real.pi * d.radii.v d.cells ^ 2) (CPM.escape d G'.v h) h) / 10000 := by
    unfold CPM.crossing
    rw [hsurf, sub_sub_cancel, sum_div]
    congr 1
    refine sum_congr rfl (fun i _ => ?_)
    rw [div_div, mul_comm (10000 : ℝ)]
  refine ⟨_, rfl, x0, x1, ?_, ?_, ?_⟩
  · rw [b, hcr, sub_sub_cancel]
  · intro hpe
    rw [hcr] at b pos
    rw [b, sub_sub_cancel]
    set X := CPM.crossing d (4 * Real.pi * d.radii.v d.cells ^ 2) (CPM.escape d G'.v h) h
    refine div_lt_div_of_pos_left (mul_pos hpe (by linarith)) pos ?_
    nlinarith
  · intro h9
    rw [hcr] at b pos
    rw [b, sub_sub_cancel]
    set X := CPM.crossing d (4 * Real.pi * d.radii.v d.cells ^ 2) (CPM.escape d G'.v h) h
    rw [le_div_iff₀ pos]
    have h6 : 999 / 1000 * (1 - a * (1 - (1 - X) / 10000)) ≤ 1 - a := by nlinarith
    nlinarith

example : Fit (exGrid .sphere) 0.5 ∧ (exGrid .sphere).bounds.v 0 = 0 :=
  ⟨exGrid_fit (by decide) (by norm_num) (by norm_num), by norm_num [exGrid]⟩

/-- **C74, slabs: false.** A slab has two faces of area 1; with `X` the probability that a neutron entering through either of them crosses the
slab, losses should be `e (1 - a) / (1 - a X)`, but the code uses one face. For every albedo strictly between 0 and 1 the losses are too small wherever
neutrons escape. -/
theorem C74_slab_false {M : Grid} {a : ℝ} (f : Fit M a) (hg : M.geom = .slab) (ha0 : 0 < a) (ha1 : a < 1) :
    ∃ d G p B, transportData M M.energies ⟨1, fun _ => a⟩ = ok d ∧ CPM.vacuumCPs d CPM.E3 CPM.Ki3 M.geom = ok G ∧
      CPM.applyBC d G = ok p ∧ CPM.balanceCheck d p = ok B ∧
      (∀ h, h < M.energies → ∃ i, i < M.cells ∧ 0 < CPM.escape d G.v h i) ∧ ∀ h i, h < M.energies → i < M.cells →
        ∃ X, X = 2 * (∫ μ in (0 : ℝ)..1, μ * Real.exp (-(∑ k ∈ range d.cells, CPM.thick d h k) / μ)) ∧ 0 ≤ X ∧ X < 1 ∧
          1 - B.m h i = CPM.escape d G.v h i * (1 - a) / (1 - a * (2 * X - 1)) ∧
          (0 < CPM.escape d G.v h i → 1 - B.m h i < CPM.escape d G.v h i * (1 - a) / (1 - a * X)) := by
  obtain ⟨d, G, p, B, h1, h2, h3, h4, body, s, hc, hE, hr, hS, hv⟩ := balance_chain f
  have hsurf : d.surface = 1 := by
    rw [hS _ ((C31_external_partial f.shaped).2 (by rw [hg]; decide)), hg]
    rfl
  have mesh := body.mesh
  rw [hg] at mesh
  obtain ⟨G', eG, hX⟩ := CPM.C49_slab_partial body.wf body.pos mesh body.cells
  have : G' = G := by
    have := eG CPM.Ki3
    rw [hg, this] at h2
    injection h2
  subst this
  refine ⟨d, G', p, B, h1, h2, h3, h4, fun h hh => ?_, fun h i hh hi => ?_⟩
  · obtain ⟨i, hi, hp⟩ := s.out h (by omega)
    exact ⟨i, by omega, hp⟩
  obtain ⟨b, pos⟩ := hv h i hh hi
  obtain ⟨hcr, x2, x0, x1⟩ := hX h (by omega)
  have he := s.esc h i (by omega) (by omega)
  have hone : CPM.crossing d d.surface (CPM.escape d G'.v h) h = 2 * CPM.crossing d 2 (CPM.escape d G'.v h) h - 1 := by
    rw [hsurf, hcr 1, hcr 2]
    ring
  rw [hone] at b pos
  refine ⟨_, rfl, by rw [← x2]; exact x0, by rw [← x2]; exact x1, ?_, ?_⟩
  · rw [b, ← x2, sub_sub_cancel]
  · intro hpe
    rw [b, ← x2, sub_sub_cancel]
    set X := CPM.crossing d 2 (CPM.escape d G'.v h) h
    refine div_lt_div_of_pos_left (mul_pos hpe (by linarith)) (by nlinarith) ?_
    nlinarith

example : Fit (exGrid .slab) 0.5 := exGrid_fit (by decide) (by norm_num) (by norm_num)

end

end Verif.Mesh
