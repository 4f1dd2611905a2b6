import Verif.Mesh.Glue
import Verif.CPM.Spec
import Verif.Solve.Spec
import Verif.Solve.Model
import Verif.Heat.Spec

/-! # Theorems about the data the solvers take from the mesh -/

namespace Verif.Mesh

open Verif Outcome Finset

noncomputable section

/-- **C73, transport.** From a sensible mesh with complete, physical data and an albedo between 0 and 1 the transport code gets consistent
tables: positions in cm, volumes of the cells in cm³ and in each cell the data of its own material at its own temperature. All
properties of the transport solver proved for a `Body` then apply. -/
theorem C73_transport {M : Grid} (hS : Shaped M) (hM : Furnished M) (hcells : 0 < M.cells)
    (hc : ∀ i, i < M.cells → Complete (M.mats.v i) M.energies) {alb : Vec ℝ} (ha : 0 < alb.n) (ha01 : 0 ≤ alb.v 0 ∧ alb.v 0 ≤ 1)
    (hpos : ∀ g i, g < M.energies → i < M.cells → 0 < law (M.mats.v i).tot (M.mats.v i).T g)
    (hsc : ∀ n i, n < M.energies * M.energies → i < M.cells → 0 ≤ law (M.mats.v i).scatt (M.mats.v i).T n)
    (hab : ∀ g i, g < M.energies → i < M.cells →
      ∑ h ∈ range M.energies, law (M.mats.v i).scatt (M.mats.v i).T (h + g * M.energies) < law (M.mats.v i).tot (M.mats.v i).T g) :
    ∃ d, transportData M M.energies alb = ok d ∧ Solve.Body d M.geom ∧ d.cells = M.cells ∧ d.energies = M.energies ∧
      d.albedo = alb ∧ (∀ i, d.radii.v i = 100 * M.bounds.v i) ∧
      (∀ i, i < M.cells → d.vol.v i = ∫ r in (d.radii.v i)..(d.radii.v (i + 1)), area M.geom r) ∧
      (M.geom ≠ .sphere → d.surface = area M.geom (d.radii.v d.cells)) ∧
      ∀ g i, g < M.energies → i < M.cells →
        d.tot.m g i = law (M.mats.v i).tot (M.mats.v i).T g ∧ d.fiss.m g i = law (M.mats.v i).fiss (M.mats.v i).T g ∧
        d.nu.m g i = law (M.mats.v i).nu (M.mats.v i).T g ∧ d.chi.m g i = law (M.mats.v i).chi (M.mats.v i).T g ∧
        ∀ h, h < M.energies → d.scatt g h i = law (M.mats.v i).scatt (M.mats.v i).T (h + g * M.energies) := by
  obtain ⟨-, V, eV, nV, vV, pV, -⟩ := C31_volumes hS
  obtain ⟨⟨tot, et, rt, ct, vt⟩, ⟨fiss, ef, rf, cf, vf⟩, ⟨nu, en, rn, cn, vn⟩, ⟨chi, ex, rx, cx, vx⟩, ⟨s, es, vs⟩⟩ := get_tables hM hc
  have hsurf : ∃ S, externalSurface M "cm" = ok S ∧ 0 < S ∧ (M.geom ≠ .sphere → S = area M.geom (100 * M.bounds.v M.cells)) := by
    have hp : 0 < area M.geom (100 * M.bounds.v M.cells) := by
      rw [← area_scale]
      have := area_pos hS (i := M.cells - 1) (by omega)
      rw [Nat.sub_add_cancel hcells] at this
      positivity
    by_cases hg : M.geom = .sphere
    · refine ⟨_, (C31_external_sphere_false hS hg hcells).1, ?_, fun h => absurd hg h⟩
      rw [hg] at hp
      positivity
    · exact ⟨_, (C31_external_partial hS).2 hg, hp, fun _ => rfl⟩
  obtain ⟨S, eS, pS, vS⟩ := hsurf
  have rad : ∀ i, (boundaries M "cm").v i = 100 * M.bounds.v i := fun i => by rw [boundaries, unit_cm]; ring
  refine ⟨{ cells := M.cells, energies := M.energies, albedo := alb, radii := boundaries M "cm", vol := V, surface := S, tot := tot,
            fiss := fiss, nu := nu, chi := chi, scatt := s.v }, ?_, ?_, rfl, rfl, rfl, rad, fun i hi => ?_, fun hg => ?_,
    fun g i hg hi => ⟨vt g hg i hi, vf g hg i hi, vn g hg i hi, vx g hg i hi, fun h hh => vs g hg h hh i hi⟩⟩
  · unfold transportData
    rw [eV, ok_bind, et, ok_bind, eS, ok_bind, es, ok_bind, ef, ok_bind, ex, ok_bind, en, ok_bind]
  · have hinc : ∀ i, i < M.cells → (boundaries M "cm").v i < (boundaries M "cm").v (i + 1) := by
      intro i hi
      rw [rad, rad]
      have := hS.incr i hi
      linarith
    refine ⟨⟨ha, ?_, nV, rt, ct, rf, cf, rn, cn, rx, cx⟩, ⟨fun g hg i hi => ?_, pV, pS⟩, ?_, hcells, ha01, ⟨fun g h i hg hh hi => ?_, fun g i hg hi => ?_⟩⟩
    · show (boundaries M "cm").n = M.cells + 1
      rw [boundaries, unit_cm]
      exact hS.bounds_n
    · dsimp only
      rw [vt g hg i hi]; exact hpos g i hg hi
    · cases hG : M.geom with
      | undefined => exact absurd hG hS.geom
      | slab =>
        refine ⟨hinc, fun i hi => ?_⟩
        dsimp only
        rw [vV i hi, rad, rad, hG, ← shell_integral]
        rfl
      | cylinder =>
        refine ⟨?_, hinc⟩
        dsimp only
        rw [rad]
        have := hS.first (by rw [hG]; decide)
        positivity
      | sphere =>
        refine ⟨?_, hinc⟩
        dsimp only
        rw [rad]
        have := hS.first (by rw [hG]; decide)
        positivity
    · dsimp only
      rw [vs g hg h hh i hi]
      refine hsc _ i ?_ hi
      have : (g + 1) * M.energies ≤ M.energies * M.energies := Nat.mul_le_mul_right _ hg
      rw [Nat.add_mul, Nat.one_mul] at this
      dsimp only at hh
      omega
    · dsimp only
      rw [sum_congr rfl (fun h hh => vs g hg h (mem_range.1 hh) i hi), vt g hg i hi]
      exact hab g i hg hi
  · dsimp only
    rw [vV i hi, rad, rad]
  · dsimp only
    rw [vS hg, rad]

theorem exGrid_body {g : Diffusion.Geom} (hg : g ≠ .undefined) {a : ℝ} (h0 : 0 ≤ a) (h1 : a ≤ 1) :
    ∃ d, transportData (exGrid g) 2 ⟨1, fun _ => a⟩ = ok d ∧ Solve.Body d g ∧ d.cells = 2 ∧ d.energies = 2 ∧ d.albedo.v 0 = a ∧
      ∀ i, d.radii.v i = i := by
  have hT : ∀ i : ℕ, (0 : ℝ) ≤ 100 * (i + 1) := fun i => by positivity
  obtain ⟨d, e, B, hc, hE, hal, hr, -⟩ := C73_transport (exGrid_shaped hg) exGrid_furnished (by norm_num [exGrid])
    (fun i _ => exMat_complete _) (alb := ⟨1, fun _ => a⟩) one_pos ⟨h0, h1⟩ (fun k i hk _ => (exMat_physical (hT i)).1 k hk)
    (fun n i hn _ => (exMat_physical (hT i)).2.1 n hn) (fun k i hk _ => (exMat_physical (hT i)).2.2 k hk)
  refine ⟨d, e, B, hc, hE, by rw [hal], fun i => ?_⟩
  rw [hr i]
  simp only [exGrid]
  ring

example : ∃ d, transportData (exGrid .cylinder) 2 ⟨1, fun _ => 0.5⟩ = ok d ∧ Solve.Body d .cylinder ∧ d.radii.v 2 = 2 := by
  obtain ⟨d, e, B, -, -, -, hr⟩ := exGrid_body (g := .cylinder) (by decide) (a := 0.5) (by norm_num) (by norm_num)
  exact ⟨d, e, B, by rw [hr]; norm_num⟩

/-- **C73, diffusion.** The same for the diffusion code: sizes, volumes and surfaces in cm, and tables of the right sizes. -/
theorem C73_diffusion {M : Grid} (hS : Shaped M) (hM : Furnished M) (hc : ∀ i, i < M.cells → Complete (M.mats.v i) M.energies)
    (hD : ∀ i, i < M.cells → M.energies ≤ (M.mats.v i).diff.length) (alb : Vec ℝ)
    (hDpos : ∀ g i, g < M.energies → i < M.cells → 0 < law (M.mats.v i).diff (M.mats.v i).T g)
    (hsc : ∀ n i, n < M.energies * M.energies → i < M.cells → 0 ≤ law (M.mats.v i).scatt (M.mats.v i).T n)
    (hab : ∀ g i, g < M.energies → i < M.cells →
      ∑ h ∈ range M.energies, law (M.mats.v i).scatt (M.mats.v i).T (h + g * M.energies) < law (M.mats.v i).tot (M.mats.v i).T g) :
    ∃ d, diffusionData M M.energies alb = ok d ∧ Diffusion.WellFormed d ∧ Diffusion.Positive d ∧ Diffusion.Absorbing d ∧
      d.cells = M.cells ∧ d.energies = M.energies ∧ d.geom = M.geom ∧ d.albedo = alb ∧
      (∀ i, i < M.cells → d.size.v i = 100 * M.bounds.v (i + 1) - 100 * M.bounds.v i ∧
        d.vol.v i = ∫ r in (100 * M.bounds.v i)..(100 * M.bounds.v (i + 1)), area M.geom r) ∧
      (∀ i, i ≤ M.cells → d.surf.v i = area M.geom (100 * M.bounds.v i)) ∧
      ∀ g i, g < M.energies → i < M.cells →
        d.D.m g i = law (M.mats.v i).diff (M.mats.v i).T g ∧
        d.tot.m g i = law (M.mats.v i).tot (M.mats.v i).T g ∧ d.fiss.m g i = law (M.mats.v i).fiss (M.mats.v i).T g ∧
        d.nu.m g i = law (M.mats.v i).nu (M.mats.v i).T g ∧ d.chi.m g i = law (M.mats.v i).chi (M.mats.v i).T g ∧
        ∀ h, h < M.energies → d.scatt g h i = law (M.mats.v i).scatt (M.mats.v i).T (h + g * M.energies) := by
  obtain ⟨-, V, eV, nV, vV, pV, -⟩ := C31_volumes hS
  obtain ⟨-, U, eU, nU, vU⟩ := C31_surfaces hS.geom
  obtain ⟨-, ⟨Z, eZ, nZ, vZ⟩, -⟩ := C31_cells hS
  obtain ⟨⟨tot, et, rt, ct, vt⟩, ⟨fiss, ef, rf, cf, vf⟩, ⟨nu, en, rn, cn, vn⟩, ⟨chi, ex, rx, cx, vx⟩, ⟨s, es, vs⟩⟩ := get_tables hM hc
  obtain ⟨D, eD, rD, cD, vD⟩ := (C39_tables hM).2.2.1 hD
  have hb := hS.bounds_n
  refine ⟨{ cells := M.cells, energies := M.energies, geom := M.geom, albedo := alb, D := D, tot := tot, fiss := fiss, nu := nu,
            chi := chi, scatt := s.v, vol := V, surf := U, size := Z }, ?_,
    ⟨rD, cD, rt, ct, rf, cf, rn, cn, rx, cx, nV, nU.trans hb, nZ⟩,
    ⟨fun g hg i hi => by dsimp only; rw [vD g hg i hi]; exact hDpos g i hg hi, fun i hi => ?_⟩,
    ⟨pV, fun i hi => ?_, fun g h i hg hh hi => ?_, fun g i hg hi => ?_⟩, rfl, rfl, rfl, rfl,
    fun i hi => ⟨vZ i hi, vV i hi⟩, fun i hi => vU i (by omega),
    fun g i hg hi => ⟨vD g hg i hi, vt g hg i hi, vf g hg i hi, vn g hg i hi, vx g hg i hi, fun h hh => vs g hg h hh i hi⟩⟩
  · unfold diffusionData
    rw [eV, ok_bind, eU, ok_bind, eZ, ok_bind, eD, ok_bind, et, ok_bind, es, ok_bind, ef, ok_bind, ex, ok_bind, en, ok_bind]
  · dsimp only
    rw [vZ i hi]
    have := hS.incr i hi
    linarith
  · dsimp only at hi ⊢
    rw [vU i (by omega)]
    beta_reduce
    rw [← area_scale]
    have := area_nonneg hS hi
    positivity
  · dsimp only
    rw [vs g hg h hh i hi]
    refine hsc _ i ?_ hi
    have : (g + 1) * M.energies ≤ M.energies * M.energies := Nat.mul_le_mul_right _ hg
    rw [Nat.add_mul, Nat.one_mul] at this
    dsimp only at hh
    omega
  · dsimp only
    rw [sum_congr rfl (fun h hh => vs g hg h (mem_range.1 hh) i hi), vt g hg i hi]
    exact hab g i hg hi

example : ∃ d, diffusionData (exGrid .sphere) 2 ⟨1, fun _ => 0⟩ = ok d ∧ Diffusion.WellFormed d ∧ Diffusion.Positive d ∧
    Diffusion.Absorbing d := by
  have hT : ∀ i : ℕ, (0 : ℝ) ≤ 100 * (i + 1) := fun i => by positivity
  obtain ⟨d, e, h1, h2, h3, -⟩ := C73_diffusion (exGrid_shaped (g := .sphere) (by decide)) exGrid_furnished
    (fun i _ => exMat_complete _) (fun i _ => by simp [exGrid, exMat]) ⟨1, fun _ => 0⟩ (fun g i hg _ => by
      have hg' : g < 2 := hg
      interval_cases g <;> norm_num [exGrid, exMat, law, Numeric.polyValue, constLaw, sum_range_succ])
    (fun n i hn _ => (exMat_physical (hT i)).2.1 n hn) (fun k i hk _ => (exMat_physical (hT i)).2.2 k hk)
  exact ⟨d, e, h1, h2, h3⟩

/-- **C73, heat.** The same for the heat code, in m: with at least two cells and positive conductivities all requirements of the heat
calculation are met. -/
theorem C73_heat {M : Grid} (hS : Shaped M) (hM : M.mats.n = M.cells) (h2 : 2 ≤ M.cells) (c : Nat → Vec ℝ)
    (hk : ∀ i, i < M.cells → (M.mats.v i).kLaw = some (c i))
    (hpos : ∀ i, i < M.cells → 0 < Numeric.polyValue (c i).n (c i).v (M.mats.v i).T) (bc : Vec ℝ) :
    ∃ d, heatData M bc = ok d ∧ Heat.Physical d ∧ d.cells = M.cells ∧ d.geom = M.geom ∧ d.bc = bc ∧ d.radii = M.bounds ∧
      (∀ i, i < M.cells → d.vol.v i = ∫ r in (M.bounds.v i)..(M.bounds.v (i + 1)), area M.geom r) ∧
      (∀ i, i ≤ M.cells → d.surf.v i = area M.geom (M.bounds.v i)) ∧
      ∀ i, i < M.cells → d.k.v i = Numeric.polyValue (c i).n (c i).v (M.mats.v i).T ∧ d.q.v i = (M.mats.v i).q := by
  obtain ⟨⟨V, eV, nV, vV, pV, -⟩, -⟩ := C31_volumes hS
  obtain ⟨⟨U, eU, nU, vU⟩, -⟩ := C31_surfaces hS.geom
  obtain ⟨⟨Z, eZ, nZ, vZ⟩, -⟩ := C31_cells hS
  obtain ⟨K, eK, nK, vK⟩ := (C39_conductivity hM).1 c hk
  obtain ⟨Q, eQ, nQ, vQ⟩ := perCell (M := M) (fun m => m.q) 0 hM.ge
  have hb := hS.bounds_n
  refine ⟨{ cells := M.cells, geom := M.geom, radii := boundaries M "m", size := Z, vol := V, surf := U, k := K, q := Q, bc := bc },
    ?_, ⟨h2, hb, nZ, nV, nU.trans hb, nK, nQ, vZ, fun i hi => ?_, fun i hi => ?_, fun hg => ?_, fun i hi => ?_, pV⟩, rfl, rfl, rfl, rfl, vV,
    fun i hi => vU i (by omega), fun i hi => ⟨vK i hi, vQ i hi⟩⟩
  · unfold heatData heatSources
    rw [eV, ok_bind, eU, ok_bind, eZ, ok_bind, eK, ok_bind, eQ, ok_bind]
  · dsimp only
    rw [vZ i hi]
    have := hS.incr i hi
    linarith
  · dsimp only at hi ⊢
    rw [vU (i + 1) (by omega)]
    exact area_pos hS hi
  · dsimp only at hg ⊢
    rw [vU 0 (by omega), hg]
    rfl
  · dsimp only
    rw [vK i hi]
    exact hpos i hi

example : ∃ d, heatData (exGrid .cylinder) ⟨3, fun _ => 1⟩ = ok d ∧ Heat.Physical d := by
  obtain ⟨d, e, h, -⟩ := C73_heat (exGrid_shaped (g := .cylinder) (by decide)) exGrid_furnished.mats_n le_rfl
    (fun _ => ⟨2, fun i => if i = 0 then 3 else 1 / 100⟩) (fun i _ => rfl) (fun i _ => by
      simp only [exGrid, exMat, Numeric.polyValue, sum_range_succ]
      norm_num
      positivity) ⟨3, fun _ => 1⟩
  exact ⟨d, e, h⟩

/-- **C73, no geometry.** A transport calculation on a mesh without a geometry has undefined behaviour, whatever its data (there is no code for it
and a null pointer is used). -/
theorem C73_no_geometry (lib : Solve.Numerics) (o : Solve.Options) (d : CPM.Data) (e3 ki3 : ℝ → ℝ) (power : ℝ) (volM : Vec ℝ)
    (s : Solve.State) : Solve.transport lib o d e3 ki3 .undefined power volM s = ub := rfl

end

end Verif.Mesh
