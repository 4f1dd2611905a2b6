import Verif.Mesh.Integral
import Verif.Mesh.Examples

/-! # Theorems about the mesh and its materials -/

namespace Verif.Mesh

open Verif Outcome Finset

noncomputable section

/-! ### C31: geometry -/

/-- **C31, volumes.** On a sensible mesh of any geometry the volume of a cell is the integral of the area of the boundary surface over
the positions within the cell; all volumes are positive and together they make up the volume of the whole body. In cm the same holds
for the positions measured in cm. -/
theorem C31_volumes {M : Grid} (h : Shaped M) :
    (∃ V, volumes M "m" = ok V ∧ V.n = M.cells ∧ (∀ i, i < M.cells → V.v i = ∫ r in (M.bounds.v i)..(M.bounds.v (i + 1)), area M.geom r) ∧
      (∀ i, i < M.cells → 0 < V.v i) ∧
      ∑ i ∈ range M.cells, V.v i = ∫ r in (M.bounds.v 0)..(M.bounds.v M.cells), area M.geom r) ∧
    (∃ V, volumes M "cm" = ok V ∧ V.n = M.cells ∧
      (∀ i, i < M.cells → V.v i = ∫ r in (100 * M.bounds.v i)..(100 * M.bounds.v (i + 1)), area M.geom r) ∧
      (∀ i, i < M.cells → 0 < V.v i) ∧
      ∑ i ∈ range M.cells, V.v i = ∫ r in (100 * M.bounds.v 0)..(100 * M.bounds.v M.cells), area M.geom r) := by
  obtain ⟨⟨V, e, n, v⟩, ⟨W, e', n', v'⟩⟩ := volumes_ok h.bounds_n h.geom
  beta_reduce at v v'
  have tele : ∀ f : Nat → ℝ, ∀ n : Nat, ∑ i ∈ range n, shell M.geom (f (i + 1)) (f i) = shell M.geom (f n) (f 0) := by
    intro f n
    induction n with
    | zero => cases M.geom <;> simp [shell]
    | succ n ih =>
      rw [sum_range_succ, ih]
      cases M.geom <;> simp only [shell] <;> ring
  refine ⟨⟨V, e, n, fun i hi => ?_, fun i hi => ?_, ?_⟩, ⟨W, e', n', fun i hi => ?_, fun i hi => ?_, ?_⟩⟩
  · rw [v i hi, shell_integral]
  · rw [v i hi]; exact shell_pos h hi
  · rw [sum_congr rfl (fun i hi => v i (mem_range.1 hi)), tele, shell_integral]
  · rw [v' i hi, shell_scale, shell_integral]
  · rw [v' i hi]; have := shell_pos h hi; positivity
  · rw [sum_congr rfl (fun i hi => v' i (mem_range.1 hi)), ← shell_integral,
      sum_congr rfl (fun i _ => shell_scale M.geom (M.bounds.v (i + 1)) (M.bounds.v i)), tele (fun i => 100 * M.bounds.v i)]

example : Shaped (exGrid .sphere) ∧ (∫ r in (0 : ℝ)..2, area .sphere r) = 32 / 3 * Real.pi := by
  refine ⟨exGrid_shaped (by decide), ?_⟩
  rw [← shell_integral]; simp only [shell]; ring

/-- **C31, surfaces.** The surfaces are the areas at the boundaries, for positions in m or in cm. -/
theorem C31_surfaces {M : Grid} (h : M.geom ≠ .undefined) :
    GivesVec (surfaces M "m") M.bounds.n (fun i => area M.geom (M.bounds.v i)) ∧
    GivesVec (surfaces M "cm") M.bounds.n (fun i => area M.geom (100 * M.bounds.v i)) := by
  refine ⟨(surfaces_ok h).1, ?_⟩
  obtain ⟨x, e, n, v⟩ := (surfaces_ok h).2
  beta_reduce at v
  exact ⟨x, e, n, fun i hi => by rw [v i hi]; exact area_scale _⟩

example : (exGrid .cylinder).geom ≠ .undefined ∧ area .cylinder (100 * (exGrid .cylinder).bounds.v 2) = 4 * Real.pi := by
  refine ⟨by decide, ?_⟩
  norm_num [area, exGrid]
  ring

/-- **C31, external surface (partial: not for a sphere in cm).** The external surface is the area at the last boundary, in m for every geometry,
in cm for slab (one face) and cylinder. -/
theorem C31_external_partial {M : Grid} (h : Shaped M) :
    externalSurface M "m" = ok (area M.geom (M.bounds.v M.cells)) ∧
    (M.geom ≠ .sphere → externalSurface M "cm" = ok (area M.geom (100 * M.bounds.v M.cells))) := by
  obtain ⟨⟨x, e, n, v⟩, ⟨y, e', n', v'⟩⟩ := C31_surfaces h.geom
  have hb := h.bounds_n
  have l1 := last_ok (x := x) (n := M.cells) (by omega)
  have l2 := last_ok (x := y) (n := M.cells) (by omega)
  rw [v _ (by omega)] at l1
  rw [v' _ (by omega)] at l2
  unfold externalSurface
  cases hG : M.geom with
  | undefined => exact absurd hG h.geom
  | slab => rw [hG] at l1 l2; dsimp only; rw [e, e']; exact ⟨l1, fun _ => l2⟩
  | cylinder => rw [hG] at l1 l2; dsimp only; rw [e, e']; exact ⟨l1, fun _ => l2⟩
  | sphere =>
    rw [hG] at l1
    refine ⟨?_, fun hn => absurd rfl hn⟩
    dsimp only
    rw [e, ok_bind]
    unfold sphereExternal
    rw [l1]
    rfl

/-- **C31, external surface of a sphere in cm: false.** It is ten thousand times the area of the outermost sphere. -/
theorem C31_external_sphere_false {M : Grid} (h : Shaped M) (hs : M.geom = .sphere) (hc : 0 < M.cells) :
    externalSurface M "cm" = ok (10000 * area .sphere (100 * M.bounds.v M.cells)) ∧
    externalSurface M "cm" ≠ ok (area .sphere (100 * M.bounds.v M.cells)) := by
  obtain ⟨⟨x, e, n, v⟩, ⟨y, e', n', v'⟩⟩ := C31_surfaces h.geom
  have hb := h.bounds_n
  have l2 := last_ok (x := y) (n := M.cells) (by omega)
  rw [v' _ (by omega), hs] at l2
  have key : externalSurface M "cm" = ok (10000 * area .sphere (100 * M.bounds.v M.cells)) := by
    unfold externalSurface
    rw [hs]
    dsimp only
    rw [e', ok_bind]
    unfold sphereExternal
    rw [l2, ok_bind, if_neg (by decide), if_pos rfl]
    congr 1
    ring
  refine ⟨key, ?_⟩
  rw [key]
  intro he
  have h1 : (10000 : ℝ) * area .sphere (100 * M.bounds.v M.cells) = area .sphere (100 * M.bounds.v M.cells) := by
    injection he
  have h2 := area_pos h (i := M.cells - 1) (by omega)
  rw [hs, Nat.sub_add_cancel hc] at h2
  simp only [area] at h1 h2
  nlinarith

example : Shaped (exGrid .sphere) ∧ 0 < (exGrid .sphere).cells := ⟨exGrid_shaped (by decide), by norm_num [exGrid]⟩

/-- **C31, other units.** Volumes and boundaries requested in any other unit are the negatives of those in m: an unknown unit does not
give plausible values. -/
theorem C31_unknown_unit {M : Grid} (h : Shaped M) {dim : String} (h1 : dim ≠ "m") (h2 : dim ≠ "cm") :
    (∃ V, volumes M dim = ok V ∧ V.n = M.cells ∧ ∀ i, i < M.cells → V.v i = -∫ r in (M.bounds.v i)..(M.bounds.v (i + 1)), area M.geom r) ∧
    (boundaries M dim).n = M.bounds.n ∧ ∀ i, (boundaries M dim).v i = -M.bounds.v i := by
  refine ⟨?_, by rw [boundaries, unit_other h1 h2], fun i => by rw [boundaries, unit_other h1 h2]; ring⟩
  unfold volumes
  cases hG : M.geom with
  | undefined => exact absurd hG h.geom
  | slab =>
    obtain ⟨x, e, hn, hv⟩ := volumeLoop_ok (fun y z => y - z) h.bounds_n
    rw [e]
    refine ⟨_, rfl, by rw [unit_other h1 h2]; exact hn, fun i hi => ?_⟩
    rw [unit_other h1 h2]; dsimp only; rw [hv i hi, ← shell_integral]; simp only [shell]; ring
  | cylinder =>
    obtain ⟨x, e, hn, hv⟩ := volumeLoop_ok (fun y z => Real.pi * (y ^ 2 - z ^ 2)) h.bounds_n
    rw [e]
    refine ⟨_, rfl, by rw [unit_other h1 h2]; exact hn, fun i hi => ?_⟩
    rw [unit_other h1 h2]; dsimp only; rw [hv i hi, ← shell_integral]; simp only [shell]; ring
  | sphere =>
    obtain ⟨x, e, hn, hv⟩ := volumeLoop_ok (fun y z => 4 / 3 * Real.pi * (y ^ 3 - z ^ 3)) h.bounds_n
    rw [e]
    refine ⟨_, rfl, by rw [unit_other h1 h2]; exact hn, fun i hi => ?_⟩
    rw [unit_other h1 h2]; dsimp only; rw [hv i hi, ← shell_integral]; simp only [shell]; ring

/-- **C31, no geometry.** A mesh without a geometry has one volume and one surface, both zero, however many cells it has. -/
theorem C31_no_geometry {M : Grid} (h : M.geom = .undefined) (dim : String) :
    GivesVec (volumes M dim) 1 (fun _ => 0) ∧ GivesVec (surfaces M dim) 1 (fun _ => 0) ∧ externalSurface M dim = ok 0 := by
  unfold externalSurface volumes surfaces
  rw [h]
  exact ⟨⟨_, rfl, rfl, fun _ _ => rfl⟩, ⟨_, rfl, rfl, fun _ _ => rfl⟩, rfl⟩

/-- **C31, cells.** Sizes and middle points of the cells. -/
theorem C31_cells {M : Grid} (h : Shaped M) :
    GivesVec (cellSizes M "m") M.cells (fun i => M.bounds.v (i + 1) - M.bounds.v i) ∧
    GivesVec (cellSizes M "cm") M.cells (fun i => 100 * M.bounds.v (i + 1) - 100 * M.bounds.v i) ∧
    (∀ i, (boundaries M "cm").v i = 100 * M.bounds.v i) ∧
    ∃ X, middlePoints M = ok X ∧ X.n = M.cells ∧ ∀ i, i < M.cells →
      M.bounds.v i < X.v i ∧ X.v i < M.bounds.v (i + 1) ∧ X.v i - M.bounds.v i = M.bounds.v (i + 1) - X.v i := by
  have hb := h.bounds_n
  obtain ⟨s1, ⟨x, e, n, v⟩⟩ := sizes_ok hb
  refine ⟨s1, ⟨x, e, n, fun i hi => by rw [v i hi]; ring⟩, fun i => by rw [boundaries, unit_cm]; ring, ?_⟩
  obtain ⟨X, e2, n2, v2⟩ := loop_fill (fun i => (M.bounds.v i + M.bounds.v (i + 1)) / 2) M.cells 0 (fun i x => do
    let y ← M.bounds.get i
    let z ← M.bounds.get (i + 1)
    x.set i ((y + z) / 2)) (fun i t hi _ => by rw [Vec.get_ok (by omega), ok_bind, Vec.get_ok (by omega), ok_bind])
  refine ⟨X, by unfold middlePoints; rw [hb, predIdx_ok (by omega), ok_bind, Nat.add_sub_cancel]; exact e2, n2, fun i hi => ?_⟩
  have := h.incr i hi
  rw [v2 i hi]
  exact ⟨by linarith, by linarith, by ring⟩

/-- **C31, equal cells.** A mesh of `n` equal cells over a side: the boundaries are the multiples of `side / n` up to `side`; without cells
the boundaries are not numbers. -/
theorem C31_uniform (side : ℝ) (M : Grid) :
    (∀ n, 0 < n → ∃ M', setUniform side n M = ok M' ∧ M'.cells = n ∧ M'.bounds.n = n + 1 ∧ M'.geom = M.geom ∧
      (∀ i, i ≤ n → (n : ℝ) * M'.bounds.v i = i * side) ∧ M'.bounds.v n = side) ∧
    setUniform side 0 M = nonfinite := by
  refine ⟨fun n hn => ?_, ?_⟩
  · have hn' : (n : ℝ) ≠ 0 := by exact_mod_cast hn.ne'
    obtain ⟨b, e, hb, hv⟩ := loop_fill (fun i => (i : ℝ) * (side / n)) (n + 1) 0 (fun i x => do
      let h ← fdiv side (n : ℝ)
      x.set i (i * h)) (fun i t _ _ => by rw [fdiv_ok hn', ok_bind])
    refine ⟨{ M with bounds := b, cells := n }, by unfold setUniform; rw [e]; rfl, rfl, hb, rfl, fun i hi => ?_, ?_⟩
    · dsimp only
      rw [hv i (by omega)]
      field_simp
    · dsimp only
      rw [hv n (by omega)]
      field_simp
  · unfold setUniform
    have : loop (fun i x => do
      let h ← fdiv side ((0 : ℕ) : ℝ)
      x.set i (i * h)) (0 + 1) (Vec.const (0 + 1) (0 : ℝ)) = nonfinite := by
      simp [loop, fdiv]
    rw [this]
    rfl

/-! ### C39: data of the cells -/

/-- **C39, tables.** Total, fission and production data and diffusion constants of group `g` in cell `i` are the values of law `g` of the
material in cell `i` at the temperature of cell `i`; without any law for `ν` or `χ` these are zero. -/
theorem C39_tables {M : Grid} (hM : Furnished M) :
    ((∀ i, i < M.cells → M.energies ≤ (M.mats.v i).tot.length) →
      Gives (tots M) M.energies M.cells (fun g i => law (M.mats.v i).tot (M.mats.v i).T g)) ∧
    ((∀ i, i < M.cells → M.energies ≤ (M.mats.v i).fiss.length) →
      Gives (fissions M) M.energies M.cells (fun g i => law (M.mats.v i).fiss (M.mats.v i).T g)) ∧
    ((∀ i, i < M.cells → M.energies ≤ (M.mats.v i).diff.length) →
      Gives (diffs M) M.energies M.cells (fun g i => law (M.mats.v i).diff (M.mats.v i).T g)) ∧
    ((∀ i, i < M.cells → (M.mats.v i).nu = [] ∨ M.energies ≤ (M.mats.v i).nu.length) →
      Gives (nus M) M.energies M.cells (fun g i => law (M.mats.v i).nu (M.mats.v i).T g)) ∧
    ((∀ i, i < M.cells → (M.mats.v i).chi = [] ∨ M.energies ≤ (M.mats.v i).chi.length) →
      Gives (chis M) M.energies M.cells (fun g i => law (M.mats.v i).chi (M.mats.v i).T g)) := by
  have hn := hM.mats_n.ge
  have key : ∀ (L : Material → List (Vec ℝ)), (∀ i, i < M.cells → M.energies ≤ (L (M.mats.v i)).length) →
      ∀ i, i < M.cells → GivesVec (evalLaws (L (M.mats.v i)) (M.mats.v i)) M.energies (fun g => law (L (M.mats.v i)) (M.mats.v i).T g) := by
    intro L h i hi
    have := evalLaws_ok (L := L (M.mats.v i)) (m := M.mats.v i) (by rw [hM.energies i hi]; exact h i hi)
    rwa [hM.energies i hi] at this
  have key0 : ∀ (L : Material → List (Vec ℝ)), (∀ i, i < M.cells → L (M.mats.v i) = [] ∨ M.energies ≤ (L (M.mats.v i)).length) →
      ∀ i, i < M.cells → GivesVec (evalLaws0 (L (M.mats.v i)) (M.mats.v i)) M.energies (fun g => law (L (M.mats.v i)) (M.mats.v i).T g) := by
    intro L h i hi
    have := evalLaws0_ok (L := L (M.mats.v i)) (m := M.mats.v i) (by rw [hM.energies i hi]; exact h i hi)
    rwa [hM.energies i hi] at this
  exact ⟨fun h => table_ok hn (key (fun m => m.tot) h), fun h => table_ok hn (key (fun m => m.fiss) h),
    fun h => table_ok hn (key (fun m => m.diff) h), fun h => table_ok hn (key0 (fun m => m.nu) h),
    fun h => table_ok hn (key0 (fun m => m.chi) h)⟩

example : ∃ X, tots (exGrid .slab) = ok X ∧ X.m 0 1 = 1.2 ∧ X.m 1 0 = 2 := by
  obtain ⟨X, e, -, -, v⟩ := (C39_tables (exGrid_furnished (g := .slab))).1 (fun i _ => by simp [exGrid, exMat])
  refine ⟨X, e, ?_, ?_⟩
  · rw [v 0 (by norm_num [exGrid]) 1 (by norm_num [exGrid])]
    norm_num [exGrid, exMat, law, Numeric.polyValue, sum_range_succ]
  · rw [v 1 (by norm_num [exGrid]) 0 (by norm_num [exGrid])]
    norm_num [exGrid, exMat, law, Numeric.polyValue, constLaw, sum_range_succ]

/-- **C39, scattering.** Scattering from group `g` to group `h` in cell `i` is law number `h + g * energies` of its material at its
temperature; the removal cross section is the total less the scattering within the group. -/
theorem C39_scattering {M : Grid} (hM : Furnished M)
    (hs : ∀ i, i < M.cells → M.energies * M.energies ≤ (M.mats.v i).scatt.length) :
    GivesBox (scatts M) M.energies M.energies M.cells
      (fun g h i => law (M.mats.v i).scatt (M.mats.v i).T (h + g * M.energies)) ∧
    ((∀ i, i < M.cells → M.energies ≤ (M.mats.v i).tot.length) → Gives (removals M) M.energies M.cells
      (fun g i => law (M.mats.v i).tot (M.mats.v i).T g - law (M.mats.v i).scatt (M.mats.v i).T (g + g * M.energies))) := by
  refine ⟨scatts_ok hM hs, fun ht => ?_⟩
  obtain ⟨t, et, rt, ct, vt⟩ := (C39_tables hM).1 ht
  obtain ⟨s, es, as, bs, cs, vs⟩ := scatts_ok hM hs
  unfold removals
  rw [et, ok_bind, es, ok_bind]
  refine columns M.energies M.cells _ _ _ rfl rfl (fun m hm => ⟨_, fun x => rfl, fun i hi x => ?_⟩)
  rw [Mat.get_ok (by omega) (by omega), ok_bind, Box.get_ok (by omega) (by omega) (by omega), ok_bind, vt i hi m hm,
    vs i hi i hi m hm]

example : ∃ X, scatts (exGrid .slab) = ok X ∧ X.v 0 1 0 = 0.2 ∧ X.v 1 0 1 = 0 := by
  obtain ⟨X, e, -, -, -, v⟩ := (C39_scattering (exGrid_furnished (g := .slab)) (fun i _ => by simp [exGrid, exMat])).1
  refine ⟨X, e, ?_, ?_⟩
  · rw [v 0 (by norm_num [exGrid]) 1 (by norm_num [exGrid]) 0 (by norm_num [exGrid])]
    norm_num [exGrid, exMat, law, Numeric.polyValue, constLaw, sum_range_succ]
  · rw [v 1 (by norm_num [exGrid]) 0 (by norm_num [exGrid]) 1 (by norm_num [exGrid])]
    norm_num [exGrid, exMat, law, Numeric.polyValue, constLaw, sum_range_succ]

/-- **C39, production.** The production operator of group `g` in cell `i` is the fission spectrum times the sum over all groups of
`ν Σ_f`, all at the temperature of the cell. -/
theorem C39_production {M : Grid} (hM : Furnished M)
    (hf : ∀ i, i < M.cells → M.energies ≤ (M.mats.v i).fiss.length)
    (hn : ∀ i, i < M.cells → (M.mats.v i).nu = [] ∨ M.energies ≤ (M.mats.v i).nu.length)
    (hc : ∀ i, i < M.cells → (M.mats.v i).chi = [] ∨ M.energies ≤ (M.mats.v i).chi.length) :
    Gives (production M) M.energies M.cells (fun g i => law (M.mats.v i).chi (M.mats.v i).T g *
      ∑ h ∈ range M.energies, law (M.mats.v i).nu (M.mats.v i).T h * law (M.mats.v i).fiss (M.mats.v i).T h) := by
  refine columns M.energies M.cells _ _ _ rfl rfl (fun m hm => ?_)
  have hE := hM.energies m hm
  obtain ⟨f, ef, nf, vf⟩ := evalLaws_ok (L := (M.mats.v m).fiss) (m := M.mats.v m) (by rw [hE]; exact hf m hm)
  obtain ⟨u, eu, nu, vu⟩ := evalLaws0_ok (L := (M.mats.v m).nu) (m := M.mats.v m) (by rw [hE]; exact hn m hm)
  obtain ⟨c, ec, nc, vc⟩ := evalLaws0_ok (L := (M.mats.v m).chi) (m := M.mats.v m) (by rw [hE]; exact hc m hm)
  rw [hE] at nf nu nc vf vu vc
  have hsum : fissionSum M.energies u f = ok (0 + ∑ h ∈ range M.energies,
      law (M.mats.v m).nu (M.mats.v m).T h * law (M.mats.v m).fiss (M.mats.v m).T h) :=
    loop_sum _ _ _ _ (fun i t hi => by
      rw [Vec.get_ok (by omega), ok_bind, Vec.get_ok (by omega), ok_bind, vu i hi, vf i hi])
  rw [zero_add] at hsum
  refine ⟨fun e x => do
      let y ← c.get e
      x.set e m (y * ∑ h ∈ range M.energies, law (M.mats.v m).nu (M.mats.v m).T h * law (M.mats.v m).fiss (M.mats.v m).T h),
    fun x => ?_, fun i hi x => ?_⟩
  · rw [Vec.get_ok (by rw [hM.mats_n]; exact hm), ok_bind, eu, ok_bind, ec, ok_bind, ef, ok_bind, hsum, ok_bind]
  · dsimp only
    rw [Vec.get_ok (by omega), ok_bind, vc i hi]

example : ∀ i, i < (exGrid .slab).cells → (exGrid .slab).energies ≤ ((exGrid .slab).mats.v i).fiss.length ∧
    ((exGrid .slab).mats.v i).chi = [] ∧ (exGrid .slab).energies ≤ ((exGrid .slab).mats.v i).nu.length :=
  fun i _ => ⟨by simp [exGrid, exMat], rfl, by simp [exGrid, exMat]⟩

/-- **C39, conductivity.** The thermal conductivity of a cell is the law of its material at its temperature; if the material of some cell has
no law, a null pointer is used. -/
theorem C39_conductivity {M : Grid} (hM : M.mats.n = M.cells) :
    (∀ c : Nat → Vec ℝ, (∀ i, i < M.cells → (M.mats.v i).kLaw = some (c i)) →
      GivesVec (conductivities M) M.cells (fun i => Numeric.polyValue (c i).n (c i).v (M.mats.v i).T)) ∧
    (∀ i, i < M.cells → (M.mats.v i).kLaw = none → conductivities M = ub) := by
  have hn := hM.ge
  refine ⟨fun c hc => loop_fill _ _ _ _ (fun i t hi _ => ?_), fun i hi hk => ?_⟩
  · rw [Vec.get_ok (by omega), ok_bind]
    unfold conductivity
    rw [hc i hi]
    dsimp only
    rw [Numeric.C09_calc, ok_bind]
  · refine OkUb.loop_ub (fun j s => (OkUb.get _ _).bind (fun m => OkUb.bind ?_ (fun y => OkUb.set _ _ _))) hi (fun s => ?_) _
    · unfold conductivity
      cases m.kLaw with
      | none => exact Or.inr rfl
      | some c => dsimp only; rw [Numeric.C09_calc]; exact OkUb.ok _
    · rw [Vec.get_ok (by omega), ok_bind]
      unfold conductivity
      rw [hk]
      rfl

example : ∃ X, conductivities (exGrid .slab) = ok X ∧ X.v 1 = 5 := by
  obtain ⟨X, e, -, v⟩ := (C39_conductivity (exGrid_furnished (g := .slab)).mats_n).1
    (fun _ => ⟨2, fun i => if i = 0 then 3 else 1 / 100⟩) (fun i _ => rfl)
  refine ⟨X, e, ?_⟩
  rw [v 1 (by norm_num [exGrid])]
  norm_num [exGrid, exMat, Numeric.polyValue, sum_range_succ]

/-- **C39, missing laws.** If the material of some cell has fewer laws than groups, reading the table is undefined behaviour (memory beyond
the end of the list is used); for `ν` and `χ` only if there is at least one law. -/
theorem C39_missing {M : Grid} {i : Nat} (hi : i < M.cells) :
    ((M.mats.v i).tot.length < (M.mats.v i).energies → tots M = ub) ∧
    ((M.mats.v i).fiss.length < (M.mats.v i).energies → fissions M = ub) ∧
    ((M.mats.v i).diff.length < (M.mats.v i).energies → diffs M = ub) ∧
    ((M.mats.v i).scatt.length < (M.mats.v i).energies * (M.mats.v i).energies → scatts M = ub) ∧
    ((M.mats.v i).nu ≠ [] → (M.mats.v i).nu.length < (M.mats.v i).energies → nus M = ub) ∧
    ((M.mats.v i).chi ≠ [] → (M.mats.v i).chi.length < (M.mats.v i).energies → chis M = ub) :=
  ⟨fun h => table_ub (fun m => evalLaws_okub _ m) hi (evalLaws_ub h), fun h => table_ub (fun m => evalLaws_okub _ m) hi (evalLaws_ub h),
    fun h => table_ub (fun m => evalLaws_okub _ m) hi (evalLaws_ub h), fun h => scatts_ub hi h,
    fun h0 h => table_ub (fun m => evalLaws0_okub _ m) hi (evalLaws0_ub h0 h),
    fun h0 h => table_ub (fun m => evalLaws0_okub _ m) hi (evalLaws0_ub h0 h)⟩

/-- A mesh whose materials were given no total cross section for the second group. -/
def exShort : Grid := { exGrid .slab with mats := ⟨2, fun _ => { exMat 100 with tot := [constLaw 1] }⟩ }

example : tots exShort = ub := (C39_missing (M := exShort) (i := 0) (by norm_num [exShort, exGrid])).1 (by simp [exShort, exMat])

/-! ### C40: what is stored is read back -/

/-- **C40, temperatures.** Temperatures set for the first cells are the ones read back in Celsius, 273.15 more in Kelvin; the other cells keep
theirs, and boundaries, laws and heat sources do not change. More temperatures than cells is undefined behaviour. -/
theorem C40_temperatures {M : Grid} (hM : Furnished M) (t : Vec ℝ) :
    (t.n ≤ M.cells → ∃ M', setTemperatures t M = ok M' ∧ Furnished M' ∧ M'.cells = M.cells ∧ M'.energies = M.energies ∧
      M'.geom = M.geom ∧ M'.bounds = M.bounds ∧
      GivesVec (temperatures M' "C") M.cells (fun i => if i < t.n then t.v i else (M.mats.v i).T) ∧
      GivesVec (temperatures M' "K") M.cells (fun i => (if i < t.n then t.v i else (M.mats.v i).T) + 273.15) ∧
      ∀ i, i < M.cells → M'.mats.v i = { M.mats.v i with T := if i < t.n then t.v i else (M.mats.v i).T }) ∧
    (M.cells < t.n → setTemperatures t M = ub) := by
  have hb : ∀ i, i < t.n → ∀ M' : Grid, (do
      let y ← t.get i
      change (fun m => { m with T := y }) i M') = change (fun m => { m with T := t.v i }) i M' := by
    intro i hi M'
    rw [Vec.get_ok hi, ok_bind]
  refine ⟨fun hn => ?_, fun hn => ?_⟩
  · obtain ⟨M', e, h1, h2, h3, h4, h5, h6, h7, h8⟩ := changes_ok (fun i m => { m with T := t.v i }) t.n M (by rw [hM.mats_n]; exact hn) hb
    have hT : ∀ i, (M'.mats.v i).T = if i < t.n then t.v i else (M.mats.v i).T := by
      intro i
      rw [h8 i]
      split_ifs <;> rfl
    have hmats : M'.cells ≤ M'.mats.n := by rw [h3, h7, hM.mats_n]
    obtain ⟨x, ex, nx, vx⟩ := perCell (fun m => m.T) 0 hmats
    rw [h3] at nx vx
    refine ⟨M', e, ⟨by rw [h7, h3, hM.mats_n], fun i hi => ?_⟩, h3, h4, h1, h2, ⟨x, ?_, nx, fun i hi => by rw [vx i hi]; exact hT i⟩,
      ⟨⟨x.n, fun i => x.v i + 273.15⟩, ?_, nx, fun i hi => by dsimp only; rw [vx i hi]; beta_reduce; rw [hT]⟩, fun i _ => ?_⟩
    · rw [h3] at hi
      rw [h8 i, h4]
      split_ifs <;> exact hM.energies i hi
    · unfold temperatures; rw [ex, ok_bind, if_pos rfl]
    · unfold temperatures; rw [ex, ok_bind, if_neg (by decide), if_pos rfl]
    · rw [h8 i]
      split_ifs <;> rfl
  · exact changes_ub (fun i m => { m with T := t.v i }) t.n M (by rw [hM.mats_n]; exact hn) hb

example : ∃ M', setTemperatures ⟨2, fun i => 300 + i⟩ (exGrid .slab) = ok M' ∧ GivesVec (temperatures M' "K") 2 (fun i => 573.15 + i) := by
  obtain ⟨M', e, -, -, -, -, -, -, ⟨x, ex, nx, vx⟩, -⟩ := (C40_temperatures (exGrid_furnished (g := .slab)) ⟨2, fun i => 300 + i⟩).1
    (by norm_num [exGrid])
  refine ⟨M', e, x, ex, nx, fun i hi => ?_⟩
  rw [vx i hi]
  beta_reduce
  rw [if_pos hi]
  norm_num
  ring

/-- **C39, feedback.** After new temperatures have been set for all cells, the data are those of the same laws at the new temperatures. -/
theorem C39_feedback {M : Grid} (hM : Furnished M) (hc : ∀ i, i < M.cells → Complete (M.mats.v i) M.energies) (t : Vec ℝ)
    (ht : t.n = M.cells) :
    ∃ M', setTemperatures t M = ok M' ∧
      Gives (tots M') M.energies M.cells (fun g i => law (M.mats.v i).tot (t.v i) g) ∧
      Gives (fissions M') M.energies M.cells (fun g i => law (M.mats.v i).fiss (t.v i) g) ∧
      Gives (nus M') M.energies M.cells (fun g i => law (M.mats.v i).nu (t.v i) g) ∧
      Gives (chis M') M.energies M.cells (fun g i => law (M.mats.v i).chi (t.v i) g) ∧
      GivesBox (scatts M') M.energies M.energies M.cells (fun g h i => law (M.mats.v i).scatt (t.v i) (h + g * M.energies)) := by
  obtain ⟨M', e, hF, h1, h2, -, -, -, -, h3⟩ := (C40_temperatures hM t).1 ht.le
  have h4 : ∀ i, i < M.cells → M'.mats.v i = { M.mats.v i with T := t.v i } := fun i hi => by
    rw [h3 i hi, if_pos (by omega)]
  obtain ⟨g1, g2, -, g4, g5⟩ := C39_tables hF
  rw [h1, h2] at g1 g2 g4 g5
  have g6 := scatts_ok hF
  rw [h1, h2] at g6
  refine ⟨M', e, ?_, ?_, ?_, ?_, ?_⟩
  · obtain ⟨X, eX, r, c, v⟩ := g1 (fun i hi => by rw [h4 i hi]; exact (hc i hi).tot)
    exact ⟨X, eX, r, c, fun g hg i hi => by rw [v g hg i hi]; beta_reduce; rw [h4 i hi]⟩
  · obtain ⟨X, eX, r, c, v⟩ := g2 (fun i hi => by rw [h4 i hi]; exact (hc i hi).fiss)
    exact ⟨X, eX, r, c, fun g hg i hi => by rw [v g hg i hi]; beta_reduce; rw [h4 i hi]⟩
  · obtain ⟨X, eX, r, c, v⟩ := g4 (fun i hi => by rw [h4 i hi]; exact (hc i hi).nu)
    exact ⟨X, eX, r, c, fun g hg i hi => by rw [v g hg i hi]; beta_reduce; rw [h4 i hi]⟩
  · obtain ⟨X, eX, r, c, v⟩ := g5 (fun i hi => by rw [h4 i hi]; exact (hc i hi).chi)
    exact ⟨X, eX, r, c, fun g hg i hi => by rw [v g hg i hi]; beta_reduce; rw [h4 i hi]⟩
  · obtain ⟨X, eX, a, b, c, v⟩ := g6 (fun i hi => by rw [h4 i hi]; exact (hc i hi).scatt)
    exact ⟨X, eX, a, b, c, fun g hg h hh i hi => by rw [v g hg h hh i hi]; beta_reduce; rw [h4 i hi]⟩

example : ∃ M' X, setTemperatures ⟨2, fun _ => 500⟩ (exGrid .slab) = ok M' ∧ tots M' = ok X ∧ X.m 0 1 = 1.5 := by
  obtain ⟨M', e, ⟨X, eX, -, -, v⟩, -⟩ := C39_feedback (exGrid_furnished (g := .slab)) (fun i _ => exMat_complete _) ⟨2, fun _ => 500⟩ rfl
  refine ⟨M', X, e, eX, ?_⟩
  rw [v 0 (by norm_num [exGrid]) 1 (by norm_num [exGrid])]
  norm_num [exGrid, exMat, law, Numeric.polyValue, sum_range_succ]

/-- **C40, heat sources.** -/
theorem C40_heat {M : Grid} (hM : Furnished M) (t : Vec ℝ) :
    (t.n ≤ M.cells → ∃ M', setHeatSources t M = ok M' ∧
      GivesVec (heatSources M') M.cells (fun i => if i < t.n then t.v i else (M.mats.v i).q) ∧
      ∀ i, i < M.cells → M'.mats.v i = { M.mats.v i with q := if i < t.n then t.v i else (M.mats.v i).q }) ∧
    (M.cells < t.n → setHeatSources t M = ub) := by
  have hb : ∀ i, i < t.n → ∀ M' : Grid, (do
      let y ← t.get i
      change (fun m => { m with q := y }) i M') = change (fun m => { m with q := t.v i }) i M' := by
    intro i hi M'
    rw [Vec.get_ok hi, ok_bind]
  refine ⟨fun hn => ?_, fun hn => ?_⟩
  · obtain ⟨M', e, h1, h2, h3, h4, h5, h6, h7, h8⟩ := changes_ok (fun i m => { m with q := t.v i }) t.n M (by rw [hM.mats_n]; exact hn) hb
    have hmats : M'.cells ≤ M'.mats.n := by rw [h3, h7, hM.mats_n]
    obtain ⟨x, ex, nx, vx⟩ := perCell (fun m => m.q) 0 hmats
    rw [h3] at nx vx
    refine ⟨M', e, ⟨x, ex, nx, fun i hi => ?_⟩, fun i _ => ?_⟩
    · rw [vx i hi]
      beta_reduce
      rw [h8 i]
      split_ifs <;> rfl
    · rw [h8 i]
      split_ifs <;> rfl
  · exact changes_ub (fun i m => { m with q := t.v i }) t.n M (by rw [hM.mats_n]; exact hn) hb

/-- **C40, fluxes.** The forward modes stored for all cells and groups are read back unchanged, all of them or the first one only, and so are the
adjoint modes; storing either leaves the other. A table for more cells than there are is undefined behaviour. -/
theorem C40_fluxes {M : Grid} (hM : Furnished M) (t : Box Fl) :
    (t.a = M.energies → t.b = M.cells → ∃ M', setFluxes t M = ok M' ∧ Furnished M' ∧ M'.nForward = M.nForward ∧
      (t.c = M.nForward → GivesBox (fluxes M') M.energies M.cells t.c t.v) ∧
      (0 < t.c → Gives (fundamentals M') M.energies M.cells (fun g i => t.v g i 0)) ∧
      ∀ i, i < M.cells → (M'.mats.v i).adj = (M.mats.v i).adj ∧ (M'.mats.v i).T = (M.mats.v i).T) ∧
    (t.a = M.energies → t.b = M.cells → ∃ M', setAdjoints t M = ok M' ∧ Furnished M' ∧ M'.nAdjoint = M.nAdjoint ∧
      (t.c = M.nAdjoint → GivesBox (adjoints M') M.energies M.cells t.c t.v) ∧
      (0 < t.c → Gives (fundamentalAdjoints M') M.energies M.cells (fun g i => t.v g i 0)) ∧
      ∀ i, i < M.cells → (M'.mats.v i).flux = (M.mats.v i).flux ∧ (M'.mats.v i).T = (M.mats.v i).T) ∧
    (M.cells < t.b → setFluxes t M = ub ∧ setAdjoints t M = ub) := by
  have ch : ∀ m, m < t.b → ∃ X, chip t m = ok X ∧ X.r = t.a ∧ X.c = t.c ∧ ∀ i, i < t.a → ∀ k, k < t.c → X.m i k = t.v i m k :=
    fun m hm => chip_ok hm
  have : Nonempty (Mat Fl) := ⟨⟨0, 0, fun _ _ => .nan⟩⟩
  choose! X hX hr hcc hv using ch
  have hb1 : ∀ i, i < t.b → ∀ M' : Grid, (do
      let x ← chip t i
      change (fun mat => { mat with flux := x }) i M') = change (fun mat => { mat with flux := X i }) i M' := by
    intro i hi M'
    rw [hX i hi, ok_bind]
  have hb2 : ∀ i, i < t.b → ∀ M' : Grid, (do
      let x ← chip t i
      change (fun mat => { mat with adj := x }) i M') = change (fun mat => { mat with adj := X i }) i M' := by
    intro i hi M'
    rw [hX i hi, ok_bind]
  refine ⟨fun ha hbn => ?_, fun ha hbn => ?_, fun hlt => ?_⟩
  · obtain ⟨M', e, h1, h2, h3, h4, h5, h6, h7, h8⟩ :=
      changes_ok (fun i m => { m with flux := X i }) t.b M (by rw [hM.mats_n, hbn]) hb1
    have hmats : M'.cells ≤ M'.mats.n := by rw [h3, h7, hM.mats_n]
    have hm : ∀ i, i < M.cells → M'.mats.v i = { M.mats.v i with flux := X i } := fun i hi => by rw [h8 i, if_pos (by omega)]
    refine ⟨M', e, ⟨by rw [h7, h3, hM.mats_n], fun i hi => ?_⟩, h5, fun hk => ?_, fun hk => ?_, fun i hi => ?_⟩
    · rw [h3] at hi
      rw [hm i hi, h4]; exact hM.energies i hi
    · unfold fluxes
      rw [← h3, ← h4, h5, ← hk]
      refine modeBox_ok hmats (fun m hm' => ?_)
      rw [h3] at hm'
      rw [hm m hm', h4]
      exact ⟨by dsimp only; rw [hr m (by omega)]; omega, by dsimp only; rw [hcc m (by omega)],
        fun i hi k hk' => hv m (by omega) i (by omega) k hk'⟩
    · unfold fundamentals
      rw [← h3, ← h4]
      refine firstModes_ok hmats (fun m hm' => ?_)
      rw [h3] at hm'
      rw [hm m hm', h4]
      exact ⟨by dsimp only; rw [hr m (by omega)]; omega, by dsimp only; rw [hcc m (by omega)]; exact hk,
        fun i hi => hv m (by omega) i (by omega) 0 hk⟩
    · rw [hm i hi]; exact ⟨rfl, rfl⟩
  · obtain ⟨M', e, h1, h2, h3, h4, h5, h6, h7, h8⟩ :=
      changes_ok (fun i m => { m with adj := X i }) t.b M (by rw [hM.mats_n, hbn]) hb2
    have hmats : M'.cells ≤ M'.mats.n := by rw [h3, h7, hM.mats_n]
    have hm : ∀ i, i < M.cells → M'.mats.v i = { M.mats.v i with adj := X i } := fun i hi => by rw [h8 i, if_pos (by omega)]
    refine ⟨M', e, ⟨by rw [h7, h3, hM.mats_n], fun i hi => ?_⟩, h6, fun hk => ?_, fun hk => ?_, fun i hi => ?_⟩
    · rw [h3] at hi
      rw [hm i hi, h4]; exact hM.energies i hi
    · unfold adjoints
      rw [← h3, ← h4, h6, ← hk]
      refine modeBox_ok hmats (fun m hm' => ?_)
      rw [h3] at hm'
      rw [hm m hm', h4]
      exact ⟨by dsimp only; rw [hr m (by omega)]; omega, by dsimp only; rw [hcc m (by omega)],
        fun i hi k hk' => hv m (by omega) i (by omega) k hk'⟩
    · unfold fundamentalAdjoints
      rw [← h3, ← h4]
      refine firstModes_ok hmats (fun m hm' => ?_)
      rw [h3] at hm'
      rw [hm m hm', h4]
      exact ⟨by dsimp only; rw [hr m (by omega)]; omega, by dsimp only; rw [hcc m (by omega)]; exact hk,
        fun i hi => hv m (by omega) i (by omega) 0 hk⟩
    · rw [hm i hi]; exact ⟨rfl, rfl⟩
  · exact ⟨changes_ub (fun i m => { m with flux := X i }) t.b M (by rw [hM.mats_n]; exact hlt) hb1,
      changes_ub (fun i m => { m with adj := X i }) t.b M (by rw [hM.mats_n]; exact hlt) hb2⟩

/-- **C40, total fluxes.** Total fluxes stored are read back; before anything is stored they read as zero. -/
theorem C40_totals {M : Grid} (hM : Furnished M) :
    (∀ t : Mat Fl, t.r = M.energies → t.c = M.cells → 0 < M.energies → ∃ M', setTotals t M = ok M' ∧
      Gives (totals M') M.energies M.cells t.m) ∧
    (∀ t : Mat Fl, t.c < M.cells → setTotals t M = ub) ∧
    ((∀ i, i < M.cells → (M.mats.v i).total.n = 0) → Gives (totals M) M.energies M.cells (fun _ _ => .fin 0)) := by
  refine ⟨fun t hr hc hE => ?_, fun t hc => ?_, fun h0 => ?_⟩
  · have hb : ∀ i, i < M.cells → ∀ M' : Grid, (do
        let x ← column t i
        change (fun mat => { mat with total := x }) i M') = change (fun mat => { mat with total := ⟨t.r, fun g => t.m g i⟩ }) i M' := by
      intro i hi M'
      unfold column
      rw [if_pos (by omega), ok_bind]
    obtain ⟨M', e, h1, h2, h3, h4, h5, h6, h7, h8⟩ :=
      changes_ok (fun i m => { m with total := ⟨t.r, fun g => t.m g i⟩ }) M.cells M (by rw [hM.mats_n]) hb
    refine ⟨M', e, ?_⟩
    unfold totals
    rw [h3, h4]
    refine columns M.energies M.cells _ _ _ rfl rfl (fun m hm => ?_)
    refine ⟨fun i x => do
      let z ← (⟨t.r, fun g => t.m g m⟩ : Vec Fl).get i
      x.set i m z, fun x => ?_, fun i hi x => ?_⟩
    · rw [Vec.get_ok (by rw [h7, hM.mats_n]; exact hm), ok_bind, h8 m, if_pos hm]
      unfold copyTotal
      rw [if_pos (by dsimp only; omega)]
    · dsimp only
      rw [Vec.get_ok (by dsimp only; omega), ok_bind]
  · obtain ⟨M', e, -⟩ := changes_ok (body := fun i M' => do
        let x ← column t i
        change (fun mat => { mat with total := x }) i M') (fun i m => { m with total := ⟨t.r, fun g => t.m g i⟩ }) t.c M
        (by rw [hM.mats_n]; omega) (fun i hi M' => by unfold column; rw [if_pos hi, ok_bind])
    exact loop_fail_at (fun _ => rfl) hc e (by unfold column; rw [if_neg (by omega)]; rfl)
  · obtain ⟨X, e, hX⟩ := loop_inv (n := M.cells) (s := (⟨M.energies, M.cells, fun _ _ => .fin 0⟩ : Mat Fl)) (body := fun m x => do
        let mat ← M.mats.get m
        copyTotal M.energies m mat.total x) (fun _ x => x = ⟨M.energies, M.cells, fun _ _ => .fin 0⟩) rfl (by
          rintro i x hi rfl
          refine ⟨_, ?_, rfl⟩
          rw [Vec.get_ok (by rw [hM.mats_n]; exact hi), ok_bind]
          unfold copyTotal
          rw [if_neg (by rw [h0 i hi]; decide)])
    subst hX
    exact ⟨_, e, rfl, rfl, fun _ _ _ _ => rfl⟩

example : ∀ i, i < (exGrid .slab).cells → ((exGrid .slab).mats.v i).total.n = 0 := fun _ _ => rfl

/-- **C40, energy groups.** Setting the number of groups sets it in every material. -/
theorem C40_groups {M : Grid} (hn : M.mats.n = M.cells) (n : Nat) :
    ∃ M', setGroups n M = ok M' ∧ Furnished M' ∧ M'.energies = n ∧ M'.cells = M.cells ∧
      ∀ i, i < M.cells → M'.mats.v i = { M.mats.v i with energies := n } := by
  obtain ⟨M', e, h1, h2, h3, h4, h5, h6, h7, h8⟩ := changes_ok (M := { M with energies := n })
    (body := fun i => change (fun m => { m with energies := n }) i) (fun _ m => { m with energies := n }) M.cells
    (by dsimp only; omega) (fun i _ M' => rfl)
  dsimp only at h1 h2 h3 h4 h5 h6 h7 h8
  refine ⟨M', e, ⟨by rw [h7, h3, hn], fun i hi => ?_⟩, h4, h3, fun i hi => by rw [h8 i, if_pos hi]⟩
  rw [h3] at hi
  rw [h8 i, if_pos hi, h4]

/-- **C40, materials.** A mesh is given one fresh material per cell, with the name given for the cell; too short a list of names is undefined
behaviour. -/
theorem C40_materials {M : Grid} (names : Vec String) :
    (M.cells ≤ names.n → ∃ M', createMaterials names M = ok M' ∧ M'.mats.n = M.cells ∧ M'.cells = M.cells ∧ M'.bounds = M.bounds ∧
      ∀ i, i < M.cells → (M'.mats.v i).name = names.v i ∧ (M'.mats.v i).T = 0 ∧ (M'.mats.v i).q = 0 ∧ (M'.mats.v i).tot = [] ∧
        (M'.mats.v i).kLaw = none) ∧
    (names.n < M.cells → createMaterials names M = ub) := by
  unfold createMaterials
  refine ⟨fun h => ?_, fun h => ?_⟩
  · obtain ⟨x, e, n, v⟩ := loop_fill (fun i => newMaterial (names.v i)) M.cells (newMaterial "") (fun i x => do
      let s ← names.get i
      x.set i (newMaterial s)) (fun i t hi _ => by rw [Vec.get_ok (by omega), ok_bind])
    refine ⟨{ M with mats := x }, by rw [e]; rfl, n, rfl, rfl, fun i hi => ?_⟩
    dsimp only
    rw [v i hi]
    exact ⟨rfl, rfl, rfl, rfl, rfl⟩
  · rw [OkUb.loop_ub (fun i s => (OkUb.get _ _).bind (fun z => OkUb.set _ _ _)) h (fun s => by
      rw [Vec.get_ub (by omega), ub_bind])]
    rfl

end

end Verif.Mesh
