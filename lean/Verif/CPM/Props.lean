import Verif.CPM.Boundary
import Verif.Diffusion.Props

/-!
# Property theorems: integral transport (C17 - C21, C48 - C51)

`vacuumCPs d e3 ki3 g` are the collision probabilities of geometry `g` with nothing outside; `applyBC d` adds the neutrons returned
by the boundary and divides by the total cross section of the target cell; `assemble d` is the pair (losses, fission) handed to the
eigenvalue solver. Unknown `i + g * cells` is the flux of group `g` in cell `i`.
-/

namespace Verif.CPM

open Verif Outcome Finset

noncomputable section

/-- Example: a slab of two unequal cells, two groups, albedo 1/2. -/
def exSlab : Data where
  cells := 2
  energies := 2
  albedo := ⟨1, fun _ => 1 / 2⟩
  radii := ⟨3, fun i => i * (i + 1)⟩
  vol := ⟨2, fun i => 2 * (i + 1)⟩
  surface := 1
  tot := ⟨2, 2, fun g i => 1 + g + i⟩
  fiss := ⟨2, 2, fun g i => g + i⟩
  nu := ⟨2, 2, fun g _ => 2 + g⟩
  chi := ⟨2, 2, fun g _ => if g = 0 then 1 else 0⟩
  scatt := fun g h _ => if g = 0 ∧ h = 1 then 1 / 2 else 0

theorem exSlab_wf : WellFormed exSlab := ⟨by norm_num [exSlab], rfl, rfl, rfl, rfl, rfl, rfl, rfl, rfl, rfl, rfl⟩

theorem exSlab_pos : Positive exSlab where
  tot_pos h _ i _ := by show (0 : ℝ) < 1 + h + i; positivity
  vol_pos i _ := by show (0 : ℝ) < 2 * (i + 1); positivity
  surface_pos := by norm_num [exSlab]

theorem exSlab_mesh : MeshFor exSlab .slab where
  incr i _ := by show (i : ℝ) * (i + 1) < ((i + 1 : ℕ) : ℝ) * ((i + 1 : ℕ) + 1); push_cast; nlinarith [(Nat.cast_nonneg i : (0 : ℝ) ≤ i)]
  vol_eq i _ := by
    show 2 * ((i : ℝ) + 1) = ((i + 1 : ℕ) : ℝ) * ((i + 1 : ℕ) + 1) - (i : ℝ) * (i + 1)
    push_cast; ring

theorem exSlab_absorbing : Absorbing exSlab where
  scatt_nonneg g h i _ _ _ := by show (0 : ℝ) ≤ if g = 0 ∧ h = 1 then 1 / 2 else 0; split_ifs <;> norm_num
  absorbs g i hg hi := by
    have e : exSlab.energies = 2 := rfl
    rw [e, sum_range_succ, sum_range_succ, sum_range_zero]
    have h1 : (exSlab.tot.m g i : ℝ) = 1 + g + i := rfl
    have h2 : ∀ h, exSlab.scatt g h i = if g = 0 ∧ h = 1 then 1 / 2 else 0 := fun h => rfl
    rw [h1, h2, h2]
    have := (Nat.cast_nonneg i : (0 : ℝ) ≤ i)
    have := (Nat.cast_nonneg g : (0 : ℝ) ≤ g)
    split_ifs <;> norm_num at * <;> linarith

/-- Example: a cylinder (per unit height) or sphere-like body of two rings with the same cross sections. -/
def exRound : Data where
  cells := 2
  energies := 2
  albedo := ⟨1, fun _ => 1⟩
  radii := ⟨3, fun i => i⟩
  vol := ⟨2, fun i => Real.pi * (2 * i + 1)⟩
  surface := 4 * Real.pi
  tot := ⟨2, 2, fun g i => 1 + g + i⟩
  fiss := ⟨2, 2, fun g i => g + i⟩
  nu := ⟨2, 2, fun g _ => 2 + g⟩
  chi := ⟨2, 2, fun g _ => if g = 0 then 1 else 0⟩
  scatt := fun g h _ => if g = 0 ∧ h = 1 then 1 / 2 else 0

theorem exRound_wf : WellFormed exRound := ⟨by norm_num [exRound], rfl, rfl, rfl, rfl, rfl, rfl, rfl, rfl, rfl, rfl⟩

theorem exRound_pos : Positive exRound where
  tot_pos h _ i _ := by show (0 : ℝ) < 1 + h + i; positivity
  vol_pos i _ := by show (0 : ℝ) < Real.pi * (2 * i + 1); positivity
  surface_pos := by show (0 : ℝ) < 4 * Real.pi; positivity

theorem exRound_mesh : RoundMesh exRound where
  first := by norm_num [exRound]
  incr i _ := by show (i : ℝ) < ((i + 1 : ℕ) : ℝ); push_cast; linarith

/-! ### C18: reciprocity -/

/-- **C18.** In every geometry and for any transmission functions the collision probabilities without return from the boundary are
reciprocal: collisions in `j` of neutrons from `i` equal collisions in `i` of neutrons from `j`, for equal emission per volume and
collision rate. -/
theorem C18_reciprocity {d : Data} (wf : WellFormed d) (pos : Positive d) {g : Diffusion.Geom} (mesh : MeshFor d g)
    (hc : 0 < d.cells) (e3 ki3 : ℝ → ℝ) :
    ∃ G, vacuumCPs d e3 ki3 g = ok G ∧ ∀ h i j, h < d.energies → i < d.cells → j < d.cells →
      d.tot.m h i * d.vol.v i * G.v (i, j, h) = d.tot.m h j * d.vol.v j * G.v (j, i, h) := by
  obtain ⟨G, e, -, r⟩ := vacuum_recip wf pos mesh hc e3 ki3
  exact ⟨G, e, r⟩

/-- **C18, with boundary conditions.** Applying the boundary conditions to any reciprocal probabilities keeps them reciprocal, for any
albedo for which the result exists. -/
theorem C18_boundary {d : Data} (wf : WellFormed d) (pos : Positive d) {G : Ten3}
    (hG : G.dom = fun x => x.1 < d.cells ∧ x.2.1 < d.cells ∧ x.2.2 < d.energies) (hrec : Reciprocal d G.v)
    (hB : ∀ h, h < d.energies → 1 - crossing d d.surface (escape d G.v h) h * d.albedo.v 0 ≠ 0) :
    ∃ p, applyBC d G = ok p ∧ ∀ h i j, h < d.energies → i < d.cells → j < d.cells →
      d.vol.v i * p.v (i, j, h) = d.vol.v j * p.v (j, i, h) := by
  have ht : ∀ h, h < d.energies → ∀ i, i < d.cells → d.tot.m h i ≠ 0 := fun h hh i hi => (pos.tot_pos h hh i hi).ne'
  obtain ⟨p, e, -, v⟩ := applyBC_ok wf ht pos.surface_pos.ne' hG hB
  refine ⟨p, e, fun h i j hh hi hj => ?_⟩
  rw [v h i j hh hi hj, v h j i hh hj hi]
  exact bc_recip (fun i hi => (pos.vol_pos i hi).ne') ht hrec hh hi hj

/-- **C18, whole calculation.** With the exact transmission functions and an albedo between 0 and 1 the calculation succeeds in every
geometry, and the probabilities it ends with are reciprocal. -/
theorem C18_complete {d : Data} (wf : WellFormed d) (pos : Positive d) {g : Diffusion.Geom} (mesh : MeshFor d g)
    (hc : 0 < d.cells) (ha0 : 0 ≤ d.albedo.v 0) (ha1 : d.albedo.v 0 ≤ 1) :
    ∃ p, (vacuumCPs d E3 Ki3 g >>= applyBC d) = ok p ∧ ∀ h i j, h < d.energies → i < d.cells → j < d.cells →
      d.vol.v i * p.v (i, j, h) = d.vol.v j * p.v (j, i, h) := by
  obtain ⟨G, e, s⟩ := vacuum_sound wf pos mesh hc
  obtain ⟨p, e', r⟩ := C18_boundary wf pos s.dom s.recip (fun h hh => (den_pos pos s hh ha0 ha1).ne')
  exact ⟨p, by rw [e, ok_bind, e'], r⟩

example : WellFormed exSlab ∧ Positive exSlab ∧ MeshFor exSlab .slab ∧ 0 < exSlab.cells ∧ 0 ≤ exSlab.albedo.v 0 ∧
    exSlab.albedo.v 0 ≤ 1 :=
  ⟨exSlab_wf, exSlab_pos, exSlab_mesh, by norm_num [exSlab], by norm_num [exSlab], by norm_num [exSlab]⟩

example : WellFormed exRound ∧ Positive exRound ∧ MeshFor exRound .cylinder ∧ MeshFor exRound .sphere ∧ 0 < exRound.cells ∧
    0 ≤ exRound.albedo.v 0 ∧ exRound.albedo.v 0 ≤ 1 :=
  ⟨exRound_wf, exRound_pos, exRound_mesh, exRound_mesh, by norm_num [exRound], by norm_num [exRound], by norm_num [exRound]⟩

/-! ### C19: row sums and the boundary -/

/-- **C19.** For any collision probabilities, the balance reported after the boundary conditions is 1 less the escape probability times
the fraction finally lost of what escapes, `(1 - a) / (1 - a Pss)`: escaping neutrons return with probability `a`, and those returned
cross the body with probability `Pss`. With a closed boundary (`a = 1`) it is 1 in every cell and group; with an open one (`a = 0`)
it is 1 less the escape probability, and the probabilities are only divided by the total cross section. -/
theorem C19_balance {d : Data} (wf : WellFormed d) (ht : ∀ h, h < d.energies → ∀ i, i < d.cells → d.tot.m h i ≠ 0)
    (hS : d.surface ≠ 0) {G : Ten3} (hG : G.dom = fun x => x.1 < d.cells ∧ x.2.1 < d.cells ∧ x.2.2 < d.energies)
    (hB : ∀ h, h < d.energies → 1 - crossing d d.surface (escape d G.v h) h * d.albedo.v 0 ≠ 0) :
    ∃ p B, applyBC d G = ok p ∧ balanceCheck d p = ok B ∧ ∀ h i, h < d.energies → i < d.cells →
      B.m h i = 1 - escape d G.v h i * (1 - d.albedo.v 0) / (1 - d.albedo.v 0 * crossing d d.surface (escape d G.v h) h) ∧
      (d.albedo.v 0 = 1 → B.m h i = 1) ∧
      (d.albedo.v 0 = 0 → B.m h i = 1 - escape d G.v h i ∧ ∀ j, j < d.cells → p.v (i, j, h) = G.v (i, j, h) / d.tot.m h j) := by
  obtain ⟨p, e, dp, v⟩ := applyBC_ok wf ht hS hG hB
  obtain ⟨B, eB, vB⟩ := balanceCheck_ok wf dp
  refine ⟨p, B, e, eB, ?_⟩
  intro h i hh hi
  have hv : B.m h i = 1 - escape d G.v h i * (1 - d.albedo.v 0) /
      (1 - d.albedo.v 0 * crossing d d.surface (escape d G.v h) h) := by
    rw [vB h i hh hi, sum_congr rfl (fun j hj => by rw [v h i j hh hi (mem_range.1 hj)]), bc_row ht G.v hh hS (hB h hh)]
  refine ⟨hv, fun ha => by rw [hv, ha]; ring, fun ha => ⟨by rw [hv, ha]; ring, fun j hj => ?_⟩⟩
  rw [v h i j hh hi hj, bcVal, ha]
  ring

/-- **C19, range.** If escape and crossing probabilities lie between 0 and 1 (`Pss < 1`) and the albedo as well, the balance lies
between 0 and 1. -/
theorem C19_range {d : Data} (wf : WellFormed d) (ht : ∀ h, h < d.energies → ∀ i, i < d.cells → d.tot.m h i ≠ 0)
    (hS : d.surface ≠ 0) {G : Ten3} (hG : G.dom = fun x => x.1 < d.cells ∧ x.2.1 < d.cells ∧ x.2.2 < d.energies)
    (ha0 : 0 ≤ d.albedo.v 0) (ha1 : d.albedo.v 0 ≤ 1)
    (he : ∀ h i, h < d.energies → i < d.cells → 0 ≤ escape d G.v h i ∧ escape d G.v h i ≤ 1)
    (hx : ∀ h, h < d.energies → crossing d d.surface (escape d G.v h) h < 1) :
    ∃ p B, applyBC d G = ok p ∧ balanceCheck d p = ok B ∧ ∀ h i, h < d.energies → i < d.cells → 0 ≤ B.m h i ∧ B.m h i ≤ 1 := by
  have hp : ∀ h, h < d.energies → 0 < 1 - d.albedo.v 0 * crossing d d.surface (escape d G.v h) h := by
    intro h hh
    have := hx h hh
    rcases eq_or_lt_of_le ha0 with h0 | h0
    · rw [← h0]; norm_num
    · nlinarith
  obtain ⟨p, B, e, eB, v⟩ := C19_balance wf ht hS hG (fun h hh => by rw [mul_comm]; exact (hp h hh).ne')
  refine ⟨p, B, e, eB, fun h i hh hi => ?_⟩
  rw [(v h i hh hi).1]
  have h1 := hp h hh
  obtain ⟨e0, e1⟩ := he h i hh hi
  have h2 : 0 ≤ escape d G.v h i * (1 - d.albedo.v 0) / (1 - d.albedo.v 0 * crossing d d.surface (escape d G.v h) h) :=
    div_nonneg (mul_nonneg e0 (by linarith)) h1.le
  have h3 : escape d G.v h i * (1 - d.albedo.v 0) / (1 - d.albedo.v 0 * crossing d d.surface (escape d G.v h) h) ≤ 1 := by
    rw [div_le_one h1]
    have := hx h hh
    have h4 : escape d G.v h i * (1 - d.albedo.v 0) ≤ 1 * (1 - d.albedo.v 0) := mul_le_mul_of_nonneg_right e1 (by linarith)
    have h5 : d.albedo.v 0 * crossing d d.surface (escape d G.v h) h ≤ d.albedo.v 0 * 1 := mul_le_mul_of_nonneg_left this.le ha0
    linarith
  constructor <;> linarith

/-- **C19, whole calculation.** With the exact transmission functions and an albedo between 0 and 1 the calculation always succeeds,
the balance never exceeds 1, it is 1 in every cell for a closed boundary, and for any other boundary some cell of each group leaks. -/
theorem C19_geometries {d : Data} (wf : WellFormed d) (pos : Positive d) {g : Diffusion.Geom} (mesh : MeshFor d g)
    (hc : 0 < d.cells) (ha0 : 0 ≤ d.albedo.v 0) (ha1 : d.albedo.v 0 ≤ 1) :
    ∃ p B, (vacuumCPs d E3 Ki3 g >>= applyBC d) = ok p ∧ balanceCheck d p = ok B ∧
      (∀ h i, h < d.energies → i < d.cells → B.m h i ≤ 1) ∧
      (d.albedo.v 0 = 1 → ∀ h i, h < d.energies → i < d.cells → B.m h i = 1) ∧
      (d.albedo.v 0 < 1 → ∀ h, h < d.energies → ∃ i, i < d.cells ∧ B.m h i < 1) := by
  obtain ⟨G, e, s⟩ := vacuum_sound wf pos mesh hc
  have hp := fun h hh => den_pos pos s (h := h) hh ha0 ha1
  obtain ⟨p, B, e', eB, v⟩ := C19_balance wf (fun h hh i hi => (pos.tot_pos h hh i hi).ne') pos.surface_pos.ne' s.dom
    (fun h hh => (hp h hh).ne')
  refine ⟨p, B, by rw [e, ok_bind, e'], eB, ?_, fun ha h i hh hi => (v h i hh hi).2.1 ha, ?_⟩
  · intro h i hh hi
    rw [(v h i hh hi).1]
    have h1 := hp h hh
    rw [mul_comm] at h1
    have := div_nonneg (mul_nonneg (s.esc h i hh hi) (sub_nonneg.2 ha1)) h1.le
    linarith
  · intro ha h hh
    obtain ⟨i, hi, hp'⟩ := s.out h hh
    refine ⟨i, hi, ?_⟩
    rw [(v h i hh hi).1]
    have h1 := hp h hh
    rw [mul_comm] at h1
    have := div_pos (mul_pos hp' (sub_pos.2 ha)) h1
    linarith

/-- **C19, precondition.** If returned neutrons cross the body without collision and always return (`a Pss = 1`), here in the first
group, there is no balance and the result is not a number. -/
theorem C19_endless {d : Data} (wf : WellFormed d) (ht : ∀ i, i < d.cells → d.tot.m 0 i ≠ 0) (hS : d.surface ≠ 0) {G : Ten3}
    (hG : G.dom = fun x => x.1 < d.cells ∧ x.2.1 < d.cells ∧ x.2.2 < d.energies) (hc : 0 < d.cells) (he : 0 < d.energies)
    (hB : d.albedo.v 0 * crossing d d.surface (escape d G.v 0) 0 = 1) : applyBC d G = nonfinite :=
  applyBC_fail wf ht hS hG hc he (by rw [mul_comm, hB, sub_self])

/-- Example for the previous theorems: probabilities that leave nothing over, so that nobody crosses. -/
example : (Arr.zero3 2 2 2 : Ten3).dom = (fun x => x.1 < exRound.cells ∧ x.2.1 < exRound.cells ∧ x.2.2 < exRound.energies) := rfl

example : crossing exRound exRound.surface (escape exRound (fun x => if x.1 = x.2.1 then 1 else 0) 0) 0 = 1 ∧
    exRound.albedo.v 0 * 1 = 1 := by
  constructor
  · simp [crossing, escape, exRound, sum_range_succ]
  · norm_num [exRound]

/-! ### C20: the multigroup equation -/

/-- **C20.** The two matrices are `δ - p Σs` and `p χ ν Σf` entry by entry, with `p` the probabilities after boundary conditions. A flux
satisfies `M φ = F φ / k` exactly when the flux of each group and cell is the sum over the cells `j` of `p (i, j)` times the emission
density (scattering from all groups plus fission divided by `k`) of cell `j`. -/
theorem C20_equation {d : Data} (wf : WellFormed d) (pos : Positive d) {geom : Diffusion.Geom} (mesh : MeshFor d geom)
    (hc : 0 < d.cells) (ha0 : 0 ≤ d.albedo.v 0) (ha1 : d.albedo.v 0 ≤ 1) :
    ∃ p M F, (vacuumCPs d E3 Ki3 geom >>= applyBC d) = ok p ∧ (vacuumCPs d E3 Ki3 geom >>= assemble d) = ok (M, F) ∧
      M.r = d.cells * d.energies ∧ M.c = d.cells * d.energies ∧ F.r = d.cells * d.energies ∧ F.c = d.cells * d.energies ∧
      (∀ g h i j, g < d.energies → h < d.energies → i < d.cells → j < d.cells →
        M.m (i + g * d.cells) (j + h * d.cells) = (if g = h ∧ i = j then 1 else 0) - p.v (i, j, g) * d.scatt h g j ∧
        F.m (i + g * d.cells) (j + h * d.cells) = p.v (i, j, g) * (d.chi.m g j * (d.nu.m h j * d.fiss.m h j))) ∧
      ∀ (φ : Nat → ℝ) (k : ℝ),
        (∀ x, x < d.cells * d.energies → ∑ q ∈ range (d.cells * d.energies), M.m x q * φ q =
          (1 / k) * ∑ q ∈ range (d.cells * d.energies), F.m x q * φ q) ↔
        (∀ g i, g < d.energies → i < d.cells → φ (i + g * d.cells) = ∑ j ∈ range d.cells, p.v (i, j, g) * emission d φ k g j) := by
  obtain ⟨G, e, s⟩ := vacuum_sound wf pos mesh hc
  obtain ⟨p, e', dp, -⟩ := applyBC_ok wf (fun h hh i hi => (pos.tot_pos h hh i hi).ne') pos.surface_pos.ne' s.dom
    (fun h hh => (den_pos pos s hh ha0 ha1).ne')
  obtain ⟨M, F, eA, mr, mc, fr, fc, hv⟩ := assemble_ok wf dp e'
  refine ⟨p, M, F, by rw [e, ok_bind, e'], by rw [e, ok_bind, eA], mr, mc, fr, fc, hv, ?_⟩
  intro φ k
  have key : ∀ g i, g < d.energies → i < d.cells →
      (∑ q ∈ range (d.cells * d.energies), M.m (i + g * d.cells) q * φ q =
          (1 / k) * ∑ q ∈ range (d.cells * d.energies), F.m (i + g * d.cells) q * φ q ↔
        φ (i + g * d.cells) = ∑ j ∈ range d.cells, p.v (i, j, g) * emission d φ k g j) := by
    intro g i hg hi
    obtain ⟨h1, h2⟩ := row_apply (p := fun g i j => p.v (i, j, g)) hv φ hg hi
    rw [h1, h2]
    have h3 : ∑ j ∈ range d.cells, p.v (i, j, g) * emission d φ k g j =
        (∑ j ∈ range d.cells, p.v (i, j, g) * ∑ h ∈ range d.energies, d.scatt h g j * φ (j + h * d.cells)) +
        (1 / k) * ∑ j ∈ range d.cells, p.v (i, j, g) *
          (d.chi.m g j * ∑ h ∈ range d.energies, d.nu.m h j * d.fiss.m h j * φ (j + h * d.cells)) := by
      rw [mul_sum, ← sum_add_distrib]
      refine sum_congr rfl (fun j _ => ?_)
      unfold emission
      ring
    rw [h3]
    constructor <;> intro h <;> linarith
  constructor
  · intro h g i hg hi
    exact (key g i hg hi).1 (h _ (flat_lt hi hg))
  · intro h x hx
    obtain ⟨i, g, hi, hg, rfl⟩ := flat_surj hx
    exact (key g i hg hi).2 (h g i hg hi)

/-! ### C21: slab -/

/-- **C21, tracks.** The tracks of the slab are optical distances: the thickness of the cell on the diagonal, and between two
cells the thickness of everything in between, never negative. -/
theorem C21_tracks {d : Data} (wf : WellFormed d) (pos : Positive d) (mesh : SlabMesh d) :
    ∃ T, slabTracks d = ok T ∧ ∀ h i j, h < d.energies → i ≤ j → j < d.cells →
      T.v (i, j, 0, h) = (if i = j then thick d h i else ∑ k ∈ Ico (i + 1) j, thick d h k) ∧ 0 ≤ T.v (i, j, 0, h) := by
  obtain ⟨T, e, -, v⟩ := slabTracks_ok wf mesh.incr pos.tot_pos
  refine ⟨T, e, fun h i j hh hij hj => ⟨v h i j hh hij hj, ?_⟩⟩
  rw [v h i j hh hij hj]
  split_ifs
  · exact (thick_pos (mesh.incr i (by omega)) (pos.tot_pos h hh i (by omega))).le
  · exact gap_nonneg mesh.incr (pos.tot_pos h hh) hj.le

/-- **C21.** With the exact exponential integral the probabilities of the slab are the exact flight probabilities: a neutron born
uniformly and isotropically in cell `i` collides first in cell `j`. They are not negative, and what they leave over is exactly the
probability of leaving through one of the two faces, which is positive and given in closed form. -/
theorem C21_slab {d : Data} (wf : WellFormed d) (pos : Positive d) (mesh : SlabMesh d) (ki3 : ℝ → ℝ) :
    ∃ G, vacuumCPs d E3 ki3 .slab = ok G ∧
      (∀ h i j, h < d.energies → i < d.cells → j < d.cells → G.v (i, j, h) = slabProb d h i j ∧ 0 ≤ G.v (i, j, h)) ∧
      (∀ h i, h < d.energies → i < d.cells → 1 - ∑ j ∈ range d.cells, G.v (i, j, h) = slabEscape d h i ∧ 0 < slabEscape d h i ∧
        slabEscape d h i = 1 / (2 * thick d h i) *
          (E3 (∑ k ∈ Ico (i + 1) d.cells, thick d h k) - E3 ((∑ k ∈ Ico (i + 1) d.cells, thick d h k) + thick d h i) +
            E3 (∑ k ∈ Ico 0 i, thick d h k) - E3 ((∑ k ∈ Ico 0 i, thick d h k) + thick d h i))) := by
  obtain ⟨G, e, -, v, es⟩ := slab_vacuum wf pos mesh ki3
  refine ⟨G, e, fun h i j hh hi hj => ⟨v h i j hh hi hj, ?_⟩, fun h i hh hi => ?_⟩
  · rw [v h i j hh hi hj]
    exact slabProb_nonneg mesh.incr (pos.tot_pos h hh) hi hj
  · have he := slabEscape_eq mesh.incr (pos.tot_pos h hh) hi
    exact ⟨es h i hh hi, slabEscape_strict mesh.incr (pos.tot_pos h hh) hi he
      (gap_nonneg mesh.incr (pos.tot_pos h hh) le_rfl) (gap_nonneg mesh.incr (pos.tot_pos h hh) (by omega)), he⟩

/-! ### C48: chords of cylinder and sphere -/

/-- **C48.** There is a quadrature rule with nodes in `(0, 1)`, positive weights, and the moments of `2 x dx / 2` up to order 15 within
`1e-10`, such that for every mesh the probabilities of the cylinder (sphere) are the chord sums with that rule in each ring, the
chord `k` of ring `m` lying at distance `r(m+1) - (r(m+1) - r m) x_k²`. Probabilities between different cells are not negative, and
what the row leaves over is the flow out along the same chords, also not negative. -/
theorem C48_chords : ∃ x w : Nat → ℝ, (∀ k, k < 8 → 0 < x k ∧ x k < 1 ∧ 0 < w k) ∧
    (∀ n : Nat, n ≤ 15 → |(∑ k ∈ range 8, w k * x k ^ n) - ∫ t in (0 : ℝ)..1, t * t ^ n| ≤ 1 / 10 ^ 10) ∧
    ∀ d : Data, WellFormed d → Positive d → RoundMesh d → 0 < d.cells → ∀ z a b : Nat → Nat → ℝ,
      (∀ m k, z m k = d.radii.v (m + 1) - (d.radii.v (m + 1) - d.radii.v m) * x k ^ 2) →
      (∀ m k, a m k = w k * (d.radii.v (m + 1) - d.radii.v m)) →
      (∀ m k, b m k = w k * (d.radii.v (m + 1) - d.radii.v m) * z m k) →
      ∃ C S, (∀ e3, vacuumCPs d e3 Ki3 .cylinder = ok C) ∧ (∀ e3 ki3, vacuumCPs d e3 ki3 .sphere = ok S) ∧
        ∀ h i, h < d.energies → i < d.cells →
          (∀ j, j < d.cells → C.v (i, j, h) = roundProb d Ki3 4 8 z a h i j ∧
            S.v (i, j, h) = roundProb d (fun x => Real.exp (-x)) (Real.pi * 4) 8 z b h i j ∧
            (i ≠ j → 0 ≤ C.v (i, j, h) ∧ 0 ≤ S.v (i, j, h))) ∧
          escape d C.v h i = 4 / (d.vol.v i * d.tot.m h i) * chordSum 8 z a i (fun y => rayEscape d Ki3 h y i) ∧
          escape d S.v h i = Real.pi * 4 / (d.vol.v i * d.tot.m h i) *
            chordSum 8 z b i (fun y => rayEscape d (fun x => Real.exp (-x)) h y i) ∧
          0 ≤ escape d C.v h i ∧ 0 ≤ escape d S.v h i := by
  refine ⟨abscissa.v, weights.v, fun k hk => ⟨(nodes hk).1, (nodes hk).2, weights_pos hk⟩, ?_, ?_⟩
  · intro n hn
    have : ∫ t in (0 : ℝ)..1, t * t ^ n = 1 / (n + 2) := by
      have h1 : (fun t : ℝ => t * t ^ n) = fun t => t ^ (n + 1) := by funext t; ring
      rw [h1, integral_pow]
      push_cast
      norm_num
      ring
    rw [this]
    exact moments n hn
  · intro d wf pos mesh hc z a b hz ha hb
    have ez : z = zray d := by funext m k; rw [hz]; rfl
    subst ez
    have ea : a = wray d (cylinder Ki3) := by funext m k; rw [ha]; unfold wray cylinder; ring
    have eb : b = wray d sphere := by funext m k; rw [hb]; rfl
    subst ea eb
    obtain ⟨C, eC, -, vC, sC⟩ := round_vacuum wf pos mesh hc (cylinder Ki3) (chords_cyl mesh Ki3)
    obtain ⟨S, eS, -, vS, sS⟩ := round_vacuum wf pos mesh hc sphere (chords_sph mesh)
    obtain ⟨C', eC', fC⟩ := vacuum_sound (g := .cylinder) wf pos mesh hc
    obtain ⟨S', eS', fS⟩ := vacuum_sound (g := .sphere) wf pos mesh hc
    have hC : vacuumCPs d E3 Ki3 .cylinder = ok C := eC
    have hS : vacuumCPs d E3 Ki3 .sphere = ok S := eS
    rw [hC] at eC'
    rw [hS] at eS'
    cases eC'
    cases eS'
    refine ⟨C, S, fun _ => eC, fun _ _ => eS, fun h i hh hi => ⟨fun j hj => ⟨vC h i j hh hi hj, vS h i j hh hi hj,
      fun hij => ⟨fC.off h i j hh hi hj hij, fS.off h i j hh hi hj hij⟩⟩, sC h i hh hi, sS h i hh hi, fC.esc h i hh hi,
      fS.esc h i hh hi⟩⟩

/-! ### C49: the crossing probability -/

/-- **C49, cylinder.** If the external surface is that of the cylinder, `2 π R`, and the innermost radius is zero, the crossing probability
used for returned neutrons is a weighted mean of `Ki3 (2 τ) / Ki3 0` over the chords and lies in `[0, 1)`. -/
theorem C49_cylinder {d : Data} (wf : WellFormed d) (pos : Positive d) (mesh : RoundMesh d) (hc : 0 < d.cells)
    (h0 : d.radii.v 0 = 0) (hS : d.surface = 2 * Real.pi * d.radii.v d.cells) :
    ∃ G, (∀ e3, vacuumCPs d e3 Ki3 .cylinder = ok G) ∧ ∀ h, h < d.energies →
      0 ≤ crossing d d.surface (escape d G.v h) h ∧ crossing d d.surface (escape d G.v h) h < 1 := by
  obtain ⟨G, e, -, -, es⟩ := round_vacuum wf pos mesh hc (cylinder Ki3) (chords_cyl mesh Ki3)
  obtain ⟨G', e', s⟩ := vacuum_sound (g := .cylinder) wf pos mesh hc
  have hC : vacuumCPs d E3 Ki3 .cylinder = ok G := e
  rw [hC] at e'
  cases e'
  refine ⟨G, fun _ => e, fun h hh => ⟨?_, crossing_lt_one pos s hh⟩⟩
  rw [round_crossing pos mesh (chords_cyl mesh Ki3) hh d.surface (es h · hh)]
  have hpre : (cylinder Ki3).pre = 4 := rfl
  have hK : (cylinder Ki3).K = Ki3 := rfl
  have hR : 0 < d.radii.v d.cells := by
    have := pos.surface_pos
    rw [hS] at this
    have hpi := Real.pi_pos
    by_contra hn
    push Not at hn
    nlinarith
  have h1 : ∑ m ∈ range d.cells, ∑ k ∈ range rays, wray d (cylinder Ki3) m k * (Ki3 0 - Ki3 (2 * halfPath d h (zray d m k) d.cells)) ≤
      ∑ m ∈ range d.cells, ∑ k ∈ range rays, wray d (cylinder Ki3) m k * (Real.pi / 4) := by
    refine sum_le_sum (fun m hm => sum_le_sum (fun k hk => ?_))
    rw [mem_range] at hm hk
    refine mul_le_mul_of_nonneg_left ?_ ((chords_cyl mesh Ki3).weight m hm k hk)
    rw [Ki3_zero]
    have := Ki3_facts.nonneg (2 * halfPath d h (zray d m k) d.cells)
      (mul_nonneg zero_le_two (halfPath_nonneg mesh (pos.tot_pos h hh) _ le_rfl))
    linarith
  have h2 : ∑ m ∈ range d.cells, ∑ k ∈ range rays, wray d (cylinder Ki3) m k * (Real.pi / 4) = d.radii.v d.cells * Real.pi / 8 := by
    rw [sum_congr rfl (fun m _ => by rw [← sum_mul, cyl_weight]), ← sum_mul, ← sum_div, sum_range_sub, h0]
    ring
  rw [hpre, hK, hS]
  rw [h2] at h1
  have hpi := Real.pi_pos
  have h3 : 4 * 4 / (2 * Real.pi * d.radii.v d.cells) * (d.radii.v d.cells * Real.pi / 8) = 1 := by field_simp; norm_num
  have h4 := mul_le_mul_of_nonneg_left h1 (show (0 : ℝ) ≤ 4 * 4 / (2 * Real.pi * d.radii.v d.cells) by positivity)
  linarith

/-- **C49, slab (partial).** In a slab of total optical thickness `T` the crossing probability for returned neutrons is
`1 - (4 / S) (1/2 - E3 T)`. With both faces counted (`S = 2`) this is `2 E3 T`, the exact probability, in `(0, 1)`. Missing: the mesh
of the code counts one face (`S = 1`), see the next theorem. -/
theorem C49_slab_partial {d : Data} (wf : WellFormed d) (pos : Positive d) (mesh : SlabMesh d) (hc : 0 < d.cells) :
    ∃ G, (∀ ki3, vacuumCPs d E3 ki3 .slab = ok G) ∧ ∀ h, h < d.energies →
      (∀ S, crossing d S (escape d G.v h) h = 1 - 4 / S * (1 / 2 - E3 (∑ k ∈ range d.cells, thick d h k))) ∧
      crossing d 2 (escape d G.v h) h = 2 * ∫ μ in (0 : ℝ)..1, μ * Real.exp (-(∑ k ∈ range d.cells, thick d h k) / μ) ∧
      0 ≤ crossing d 2 (escape d G.v h) h ∧ crossing d 2 (escape d G.v h) h < 1 := by
  obtain ⟨G, e, -, -, es⟩ := slab_vacuum wf pos mesh Ki3
  refine ⟨G, fun _ => e, fun h hh => ?_⟩
  have key : ∀ S, crossing d S (escape d G.v h) h = 1 - 4 / S * (1 / 2 - E3 (∑ k ∈ range d.cells, thick d h k)) := fun S =>
    slab_crossing mesh (pos.tot_pos h hh) S (es h · hh)
  have k2 : crossing d 2 (escape d G.v h) h = 2 * E3 (∑ k ∈ range d.cells, thick d h k) := by rw [key]; ring
  have nn : ∀ k ∈ range d.cells, 0 ≤ thick d h k := fun k hk =>
    (thick_pos (mesh.incr k (mem_range.1 hk)) (pos.tot_pos h hh k (mem_range.1 hk))).le
  have hT : 0 < ∑ k ∈ range d.cells, thick d h k :=
    lt_of_lt_of_le (thick_pos (mesh.incr 0 hc) (pos.tot_pos h hh 0 hc)) (single_le_sum nn (mem_range.2 hc))
  refine ⟨key, k2, ?_, ?_⟩
  · rw [k2]
    have := E3_facts.1.nonneg _ hT.le
    linarith
  · rw [k2]
    have := E3_strict 0 _ le_rfl hT
    rw [zero_add, E3_zero] at this
    linarith

/-- **C49, violated by the slab.** With one face counted, as the mesh of the code does, the crossing probability of any slab of optical
thickness 1 or more is negative: returned neutrons are treated as if fewer than none of them crossed. -/
theorem C49_slab_negative {d : Data} (wf : WellFormed d) (pos : Positive d) (mesh : SlabMesh d) (h1 : d.surface = 1) {h : Nat}
    (hh : h < d.energies) (hT : 1 ≤ ∑ k ∈ range d.cells, thick d h k) :
    ∃ G, (∀ ki3, vacuumCPs d E3 ki3 .slab = ok G) ∧ crossing d d.surface (escape d G.v h) h < 0 := by
  obtain ⟨G, e, -, -, es⟩ := slab_vacuum wf pos mesh Ki3
  refine ⟨G, fun _ => e, ?_⟩
  rw [slab_crossing mesh (pos.tot_pos h hh) d.surface (es h · hh), h1]
  have := E3_le (show (0 : ℝ) ≤ ∑ k ∈ range d.cells, thick d h k by linarith)
  have h2 : Real.exp (-∑ k ∈ range d.cells, thick d h k) < 1 / 2 := by
    refine lt_of_le_of_lt (Real.exp_le_exp.2 (neg_le_neg hT)) ?_
    rw [Real.exp_neg, inv_lt_comm₀ (Real.exp_pos _) (by norm_num)]
    have := Real.add_one_lt_exp (one_ne_zero (α := ℝ))
    norm_num
    linarith
  linarith

example : exSlab.surface = 1 ∧ 0 < exSlab.energies ∧ 1 ≤ ∑ k ∈ range exSlab.cells, thick exSlab 0 k := by
  refine ⟨rfl, by norm_num [exSlab], ?_⟩
  norm_num [exSlab, thick, sum_range_succ]

/-- **C49, sphere.** If the external surface is that of the sphere, `4 π R²`, and the innermost radius is zero, the crossing probability is,
within `1e-9`, the weighted mean of the transmission along the chords. It lies between `-1e-9` and 1. -/
theorem C49_sphere {d : Data} (wf : WellFormed d) (pos : Positive d) (mesh : RoundMesh d) (hc : 0 < d.cells)
    (h0 : d.radii.v 0 = 0) (hS : d.surface = 4 * Real.pi * d.radii.v d.cells ^ 2) :
    ∃ G, (∀ e3 ki3, vacuumCPs d e3 ki3 .sphere = ok G) ∧ ∀ h, h < d.energies →
      -(1 / 10 ^ 9) ≤ crossing d d.surface (escape d G.v h) h ∧ crossing d d.surface (escape d G.v h) h < 1 := by
  obtain ⟨G, e, -, -, es⟩ := round_vacuum wf pos mesh hc sphere (chords_sph mesh)
  obtain ⟨G', e', s⟩ := vacuum_sound (g := .sphere) wf pos mesh hc
  have hC : vacuumCPs d E3 Ki3 .sphere = ok G := e
  rw [hC] at e'
  cases e'
  refine ⟨G, fun _ _ => e, fun h hh => ⟨?_, crossing_lt_one pos s hh⟩⟩
  rw [round_crossing pos mesh (chords_sph mesh) hh d.surface (es h · hh)]
  have hpre : sphere.pre = Real.pi * 4 := rfl
  have hR : 0 < d.radii.v d.cells := lt_of_le_of_lt (radii_nonneg mesh (Nat.zero_le _)) (by
    have := mesh.incr 0 hc
    exact this.trans_le (radii_mono mesh (by omega) le_rfl))
  have hpi := Real.pi_pos
  have h1 : ∑ m ∈ range d.cells, ∑ k ∈ range rays, wray d sphere m k * (sphere.K 0 - sphere.K (2 * halfPath d h (zray d m k) d.cells)) ≤
      ∑ m ∈ range d.cells, ∑ k ∈ range rays, wray d sphere m k := by
    refine sum_le_sum (fun m hm => sum_le_sum (fun k hk => ?_))
    rw [mem_range] at hm hk
    have hw := (chords_sph mesh).weight m hm k hk
    have hK0 : sphere.K 0 = 1 := by show Real.exp (-0) = 1; simp
    have hK : 0 ≤ sphere.K (2 * halfPath d h (zray d m k) d.cells) := (Real.exp_pos _).le
    rw [hK0]
    nlinarith
  have h2 : ∀ m, ∑ k ∈ range rays, wray d sphere m k = (d.radii.v (m + 1) - d.radii.v m) *
      (d.radii.v (m + 1) / 2 - (d.radii.v (m + 1) - d.radii.v m) * ∑ k ∈ range rays, weights.v k * abscissa.v k ^ 2) := by
    intro m
    rw [← mul_one_div (d.radii.v (m + 1)), ← weights_sum, mul_sum, mul_sum, ← sum_sub_distrib, mul_sum]
    refine sum_congr rfl (fun k _ => ?_)
    unfold wray sphere zray
    ring
  have hmom := moments 2 (by norm_num)
  rw [abs_le] at hmom
  have h3 : ∀ m ∈ range d.cells, ∑ k ∈ range rays, wray d sphere m k ≤
      (d.radii.v (m + 1) ^ 2 - d.radii.v m ^ 2) * (1 / 4 + 1 / 10 ^ 10) := by
    intro m hm
    rw [mem_range] at hm
    rw [h2]
    have hi := mesh.incr m hm
    have hn := radii_nonneg mesh hm.le
    have hm1 := hmom.1
    norm_num at hm1
    have h4 : 0 ≤ (d.radii.v (m + 1) - d.radii.v m) ^ 2 := sq_nonneg _
    have h5 : (d.radii.v (m + 1) - d.radii.v m) ^ 2 ≤ d.radii.v (m + 1) ^ 2 - d.radii.v m ^ 2 := by nlinarith
    have h6 : (d.radii.v (m + 1) - d.radii.v m) ^ 2 * (1 / 4 - 1 / 10 ^ 10) ≤
        (d.radii.v (m + 1) - d.radii.v m) ^ 2 * ∑ k ∈ range rays, weights.v k * abscissa.v k ^ 2 :=
      mul_le_mul_of_nonneg_left (by linarith) h4
    nlinarith
  have h4 := h1.trans (sum_le_sum h3)
  rw [← sum_mul, sum_range_sub (fun m => d.radii.v m ^ 2), h0] at h4
  rw [hpre, hS]
  have h5 := mul_le_mul_of_nonneg_left h4 (show (0 : ℝ) ≤ 4 * (Real.pi * 4) / (4 * Real.pi * d.radii.v d.cells ^ 2) by positivity)
  have h6 : 4 * (Real.pi * 4) / (4 * Real.pi * d.radii.v d.cells ^ 2) * ((d.radii.v d.cells ^ 2 - 0 ^ 2) * (1 / 4 + 1 / 10 ^ 10)) =
      1 + 4 / 10 ^ 10 := by field_simp; ring
  rw [h6] at h5
  have h7 : (4 : ℝ) / 10 ^ 10 ≤ 1 / 10 ^ 9 := by norm_num
  linarith

example : exRound.radii.v 0 = 0 ∧ exRound.surface = 2 * Real.pi * exRound.radii.v exRound.cells := by
  constructor
  · norm_num [exRound]
  · show 4 * Real.pi = 2 * Real.pi * ((2 : ℕ) : ℝ); push_cast; ring

/-- Example: the same body as a sphere, with its surface. -/
def exBall : Data := { exRound with surface := 4 * Real.pi * exRound.radii.v 2 ^ 2 }

example : WellFormed exBall ∧ Positive exBall ∧ RoundMesh exBall ∧ exBall.radii.v 0 = 0 ∧
    exBall.surface = 4 * Real.pi * exBall.radii.v exBall.cells ^ 2 :=
  ⟨⟨exRound_wf.albedo_n, rfl, rfl, rfl, rfl, rfl, rfl, rfl, rfl, rfl, rfl⟩, ⟨exRound_pos.tot_pos, exRound_pos.vol_pos, by
    show (0 : ℝ) < 4 * Real.pi * ((2 : ℕ) : ℝ) ^ 2; positivity⟩, ⟨exRound_mesh.first, exRound_mesh.incr⟩, by norm_num [exBall, exRound], rfl⟩

/-! ### C50: neutron balance -/

/-- **C50.** A flux that satisfies the multigroup equation balances: in each group the collision rate of the body is the emission rate
less what leaks, cell `j` losing the fraction `e_j (1 - a) / (1 - a Pss)` of its emission; with a closed boundary collisions and
emissions are equal. -/
theorem C50_balance {d : Data} (wf : WellFormed d) (pos : Positive d) {geom : Diffusion.Geom} (mesh : MeshFor d geom)
    (hc : 0 < d.cells) (ha0 : 0 ≤ d.albedo.v 0) (ha1 : d.albedo.v 0 ≤ 1) :
    ∃ G M F, vacuumCPs d E3 Ki3 geom = ok G ∧ assemble d G = ok (M, F) ∧ ∀ (φ : Nat → ℝ) (k : ℝ),
      (∀ x, x < d.cells * d.energies → ∑ q ∈ range (d.cells * d.energies), M.m x q * φ q =
        (1 / k) * ∑ q ∈ range (d.cells * d.energies), F.m x q * φ q) → ∀ g, g < d.energies →
      (∑ i ∈ range d.cells, d.vol.v i * d.tot.m g i * φ (i + g * d.cells) =
        ∑ j ∈ range d.cells, d.vol.v j * emission d φ k g j * (1 - escape d G.v g j * (1 - d.albedo.v 0) /
          (1 - d.albedo.v 0 * crossing d d.surface (escape d G.v g) g))) ∧
      (d.albedo.v 0 = 1 → ∑ i ∈ range d.cells, d.vol.v i * d.tot.m g i * φ (i + g * d.cells) =
        ∑ j ∈ range d.cells, d.vol.v j * emission d φ k g j) := by
  obtain ⟨G, e, s⟩ := vacuum_sound wf pos mesh hc
  have ht : ∀ h, h < d.energies → ∀ i, i < d.cells → d.tot.m h i ≠ 0 := fun h hh i hi => (pos.tot_pos h hh i hi).ne'
  have hB : ∀ h, h < d.energies → 1 - crossing d d.surface (escape d G.v h) h * d.albedo.v 0 ≠ 0 :=
    fun h hh => (den_pos pos s hh ha0 ha1).ne'
  obtain ⟨p, M, F, e1, e2, -, -, -, -, -, eqv⟩ := C20_equation wf pos mesh hc ha0 ha1
  obtain ⟨p', e3, -, v⟩ := applyBC_ok wf ht pos.surface_pos.ne' s.dom hB
  rw [e, ok_bind] at e1 e2
  rw [e3] at e1
  cases e1
  refine ⟨G, M, F, e, e2, fun φ k hφ g hg => ?_⟩
  have hf := (eqv φ k).1 hφ
  have main : ∑ i ∈ range d.cells, d.vol.v i * d.tot.m g i * φ (i + g * d.cells) =
      ∑ j ∈ range d.cells, d.vol.v j * emission d φ k g j * (1 - escape d G.v g j * (1 - d.albedo.v 0) /
        (1 - d.albedo.v 0 * crossing d d.surface (escape d G.v g) g)) := by
    have e4 : ∀ i ∈ range d.cells, d.vol.v i * d.tot.m g i * φ (i + g * d.cells) =
        ∑ j ∈ range d.cells, d.vol.v j * emission d φ k g j * (p.v (j, i, g) * d.tot.m g i) := by
      intro i hi
      rw [mem_range] at hi
      rw [hf g i hg hi, mul_sum]
      refine sum_congr rfl (fun j hj => ?_)
      rw [mem_range] at hj
      have := bc_recip (fun i hi => (pos.vol_pos i hi).ne') ht s.recip hg hi hj
      rw [v g i j hg hi hj, v g j i hg hj hi]
      linear_combination (d.tot.m g i * emission d φ k g j) * this
    rw [sum_congr rfl e4, sum_comm]
    refine sum_congr rfl (fun j hj => ?_)
    rw [mem_range] at hj
    rw [← mul_sum, sum_congr rfl (fun i hi => by rw [v g j i hg hj (mem_range.1 hi)]),
      bc_row ht G.v hg pos.surface_pos.ne' (hB g hg)]
  refine ⟨main, fun ha => ?_⟩
  rw [main]
  refine sum_congr rfl (fun j _ => ?_)
  rw [ha]
  ring

/-! ### C51: fixed sources -/

/-- **C51, slab.** If in each cell and group scattering out is less than the total cross section, every source has exactly one flux
`M φ = s`, and non-negative sources give non-negative fluxes. -/
theorem C51_slab {d : Data} (wf : WellFormed d) (pos : Positive d) (habs : Absorbing d) (mesh : SlabMesh d) (hc : 0 < d.cells)
    (ha0 : 0 ≤ d.albedo.v 0) (ha1 : d.albedo.v 0 ≤ 1) :
    ∃ M F, (vacuumCPs d E3 Ki3 .slab >>= assemble d) = ok (M, F) ∧
      (∀ s : Nat → ℝ, ∃ φ : Nat → ℝ, ∀ x, x < d.cells * d.energies →
        ∑ q ∈ range (d.cells * d.energies), M.m x q * φ q = s x) ∧
      (∀ φ ψ : Nat → ℝ, (∀ x, x < d.cells * d.energies →
        ∑ q ∈ range (d.cells * d.energies), M.m x q * φ q = ∑ q ∈ range (d.cells * d.energies), M.m x q * ψ q) →
        ∀ q, q < d.cells * d.energies → φ q = ψ q) ∧
      (∀ φ : Nat → ℝ, (∀ x, x < d.cells * d.energies → 0 ≤ ∑ q ∈ range (d.cells * d.energies), M.m x q * φ q) →
        ∀ q, q < d.cells * d.energies → 0 ≤ φ q) := by
  obtain ⟨G, e, s⟩ := vacuum_sound (g := .slab) wf pos mesh hc
  obtain ⟨G', e', gv, -⟩ := C21_slab wf pos mesh Ki3
  rw [e] at e'
  cases e'
  exact positive_of wf pos habs s (fun h i hh hi => (gv h i i hh hi hi).2) ha0 ha1 e

/-- **C51, cylinder and sphere.** The same, provided the chord sums leave no cell with a negative probability of a collision in
itself. -/
theorem C51_round {d : Data} (wf : WellFormed d) (pos : Positive d) (habs : Absorbing d) {geom : Diffusion.Geom}
    (mesh : MeshFor d geom) (hc : 0 < d.cells) (ha0 : 0 ≤ d.albedo.v 0) (ha1 : d.albedo.v 0 ≤ 1)
    (hself : ∀ G, vacuumCPs d E3 Ki3 geom = ok G → ∀ h i, h < d.energies → i < d.cells → 0 ≤ G.v (i, i, h)) :
    ∃ M F, (vacuumCPs d E3 Ki3 geom >>= assemble d) = ok (M, F) ∧
      (∀ s : Nat → ℝ, ∃ φ : Nat → ℝ, ∀ x, x < d.cells * d.energies →
        ∑ q ∈ range (d.cells * d.energies), M.m x q * φ q = s x) ∧
      (∀ φ ψ : Nat → ℝ, (∀ x, x < d.cells * d.energies →
        ∑ q ∈ range (d.cells * d.energies), M.m x q * φ q = ∑ q ∈ range (d.cells * d.energies), M.m x q * ψ q) →
        ∀ q, q < d.cells * d.energies → φ q = ψ q) ∧
      (∀ φ : Nat → ℝ, (∀ x, x < d.cells * d.energies → 0 ≤ ∑ q ∈ range (d.cells * d.energies), M.m x q * φ q) →
        ∀ q, q < d.cells * d.energies → 0 ≤ φ q) := by
  obtain ⟨G, e, s⟩ := vacuum_sound wf pos mesh hc
  exact positive_of wf pos habs s (hself G e) ha0 ha1 e

/-- **C51, cylinder.** The proviso holds for a cylinder whose rings are optically thick. -/
theorem C51_cylinder {d : Data} (wf : WellFormed d) (pos : Positive d) (habs : Absorbing d) (mesh : RoundMesh d)
    (hc : 0 < d.cells) (ha0 : 0 ≤ d.albedo.v 0) (ha1 : d.albedo.v 0 ≤ 1)
    (hthick : ∀ h i, h < d.energies → i < d.cells → Real.pi * d.radii.v (i + 1) ≤ d.vol.v i * d.tot.m h i) :
    ∃ M F, (vacuumCPs d E3 Ki3 .cylinder >>= assemble d) = ok (M, F) ∧
      (∀ s : Nat → ℝ, ∃ φ : Nat → ℝ, ∀ x, x < d.cells * d.energies →
        ∑ q ∈ range (d.cells * d.energies), M.m x q * φ q = s x) ∧
      (∀ φ ψ : Nat → ℝ, (∀ x, x < d.cells * d.energies →
        ∑ q ∈ range (d.cells * d.energies), M.m x q * φ q = ∑ q ∈ range (d.cells * d.energies), M.m x q * ψ q) →
        ∀ q, q < d.cells * d.energies → φ q = ψ q) ∧
      (∀ φ : Nat → ℝ, (∀ x, x < d.cells * d.energies → 0 ≤ ∑ q ∈ range (d.cells * d.energies), M.m x q * φ q) →
        ∀ q, q < d.cells * d.energies → 0 ≤ φ q) :=
  C51_round (geom := .cylinder) wf pos habs mesh hc ha0 ha1
    (fun _ e h i hh hi => self_cylinder wf pos mesh hc e hh hi (hthick h i hh hi))

example : Absorbing exSlab := exSlab_absorbing

example : Absorbing exRound ∧ ∀ h i, h < exRound.energies → i < exRound.cells →
    Real.pi * exRound.radii.v (i + 1) ≤ exRound.vol.v i * exRound.tot.m h i := by
  refine ⟨⟨exSlab_absorbing.scatt_nonneg, exSlab_absorbing.absorbs⟩, fun h i _ _ => ?_⟩
  show Real.pi * ((i + 1 : ℕ) : ℝ) ≤ Real.pi * (2 * i + 1) * (1 + h + i)
  have hi := (Nat.cast_nonneg i : (0 : ℝ) ≤ i)
  have hh := (Nat.cast_nonneg h : (0 : ℝ) ≤ h)
  push_cast
  rw [mul_assoc]
  refine mul_le_mul_of_nonneg_left ?_ Real.pi_pos.le
  nlinarith [mul_nonneg hi hh, mul_nonneg hi hi]

/-! ### C17: heat sources -/

/-- **C17, transport.** The heat sources written after a transport calculation integrate to the thermal power and are distributed like
the fission rate of the fundamental mode, whatever the other modes. -/
theorem C17_transport {d : Data} (wf : WellFormed d) {mode volM : Vec ℝ} (modes : List (Vec ℝ))
    (hm : mode.n = d.cells * d.energies) (hvn : volM.n = d.cells) (hv : ∀ i, i < d.cells → volM.v i ≠ 0) (power : ℝ)
    {rate : Nat → ℝ}
    (hrate : ∀ i, rate i = ∑ e ∈ range d.energies, mode.v (i + e * d.cells) * d.fiss.m e i * d.vol.v i)
    (htot : ∑ i ∈ range d.cells, rate i ≠ 0) :
    ∃ q, newHeatSource d power volM (mode :: modes) = ok q ∧ q.n = d.cells ∧
      ∑ i ∈ range d.cells, q.v i * volM.v i = power ∧
      ∀ i, i < d.cells → q.v i * volM.v i * ∑ j ∈ range d.cells, rate j = power * rate i :=
  Diffusion.C17_thermal_power
    ⟨rfl, rfl, wf.tot_r, wf.tot_c, wf.fiss_r, wf.fiss_c, wf.nu_r, wf.nu_c, wf.chi_r, wf.chi_c, wf.vol_n, wf.radii_n, wf.vol_n⟩
    modes hm hvn hv power hrate htot

example : ∃ q, newHeatSource exSlab 100 ⟨2, fun _ => 2⟩ [⟨4, fun _ => 1⟩] = ok q ∧ ∑ i ∈ range 2, q.v i * 2 = 100 := by
  obtain ⟨q, h, -, hs, -⟩ := C17_transport (mode := ⟨4, fun _ => 1⟩) (volM := ⟨2, fun _ => 2⟩) exSlab_wf [] rfl rfl
    (fun i _ => by norm_num) 100 (fun i => rfl) (by norm_num [exSlab, sum_range_succ])
  exact ⟨q, h, hs⟩

end

end Verif.CPM
