import Verif.CPM.Rod
import Verif.CPM.Props

/-!
# Property theorems: rays in cylinders and spheres (C51)

The code follows eight rays through each ring of a cylinder or sphere. Weighted with the lengths of the rays, a ring has a volume that is not quite its true one
(`seenCylinder`, `seenSphere`). The probability of a collision in the ring of birth is one less the flights out of the ring, a sum over the rays divided by the true volume. It
goes wrong where the rays see too much.
-/

namespace Verif.CPM

open Verif Outcome Finset

noncomputable section

/-- **C51, rays.** If every ring is opaque, or the volume the rays see exceeds the true one by less than a part given by the optical length of the rays in it (`Resolved`; nothing is asked
of a slab), every source has exactly one flux `M φ = s`, and sources that are not negative give fluxes that are not negative. -/
theorem C51_rays {d : Data} (wf : WellFormed d) (pos : Positive d) (habs : Absorbing d) {geom : Diffusion.Geom} (mesh : MeshFor d geom) (hc : 0 < d.cells) (ha0 : 0 ≤ d.albedo.v 0)
    (ha1 : d.albedo.v 0 ≤ 1) (hres : ∀ h i, h < d.energies → i < d.cells → Resolved d geom h i) :
    ∃ M F, (vacuumCPs d E3 Ki3 geom >>= assemble d) = ok (M, F) ∧
      (∀ s : Nat → ℝ, ∃ φ : Nat → ℝ, ∀ x, x < d.cells * d.energies →
        ∑ q ∈ range (d.cells * d.energies), M.m x q * φ q = s x) ∧
      (∀ φ ψ : Nat → ℝ, (∀ x, x < d.cells * d.energies →
        ∑ q ∈ range (d.cells * d.energies), M.m x q * φ q = ∑ q ∈ range (d.cells * d.energies), M.m x q * ψ q) →
        ∀ q, q < d.cells * d.energies → φ q = ψ q) ∧
      (∀ φ : Nat → ℝ, (∀ x, x < d.cells * d.energies → 0 ≤ ∑ q ∈ range (d.cells * d.energies), M.m x q * φ q) →
        ∀ q, q < d.cells * d.energies → 0 ≤ φ q) :=
  C51_round wf pos habs mesh hc ha0 ha1 (fun _ e h i hh hi => (resolved_pos wf pos mesh hc e hh hi (hres h i hh hi)).le)

/-- **C51, rod.** A rod of one cell is resolved unless it is next to empty: an optical radius of 1/10^8 is enough. -/
theorem C51_rod {d : Data} (mesh : RoundMesh d) (hc : d.cells = 1) (h0 : d.radii.v 0 = 0) (hV : d.vol.v 0 = Real.pi * d.radii.v 1 ^ 2)
    (ht : ∀ h, h < d.energies → 1 / 10 ^ 8 ≤ d.tot.m h 0 * d.radii.v 1) : ∀ h i, h < d.energies → i < d.cells → Resolved d .cylinder h i := by
  intro h i hh hi
  rw [hc] at hi
  interval_cases i
  have hc' : 0 < d.cells := by omega
  have hR : 0 < d.radii.v 1 := by have := mesh.incr 0 hc'; rwa [h0] at this
  exact rod_resolved h0 hR hV (ht h hh) (seenCylinder_nonneg mesh hc')

/-- a rod of radius 1/2 filled with a gas, total cross section 1/1000 in both groups -/
def exTube : Data where
  cells := 1
  energies := 2
  albedo := ⟨1, fun _ => 1 / 2⟩
  radii := ⟨2, fun i => i / 2⟩
  vol := ⟨1, fun _ => Real.pi / 4⟩
  surface := Real.pi
  tot := ⟨2, 1, fun _ _ => 1 / 1000⟩
  fiss := ⟨2, 1, fun g _ => if g = 1 then 1 / 2000 else 0⟩
  nu := ⟨2, 1, fun _ _ => 2⟩
  chi := ⟨2, 1, fun g _ => if g = 0 then 1 else 0⟩
  scatt := fun g h _ => if g = 0 ∧ h = 1 then 1 / 2000 else 0

theorem exTube_wf : WellFormed exTube := ⟨by norm_num [exTube], rfl, rfl, rfl, rfl, rfl, rfl, rfl, rfl, rfl, rfl⟩

theorem exTube_pos : Positive exTube :=
  ⟨fun _ _ _ _ => by norm_num [exTube], fun _ _ => by show 0 < Real.pi / 4; positivity, Real.pi_pos⟩

theorem exTube_mesh : RoundMesh exTube where
  first := by norm_num [exTube]
  incr i _ := by show (i : ℝ) / 2 < ((i + 1 : ℕ) : ℝ) / 2; push_cast; linarith

theorem exTube_absorbing : Absorbing exTube where
  scatt_nonneg g h i _ _ _ := by show (0 : ℝ) ≤ if g = 0 ∧ h = 1 then 1 / 2000 else 0; positivity
  absorbs g i hg hi := by
    have hg' : g < 2 := hg
    interval_cases g <;> norm_num [exTube, sum_range_succ]

theorem exTube_resolved : ∀ h i, h < exTube.energies → i < exTube.cells → Resolved exTube .cylinder h i :=
  C51_rod exTube_mesh rfl (by norm_num [exTube]) (by show Real.pi / 4 = Real.pi * (((1 : ℕ) : ℝ) / 2) ^ 2; push_cast; ring) (fun h _ => by norm_num [exTube])

/-- it is far from opaque -/
example : ¬ Real.pi * exTube.radii.v 1 ≤ exTube.vol.v 0 * exTube.tot.m 0 0 := by
  show ¬ Real.pi * (((1 : ℕ) : ℝ) / 2) ≤ Real.pi / 4 * (1 / 1000)
  have := Real.pi_pos
  norm_num
  linarith

example : ∃ M F, (vacuumCPs exTube E3 Ki3 .cylinder >>= assemble exTube) = ok (M, F) ∧
    ∀ φ : Nat → ℝ, (∀ x, x < 2 → 0 ≤ ∑ q ∈ range 2, M.m x q * φ q) → ∀ q, q < 2 → 0 ≤ φ q := by
  obtain ⟨M, F, e, -, -, h⟩ := C51_rays exTube_wf exTube_pos exTube_absorbing (geom := .cylinder) exTube_mesh one_pos (by norm_num [exTube]) (by norm_num [exTube]) exTube_resolved
  exact ⟨M, F, e, h⟩

/-- **C51, the limit of the rays.** Where the rays see more than the true volume of a ring, `Resolved` is not a mere convenience: in each such ring there is a bound on the total cross
section below which the code gives the ring a negative probability of a collision in itself, whatever the other cells and groups contain. -/
theorem C51_sharp {d : Data} (mesh : RoundMesh d) {geom : Diffusion.Geom} {i : Nat} (hi : i < d.cells)
    (hseen : geom = .cylinder ∧ d.vol.v i < seenCylinder d i ∨ geom = .sphere ∧ d.vol.v i < seenSphere d i) :
    ∃ σ : ℝ, 0 < σ ∧ ∀ t G h, WellFormed { d with tot := t } → Positive { d with tot := t } → h < d.energies → t.m h i ≤ σ →
      vacuumCPs { d with tot := t } E3 Ki3 geom = ok G → G.v (i, i, h) < 0 := by
  have hc : 0 < d.cells := by omega
  have main : ∀ (R : Shape) (c : ℝ), Transmission R.K → Falls R.K c → 0 < R.pre → 0 < c → Chords d rays (zray d) (wray d R) → d.vol.v i < seen d R i →
      ∃ σ : ℝ, 0 < σ ∧ ∀ t G h, WellFormed { d with tot := t } → Positive { d with tot := t } → h < d.energies → t.m h i ≤ σ →
        (roundTracks { d with tot := t } >>= roundCPs { d with tot := t } R) = ok G → G.v (i, i, h) < 0 := by
    intro R c hK hF hpre hc0 ch hs
    set S := chordSum rays (zray d) (wray d R) i (fun y => (halfChord (d.radii.v (i + 1)) y - halfChord (d.radii.v i) y) ^ 2) with hS
    have hS0 : 0 ≤ S := chordSum_nonneg ch hi (fun y => sq_nonneg _)
    have hp : 0 < 4 * c * R.pre * S + 1 := by positivity
    refine ⟨(seen d R i - d.vol.v i) / (4 * c * R.pre * S + 1), div_pos (sub_pos.2 hs) hp, fun t G h wf pos hh ht e => ?_⟩
    refine self_negative (d := { d with tot := t }) (c := c) wf pos ⟨mesh.first, mesh.incr⟩ hc hK hF hpre ⟨ch.inside, ch.weight⟩ e hh hi ?_
    have h0 : 0 < t.m h i := pos.tot_pos h hh i hi
    show d.vol.v i + 4 * c * R.pre * t.m h i * S < seen d R i
    rw [le_div_iff₀ hp] at ht
    nlinarith
  rcases hseen with ⟨rfl, hs⟩ | ⟨rfl, hs⟩
  · exact main (cylinder Ki3) _ Ki3_facts Ki3_falls (by show (0 : ℝ) < 4; norm_num) (by have := Real.pi_pos; positivity) (chords_cyl mesh Ki3) (by rw [seen_cylinder]; exact hs)
  · exact main sphere _ exp_facts exp_falls (by show 0 < Real.pi * 4; have := Real.pi_pos; positivity) (by norm_num) (chords_sph mesh) (by rw [seen_sphere]; exact hs)

/-- the rays see too much of the layer between the radii 1 and 1.01 -/
example (t : Mat ℝ) : RoundMesh (gas t) ∧ 1 < (gas t).cells ∧ (gas t).vol.v 1 < seenCylinder (gas t) 1 := by
  refine ⟨gas_mesh t, one_lt_two, lt_of_lt_of_le ?_ (gas_seen t)⟩
  show 0.0201 * Real.pi < _
  have := Real.pi_lt_d6
  norm_num at this ⊢
  linarith

/-- the totals of the rod in its layer of gas: 1 everywhere but in the gas, where they are 1/10^5 in the second group -/
def gasTot : Mat ℝ := ⟨2, 2, fun h i => if h = 1 ∧ i = 1 then 1 / 10 ^ 5 else 1⟩

theorem gasTot_pos (h i : Nat) : 0 < gasTot.m h i := by
  show (0 : ℝ) < if h = 1 ∧ i = 1 then 1 / 10 ^ 5 else 1
  positivity

theorem gasRod_wf : WellFormed (gas gasTot) := ⟨one_pos, rfl, rfl, rfl, rfl, rfl, rfl, rfl, rfl, rfl, rfl⟩

theorem gasRod_pos : Positive (gas gasTot) where
  tot_pos h _ i _ := gasTot_pos h i
  vol_pos i _ := by
    show 0 < if i = 0 then Real.pi else 0.0201 * Real.pi
    have := Real.pi_pos
    positivity
  surface_pos := by show 0 < 2.02 * Real.pi; have := Real.pi_pos; positivity

theorem gasRod_absorbing : Absorbing (gas gasTot) where
  scatt_nonneg g h i _ _ _ := by show (0 : ℝ) ≤ if g = 0 ∧ h = 1 ∧ i = 1 then 1 / 2 else 0; positivity
  absorbs g i hg hi := by
    have hg' : g < 2 := hg
    have hi' : i < 2 := hi
    interval_cases g <;> interval_cases i <;> norm_num [gas, gasTot, sum_range_succ]

/-- **C51 is false without such a condition.** A rod of radius 1 in a layer of gas 1/100 thick, nothing outside, true volumes, an absorber everywhere: the code computes a negative probability
for a neutron of the second group born in the gas to collide there, the equations are assembled all the same, and a source in the gas that is nowhere negative has a negative flux. -/
theorem C51_false : ∃ d : Data, WellFormed d ∧ Positive d ∧ Absorbing d ∧ RoundMesh d ∧ d.albedo.v 0 = 0 ∧ d.cells = 2 ∧
    (∀ i, i < d.cells → d.vol.v i = Real.pi * (d.radii.v (i + 1) ^ 2 - d.radii.v i ^ 2)) ∧ d.surface = 2 * Real.pi * d.radii.v 2 ∧
    ∃ G M F, vacuumCPs d E3 Ki3 .cylinder = ok G ∧ G.v (1, 1, 1) < 0 ∧ assemble d G = ok (M, F) ∧ M.r = 4 ∧ M.c = 4 ∧
      ∃ φ : Nat → ℝ, (∀ x, x < 4 → ∑ q ∈ range 4, M.m x q * φ q = if x = 1 then 1 else 0) ∧ φ 3 < 0 := by
  refine ⟨gas gasTot, gasRod_wf, gasRod_pos, gasRod_absorbing, gas_mesh _, rfl, rfl, fun i hi => ?_, ?_, ?_⟩
  · change i < 2 at hi
    interval_cases i
    · show Real.pi = Real.pi * ((1 : ℝ) ^ 2 - 0 ^ 2); ring
    · show 0.0201 * Real.pi = Real.pi * ((1.01 : ℝ) ^ 2 - 1 ^ 2); ring
  · show 2.02 * Real.pi = 2 * Real.pi * 1.01; ring
  · obtain ⟨p, M, F, ep, eM, mr, mc, -, -, hM, -⟩ := C20_equation (geom := .cylinder) gasRod_wf gasRod_pos (gas_mesh _) two_pos le_rfl (by show (0 : ℝ) ≤ 1; norm_num)
    obtain ⟨G, eG, s⟩ := vacuum_sound (g := .cylinder) gasRod_wf gasRod_pos (gas_mesh _) two_pos
    rw [eG, ok_bind] at ep eM
    have hneg : G.v (1, 1, 1) < 0 := gas_negative gasRod_wf gasRod_pos one_lt_two (by norm_num [gasTot]) eG
    have hp : p.v (1, 1, 1) < 0 := by
      obtain ⟨p', B, ep', -, hv⟩ := C19_balance gasRod_wf (fun h hh i hi => (gasRod_pos.tot_pos h hh i hi).ne') gasRod_pos.surface_pos.ne' s.dom
        (fun h _ => by show 1 - _ * (0 : ℝ) ≠ 0; norm_num)
      rw [ep] at ep'
      cases ep'
      rw [((hv 1 1 one_lt_two one_lt_two).2.2 rfl).2 1 one_lt_two]
      exact div_neg_of_neg_of_pos hneg (gasTot_pos 1 1)
    refine ⟨G, M, F, eG, hneg, eM, mr, mc, fun q => if q = 1 then 1 else if q = 2 then p.v (0, 1, 1) / 2 else if q = 3 then p.v (1, 1, 1) / 2 else 0, ?_, ?_⟩
    · intro x hx
      have hm : ∀ g h i j, g < 2 → h < 2 → i < 2 → j < 2 →
          M.m (i + g * 2) (j + h * 2) = (if g = h ∧ i = j then 1 else 0) - p.v (i, j, g) * (if h = 0 ∧ g = 1 ∧ j = 1 then 1 / 2 else 0) :=
        fun g h i j hg hh hi hj => (hM g h i j hg hh hi hj).1
      have e : ∀ i g, i < 2 → g < 2 → ∑ q ∈ range 4, M.m (i + g * 2) q * (if q = 1 then 1 else if q = 2 then p.v (0, 1, 1) / 2 else if q = 3 then p.v (1, 1, 1) / 2 else 0) =
          if i + g * 2 = 1 then 1 else 0 := by
        intro i g hi hg
        have m0 := hm g 0 i 0 hg two_pos hi two_pos
        have m1 := hm g 0 i 1 hg two_pos hi one_lt_two
        have m2 := hm g 1 i 0 hg one_lt_two hi two_pos
        have m3 := hm g 1 i 1 hg one_lt_two hi one_lt_two
        simp only [zero_mul, add_zero, zero_add, one_mul, Nat.reduceAdd] at m0 m1 m2 m3
        simp only [sum_range_succ, range_zero, sum_empty, zero_add]
        rw [m0, m1, m2, m3]
        interval_cases i <;> interval_cases g <;> norm_num <;> ring
      have hx' : x = x % 2 + x / 2 * 2 := by omega
      rw [hx']
      exact e _ _ (by omega) (by omega)
    · show p.v (1, 1, 1) / 2 < 0
      linarith

end

end Verif.CPM
