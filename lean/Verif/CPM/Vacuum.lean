import Verif.CPM.Lemmas
import Verif.CPM.SlabFlight
import Verif.CPM.RoundFlight

/-! Helper lemmas: what the vacuum probabilities of the three geometries have in common, and its consequences for the boundary
conditions and the matrices. -/

namespace Verif.CPM

open Verif Outcome Finset

noncomputable section

variable {d : Data}

theorem slab_recip (hV : ∀ i, i < d.cells → d.vol.v i ≠ 0) {h : Nat} (ht : ∀ i, i < d.cells → d.tot.m h i ≠ 0) (e3 : ℝ → ℝ)
    {i j : Nat} (hi : i < d.cells) (hj : j < d.cells) :
    d.tot.m h i * d.vol.v i * slabVal d e3 h i j = d.tot.m h j * d.vol.v j * slabVal d e3 h j i := by
  have := hV i hi
  have := hV j hj
  have := ht i hi
  have := ht j hj
  unfold slabVal
  rcases lt_trichotomy i j with hij | rfl | hij
  · rw [if_pos hij.le, if_neg (by omega)]
    field_simp
  · rfl
  · rw [if_neg (by omega), if_pos hij.le]
    field_simp

theorem round_recip (hV : ∀ i, i < d.cells → d.vol.v i ≠ 0) {h : Nat} (ht : ∀ i, i < d.cells → d.tot.m h i ≠ 0) (K : ℝ → ℝ)
    (c : ℝ) (n : Nat) (z w : Nat → Nat → ℝ) {i j : Nat} (hi : i < d.cells) (hj : j < d.cells) :
    d.tot.m h i * d.vol.v i * roundProb d K c n z w h i j = d.tot.m h j * d.vol.v j * roundProb d K c n z w h j i := by
  have := hV i hi
  have := hV j hj
  have := ht i hi
  have := ht j hj
  unfold roundProb
  rcases lt_trichotomy i j with hij | rfl | hij
  · rw [if_pos hij, if_neg (by omega), if_neg (by omega)]
    field_simp
  · rfl
  · rw [if_neg (by omega), if_neg (by omega), if_pos hij]
    field_simp

/-- reciprocity for any transmission functions -/
theorem vacuum_recip (wf : WellFormed d) (pos : Positive d) {g : Diffusion.Geom} (mesh : MeshFor d g) (hc : 0 < d.cells)
    (e3 ki3 : ℝ → ℝ) : ∃ G, vacuumCPs d e3 ki3 g = ok G ∧ G.dom = D3 d ∧ Reciprocal d G.v := by
  have hV : ∀ i, i < d.cells → d.vol.v i ≠ 0 := fun i hi => (pos.vol_pos i hi).ne'
  have ht : ∀ h, h < d.energies → ∀ i, i < d.cells → d.tot.m h i ≠ 0 := fun h hh i hi => (pos.tot_pos h hh i hi).ne'
  have round : ∀ R : Shape, RoundMesh d → ∃ G, (roundTracks d >>= roundCPs d R) = ok G ∧ G.dom = D3 d ∧ Reciprocal d G.v := by
    intro R mesh
    obtain ⟨G, e, dG, v⟩ := roundCPs_ok (R := R) wf mesh hV pos.tot_pos hc
    refine ⟨G, e, dG, ?_⟩
    intro h i j hh hi hj
    rw [v h i j hh hi hj, v h j i hh hj hi]
    exact round_recip hV (ht h hh) _ _ _ _ _ hi hj
  cases g with
  | undefined => exact mesh.elim
  | cylinder => exact round _ mesh
  | sphere => exact round _ mesh
  | slab =>
    obtain ⟨G, e, dG, v⟩ := slabCPs_ok wf (SlabMesh.incr mesh) pos.tot_pos hV e3
    refine ⟨G, e, dG, ?_⟩
    intro h i j hh hi hj
    rw [v h i j hh hi hj, v h j i hh hj hi]
    exact slab_recip hV (ht h hh) _ hi hj

/-- the exact slab probabilities -/
theorem slab_vacuum (wf : WellFormed d) (pos : Positive d) (mesh : SlabMesh d) (ki3 : ℝ → ℝ) :
    ∃ G, vacuumCPs d E3 ki3 .slab = ok G ∧ G.dom = D3 d ∧
      (∀ h i j, h < d.energies → i < d.cells → j < d.cells → G.v (i, j, h) = slabProb d h i j) ∧
      (∀ h i, h < d.energies → i < d.cells → escape d G.v h i = slabEscape d h i) := by
  obtain ⟨G, e, dG, v⟩ := slabCPs_ok wf mesh.incr pos.tot_pos (fun i hi => (pos.vol_pos i hi).ne') E3
  have hv : ∀ h i j, h < d.energies → i < d.cells → j < d.cells → G.v (i, j, h) = slabProb d h i j := fun h i j hh hi hj => by
    rw [v h i j hh hi hj, slabVal_eq mesh (pos.tot_pos h hh) hi hj]
  refine ⟨G, e, dG, hv, ?_⟩
  intro h i hh hi
  unfold escape
  rw [sum_congr rfl (fun j hj => hv h i j hh hi (mem_range.1 hj)), slab_row mesh.incr (pos.tot_pos h hh) hi]

/-- cylinder or sphere -/
theorem round_vacuum (wf : WellFormed d) (pos : Positive d) (mesh : RoundMesh d) (hc : 0 < d.cells) (R : Shape)
    (ch : Chords d rays (zray d) (wray d R)) :
    ∃ G, (roundTracks d >>= roundCPs d R) = ok G ∧ G.dom = D3 d ∧
      (∀ h i j, h < d.energies → i < d.cells → j < d.cells →
        G.v (i, j, h) = roundProb d R.K R.pre rays (zray d) (wray d R) h i j) ∧
      (∀ h i, h < d.energies → i < d.cells → escape d G.v h i =
        R.pre / (d.vol.v i * d.tot.m h i) * chordSum rays (zray d) (wray d R) i (fun y => rayEscape d R.K h y i)) := by
  obtain ⟨G, e, dG, v⟩ := roundCPs_ok (R := R) wf mesh (fun i hi => (pos.vol_pos i hi).ne') pos.tot_pos hc
  refine ⟨G, e, dG, v, ?_⟩
  intro h i hh hi
  unfold escape
  rw [sum_congr rfl (fun j hj => v h i j hh hi (mem_range.1 hj)), round_row mesh ch hi]

/-- what all geometries share, for the exact transmission functions -/
structure Sound (d : Data) (G : Ten3) : Prop where
  dom : G.dom = D3 d
  recip : Reciprocal d G.v
  off : ∀ h i j, h < d.energies → i < d.cells → j < d.cells → i ≠ j → 0 ≤ G.v (i, j, h)
  esc : ∀ h i, h < d.energies → i < d.cells → 0 ≤ escape d G.v h i
  out : ∀ h, h < d.energies → ∃ i, i < d.cells ∧ 0 < escape d G.v h i

theorem wray_pos (mesh : RoundMesh d) {R : Shape} (hray : ∀ y, 0 < y → 0 < R.ray y) {m k : Nat} (hm : m < d.cells)
    (hk : k < rays) : 0 < wray d R m k :=
  mul_pos (mul_pos (weights_pos hk) (sub_pos.2 (mesh.incr m hm)))
    (hray _ ((radii_nonneg mesh hm.le).trans_lt (zray_lt mesh hm hk).1))

theorem vacuum_sound (wf : WellFormed d) (pos : Positive d) {g : Diffusion.Geom} (mesh : MeshFor d g) (hc : 0 < d.cells) :
    ∃ G, vacuumCPs d E3 Ki3 g = ok G ∧ Sound d G := by
  obtain ⟨G, e, dG, rec⟩ := vacuum_recip wf pos mesh hc E3 Ki3
  refine ⟨G, e, ?_⟩
  have round : ∀ R : Shape, RoundMesh d → (roundTracks d >>= roundCPs d R) = ok G → Transmission R.K →
      (∀ x s, 0 ≤ x → 0 < s → R.K (x + s) < R.K x) → 0 < R.pre → (∀ y, 0 < y → 0 < R.ray y) →
      Chords d rays (zray d) (wray d R) → Sound d G := by
    intro R mesh e hK hS hp hray ch
    obtain ⟨G', e', -, v, es⟩ := round_vacuum wf pos mesh hc R ch
    rw [e] at e'
    cases e'
    refine ⟨dG, rec, ?_, ?_, ?_⟩
    · intro h i j hh hi hj hij
      rw [v h i j hh hi hj]
      exact roundProb_nonneg mesh (pos.tot_pos h hh) pos.vol_pos hK hp.le ch hi hj hij
    · intro h i hh hi
      rw [es h i hh hi]
      exact mul_nonneg (div_nonneg hp.le (mul_pos (pos.vol_pos i hi) (pos.tot_pos h hh i hi)).le)
        (chordSum_nonneg ch hi (fun y => rayEscape_nonneg mesh (pos.tot_pos h hh) hK y hi))
    · intro h hh
      have hl : d.cells - 1 < d.cells := by omega
      have hk : 0 < rays := by unfold rays; omega
      refine ⟨d.cells - 1, hl, ?_⟩
      rw [es h _ hh hl]
      refine last_escape_pos mesh (pos.tot_pos h hh) pos.vol_pos hK hS hp ch hc hk ?_ (wray_pos mesh hray hl hk)
      have := (zray_lt mesh hl hk).2
      rwa [show d.cells - 1 + 1 = d.cells by omega] at this
  cases g with
  | undefined => exact mesh.elim
  | cylinder =>
    exact round (cylinder Ki3) mesh e Ki3_facts Ki3_strict (by show (0 : ℝ) < 4; norm_num)
      (fun _ _ => by show (0 : ℝ) < 1; norm_num) (chords_cyl mesh Ki3)
  | sphere =>
    exact round sphere mesh e exp_facts (fun x s _ hs => Real.exp_lt_exp.2 (by linarith))
      (by show (0 : ℝ) < Real.pi * 4; positivity) (fun _ h => h) (chords_sph mesh)
  | slab =>
    obtain ⟨G', e', -, v, es⟩ := slab_vacuum wf pos mesh Ki3
    rw [e] at e'
    cases e'
    have incr := SlabMesh.incr mesh
    refine ⟨dG, rec, ?_, ?_, ?_⟩
    · intro h i j hh hi hj _
      rw [v h i j hh hi hj]
      exact slabProb_nonneg incr (pos.tot_pos h hh) hi hj
    · intro h i hh hi
      rw [es h i hh hi]
      exact slabEscape_pos incr (pos.tot_pos h hh) hi
    · intro h hh
      refine ⟨0, hc, ?_⟩
      rw [es h 0 hh hc]
      exact slabEscape_strict incr (pos.tot_pos h hh) hc (slabEscape_eq incr (pos.tot_pos h hh) hc)
        (gap_nonneg incr (pos.tot_pos h hh) le_rfl) (gap_nonneg incr (pos.tot_pos h hh) (by omega))

theorem crossing_lt_one {G : Ten3} (pos : Positive d) (s : Sound d G) {h : Nat} (hh : h < d.energies) :
    crossing d d.surface (escape d G.v h) h < 1 := by
  obtain ⟨i, hi, hp⟩ := s.out h hh
  unfold crossing
  have nn : ∀ i ∈ range d.cells, 0 ≤ 4 * d.vol.v i * d.tot.m h i * escape d G.v h i / d.surface := by
    intro i hi
    rw [mem_range] at hi
    have := pos.vol_pos i hi
    have := pos.tot_pos h hh i hi
    have := s.esc h i hh hi
    have := pos.surface_pos
    positivity
  have : 0 < ∑ i ∈ range d.cells, 4 * d.vol.v i * d.tot.m h i * escape d G.v h i / d.surface := by
    refine lt_of_lt_of_le ?_ (single_le_sum nn (mem_range.2 hi))
    have := pos.vol_pos i hi
    have := pos.tot_pos h hh i hi
    have := pos.surface_pos
    positivity
  linarith

theorem den_pos {G : Ten3} (pos : Positive d) (s : Sound d G) {h : Nat} (hh : h < d.energies) (ha0 : 0 ≤ d.albedo.v 0)
    (ha1 : d.albedo.v 0 ≤ 1) : 0 < 1 - crossing d d.surface (escape d G.v h) h * d.albedo.v 0 := by
  have := crossing_lt_one pos s hh
  rcases eq_or_lt_of_le ha0 with h0 | h0
  · rw [← h0]; norm_num
  · nlinarith

/-- row sums after the boundary conditions -/
theorem bc_row (ht : ∀ h, h < d.energies → ∀ i, i < d.cells → d.tot.m h i ≠ 0) (P : ℕ × ℕ × ℕ → ℝ) {h i : Nat}
    (hh : h < d.energies) (hS : d.surface ≠ 0) (hB : 1 - crossing d d.surface (escape d P h) h * d.albedo.v 0 ≠ 0) :
    ∑ j ∈ range d.cells, bcVal d P h i j * d.tot.m h j =
      1 - escape d P h i * (1 - d.albedo.v 0) / (1 - d.albedo.v 0 * crossing d d.surface (escape d P h) h) := by
  set a := d.albedo.v 0 with ha
  set X := crossing d d.surface (escape d P h) h with hX
  have hB' : 1 - a * X ≠ 0 := by rwa [mul_comm]
  have e1 : ∑ j ∈ range d.cells, bcVal d P h i j * d.tot.m h j =
      ∑ j ∈ range d.cells, (P (i, j, h) + escape d P h i * (a / (1 - X * a)) *
        (4 * d.vol.v j * d.tot.m h j * escape d P h j / d.surface)) := by
    refine sum_congr rfl (fun j hj => ?_)
    rw [mem_range] at hj
    have := ht h hh j hj
    unfold bcVal
    rw [← hX, ← ha, add_mul, div_mul_cancel₀ _ this]
    ring
  have e2 : ∑ j ∈ range d.cells, 4 * d.vol.v j * d.tot.m h j * escape d P h j / d.surface = 1 - X := by
    rw [hX, crossing]; ring
  have e3 : ∑ j ∈ range d.cells, P (i, j, h) = 1 - escape d P h i := by
    unfold escape; ring
  rw [e1, sum_add_distrib, ← mul_sum, e2, e3]
  field_simp
  ring

theorem bc_recip (hV : ∀ i, i < d.cells → d.vol.v i ≠ 0) (ht : ∀ h, h < d.energies → ∀ i, i < d.cells → d.tot.m h i ≠ 0)
    {P : ℕ × ℕ × ℕ → ℝ} (hP : Reciprocal d P) {h i j : Nat} (hh : h < d.energies) (hi : i < d.cells) (hj : j < d.cells) :
    d.vol.v i * bcVal d P h i j = d.vol.v j * bcVal d P h j i := by
  have r := hP h i j hh hi hj
  have t1 := ht h hh i hi
  have t2 := ht h hh j hj
  have : d.vol.v i * (P (i, j, h) / d.tot.m h j) = d.vol.v j * (P (j, i, h) / d.tot.m h i) := by
    rw [mul_div_assoc', mul_div_assoc', div_eq_div_iff t2 t1]
    linarith
  unfold bcVal
  rw [mul_add, mul_add, this]
  ring

theorem assemble_ok (wf : WellFormed d) {G G' : Ten3} (hG' : G'.dom = D3 d) (e : applyBC d G = ok G') :
    ∃ M F, assemble d G = ok (M, F) ∧ M.r = d.cells * d.energies ∧ M.c = d.cells * d.energies ∧
      F.r = d.cells * d.energies ∧ F.c = d.cells * d.energies ∧
      ∀ g h i j, g < d.energies → h < d.energies → i < d.cells → j < d.cells →
        M.m (i + g * d.cells) (j + h * d.cells) = (if g = h ∧ i = j then 1 else 0) - G'.v (i, j, g) * d.scatt h g j ∧
        F.m (i + g * d.cells) (j + h * d.cells) = G'.v (i, j, g) * (d.chi.m g j * (d.nu.m h j * d.fiss.m h j)) := by
  obtain ⟨C, eC, cr, cc, cv⟩ := cpmMatrix_ok hG'
  have hC : IsCpm d C (fun g i j => G'.v (i, j, g)) := ⟨cr, cc, cv⟩
  obtain ⟨M, eM, mr, mc, mv⟩ := lossMatrix_ok hC
  obtain ⟨F, eF, fr, fc, fv⟩ := fissionMatrix_ok wf hC
  refine ⟨M, F, ?_, mr, mc, fr, fc, fun g h i j hg hh hi hj => ⟨mv g h i j hg hh hi hj, fv g h i j hg hh hi hj⟩⟩
  unfold assemble
  rw [e, ok_bind, eC, ok_bind, eM, ok_bind, eF, ok_bind]

/-- rows of the assembled matrices applied to a flux -/
theorem row_apply {M F : Mat ℝ} {p : Nat → Nat → Nat → ℝ}
    (hv : ∀ g h i j, g < d.energies → h < d.energies → i < d.cells → j < d.cells →
        M.m (i + g * d.cells) (j + h * d.cells) = (if g = h ∧ i = j then 1 else 0) - p g i j * d.scatt h g j ∧
        F.m (i + g * d.cells) (j + h * d.cells) = p g i j * (d.chi.m g j * (d.nu.m h j * d.fiss.m h j)))
    (φ : Nat → ℝ) {g i : Nat} (hg : g < d.energies) (hi : i < d.cells) :
    (∑ q ∈ range (d.cells * d.energies), M.m (i + g * d.cells) q * φ q =
      φ (i + g * d.cells) - ∑ j ∈ range d.cells, p g i j * ∑ h ∈ range d.energies, d.scatt h g j * φ (j + h * d.cells)) ∧
    (∑ q ∈ range (d.cells * d.energies), F.m (i + g * d.cells) q * φ q =
      ∑ j ∈ range d.cells, p g i j * (d.chi.m g j * ∑ h ∈ range d.energies, d.nu.m h j * d.fiss.m h j * φ (j + h * d.cells))) := by
  constructor
  · rw [sum_flat, sum_congr rfl (fun h hh => sum_congr rfl (fun j hj => by
      rw [(hv g h i j hg (mem_range.1 hh) hi (mem_range.1 hj)).1, sub_mul]))]
    simp only [sum_sub_distrib]
    congr 1
    · rw [sum_eq_single g, sum_eq_single i]
      · rw [if_pos ⟨rfl, rfl⟩, one_mul]
      · intro j _ hj; rw [if_neg (by omega), zero_mul]
      · intro hn; exact absurd (mem_range.2 hi) hn
      · intro h _ hh; exact sum_eq_zero (fun j _ => by rw [if_neg (by omega), zero_mul])
      · intro hn; exact absurd (mem_range.2 hg) hn
    · rw [sum_comm]
      refine sum_congr rfl (fun j _ => ?_)
      rw [mul_sum]
      exact sum_congr rfl (fun h _ => by ring)
  · rw [sum_flat, sum_congr rfl (fun h hh => sum_congr rfl (fun j hj => by
      rw [(hv g h i j hg (mem_range.1 hh) hi (mem_range.1 hj)).2])), sum_comm]
    refine sum_congr rfl (fun j _ => ?_)
    rw [mul_sum, mul_sum]
    exact sum_congr rfl (fun h _ => by ring)

/-- losses exceed scattering: unique and non-negative fluxes -/
theorem loss_positive (wf : WellFormed d) (pos : Positive d) (habs : Absorbing d) {M : Mat ℝ} {p : Nat → Nat → Nat → ℝ}
    (hv : ∀ g h i j, g < d.energies → h < d.energies → i < d.cells → j < d.cells →
        M.m (i + g * d.cells) (j + h * d.cells) = (if g = h ∧ i = j then 1 else 0) - p g i j * d.scatt h g j)
    (hp : ∀ g i j, g < d.energies → i < d.cells → j < d.cells → 0 ≤ p g i j)
    (hrec : ∀ g i j, g < d.energies → i < d.cells → j < d.cells → d.vol.v i * p g i j = d.vol.v j * p g j i)
    (hrow : ∀ g i, g < d.energies → i < d.cells → ∑ j ∈ range d.cells, p g i j * d.tot.m g j ≤ 1) :
    (∀ s : Nat → ℝ, ∃ φ : Nat → ℝ, ∀ x, x < d.cells * d.energies →
        ∑ q ∈ range (d.cells * d.energies), M.m x q * φ q = s x) ∧
      (∀ φ ψ : Nat → ℝ, (∀ x, x < d.cells * d.energies →
        ∑ q ∈ range (d.cells * d.energies), M.m x q * φ q = ∑ q ∈ range (d.cells * d.energies), M.m x q * ψ q) →
        ∀ q, q < d.cells * d.energies → φ q = ψ q) ∧
      (∀ φ : Nat → ℝ, (∀ x, x < d.cells * d.energies → 0 ≤ ∑ q ∈ range (d.cells * d.energies), M.m x q * φ q) →
        ∀ q, q < d.cells * d.energies → 0 ≤ φ q) := by
  set N := d.cells * d.energies with hN
  -- rows weighted by collision rate per unit flux
  set wt : Nat → ℝ := fun x => d.vol.v (x % d.cells) * d.tot.m (x / d.cells) (x % d.cells) with hwt
  have wpos : ∀ x, x < N → 0 < wt x := by
    intro x hx
    obtain ⟨i, g, hi, hg, rfl⟩ := flat_surj hx
    simp only [hwt]
    rw [flat_mod hi, flat_div hi]
    exact mul_pos (pos.vol_pos i hi) (pos.tot_pos g hg i hi)
  have hoff : ∀ x q, x < N → q < N → x ≠ q → wt x * M.m x q ≤ 0 := by
    intro x q hx hq hne
    have w := wpos x hx
    obtain ⟨i, g, hi, hg, rfl⟩ := flat_surj hx
    obtain ⟨j, h, hj, hh, rfl⟩ := flat_surj hq
    have : ¬ (g = h ∧ i = j) := by rintro ⟨rfl, rfl⟩; exact hne rfl
    rw [hv g h i j hg hh hi hj, if_neg this, zero_sub]
    have := mul_nonneg w.le (mul_nonneg (hp g i j hg hi hj) (habs.scatt_nonneg h g j hh hg hj))
    linarith
  have hcol : ∀ q, q < N → 0 < ∑ x ∈ range N, wt x * M.m x q := by
    intro q hq
    obtain ⟨j, h, hj, hh, rfl⟩ := flat_surj hq
    have e : ∑ x ∈ range N, wt x * M.m x (j + h * d.cells) =
        d.vol.v j * (d.tot.m h j - ∑ g ∈ range d.energies, d.scatt h g j * ∑ i ∈ range d.cells, p g j i * d.tot.m g i) := by
      rw [sum_flat, sum_congr rfl (fun g hg => sum_congr rfl (fun i hi => by
        rw [hv g h i j (mem_range.1 hg) hh (mem_range.1 hi) hj, mul_sub]))]
      simp only [sum_sub_distrib]
      rw [mul_sub]
      congr 1
      · rw [sum_eq_single h, sum_eq_single j]
        · rw [if_pos ⟨rfl, rfl⟩, mul_one]
          simp only [hwt]
          rw [flat_mod hj, flat_div hj]
        · intro i _ hi; rw [if_neg (by omega), mul_zero]
        · intro hn; exact absurd (mem_range.2 hj) hn
        · intro g _ hg; exact sum_eq_zero (fun i _ => by rw [if_neg (by omega), mul_zero])
        · intro hn; exact absurd (mem_range.2 hh) hn
      · rw [mul_sum]
        refine sum_congr rfl (fun g hg => ?_)
        rw [mul_sum, mul_sum]
        refine sum_congr rfl (fun i hi => ?_)
        simp only [hwt]
        rw [mem_range] at hg hi
        rw [flat_mod hi, flat_div hi]
        have := hrec g i j hg hi hj
        calc d.vol.v i * d.tot.m g i * (p g i j * d.scatt h g j) = (d.vol.v i * p g i j) * (d.tot.m g i * d.scatt h g j) := by ring
          _ = _ := by rw [this]; ring
    rw [e]
    refine mul_pos (pos.vol_pos j hj) (sub_pos.2 (lt_of_le_of_lt ?_ (habs.absorbs h j hh hj)))
    refine sum_le_sum (fun g hg => ?_)
    rw [mem_range] at hg
    have := mul_le_mul_of_nonneg_left (hrow g j hg hj) (habs.scatt_nonneg h g j hh hg hj)
    linarith
  have hpos : ∀ φ : Nat → ℝ, (∀ x, x < N → 0 ≤ ∑ q ∈ range N, M.m x q * φ q) → ∀ q, q < N → 0 ≤ φ q := by
    intro φ h
    refine zmatrix_nonneg hoff hcol (x := φ) (fun x hx => ?_)
    have := mul_nonneg (wpos x hx).le (h x hx)
    rw [mul_sum] at this
    simpa only [mul_assoc] using this
  have hinj : ∀ x : Nat → ℝ, (∀ p, p < N → ∑ q ∈ range N, M.m p q * x q = 0) → ∀ q, q < N → x q = 0 := by
    intro x hx q hq
    refine le_antisymm ?_ (hpos x (fun p hp => (hx p hp).ge) q hq)
    have := hpos (fun q => -x q) (fun p hp => by
      simp only [mul_neg, sum_neg_distrib, hx p hp, neg_zero, le_refl]) q hq
    linarith
  refine ⟨solvable_of_injective hinj, ?_, hpos⟩
  intro φ ψ he q hq
  have := hinj (fun q => φ q - ψ q) (fun p hp => by
    simp only [mul_sub, sum_sub_distrib, he p hp, sub_self]) q hq
  linarith

end

end Verif.CPM
