import Verif.CPM.Vacuum
import Mathlib.Algebra.BigOperators.Field

/-! Helper lemmas: the probability of crossing the body, and the boundary condition without a limit. -/

namespace Verif.CPM

open Verif Outcome Finset

noncomputable section

variable {d : Data}

theorem applyBC_fail (wf : WellFormed d) (ht : ∀ i, i < d.cells → d.tot.m 0 i ≠ 0) (hS : d.surface ≠ 0) {G : Ten3}
    (hG : G.dom = D3 d) (hc : 0 < d.cells) (he : 0 < d.energies)
    (hB : 1 - crossing d d.surface (escape d G.v 0) 0 * d.albedo.v 0 = 0) : applyBC d G = nonfinite := by
  have w0 := wf.albedo_n
  have w1 := wf.tot_r
  have w2 := wf.tot_c
  obtain ⟨G1, e1, g1, v1⟩ := reduce_maps wf he ht G hG
  obtain ⟨E, eE, n1, n2, E1, E2⟩ := escapes_ok wf he hS g1
  have hrow : ∀ i, i < d.cells → 1 - ∑ j ∈ range d.cells, G1.v (i, j, 0) * d.tot.m 0 j = escape d G.v 0 i := by
    intro i hi
    unfold escape
    congr 1
    refine sum_congr rfl (fun j hj => ?_)
    rw [mem_range] at hj
    rw [show G1.v (i, j, 0) = G.v (i, j, 0) / d.tot.m 0 j from (v1 (i, j, 0)).1 ⟨hi, hj, rfl⟩, div_mul_cancel₀ _ (ht j hj)]
  have hs := loop_sum (fun i => E.2.v i * d.tot.m 0 i) d.cells (0 : ℝ) (fun i s => do
    let p ← E.2.get i
    let t ← d.tot.get 0 i
    ok (s + p * t)) (fun i t hi => by
      rw [Vec.get_ok (by omega), ok_bind, Mat.get_ok (by omega) (by omega), ok_bind])
  have hcr : 1 - (0 + ∑ i ∈ range d.cells, E.2.v i * d.tot.m 0 i) = crossing d d.surface (escape d G.v 0) 0 := by
    unfold crossing
    rw [zero_add]
    congr 1
    refine sum_congr rfl (fun i hi => ?_)
    rw [mem_range] at hi
    rw [E2 i hi, hrow i hi]
    ring
  have hdom : G1.dom (0, 0, 0) := by rw [g1]; exact ⟨hc, hc, he⟩
  have key : whiteGroup d 0 G = nonfinite := by
    unfold whiteGroup
    rw [Vec.get_ok w0, ok_bind, e1, ok_bind, eE, ok_bind, hs, ok_bind, hcr]
    refine loop_fail_at (k := 0) (t := G1) (fun _ => rfl) hc rfl (loop_fail_at (k := 0) (t := G1) (fun _ => rfl) hc rfl ?_)
    rw [Arr.get_ok hdom, ok_bind, Vec.get_ok (by omega), ok_bind, Vec.get_ok (by omega), ok_bind, hB]
    unfold fdiv
    rw [if_pos rfl, nonfinite_bind]
  unfold applyBC
  rw [loop_fail_at (k := 0) (t := G) (fun _ => rfl) he rfl key, nonfinite_bind]

/-- all flights out of the slab -/
theorem slab_total (mesh : SlabMesh d) {h : Nat} (ht : ∀ i, i < d.cells → 0 < d.tot.m h i) :
    ∑ i ∈ range d.cells, d.vol.v i * d.tot.m h i * slabEscape d h i = 1 / 2 - E3 (∑ k ∈ range d.cells, thick d h k) := by
  have step : ∀ i ∈ range d.cells, d.vol.v i * d.tot.m h i * slabEscape d h i =
      1 / 2 * ((E3 (∑ k ∈ Ico (i + 1) d.cells, thick d h k) - E3 (∑ k ∈ Ico i d.cells, thick d h k)) +
        (E3 (∑ k ∈ range i, thick d h k) - E3 (∑ k ∈ range (i + 1), thick d h k))) := by
    intro i hi
    rw [mem_range] at hi
    have p := thick_pos (mesh.incr i hi) (ht i hi)
    rw [slabEscape_eq mesh.incr ht hi, mesh.vol_eq i hi]
    have e1 : (d.radii.v (i + 1) - d.radii.v i) * d.tot.m h i = thick d h i := rfl
    have e2 : (∑ k ∈ Ico (i + 1) d.cells, thick d h k) + thick d h i = ∑ k ∈ Ico i d.cells, thick d h k := by
      rw [sum_eq_sum_Ico_succ_bot hi]; ring
    have e3 : (∑ k ∈ Ico 0 i, thick d h k) + thick d h i = ∑ k ∈ range (i + 1), thick d h k := by
      rw [sum_range_succ, range_eq_Ico]
    rw [e1, e2, e3]
    simp only [range_eq_Ico]
    field_simp
    ring
  rw [sum_congr rfl step, ← mul_sum, sum_add_distrib, sum_range_sub (fun i => E3 (∑ k ∈ Ico i d.cells, thick d h k)),
    sum_range_sub' (fun i => E3 (∑ k ∈ range i, thick d h k))]
  rw [Ico_self, sum_empty, range_zero, sum_empty, E3_zero, ← range_eq_Ico]
  ring

theorem slab_crossing (mesh : SlabMesh d) {h : Nat} (ht : ∀ i, i < d.cells → 0 < d.tot.m h i) (S : ℝ) {e : Nat → ℝ}
    (he : ∀ i, i < d.cells → e i = slabEscape d h i) :
    crossing d S e h = 1 - 4 / S * (1 / 2 - E3 (∑ k ∈ range d.cells, thick d h k)) := by
  rw [← slab_total mesh ht, mul_sum]
  unfold crossing
  congr 1
  refine sum_congr rfl (fun i hi => ?_)
  rw [he i (mem_range.1 hi)]
  ring

theorem round_crossing (pos : Positive d) (mesh : RoundMesh d) {R : Shape} (ch : Chords d rays (zray d) (wray d R)) {h : Nat}
    (hh : h < d.energies) (S : ℝ) {e : Nat → ℝ}
    (he : ∀ i, i < d.cells → e i =
      R.pre / (d.vol.v i * d.tot.m h i) * chordSum rays (zray d) (wray d R) i (fun y => rayEscape d R.K h y i)) :
    crossing d S e h = 1 - 4 * R.pre / S * ∑ m ∈ range d.cells, ∑ k ∈ range rays,
      wray d R m k * (R.K 0 - R.K (2 * halfPath d h (zray d m k) d.cells)) := by
  rw [← escape_total mesh ch, mul_sum]
  unfold crossing
  congr 1
  refine sum_congr rfl (fun i hi => ?_)
  rw [mem_range] at hi
  have := (pos.vol_pos i hi).ne'
  have := (pos.tot_pos h hh i hi).ne'
  rw [he i hi]
  field_simp

/-- moments of the quadrature -/
theorem moments (n : Nat) (hn : n ≤ 15) : |(∑ k ∈ range rays, weights.v k * abscissa.v k ^ n) - 1 / (n + 2)| ≤ 1 / 10 ^ 10 := by
  unfold rays
  simp only [sum_range_succ, range_zero, sum_empty]
  interval_cases n <;> norm_num [weights, abscissa, Vec.ofList, abs_le]

theorem nodes {k : Nat} (hk : k < rays) : 0 < abscissa.v k ∧ abscissa.v k < 1 := by
  unfold rays at hk
  interval_cases k <;> norm_num [abscissa, Vec.ofList]

/-- fluxes from sources, when all vacuum probabilities are non-negative -/
theorem positive_of (wf : WellFormed d) (pos : Positive d) (habs : Absorbing d) {G : Ten3} (s : Sound d G)
    (hself : ∀ h i, h < d.energies → i < d.cells → 0 ≤ G.v (i, i, h)) (ha0 : 0 ≤ d.albedo.v 0) (ha1 : d.albedo.v 0 ≤ 1)
    {o : Outcome Ten3} (ho : o = ok G) :
    ∃ M F, (o >>= assemble d) = ok (M, F) ∧
      (∀ s : Nat → ℝ, ∃ φ : Nat → ℝ, ∀ x, x < d.cells * d.energies →
        ∑ q ∈ range (d.cells * d.energies), M.m x q * φ q = s x) ∧
      (∀ φ ψ : Nat → ℝ, (∀ x, x < d.cells * d.energies →
        ∑ q ∈ range (d.cells * d.energies), M.m x q * φ q = ∑ q ∈ range (d.cells * d.energies), M.m x q * ψ q) →
        ∀ q, q < d.cells * d.energies → φ q = ψ q) ∧
      (∀ φ : Nat → ℝ, (∀ x, x < d.cells * d.energies → 0 ≤ ∑ q ∈ range (d.cells * d.energies), M.m x q * φ q) →
        ∀ q, q < d.cells * d.energies → 0 ≤ φ q) := by
  have ht : ∀ h, h < d.energies → ∀ i, i < d.cells → d.tot.m h i ≠ 0 := fun h hh i hi => (pos.tot_pos h hh i hi).ne'
  have hp := fun h hh => den_pos pos s (h := h) hh ha0 ha1
  obtain ⟨p, e, dp, v⟩ := applyBC_ok wf ht pos.surface_pos.ne' s.dom (fun h hh => (hp h hh).ne')
  obtain ⟨M, F, eA, -, -, -, -, hv⟩ := assemble_ok wf dp e
  refine ⟨M, F, by rw [ho, ok_bind, eA], loss_positive wf pos habs (p := fun g i j => p.v (i, j, g))
    (fun g h i j hg hh hi hj => (hv g h i j hg hh hi hj).1) ?_ ?_ ?_⟩
  · intro g i j hg hi hj
    show 0 ≤ p.v (i, j, g)
    rw [v g i j hg hi hj]
    unfold bcVal
    have h1 : 0 ≤ G.v (i, j, g) := by
      by_cases hij : i = j
      · subst hij; exact hself g i hg hi
      · exact s.off g i j hg hi hj hij
    have h2 := pos.tot_pos g hg j hj
    have h3 := s.esc g i hg hi
    have h4 := s.esc g j hg hj
    have h5 := pos.vol_pos j hj
    have h6 := pos.surface_pos
    have h7 := hp g hg
    positivity
  · intro g i j hg hi hj
    show d.vol.v i * p.v (i, j, g) = d.vol.v j * p.v (j, i, g)
    rw [v g i j hg hi hj, v g j i hg hj hi]
    exact bc_recip (fun i hi => (pos.vol_pos i hi).ne') ht s.recip hg hi hj
  · intro g i hg hi
    show ∑ j ∈ range d.cells, p.v (i, j, g) * d.tot.m g j ≤ 1
    rw [sum_congr rfl (fun j hj => by rw [v g i j hg hi (mem_range.1 hj)]), bc_row ht G.v hg pos.surface_pos.ne' (hp g hg).ne']
    have h1 := hp g hg
    rw [mul_comm] at h1
    have := div_nonneg (mul_nonneg (s.esc g i hg hi) (sub_nonneg.2 ha1)) h1.le
    linarith

/-- in an optically thick ring of a cylinder the probability of a collision in the ring itself is not negative -/
theorem self_cylinder (wf : WellFormed d) (pos : Positive d) (mesh : RoundMesh d) (hc : 0 < d.cells) {G : Ten3}
    (e : vacuumCPs d E3 Ki3 .cylinder = ok G) {h i : Nat} (hh : h < d.energies) (hi : i < d.cells)
    (hthick : Real.pi * d.radii.v (i + 1) ≤ d.vol.v i * d.tot.m h i) : 0 ≤ G.v (i, i, h) := by
  obtain ⟨G', e', -, v, -⟩ := round_vacuum wf pos mesh hc (cylinder Ki3) (chords_cyl mesh Ki3)
  have hC : vacuumCPs d E3 Ki3 .cylinder = ok G' := e'
  rw [e] at hC
  cases hC
  rw [v h i i hh hi hi]
  unfold roundProb
  rw [if_neg (lt_irrefl i), if_pos rfl]
  have ch := chords_cyl mesh Ki3
  have h1 : chordSum rays (zray d) (wray d (cylinder Ki3)) i (fun y => rayOut d (cylinder Ki3).K h y i) ≤
      chordSum rays (zray d) (wray d (cylinder Ki3)) i (fun _ => 2 * (Real.pi / 4)) := by
    unfold chordSum
    refine sum_le_sum (fun m hm => sum_le_sum (fun k hk => ?_))
    rw [mem_range] at hm hk
    refine mul_le_mul_of_nonneg_left ?_ (ch.weight m (by omega) k hk)
    set y := zray d m k
    have a0 := halfPath_nonneg mesh (pos.tot_pos h hh) y (show i ≤ d.cells by omega)
    have a1 := halfPath_step mesh (pos.tot_pos h hh) y hi
    unfold rayOut leave hop
    show 2 * (Ki3 (halfPath d h y (i + 1) - halfPath d h y (i + 1)) - Ki3 (halfPath d h y (i + 1) - halfPath d h y i)) -
      (Ki3 (halfPath d h y i - -halfPath d h y i) - Ki3 (halfPath d h y i - -halfPath d h y (i + 1)) -
        Ki3 (halfPath d h y (i + 1) - -halfPath d h y i) + Ki3 (halfPath d h y (i + 1) - -halfPath d h y (i + 1))) ≤ _
    rw [sub_self, Ki3_zero]
    have c1 := Ki3_facts.conv (2 * halfPath d h y i) (halfPath d h y (i + 1) - halfPath d h y i)
      (halfPath d h y (i + 1) - halfPath d h y i) (by linarith) (by linarith) (by linarith)
    have c2 := Ki3_facts.nonneg (halfPath d h y (i + 1) - halfPath d h y i) (by linarith)
    have e1 : 2 * halfPath d h y i = halfPath d h y i - -halfPath d h y i := by ring
    have e2 : 2 * halfPath d h y i + (halfPath d h y (i + 1) - halfPath d h y i) = halfPath d h y i - -halfPath d h y (i + 1) := by ring
    have e3 : halfPath d h y (i + 1) - -halfPath d h y i = halfPath d h y i - -halfPath d h y (i + 1) := by ring
    have e4 : 2 * halfPath d h y i + (halfPath d h y (i + 1) - halfPath d h y i) + (halfPath d h y (i + 1) - halfPath d h y i) =
      halfPath d h y (i + 1) - -halfPath d h y (i + 1) := by ring
    rw [e4, e2, e1] at c1
    rw [e3]
    linarith
  have h2 : chordSum rays (zray d) (wray d (cylinder Ki3)) i (fun _ => 2 * (Real.pi / 4)) =
      (d.radii.v (i + 1) - d.radii.v 0) * Real.pi / 4 := by
    unfold chordSum
    rw [sum_congr rfl (fun m _ => by rw [← sum_mul, cyl_weight]), ← sum_mul, ← sum_div, sum_range_sub]
    ring
  rw [h2] at h1
  have hq : 0 < d.vol.v i * d.tot.m h i := mul_pos (pos.vol_pos i hi) (pos.tot_pos h hh i hi)
  have hpre : (cylinder Ki3).pre = 4 := rfl
  have h3 := mul_le_mul_of_nonneg_left h1 (show (0 : ℝ) ≤ 4 / (d.vol.v i * d.tot.m h i) by positivity)
  have h4 : 4 / (d.vol.v i * d.tot.m h i) * ((d.radii.v (i + 1) - d.radii.v 0) * Real.pi / 4) ≤ 1 := by
    rw [div_mul_eq_mul_div, div_le_one hq]
    have := mul_nonneg Real.pi_pos.le mesh.first
    nlinarith
  rw [hpre]
  linarith

end

end Verif.CPM
