import Verif.Diffusion.Lemmas
import Mathlib.Tactic.IntervalCases
import Mathlib.Tactic.NormNum
import Mathlib.Algebra.BigOperators.Field

/-!
# Property theorems: multigroup diffusion (C13 - C17, C45, C46)

`diffOperator d >>= boundary d` is the within-group loss operator (diffusion, total cross section, boundary conditions) and
`assemble d dir` the pair (losses, fission) handed to the eigenvalue solver. Unknown `i + e * cells` is the flux of group
`e` in cell `i`.
-/

namespace Verif.Diffusion

open Verif Outcome Finset

noncomputable section

/-- Example: a slab of three unequal cells, two groups, albedos 1/2 and 0. -/
def exSlab : Data where
  cells := 3
  energies := 2
  geom := .slab
  albedo := ⟨2, fun i => if i = 0 then 1 / 2 else 0⟩
  D := ⟨2, 3, fun e i => 1 + e + i⟩
  tot := ⟨2, 3, fun e i => 2 + e + i⟩
  fiss := ⟨2, 3, fun e i => e + i⟩
  nu := ⟨2, 3, fun e _ => 2 + e⟩
  chi := ⟨2, 3, fun e _ => if e = 0 then 1 else 0⟩
  scatt := fun g h _ => if g = 0 ∧ h = 1 then 1 / 2 else 0
  vol := ⟨3, fun i => 1 + i⟩
  surf := ⟨4, fun _ => 1⟩
  size := ⟨3, fun i => 1 + i⟩

theorem exSlab_wf : WellFormed exSlab := ⟨rfl, rfl, rfl, rfl, rfl, rfl, rfl, rfl, rfl, rfl, rfl, rfl, rfl⟩

theorem exSlab_pos : Positive exSlab where
  D_pos e _ i _ := by show (0 : ℝ) < 1 + e + i; positivity
  size_pos i _ := by show (0 : ℝ) < 1 + i; positivity

theorem exSlab_albedos : HasAlbedos exSlab (1 / 2) 0 :=
  Or.inl ⟨rfl, le_rfl, by simp [exSlab], by simp [exSlab]⟩

/-- The same slab with periodic boundaries and cells of size 1. -/
def exPeriodic : Data := { exSlab with albedo := ⟨2, fun _ => 2⟩, size := ⟨3, fun _ => 1⟩ }

theorem exPeriodic_wf : WellFormed exPeriodic := ⟨rfl, rfl, rfl, rfl, rfl, rfl, rfl, rfl, rfl, rfl, rfl, rfl, rfl⟩

theorem exPeriodic_pos : Positive exPeriodic := ⟨exSlab_pos.D_pos, fun _ _ => one_pos⟩

theorem exPeriodic_albedos : HasAlbedos exPeriodic 2 2 := Or.inl ⟨rfl, le_rfl, rfl, rfl⟩

/-- **C13.** With albedo boundaries every row of the operator, applied to any flux, is the neutron balance of its cell: collisions
plus the net currents through the two faces. The current through an inner face obeys Fick's law in both adjacent half
cells with one common face flux (and is shared by both cells, so nothing is created or lost between cells); the current through a
boundary face obeys Fick's law in the half cell and the albedo condition. -/
theorem C13_cell_balance {d : Data} (wf : WellFormed d) (pos : Positive d) (hc : 2 ≤ d.cells) {aL aR : ℝ}
    (hA : HasAlbedos d aL aR) (hL : -1 ≤ aL ∧ aL ≤ 1) (hR : -1 ≤ aR ∧ aR ≤ 1) :
    ∃ M, (diffOperator d >>= boundary d) = ok M ∧ M.r = d.cells * d.energies ∧ M.c = d.cells * d.energies ∧
      ∀ φ : Nat → ℝ, ∀ e, e < d.energies → ∃ J : Nat → ℝ,
        (∀ i, i < d.cells → ∑ q ∈ range (d.cells * d.energies), M.m (i + e * d.cells) q * φ q =
          d.tot.m e i * d.vol.v i * φ (i + e * d.cells) + J (i + 1) - J i) ∧
        (∀ i, i + 1 < d.cells → FaceCurrent (d.D.m e i) (d.size.v i) (d.D.m e (i + 1)) (d.size.v (i + 1))
          (d.surf.v (i + 1)) (φ (i + e * d.cells)) (φ (i + 1 + e * d.cells)) (J (i + 1))) ∧
        AlbedoCurrent (d.D.m e 0) (d.size.v 0) aL (d.surf.v 0) (φ (0 + e * d.cells)) (-(J 0)) ∧
        AlbedoCurrent (d.D.m e (d.cells - 1)) (d.size.v (d.cells - 1)) aR (d.surf.v d.cells)
          (φ (d.cells - 1 + e * d.cells)) (J d.cells) := by
  obtain ⟨M, h, hr, hcc, hv⟩ := albedo_ok wf pos hc hA hL hR
  refine ⟨M, h, hr, hcc, ?_⟩
  intro φ e he
  set f : Nat → ℝ := fun i => φ (i + e * d.cells) with hf
  set BL := bc aL (d.D.m e 0) (d.size.v 0) (d.surf.v 0) with hBL
  set BR := bc aR (d.D.m e (d.cells - 1)) (d.size.v (d.cells - 1)) (d.surf.v d.cells) with hBR
  refine ⟨fun i => if i = 0 then -(2 * BL * f 0) else if i = d.cells then 2 * BR * f (d.cells - 1)
    else 2 * di d e (i - 1) * (f (i - 1) - f i), ?_, ?_, ?_, ?_⟩
  · intro i hi
    rw [flat_row_sum hv he hi]
    unfold row
    rw [tri_sum hi (fun j => φ (j + e * d.cells))]
    dsimp only
    by_cases h0 : i = 0
    · subst h0
      rw [if_pos rfl, if_pos rfl, if_neg (by omega), if_neg (by omega), if_neg (by omega)]
      simp only [Nat.add_sub_cancel, hf]
      ring
    · simp only [h0, show ¬ i + 1 = 0 by omega, show ¬ i = d.cells by omega, if_false]
      by_cases hl : i + 1 = d.cells
      · rw [if_pos hl, if_pos hl]
        simp only [hf, show d.cells - 1 = i by omega]
        rw [hBR, show d.cells - 1 = i by omega]
        ring
      · rw [if_neg hl, if_neg hl]
        simp only [hf, Nat.add_sub_cancel]
        ring
  · intro i hi
    dsimp only
    rw [if_neg (by omega), if_neg (by omega), Nat.add_sub_cancel]
    exact face_current (pos.D_pos e he i (by omega)) (pos.size_pos i (by omega)) (pos.D_pos e he _ (by omega))
      (pos.size_pos _ (by omega))
  · dsimp only
    rw [if_pos rfl, neg_neg]
    exact albedo_current (pos.D_pos e he 0 (by omega)) (pos.size_pos 0 (by omega)) hL.1 hL.2
  · dsimp only
    rw [if_neg (by omega), if_pos rfl]
    exact albedo_current (pos.D_pos e he _ (by omega)) (pos.size_pos _ (by omega)) hR.1 hR.2

example : ∃ M, (diffOperator exSlab >>= boundary exSlab) = ok M ∧ M.r = 6 := by
  obtain ⟨M, h, hr, -⟩ := C13_cell_balance exSlab_wf exSlab_pos (by norm_num [exSlab]) exSlab_albedos
    (by norm_num) (by norm_num)
  exact ⟨M, h, hr⟩

/-- **C13, no leakage.** With reflecting boundaries (albedo 1) the operator neither creates nor destroys neutrons: summed over all
cells, what it removes from a group is exactly what collides. -/
theorem C13_reflecting {d : Data} (wf : WellFormed d) (pos : Positive d) (hc : 2 ≤ d.cells) (hA : HasAlbedos d 1 1) :
    ∃ M, (diffOperator d >>= boundary d) = ok M ∧ ∀ φ : Nat → ℝ, ∀ e, e < d.energies →
      ∑ i ∈ range d.cells, ∑ q ∈ range (d.cells * d.energies), M.m (i + e * d.cells) q * φ q =
        ∑ i ∈ range d.cells, d.tot.m e i * d.vol.v i * φ (i + e * d.cells) := by
  obtain ⟨M, h, -, -, hb⟩ := C13_cell_balance wf pos hc hA (by norm_num) (by norm_num)
  refine ⟨M, h, ?_⟩
  intro φ e he
  obtain ⟨J, h1, -, hl, hr⟩ := hb φ e he
  have zero : ∀ {D hh S f J : ℝ}, AlbedoCurrent D hh 1 S f J → J = 0 := by
    rintro D hh S f J ⟨fs, -, h⟩
    linarith
  have j0 := zero hl
  have j1 := zero hr
  rw [sum_congr rfl (fun i hi => h1 i (mem_range.1 hi))]
  rw [telescope]
  linarith

example : HasAlbedos { exSlab with albedo := ⟨2, fun _ => 1⟩ } 1 1 := Or.inl ⟨rfl, le_rfl, rfl, rfl⟩

/-- **C13, precondition.** A mesh of a single cell makes the code read and write out of bounds (index `cells - 2`). -/
theorem C13_one_cell {d : Data} (wf : WellFormed d) (pos : Positive d) (hc : d.cells = 1) (he : 0 < d.energies) {aL aR : ℝ}
    (hA : HasAlbedos d aL aR) (hL : -1 ≤ aL ∧ aL ≤ 1) (hR : -1 ≤ aR ∧ aR ≤ 1) :
    (diffOperator d >>= boundary d) = ub := by
  obtain ⟨M1, h1, r1, c1, v1⟩ := diffOperator_ok wf pos
  obtain ⟨DI, hDI, dr, dc, dv⟩ := interfaceD_ok wf pos
  rw [h1, ok_bind]
  unfold boundary
  rw [hDI, ok_bind, albedos_ok hA, ok_bind, if_neg (not_periodic hL.2)]
  have p1 := pos.D_pos 0 he 0 (by omega)
  have p2 := pos.size_pos 0 (by omega)
  have n1 := (albedo_den_pos p1 p2 hL.1 hL.2).ne'
  have n2 := (albedo_den_pos p1 p2 hR.1 hR.2).ne'
  have w1 := wf.tot_r; have w2 := wf.tot_c; have w3 := wf.vol_n; have w4 := wf.D_r; have w5 := wf.D_c
  have w6 := wf.surf_n; have w7 := wf.size_n
  refine loop_fail_at (k := 0) (x := ub) (fun f => rfl) he rfl ?_
  unfold albedoRow
  simp only [hc, Nat.sub_self, Mat.get_ok (x := d.D) (show 0 < d.D.r by omega) (show 0 < d.D.c by omega),
    Vec.get_ok (x := d.surf) (show 0 < d.surf.n by omega), Vec.get_ok (x := d.size) (show 0 < d.size.n by omega),
    Vec.get_ok (x := d.surf) (show 0 + 1 < d.surf.n by omega),
    Mat.get_ok (x := DI) (show 0 < DI.r by omega) (show 0 < DI.c by omega), Vec.get_ok (x := d.vol) (show 0 < d.vol.n by omega),
    Mat.get_ok (x := d.tot) (show 0 < d.tot.r by omega) (show 0 < d.tot.c by omega), ok_bind, fdiv_ok n1, fdiv_ok n2]
  have hp : predIdx 0 = ub := rfl
  rw [hp]
  rw [hc, Nat.one_mul] at r1 c1
  by_cases hE : 1 < d.energies
  · rw [Mat.set_ok (by omega) (by omega), ok_bind, Mat.set_ok (by dsimp only; omega) (by dsimp only; omega), ok_bind, ub_bind]
  · rw [Mat.set_ub (by omega), ub_bind]

example : ∃ d : Data, WellFormed d ∧ Positive d ∧ d.cells = 1 ∧ 0 < d.energies ∧ HasAlbedos d 0 0 :=
  ⟨⟨1, 1, .slab, ⟨2, fun _ => 0⟩, ⟨1, 1, fun _ _ => 1⟩, ⟨1, 1, fun _ _ => 1⟩, ⟨1, 1, fun _ _ => 1⟩, ⟨1, 1, fun _ _ => 1⟩,
    ⟨1, 1, fun _ _ => 1⟩, fun _ _ _ => 0, ⟨1, fun _ => 1⟩, ⟨2, fun _ => 1⟩, ⟨1, fun _ => 1⟩⟩,
    ⟨rfl, rfl, rfl, rfl, rfl, rfl, rfl, rfl, rfl, rfl, rfl, rfl, rfl⟩,
    ⟨fun _ _ _ _ => one_pos, fun _ _ => one_pos⟩, rfl, Nat.one_pos, Or.inl ⟨rfl, le_rfl, rfl, rfl⟩⟩

/-- **C14.** With albedo boundaries the within-group operator is symmetric. -/
theorem C14_symmetric {d : Data} (wf : WellFormed d) (pos : Positive d) (hc : 2 ≤ d.cells) {aL aR : ℝ}
    (hA : HasAlbedos d aL aR) (hL : -1 ≤ aL ∧ aL ≤ 1) (hR : -1 ≤ aR ∧ aR ≤ 1) :
    ∃ M, (diffOperator d >>= boundary d) = ok M ∧ M.r = d.cells * d.energies ∧ M.c = d.cells * d.energies ∧
      ∀ x y, x < d.cells * d.energies → y < d.cells * d.energies → M.m x y = M.m y x := by
  obtain ⟨M, h, hr, hcc, hv⟩ := albedo_ok wf pos hc hA hL hR
  refine ⟨M, h, hr, hcc, ?_⟩
  intro x y hx hy
  obtain ⟨i, e, hi, he, rfl⟩ := flat_surj hx
  obtain ⟨j, e', hj, he', rfl⟩ := flat_surj hy
  rw [hv e e' i j he he' hi hj, hv e' e j i he' he hj hi]
  exact row_symm d aL aR e e' i j

example : ∃ M, (diffOperator exSlab >>= boundary exSlab) = ok M ∧ M.m 0 1 = M.m 1 0 := by
  obtain ⟨M, h, -, -, hs⟩ := C14_symmetric exSlab_wf exSlab_pos (by norm_num [exSlab]) exSlab_albedos
    (by norm_num) (by norm_num)
  exact ⟨M, h, hs 0 1 (by norm_num [exSlab]) (by norm_num [exSlab])⟩

/-- **C14 fails for periodic boundaries.** -/
theorem C14_periodic_not_symmetric : ∃ d, WellFormed d ∧ Positive d ∧ d.cells = 3 ∧ HasAlbedos d 2 2 ∧
    ∃ M, (diffOperator d >>= boundary d) = ok M ∧ M.m 0 2 ≠ M.m 2 0 := by
  obtain ⟨M, h, -, -, hv⟩ := periodic_ok exPeriodic_wf exPeriodic_pos (by norm_num [exPeriodic, exSlab]) rfl le_rfl rfl rfl
  refine ⟨exPeriodic, exPeriodic_wf, exPeriodic_pos, rfl, exPeriodic_albedos, M, h, ?_⟩
  have h1 := hv 0 0 0 2 (by norm_num [exPeriodic, exSlab]) (by norm_num [exPeriodic, exSlab])
    (by norm_num [exPeriodic, exSlab]) (by norm_num [exPeriodic, exSlab])
  have h2 := hv 0 0 2 0 (by norm_num [exPeriodic, exSlab]) (by norm_num [exPeriodic, exSlab])
    (by norm_num [exPeriodic, exSlab]) (by norm_num [exPeriodic, exSlab])
  simp only [Nat.zero_mul, Nat.add_zero, if_true] at h1 h2
  rw [h1, h2]
  norm_num [prow, di, exPeriodic, exSlab]

/-- **C15.** With albedo boundaries the matrices assembled for the adjoint calculation are the transposes of the forward ones. -/
theorem C15_transpose {d : Data} (wf : WellFormed d) (pos : Positive d) (hc : 2 ≤ d.cells) {aL aR : ℝ}
    (hA : HasAlbedos d aL aR) (hL : -1 ≤ aL ∧ aL ≤ 1) (hR : -1 ≤ aR ∧ aR ≤ 1) :
    ∃ M F M' F', assemble d .forward = ok (M, F) ∧ assemble d .adjoint = ok (M', F') ∧
      M.r = d.cells * d.energies ∧ M.c = d.cells * d.energies ∧ F.r = d.cells * d.energies ∧ F.c = d.cells * d.energies ∧
      M'.r = d.cells * d.energies ∧ M'.c = d.cells * d.energies ∧ F'.r = d.cells * d.energies ∧
      F'.c = d.cells * d.energies ∧
      ∀ x y, x < d.cells * d.energies → y < d.cells * d.energies → M'.m x y = M.m y x ∧ F'.m x y = F.m y x := by
  obtain ⟨D, h, hr, hcc, hv⟩ := albedo_ok wf pos hc hA hL hR
  obtain ⟨M, hM, mr, mc, mv⟩ := forwardM_ok wf hr hcc
  obtain ⟨M', hM', mr', mc', mv'⟩ := adjointM_ok wf hr hcc
  obtain ⟨F, hF, fr, fc, fv⟩ := forwardF_ok wf
  obtain ⟨F', hF', fr', fc', fv'⟩ := adjointF_ok wf
  obtain ⟨D1, hD1, hb⟩ := bind_eq_ok.1 h
  refine ⟨M, F, M', F', ?_, ?_, mr, mc, fr, fc, mr', mc', fr', fc', ?_⟩
  · unfold assemble
    rw [hD1, ok_bind, hb, ok_bind]
    dsimp only
    rw [hM, ok_bind, hF, ok_bind]
  · unfold assemble
    rw [hD1, ok_bind, hb, ok_bind]
    dsimp only
    rw [hM', ok_bind, hF', ok_bind]
  · intro x y hx hy
    obtain ⟨i, g, hi, hg, rfl⟩ := flat_surj hx
    obtain ⟨j, k, hj, hk, rfl⟩ := flat_surj hy
    rw [mv' g k i j hg hk hi hj, mv k g j i hk hg hj hi, fv' g k i j hg hk hi hj, fv k g j i hk hg hj hi,
      hv g k i j hg hk hi hj, hv k g j i hk hg hj hi, row_symm d aL aR g k i j]
    by_cases hij : i = j
    · subst hij
      simp only [if_true]
      exact ⟨trivial, trivial⟩
    · rw [if_neg hij, if_neg (Ne.symm hij), if_neg hij, if_neg (Ne.symm hij)]
      exact ⟨rfl, rfl⟩

example : ∃ M F M' F', assemble exSlab .forward = ok (M, F) ∧ assemble exSlab .adjoint = ok (M', F') ∧ M'.m 0 3 = M.m 3 0 := by
  obtain ⟨M, F, M', F', h1, h2, -, -, -, -, -, -, -, -, h⟩ := C15_transpose exSlab_wf exSlab_pos (by norm_num [exSlab])
    exSlab_albedos (by norm_num) (by norm_num)
  exact ⟨M, F, M', F', h1, h2, (h 0 3 (by norm_num [exSlab]) (by norm_num [exSlab])).1⟩

/-- **C15, spectrum.** Forward and adjoint calculation have the same multiplication factors: `M φ = (1/k) F φ` has a nonzero solution
exactly if the adjoint equation has one. -/
theorem C15_same_k {d : Data} (wf : WellFormed d) (pos : Positive d) (hc : 2 ≤ d.cells) {aL aR : ℝ}
    (hA : HasAlbedos d aL aR) (hL : -1 ≤ aL ∧ aL ≤ 1) (hR : -1 ≤ aR ∧ aR ≤ 1) :
    ∃ M F M' F', assemble d .forward = ok (M, F) ∧ assemble d .adjoint = ok (M', F') ∧
      ∀ k : ℝ,
      ((∃ φ : Nat → ℝ, (∃ q, q < d.cells * d.energies ∧ φ q ≠ 0) ∧ ∀ p, p < d.cells * d.energies →
        ∑ q ∈ range (d.cells * d.energies), M.m p q * φ q = 1 / k * ∑ q ∈ range (d.cells * d.energies), F.m p q * φ q) ↔
      (∃ φ : Nat → ℝ, (∃ q, q < d.cells * d.energies ∧ φ q ≠ 0) ∧ ∀ p, p < d.cells * d.energies →
        ∑ q ∈ range (d.cells * d.energies), M'.m p q * φ q =
          1 / k * ∑ q ∈ range (d.cells * d.energies), F'.m p q * φ q)) := by
  obtain ⟨M, F, M', F', h1, h2, -, -, -, -, -, -, -, -, h⟩ := C15_transpose wf pos hc hA hL hR
  refine ⟨M, F, M', F', h1, h2, fun k => ⟨fun hx => ?_, fun hx => ?_⟩⟩
  · exact transpose_eigen (fun p q hp hq => (h p q hp hq).1) (fun p q hp hq => (h p q hp hq).2) _ hx
  · exact transpose_eigen (fun p q hp hq => ((h q p hq hp).1).symm) (fun p q hp hq => ((h q p hq hp).2).symm) _ hx

/-- **C15 fails for periodic boundaries.** -/
theorem C15_periodic_not_transpose : ∃ d, WellFormed d ∧ Positive d ∧ d.cells = 3 ∧ HasAlbedos d 2 2 ∧
    ∃ M F M' F', assemble d .forward = ok (M, F) ∧ assemble d .adjoint = ok (M', F') ∧ M'.m 0 2 ≠ M.m 2 0 := by
  obtain ⟨D, h, hr, hcc, hv⟩ := periodic_ok exPeriodic_wf exPeriodic_pos (by norm_num [exPeriodic, exSlab]) rfl le_rfl rfl rfl
  obtain ⟨M, hM, mr, mc, mv⟩ := forwardM_ok exPeriodic_wf hr hcc
  obtain ⟨M', hM', mr', mc', mv'⟩ := adjointM_ok exPeriodic_wf hr hcc
  obtain ⟨F, hF, fr, fc, fv⟩ := forwardF_ok exPeriodic_wf
  obtain ⟨F', hF', fr', fc', fv'⟩ := adjointF_ok exPeriodic_wf
  obtain ⟨D1, hD1, hb⟩ := bind_eq_ok.1 h
  refine ⟨exPeriodic, exPeriodic_wf, exPeriodic_pos, rfl, exPeriodic_albedos, M, F, M', F', ?_, ?_, ?_⟩
  · unfold assemble
    rw [hD1, ok_bind, hb, ok_bind]
    dsimp only
    rw [hM, ok_bind, hF, ok_bind]
  · unfold assemble
    rw [hD1, ok_bind, hb, ok_bind]
    dsimp only
    rw [hM', ok_bind, hF', ok_bind]
  · have q : 0 < exPeriodic.energies := by norm_num [exPeriodic, exSlab]
    have q0 : 0 < exPeriodic.cells := by norm_num [exPeriodic, exSlab]
    have q2 : 2 < exPeriodic.cells := by norm_num [exPeriodic, exSlab]
    have h1 := mv' 0 0 0 2 q q q0 q2
    have h2 := mv 0 0 2 0 q q q2 q0
    rw [hv 0 0 0 2 q q q0 q2] at h1
    rw [hv 0 0 2 0 q q q2 q0] at h2
    simp only [Nat.zero_mul, Nat.add_zero, if_true] at h1 h2
    rw [h1, h2]
    norm_num [prow, di, exPeriodic, exSlab]

/-- **C16.** The assembled matrices have the textbook entries: losses are the within-group operator minus scattering from `h` into
`g` in the same cell, fission is spectrum times production in the same cell; the adjoint problem has the roles of the groups
exchanged. All accesses are in bounds. -/
theorem C16_entries {d : Data} (wf : WellFormed d) (pos : Positive d) (hc : 2 ≤ d.cells) (hb : Boundaries d) :
    ∃ D M F M' F', (diffOperator d >>= boundary d) = ok D ∧
      assemble d .forward = ok (M, F) ∧ assemble d .adjoint = ok (M', F') ∧
      ∀ g h i j, g < d.energies → h < d.energies → i < d.cells → j < d.cells →
        M.m (i + g * d.cells) (j + h * d.cells) =
          (if g = h then D.m (i + g * d.cells) (j + h * d.cells) else 0) -
            (if i = j then d.scatt h g i * d.vol.v i else 0) ∧
        M'.m (i + g * d.cells) (j + h * d.cells) =
          (if g = h then D.m (i + g * d.cells) (j + h * d.cells) else 0) -
            (if i = j then d.scatt g h i * d.vol.v i else 0) ∧
        F.m (i + g * d.cells) (j + h * d.cells) =
          (if i = j then d.chi.m g i * d.nu.m h i * d.fiss.m h i * d.vol.v i else 0) ∧
        F'.m (i + g * d.cells) (j + h * d.cells) =
          (if i = j then d.chi.m h i * d.nu.m g i * d.fiss.m g i * d.vol.v i else 0) := by
  obtain ⟨D, h, hr, hcc, hv⟩ := loss_dims wf pos hc hb
  obtain ⟨M, hM, mr, mc, mv⟩ := forwardM_ok wf hr hcc
  obtain ⟨M', hM', mr', mc', mv'⟩ := adjointM_ok wf hr hcc
  obtain ⟨F, hF, fr, fc, fv⟩ := forwardF_ok wf
  obtain ⟨F', hF', fr', fc', fv'⟩ := adjointF_ok wf
  obtain ⟨D1, hD1, hb⟩ := bind_eq_ok.1 h
  refine ⟨D, M, F, M', F', h, ?_, ?_, ?_⟩
  · unfold assemble
    rw [hD1, ok_bind, hb, ok_bind]
    dsimp only
    rw [hM, ok_bind, hF, ok_bind]
  · unfold assemble
    rw [hD1, ok_bind, hb, ok_bind]
    dsimp only
    rw [hM', ok_bind, hF', ok_bind]
  · intro g k i j hg hk hi hj
    rw [mv' g k i j hg hk hi hj, mv g k i j hg hk hi hj, fv' g k i j hg hk hi hj, fv g k i j hg hk hi hj]
    have hz : D.m (i + g * d.cells) (j + k * d.cells) = if g = k then D.m (i + g * d.cells) (j + k * d.cells) else 0 := by
      by_cases hgk : g = k
      · rw [if_pos hgk]
      · rw [if_neg hgk, hv g k i j hg hk hi hj hgk]
    refine ⟨by rw [← hz], by rw [← hz], ?_, ?_⟩
    · split_ifs <;> ring
    · split_ifs <;> ring

example : Boundaries exSlab ∧ Boundaries exPeriodic :=
  ⟨Or.inl ⟨1 / 2, 0, exSlab_albedos, by norm_num, by norm_num⟩, Or.inr exPeriodic_albedos⟩

/-- **C17.** The heat sources written after a criticality calculation integrate to the thermal power, are distributed
like the fission rate of the fundamental mode, and do not depend on the other modes. -/
theorem C17_thermal_power {d : Data} (wf : WellFormed d) {mode volM : Vec ℝ} (modes : List (Vec ℝ))
    (hm : mode.n = d.cells * d.energies) (hvn : volM.n = d.cells) (hv : ∀ i, i < d.cells → volM.v i ≠ 0) (power : ℝ)
    {rate : Nat → ℝ}
    (hrate : ∀ i, rate i = ∑ e ∈ range d.energies, mode.v (i + e * d.cells) * d.fiss.m e i * d.vol.v i)
    (htot : ∑ i ∈ range d.cells, rate i ≠ 0) :
    ∃ q, newHeatSource d power volM (mode :: modes) = ok q ∧ q.n = d.cells ∧
      ∑ i ∈ range d.cells, q.v i * volM.v i = power ∧
      ∀ i, i < d.cells → q.v i * volM.v i * ∑ j ∈ range d.cells, rate j = power * rate i := by
  have hr : rate = Diffusion.rate d mode.v := by
    funext i; rw [hrate, Diffusion.rate, sum_mul]
  subst hr
  obtain ⟨q, hq, qn, qv⟩ := (heat_ok (modes := modes) wf hm hvn hv power).1 htot
  have hmul : ∀ i, i < d.cells → q.v i * volM.v i = power * Diffusion.rate d mode.v i / ∑ i ∈ range d.cells, Diffusion.rate d mode.v i := by
    intro i hi
    rw [qv i hi, div_mul_cancel₀ _ (hv i hi)]
  refine ⟨q, hq, qn, ?_, ?_⟩
  · rw [sum_congr rfl (fun i hi => hmul i (mem_range.1 hi)), ← sum_div, ← mul_sum, mul_div_cancel_right₀ _ htot]
  · intro i hi
    rw [hmul i hi, div_mul_cancel₀ _ htot]

/-- **C17, sign.** With non-negative flux, cross sections and power no heat source is negative. -/
theorem C17_nonneg {d : Data} (wf : WellFormed d) {mode volM : Vec ℝ} (modes : List (Vec ℝ))
    (hm : mode.n = d.cells * d.energies) (hvn : volM.n = d.cells) (hv : ∀ i, i < d.cells → 0 < volM.v i) {power : ℝ}
    (hpow : 0 ≤ power) (hφ : ∀ x, 0 ≤ mode.v x) (hf : ∀ e i, 0 ≤ d.fiss.m e i) (hvol : ∀ i, 0 ≤ d.vol.v i) {q : Vec ℝ}
    (hq : newHeatSource d power volM (mode :: modes) = ok q) : ∀ i, i < d.cells → 0 ≤ q.v i := by
  intro i hi
  obtain ⟨h1, h2⟩ := heat_ok (modes := modes) wf hm hvn (fun i hi => (hv i hi).ne') power
  have hrate : ∀ i, 0 ≤ Diffusion.rate d mode.v i := fun i =>
    mul_nonneg (sum_nonneg (fun e _ => mul_nonneg (hφ _) (hf e i))) (hvol i)
  by_cases h0 : ∑ i ∈ range d.cells, Diffusion.rate d mode.v i = 0
  · rw [h2 h0 (by omega)] at hq; cases hq
  · obtain ⟨q', hq', -, qv⟩ := h1 h0
    rw [hq] at hq'
    cases hq'
    rw [qv i hi]
    exact div_nonneg (div_nonneg (mul_nonneg hpow (hrate i)) (sum_nonneg (fun i _ => hrate i))) (hv i hi).le

/-- **C17, degenerate case.** If the flux causes no fission at all the result is not a number. -/
theorem C17_zero_total {d : Data} (wf : WellFormed d) {mode volM : Vec ℝ} (modes : List (Vec ℝ))
    (hm : mode.n = d.cells * d.energies) (hvn : volM.n = d.cells) (hv : ∀ i, i < d.cells → volM.v i ≠ 0) (power : ℝ)
    (hc : 0 < d.cells)
    (htot : ∑ i ∈ range d.cells, ∑ e ∈ range d.energies, mode.v (i + e * d.cells) * d.fiss.m e i * d.vol.v i = 0) :
    newHeatSource d power volM (mode :: modes) = nonfinite := by
  refine (heat_ok (modes := modes) wf hm hvn hv power).2 ?_ hc
  rw [← htot]
  exact sum_congr rfl (fun i _ => by rw [Diffusion.rate, sum_mul])

/-- **C17, precondition.** Without any eigenmode the code reads a flux that does not exist. -/
theorem C17_no_modes {d : Data} (hc : 0 < d.cells) (he : 0 < d.energies) (power : ℝ) (volM : Vec ℝ) :
    newHeatSource d power volM [] = ub := by
  unfold newHeatSource fundamentalFlux
  dsimp only
  rw [if_neg (by omega), ub_bind]

example : ∃ q, newHeatSource exSlab 100 ⟨3, fun _ => 2⟩ [⟨6, fun _ => 1⟩] = ok q ∧
    ∑ i ∈ range 3, q.v i * 2 = 100 := by
  obtain ⟨q, h, -, hs, -⟩ := C17_thermal_power (mode := ⟨6, fun _ => 1⟩) (volM := ⟨3, fun _ => 2⟩) exSlab_wf []
    rfl rfl (fun i _ => by norm_num) 100 (fun i => rfl) (by
      norm_num [exSlab, sum_range_succ])
  exact ⟨q, h, hs⟩

example : newHeatSource exSlab 100 ⟨3, fun _ => 2⟩ [⟨6, fun _ => 0⟩] = nonfinite :=
  C17_zero_total exSlab_wf [] rfl rfl (fun i _ => by norm_num) 100 (by norm_num [exSlab]) (by simp)

/-- **C45 (partial).** Periodic boundaries on at least three cells: if the cells at both ends are alike, every row is the balance of
its cell, and the current leaving through the right end is the current entering at the left end, driven by Fick's law between
the last and the first cell. Missing: unlike ends and two cells, for which the claim is false, see below. -/
theorem C45_periodic_partial {d : Data} (wf : WellFormed d) (pos : Positive d) (hc : 3 ≤ d.cells) (hA : HasAlbedos d 2 2)
    (hE : ∀ e, e < d.energies → SameEnds d e) :
    ∃ M, (diffOperator d >>= boundary d) = ok M ∧ M.r = d.cells * d.energies ∧ M.c = d.cells * d.energies ∧
      ∀ φ : Nat → ℝ, ∀ e, e < d.energies → ∃ J : Nat → ℝ,
        (∀ i, i < d.cells → ∑ q ∈ range (d.cells * d.energies), M.m (i + e * d.cells) q * φ q =
          d.tot.m e i * d.vol.v i * φ (i + e * d.cells) + J (i + 1) - J i) ∧
        (∀ i, i + 1 < d.cells → FaceCurrent (d.D.m e i) (d.size.v i) (d.D.m e (i + 1)) (d.size.v (i + 1))
          (d.surf.v (i + 1)) (φ (i + e * d.cells)) (φ (i + 1 + e * d.cells)) (J (i + 1))) ∧
        J d.cells = J 0 ∧
        FaceCurrent (d.D.m e (d.cells - 1)) (d.size.v (d.cells - 1)) (d.D.m e 0) (d.size.v 0)
          (d.surf.v 1) (φ (d.cells - 1 + e * d.cells)) (φ (0 + e * d.cells)) (J d.cells) := by
  rcases hA with ⟨hg, hn, hL, hR⟩ | ⟨-, -, h, -⟩
  swap
  · norm_num at h
  obtain ⟨M, h, hr, hcc, hv⟩ := periodic_ok wf pos (by omega) hg hn hL.symm hR.symm
  refine ⟨M, h, hr, hcc, ?_⟩
  intro φ e he
  set f : Nat → ℝ := fun i => φ (i + e * d.cells) with hf
  have hends := hE e he
  have hdi : di d e (d.cells - 1 - 1) = di d e 0 := by
    unfold di
    rw [show d.cells - 1 - 1 + 1 = d.cells - 1 by omega, show d.cells - 1 - 1 = d.cells - 2 by omega, hends.Dl, hends.Dl1,
      hends.hl, hends.hl1, hends.S1, hends.D1, hends.h1]
  refine ⟨fun i => if i = 0 ∨ i = d.cells then 2 * di d e 0 * (f (d.cells - 1) - f 0)
    else 2 * di d e (i - 1) * (f (i - 1) - f i), ?_, ?_, ?_, ?_⟩
  · intro i hi
    rw [flat_row_sum hv he hi, prow_sum hc hi (fun j => φ (j + e * d.cells)), hdi]
    dsimp only
    by_cases h0 : i = 0
    · subst h0
      rw [if_neg (by omega), if_pos rfl, if_neg (by omega), if_pos (by omega)]
      simp only [hf, Nat.add_sub_cancel]
      ring
    · by_cases hl : i + 1 = d.cells
      · rw [if_pos hl, if_neg h0, if_pos (by omega), if_neg (by omega)]
        simp only [hf, show d.cells - 1 = i by omega]
        ring
      · rw [if_neg hl, if_neg h0, if_neg (by omega), if_neg (by omega)]
        simp only [hf, Nat.add_sub_cancel]
        ring
  · intro i hi
    dsimp only
    rw [if_neg (by omega), Nat.add_sub_cancel]
    exact face_current (pos.D_pos e he i (by omega)) (pos.size_pos i (by omega)) (pos.D_pos e he _ (by omega))
      (pos.size_pos _ (by omega))
  · dsimp only
    rw [if_pos (Or.inr rfl), if_pos (Or.inl rfl)]
  · dsimp only
    rw [if_pos (Or.inr rfl)]
    have := face_current (S := d.surf.v 1) (f1 := f (d.cells - 1)) (f2 := f 0) (pos.D_pos e he (d.cells - 1) (by omega))
      (pos.size_pos (d.cells - 1) (by omega)) (pos.D_pos e he 0 (by omega)) (pos.size_pos 0 (by omega))
    convert this using 1
    unfold di
    rw [hends.Dl, hends.hl, hends.D1, hends.h1]

example : ∃ d, WellFormed d ∧ Positive d ∧ 3 ≤ d.cells ∧ HasAlbedos d 2 2 ∧ ∀ e, e < d.energies → SameEnds d e := by
  refine ⟨{ exPeriodic with D := ⟨2, 3, fun e _ => 1 + e⟩ }, ⟨rfl, rfl, rfl, rfl, rfl, rfl, rfl, rfl, rfl, rfl, rfl, rfl, rfl⟩,
    ⟨fun e _ i _ => ?_, fun _ _ => one_pos⟩, le_rfl, exPeriodic_albedos, fun e _ => ⟨rfl, rfl, rfl, rfl, rfl, rfl, rfl⟩⟩
  show (0 : ℝ) < 1 + e
  positivity

/-- **C45 is false in general.** Periodic slab of three equal cells with different diffusion coefficients: a non-negative flux for
which, summed over the slab, the operator removes more than the collisions. -/
theorem C45_periodic_unlike_ends_false : ∃ d, WellFormed d ∧ Positive d ∧ d.cells = 3 ∧ HasAlbedos d 2 2 ∧
    ∃ M, (diffOperator d >>= boundary d) = ok M ∧ ∃ φ : Nat → ℝ, (∀ x, 0 ≤ φ x) ∧
      ∑ i ∈ range d.cells, d.tot.m 0 i * d.vol.v i * φ (i + 0 * d.cells) <
        ∑ i ∈ range d.cells, ∑ q ∈ range (d.cells * d.energies), M.m (i + 0 * d.cells) q * φ q := by
  obtain ⟨M, h, -, -, hv⟩ := periodic_ok exPeriodic_wf exPeriodic_pos (by norm_num [exPeriodic, exSlab]) rfl le_rfl rfl rfl
  refine ⟨exPeriodic, exPeriodic_wf, exPeriodic_pos, rfl, exPeriodic_albedos, M, h,
    fun x => if x = 0 then 1 else 0, fun x => by positivity, ?_⟩
  have q : 0 < exPeriodic.energies := by norm_num [exPeriodic, exSlab]
  have e1 := fun i (hi : i ∈ range exPeriodic.cells) =>
    (flat_row_sum hv q (mem_range.1 hi) (fun x => if x = 0 then 1 else 0)).trans
      (prow_sum (by norm_num [exPeriodic, exSlab]) (mem_range.1 hi)
        (fun j => if j + 0 * exPeriodic.cells = 0 then 1 else 0))
  rw [sum_congr rfl e1]
  norm_num [sum_range_succ, di, exPeriodic, exSlab]

/-- **C45 is false for two cells.** Two equal cells with periodic boundaries: a uniform flux leaks. -/
theorem C45_two_cells_false : ∃ d, WellFormed d ∧ Positive d ∧ d.cells = 2 ∧ HasAlbedos d 2 2 ∧
    SameEnds d 0 ∧ ∃ M, (diffOperator d >>= boundary d) = ok M ∧
      ∑ i ∈ range d.cells, d.tot.m 0 i * d.vol.v i * 1 <
        ∑ i ∈ range d.cells, ∑ q ∈ range (d.cells * d.energies), M.m (i + 0 * d.cells) q * 1 := by
  let d : Data := ⟨2, 1, .slab, ⟨2, fun _ => 2⟩, ⟨1, 2, fun _ _ => 1⟩, ⟨1, 2, fun _ _ => 1⟩, ⟨1, 2, fun _ _ => 1⟩,
    ⟨1, 2, fun _ _ => 1⟩, ⟨1, 2, fun _ _ => 1⟩, fun _ _ _ => 0, ⟨2, fun _ => 1⟩, ⟨3, fun _ => 1⟩, ⟨2, fun _ => 1⟩⟩
  have wf : WellFormed d := ⟨rfl, rfl, rfl, rfl, rfl, rfl, rfl, rfl, rfl, rfl, rfl, rfl, rfl⟩
  have pos : Positive d := ⟨fun _ _ _ _ => one_pos, fun _ _ => one_pos⟩
  obtain ⟨M, h, -, -, hv⟩ := periodic_ok wf pos le_rfl rfl le_rfl rfl rfl
  refine ⟨d, wf, pos, rfl, Or.inl ⟨rfl, le_rfl, rfl, rfl⟩, ⟨rfl, rfl, rfl, rfl, rfl, rfl, rfl⟩, M, h, ?_⟩
  have e1 := fun i (hi : i ∈ range d.cells) => flat_row_sum hv Nat.one_pos (mem_range.1 hi) (fun _ => 1)
  rw [sum_congr rfl e1]
  norm_num [sum_range_succ, prow, tri, di, d]

/-- **C46.** In an absorbing medium with albedo boundaries the forward loss matrix is invertible and its inverse is non-negative:
every source has exactly one flux, and a non-negative source has a non-negative flux. -/
theorem C46_positive_inverse {d : Data} (wf : WellFormed d) (pos : Positive d) (hc : 2 ≤ d.cells) {aL aR : ℝ}
    (hA : HasAlbedos d aL aR) (hL : -1 ≤ aL ∧ aL ≤ 1) (hR : -1 ≤ aR ∧ aR ≤ 1) (habs : Absorbing d) :
    ∃ M F, assemble d .forward = ok (M, F) ∧
      (∀ s : Nat → ℝ, ∃ φ : Nat → ℝ, ∀ p, p < d.cells * d.energies →
        ∑ q ∈ range (d.cells * d.energies), M.m p q * φ q = s p) ∧
      (∀ φ ψ : Nat → ℝ, (∀ p, p < d.cells * d.energies →
        ∑ q ∈ range (d.cells * d.energies), M.m p q * φ q = ∑ q ∈ range (d.cells * d.energies), M.m p q * ψ q) →
        ∀ q, q < d.cells * d.energies → φ q = ψ q) ∧
      (∀ φ : Nat → ℝ, (∀ p, p < d.cells * d.energies → 0 ≤ ∑ q ∈ range (d.cells * d.energies), M.m p q * φ q) →
        ∀ q, q < d.cells * d.energies → 0 ≤ φ q) := by
  obtain ⟨D, h, hr, hcc, hv⟩ := albedo_ok wf pos hc hA hL hR
  obtain ⟨M, hM, mr, mc, mv⟩ := forwardM_ok wf hr hcc
  obtain ⟨F, hF, fr, fc, fv⟩ := forwardF_ok wf
  obtain ⟨D1, hD1, hb⟩ := bind_eq_ok.1 h
  have hdi : ∀ e i, e < d.energies → i + 1 < d.cells → 0 ≤ di d e i := by
    intro e i he hi
    have p1 := pos.D_pos e he i (by omega)
    have p2 := pos.D_pos e he (i + 1) (by omega)
    have p3 := pos.size_pos i (by omega)
    have p4 := pos.size_pos (i + 1) (by omega)
    have p5 := habs.surf_nonneg (i + 1) (by omega)
    unfold di
    positivity
  have hbc : ∀ {a D h S : ℝ}, 0 < D → 0 < h → -1 ≤ a → a ≤ 1 → 0 ≤ S → 0 ≤ bc a D h S := by
    intro a D h S h1 h2 h3 h4 h5
    exact div_nonneg (mul_nonneg (mul_nonneg h1.le (by linarith)) h5) (albedo_den_pos h1 h2 h3 h4).le
  have hoff : ∀ p q, p < d.cells * d.energies → q < d.cells * d.energies → p ≠ q → M.m p q ≤ 0 := by
    intro p q hp hq hne
    obtain ⟨i, g, hi, hg, rfl⟩ := flat_surj hp
    obtain ⟨j, k, hj, hk, rfl⟩ := flat_surj hq
    rw [mv g k i j hg hk hi hj, hv g k i j hg hk hi hj]
    have hsc : 0 ≤ if i = j then d.scatt k g i * d.vol.v i else 0 := by
      split_ifs
      · exact mul_nonneg (habs.scatt_nonneg k g i hk hg hi) (habs.vol_pos i hi).le
      · exact le_rfl
    have hrow : (if g = k then row d aL aR g i j else 0) ≤ 0 := by
      by_cases hgk : g = k
      · subst hgk
        rw [if_pos rfl]
        have hij : j ≠ i := by rintro rfl; exact hne rfl
        unfold row tri
        rw [if_neg hij]
        split_ifs with h1 h2
        · have := hdi g i hg (by omega); linarith
        · have := hdi g j hg (by omega); linarith
        · exact le_rfl
      · rw [if_neg hgk]
    linarith
  have hcol : ∀ q, q < d.cells * d.energies → 0 < ∑ p ∈ range (d.cells * d.energies), M.m p q := by
    intro q hq
    obtain ⟨j, k, hj, hk, rfl⟩ := flat_surj hq
    have e1 : ∑ p ∈ range (d.cells * d.energies), M.m p (j + k * d.cells) =
        ∑ i ∈ range d.cells, row d aL aR k j i * 1 - ∑ g ∈ range d.energies, d.scatt k g j * d.vol.v j := by
      rw [sum_flat]
      have : ∀ g ∈ range d.energies, ∑ i ∈ range d.cells, M.m (i + g * d.cells) (j + k * d.cells) =
          (if g = k then ∑ i ∈ range d.cells, row d aL aR k j i * 1 else 0) - d.scatt k g j * d.vol.v j := by
        intro g hg
        have hg' := mem_range.1 hg
        rw [sum_congr rfl (fun i hi => by
          rw [mv g k i j hg' hk (mem_range.1 hi) hj, hv g k i j hg' hk (mem_range.1 hi) hj]), sum_sub_distrib]
        congr 1
        · by_cases hgk : g = k
          · subst hgk
            simp only [if_true]
            exact sum_congr rfl (fun i _ => by rw [mul_one]; exact tri_symm ..)
          · simp only [hgk, if_false, sum_const_zero]
        · rw [sum_ite_eq', if_pos (mem_range.2 hj)]
      rw [sum_congr rfl this, sum_sub_distrib, sum_ite_eq', if_pos (mem_range.2 hk)]
    rw [e1]
    unfold row
    rw [tri_sum hj (fun _ => 1), ← sum_mul]
    have a1 := habs.absorbs k j hk hj
    have a2 := habs.vol_pos j hj
    have a3 : (∑ g ∈ range d.energies, d.scatt k g j) * d.vol.v j < d.tot.m k j * d.vol.v j :=
      mul_lt_mul_of_pos_right a1 a2
    have b1 := hbc (pos.D_pos k hk 0 (by omega)) (pos.size_pos 0 (by omega)) hL.1 hL.2 (habs.surf_nonneg 0 (by omega))
    have b2 := hbc (pos.D_pos k hk (d.cells - 1) (by omega)) (pos.size_pos (d.cells - 1) (by omega)) hR.1 hR.2
      (habs.surf_nonneg d.cells le_rfl)
    split_ifs <;> linarith
  have hpos := fun (x : Nat → ℝ) => zmatrix_nonneg hoff hcol (x := x)
  have hinj : ∀ x : Nat → ℝ, (∀ p, p < d.cells * d.energies → ∑ q ∈ range (d.cells * d.energies), M.m p q * x q = 0) →
      ∀ q, q < d.cells * d.energies → x q = 0 := by
    intro x hx q hq
    refine le_antisymm ?_ (hpos x (fun p hp => (hx p hp).ge) q hq)
    have := hpos (fun q => -x q) (fun p hp => by
      simp only [mul_neg, sum_neg_distrib, hx p hp, neg_zero, le_refl]) q hq
    linarith
  refine ⟨M, F, ?_, solvable_of_injective hinj, ?_, hpos⟩
  · unfold assemble
    rw [hD1, ok_bind, hb, ok_bind]
    dsimp only
    rw [hM, ok_bind, hF, ok_bind]
  · intro φ ψ he q hq
    have := hinj (fun q => φ q - ψ q) (fun p hp => by
      simp only [mul_sub, sum_sub_distrib, he p hp, sub_self]) q hq
    linarith

example : Absorbing exSlab where
  vol_pos i _ := by show (0 : ℝ) < 1 + i; positivity
  surf_nonneg _ _ := zero_le_one
  scatt_nonneg g h i _ _ _ := by show (0 : ℝ) ≤ if g = 0 ∧ h = 1 then 1 / 2 else 0; positivity
  absorbs g i hg hi := by
    have hg' : g < 2 := hg
    have hi' : i < 3 := hi
    interval_cases g <;> interval_cases i <;> norm_num [exSlab, sum_range_succ]

end

end Verif.Diffusion
