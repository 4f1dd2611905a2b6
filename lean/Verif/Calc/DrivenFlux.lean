import Verif.Calc.DrivenRun

/-!
# The total flux of a source-driven calculation in one group
-/

namespace Verif.Calc

open Verif Outcome Finset Mesh

noncomputable section

variable {tl : Tools} {o : Settings} {p p' : Plant} {d : Diffusion.Data}

theorem ads_flux {s aL aR : ℝ} {pos : Nat} {k : Nat → ℝ} {φ ψ : Nat → Nat → ℝ} (hS : Shaped p.grid)
    (hF : Furnished p.grid) (hcomp : ∀ i, i < p.grid.cells → Complete (p.grid.mats.v i) p.grid.energies) (h1 : p.grid.energies = 1)
    (on : DiffusionOn p.grid o.albedo (temp p) d) (S : Solve.Sound d aL aR) (habs : Diffusion.Absorbing d) (hnf : Solve.NonnegFission d)
    (hs : -1 < s) (hs' : s < 4294967296) (hp : pos < p.grid.cells) (hsrc : p.source = (s, pos + 1, 1)) (hrun : ads tl o p = ok p')
    (hm : Modal p' p.grid.cells k φ ψ)
    (hmodes : ∀ n, n < p.grid.cells → 0 < k n ∧ k n ≠ 1 ∧ Solve.DiffusionEq d aL aR (k n) (φ n) ∧ Solve.AdjointEq d aL aR (k n) (ψ n) ∧
      (∃ i, i < p.grid.cells ∧ φ n i ≠ 0) ∧ ∃ i, i < p.grid.cells ∧ ψ n i ≠ 0)
    (hinj : ∀ n n', n < p.grid.cells → n' < p.grid.cells → k n = k n' → n = n') :
    ∃ Φ : Nat → ℝ, FluxIs p' (fun _ i => Φ i) ∧ SourceEq d aL aR (pointSource d ⌊s⌋₊ 0 pos) Φ ∧
      (∀ Φ', SourceEq d aL aR (pointSource d ⌊s⌋₊ 0 pos) Φ' → ∀ i, i < p.grid.cells → Φ' i = Φ i) ∧
      ((∀ n, n < p.grid.cells → k n < 1) → ∀ i, i < p.grid.cells → 0 ≤ Φ i) := by
  have hc := on.cells
  have hE := on.energies.trans h1
  have hn : d.cells * d.energies = p.grid.cells := by rw [hE, mul_one, hc]
  obtain ⟨q, hq, tied, qs⟩ := ads_driven hrun
  obtain ⟨same, -⟩ := driven_modes hq
  have hmq := hm.back same
  have onq : DiffusionOn q.grid o.albedo (temp q) d := DiffusionOn.tied tied on
  have qc := tied.1.cells
  have A : AllModes (d.cells * d.energies) (Solve.loss d aL aR) (Solve.fission d) k φ ψ := by
    rw [hn]
    refine ⟨fun n h => (hmodes n h).1.ne', fun n h => (hmodes n h).2.1, hinj, fun n h => ?_, fun n h => ?_, fun n h => (hmodes n h).2.2.2.2.1,
      fun n h => (hmodes n h).2.2.2.2.2⟩
    · have := (Solve.equation_iff S).2 (hmodes n h).2.2.1
      rwa [hn] at this
    · have := (Solve.adjoint_iff S).2 (hmodes n h).2.2.2.1
      rwa [hn] at this
  have hM := (Solve.loss_inverse S habs).1
  have hw : ∀ n, n < p.grid.cells → weight d (φ n) (ψ n) ≠ 0 := fun n h => by
    rw [weight_one hE]
    exact A.pairing hM (by rw [hn]; exact h)
  obtain ⟨p2, e2, -, -, hflux⟩ := driven_ok (tied.1.shaped hS) (tied.1.furnished hF) (fun i hi => by
    rw [qc] at hi
    rw [tied.1.energies]
    exact Complete.same (tied.1.mats i hi) (hcomp i hi)) onq hmq (fun n h => (hmodes n h).2.1) hw (pos := pos) (e0 := 0)
    (by rw [qc]; exact hp) (by rw [tied.1.energies, h1]; exact one_pos) hs hs' (qs.trans hsrc)
  rw [hq] at e2
  cases e2
  have hE' : p'.grid.energies = 1 := by rw [same.energies, tied.1.energies, h1]
  have hc' : p'.grid.cells = p.grid.cells := by rw [same.cells, qc]
  let b : Nat → ℝ := fun x => pointSource d ⌊s⌋₊ 0 pos (x / d.cells) (x % d.cells)
  let Φ : Nat → ℝ := fun i => ∑ n ∈ range p.grid.cells, k n / (1 - k n) * (⌊s⌋₊ * d.vol.v pos * ψ n pos / weight d (φ n) (ψ n)) * φ n i
  have hΦ : ∀ x, x < d.cells * d.energies → Φ x = ∑ n ∈ range (d.cells * d.energies), k n / (1 - k n) *
      (Eigen.dot (d.cells * d.energies) (ψ n) b / Eigen.dot (d.cells * d.energies) (ψ n)
        (Eigen.act (d.cells * d.energies) (Solve.fission d) (φ n))) * φ n x := fun x _ => by
    show ∑ n ∈ range p.grid.cells, _ = _
    rw [← hn]
    refine sum_congr rfl (fun n _ => ?_)
    rw [dot_point hE (by rw [hc]; exact hp), weight_one hE]
  have hsol := A.solves hM b hΦ
  refine ⟨Φ, fun i hi => ⟨(hflux i hi).1, fun e he => ?_⟩, (source_iff S).1 hsol, fun Φ' hΦ' i hi => ?_, fun hk i hi => ?_⟩
  · rw [(hflux i hi).2 e he]
    rw [hE'] at he
    obtain rfl : e = 0 := by omega
    simp only [zero_mul, add_zero]
    rfl
  · have h' := (source_iff S).2 hΦ'
    have := A.unique hM (x := fun x => Φ' x - Φ x) (fun x hx => by
      rw [act_sub, act_sub, h' x hx, hsol x hx]
      ring) i (by rw [hn]; exact hi)
    linarith
  · refine A.nonneg hM (fun x y hx hy => Solve.fission_nonneg habs.vol_pos hnf hx hy) (fun n h => ?_) (b := b) (fun x hx => ?_)
      (c := fun n => k n / (1 - k n) * (Eigen.dot (d.cells * d.energies) (ψ n) b / Eigen.dot (d.cells * d.energies) (ψ n)
        (Eigen.act (d.cells * d.energies) (Solve.fission d) (φ n)))) hΦ hsol i (by rw [hn]; exact hi)
    · rw [hn] at h
      exact ⟨(hmodes n h).1, hk n h⟩
    · show 0 ≤ pointSource d ⌊s⌋₊ 0 pos (x / d.cells) (x % d.cells)
      unfold pointSource
      split_ifs
      · exact mul_nonneg (Nat.cast_nonneg _) (habs.vol_pos pos (by rw [hc]; exact hp)).le
      · exact le_rfl

/-- the body stays -/
theorem ads_body (hrun : ads tl o p = ok p') : SameBody p.grid p'.grid := by
  obtain ⟨q, hq, tied, -⟩ := ads_driven hrun
  obtain ⟨same, -⟩ := driven_modes hq
  refine tied.1.trans ⟨same.geom, same.bounds, same.cells, same.energies, same.mats_n, fun i hi => ?_⟩
  obtain ⟨x, e⟩ := same.mats i hi
  rw [e]
  exact ⟨rfl, rfl, rfl, rfl, rfl, rfl, rfl, rfl, rfl⟩

end

end Verif.Calc
