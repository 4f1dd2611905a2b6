import Verif.Solve.Props
import Verif.Solve.TransportProps

/-! # Criticality runs end with results or with a message -/

namespace Verif.Solve

open Verif Outcome Finset Eigen

noncomputable section

open scoped Classical

variable {d : Diffusion.Data} {aL aR power : ℝ} {volM : Vec ℝ} {lib : Numerics}

/-- **C62.** On a regular problem the only alternative to results is the end of the program with a message: nothing is undefined, nothing is
thrown. -/
theorem C62_safe (R : Regular d aL aR) (hf : ∀ g i, g < d.energies → i < d.cells → 0 ≤ d.fiss.m g i) (hlib : SolvesRegular lib)
    (hV : Volumes d.cells volM) {maxIter : Int} (hmax : maxIter < 2147483647) (acc : ℝ) (s : State) :
    (∃ s', diffusion lib ⟨.forward, .fundamental, maxIter, acc⟩ d power volM s = ok s') ∨
      diffusion lib ⟨.forward, .fundamental, maxIter, acc⟩ d power volM s = exit := by
  obtain ⟨M, F, sq, eM, eF, hrun⟩ := forward_run R.sound
  obtain ⟨hM, hsolv⟩ := loss_inverse R.sound R.absorbing
  obtain ⟨k, φ, κ, y, hk, he, h0, h1, hu, tk, ty, y0, -, ye, hpow, hret, hon, hex⟩ := run_all sq eF (solves_of_lib hlib sq.1 sq.2.1 eM hsolv) hM
    (loss_off R.sound R.absorbing) (fission_factored R.absorbing.vol_pos R.multiplying) R.connected R.fission_pos
  rw [hrun]
  rcases C22_otherwise_exit (qr := lib.qr M) (acc := acc) sq hmax with ⟨kf, φf, h4⟩ | h4
  · left
    obtain ⟨n, -, -, -, rfl, hφn, hφv⟩ := hret maxIter acc kf φf h4
    rw [eigenmodes_fundamental.2 ⟨_, _, h4, rfl⟩, ok_bind]
    refine setForward_ok _ hφn hφv (fun x xn xv => heat_exists R.wf hV ?_ xn xv)
    obtain ⟨p, hp, hpe⟩ := R.some_site
    exact (fissions_pos R.absorbing.vol_pos hf (y0 (n + 1)) hp (ye (n + 1) p (R.site_lt hp) hpe)).ne'
  · right
    unfold eigenmodes Eigen.fundamental
    dsimp only
    rw [h4, exit_bind, exit_bind, exit_bind]

/-- **C62.** The same for the adjoint calculation. -/
theorem C62_safe_adjoint (R : Regular d aL aR) (hlib : SolvesRegular lib) {maxIter : Int} (hmax : maxIter < 2147483647) (acc : ℝ) (s : State) :
    (∃ s', diffusion lib ⟨.adjoint, .fundamental, maxIter, acc⟩ d power volM s = ok s') ∨
      diffusion lib ⟨.adjoint, .fundamental, maxIter, acc⟩ d power volM s = exit := by
  obtain ⟨M, F, sq, eM, eF, hrun⟩ := adjoint_run R.sound
  obtain ⟨hM, hsolv⟩ := loss_inverse R.sound R.absorbing
  have hMt := inverse_transpose hM hsolv
  obtain ⟨k, φ, κ, y, hk, he, h0, h1, hu, tk, ty, y0, -, ye, hpow, hret, hon, hex⟩ := run_all sq eF
    (solves_of_lib hlib sq.1 sq.2.1 eM (solvable_of_positive hMt)) hMt
    (fun i j hi hj hne => loss_off R.sound R.absorbing j i hj hi (Ne.symm hne)) (adjoint_factored R.absorbing.vol_pos R.multiplying)
    R.connected_adjoint (by obtain ⟨x, y, hx, hy, h⟩ := R.fission_pos; exact ⟨y, x, hy, hx, h⟩)
  rw [hrun]
  rcases C22_otherwise_exit (acc := acc) sq hmax with ⟨kf, φf, h4⟩ | h4
  · left
    obtain ⟨n, -, -, -, rfl, hφn, hφv⟩ := hret maxIter acc kf φf h4
    obtain ⟨st, h5, -⟩ := setAdjoint_one (k := κ (n + 1)) { s with oldHeat := s.heat } hφn hφv
    rw [eigenmodes_fundamental.2 ⟨_, _, h4, rfl⟩, ok_bind, h5]
    exact ⟨_, rfl⟩
  · right
    unfold eigenmodes Eigen.fundamental
    dsimp only
    rw [h4, exit_bind, exit_bind, exit_bind]

example (s : State) : (∃ s', diffusion exLib ⟨.adjoint, .fundamental, 100, 1 / 1000⟩ Diffusion.exSlab 50 ⟨3, fun _ => 1⟩ s = ok s') ∨
    diffusion exLib ⟨.adjoint, .fundamental, 100, 1 / 1000⟩ Diffusion.exSlab 50 ⟨3, fun _ => 1⟩ s = exit :=
  C62_safe_adjoint exSlab_regular exLib_solves (by norm_num) _ s

/-- the hypotheses hold for the slab of three cells -/
example (s : State) : (∃ s', diffusion exLib ⟨.forward, .fundamental, 100, 1 / 1000⟩ Diffusion.exSlab 50 ⟨3, fun _ => 1⟩ s = ok s') ∨
    diffusion exLib ⟨.forward, .fundamental, 100, 1 / 1000⟩ Diffusion.exSlab 50 ⟨3, fun _ => 1⟩ s = exit :=
  C62_safe exSlab_regular exSlab_fission.fiss exLib_solves ⟨rfl, fun _ _ => one_pos⟩ (by norm_num) _ s

/-- **C68.** The same for transport. -/
theorem C68_safe {d : CPM.Data} {geom : Diffusion.Geom} (B : Body d geom) (m : Multiplying (reactions d)) (hl : GroupsLinked d)
    (hf : ∀ g i, g < d.energies → i < d.cells → 0 ≤ d.fiss.m g i)
    (hself : geom ≠ .slab → ∀ G, CPM.vacuumCPs d CPM.E3 CPM.Ki3 geom = ok G → ∀ h i, h < d.energies → i < d.cells → 0 < G.v (i, i, h))
    (hlib : SolvesRegular lib) (hV : Volumes d.cells volM) (dir : Direction) {maxIter : Int} (hmax : maxIter < 2147483647) (acc : ℝ)
    (s : State) :
    (∃ s', transport lib ⟨dir, .fundamental, maxIter, acc⟩ d CPM.E3 CPM.Ki3 geom power volM s = ok s') ∨
      transport lib ⟨dir, .fundamental, maxIter, acc⟩ d CPM.E3 CPM.Ki3 geom power volM s = exit := by
  obtain ⟨G, hG, sd⟩ := CPM.vacuum_sound B.wf B.pos B.mesh B.cells
  have hpos := all_pos B hG (fun hg => hself hg G hG)
  have hs : ∀ h i, h < d.energies → i < d.cells → 0 ≤ G.v (i, i, h) := fun h i hh hi => (hpos h i i hh hi hi).le
  obtain ⟨M, F, -, sq, eM, eF, hrun⟩ := body_run B hG sd
  obtain ⟨hM, hsolv⟩ := tloss_inverse B sd hs
  obtain ⟨k, φ, κ, y, hk, he, h0, h1, hu, tk, ty, y0, -, ye, hpow, hret, hon, hex⟩ := run_all sq eF (solves_of_lib hlib sq.1 sq.2.1 eM hsolv) hM
    (tloss_off B sd hs) (tfission_factored B sd hs m) (tconnected B sd hpos m hl) (tfission_pos B sd hpos m)
  rw [hrun]
  rcases C22_otherwise_exit (qr := lib.qr (lift M)) (acc := acc) sq hmax with ⟨kf, φf, h4⟩ | h4
  · left
    obtain ⟨n, -, -, -, rfl, hφn, hφv⟩ := hret maxIter acc kf φf h4
    rw [eigenmodes_fundamental.2 ⟨_, _, h4, rfl⟩, ok_bind]
    refine setForward_ok _ hφn hφv (fun x xn xv => heat_exists (reactions_wf B.wf) hV ?_ xn xv)
    obtain ⟨i, g, hi, hg, hp⟩ := m.somewhere
    exact (fissions_pos (d := reactions d) B.pos.vol_pos hf (y0 (n + 1)) hi
      (ye (n + 1) i (site_lt m hi) (emits_of_fissile (d := reactions d) hi ⟨g, hg, hp⟩))).ne'
  · right
    unfold eigenmodes Eigen.fundamental
    dsimp only
    rw [h4, exit_bind, exit_bind, exit_bind]

/-- the hypotheses hold for a slab of two cells -/
example (s : State) :
    (∃ s', transport exLib ⟨.forward, .fundamental, 100, 1 / 1000⟩ CPM.exSlab CPM.E3 CPM.Ki3 .slab 50 ⟨2, fun _ => 1⟩ s = ok s') ∨
      transport exLib ⟨.forward, .fundamental, 100, 1 / 1000⟩ CPM.exSlab CPM.E3 CPM.Ki3 .slab 50 ⟨2, fun _ => 1⟩ s = exit :=
  C68_safe exPlate_body exPlate_multiplying exPlate_linked exPlate_fission.fiss (fun hne => absurd rfl hne) exLib_solves
    ⟨rfl, fun _ _ => one_pos⟩ _ (by norm_num) _ s

end

end Verif.Solve
