import Verif.Input.PoorerRead
import Verif.Input.CriticalProps

/-! # Comparing criticality calculations of one body -/

namespace Verif.Input

open Verif Outcome Finset Filter Topology

noncomputable section

variable {lib lib' : Lib} {raw lines raw' lines' : List Text} {g : Diffusion.Geom} {rs : List Region} {E : Nat} {T T' : Tables} {alb alb' : Vec ℝ} {acc acc' : ℝ} {n n' : Nat}
  {tl tl' : Calc.Tools}

/-! ### C65 -/

/-- **C65.** From file to result: two files for a diffusion calculation of one body, the second with no lower total cross sections, no more scattering, no more emission by fissions and
no higher albedos. Each run comes to rest at an iterate of generations of neutrons whose k-factors converge to the only k-factor with a physical flux of its problem (see C97),
and the k-factor of the second is not higher. -/
theorem C65_files (hc : Clean lib lines) (hraw : Stored raw lines) (hp : Proper lines) (hf : CriticalFile lib lines .diffusion "forward" g rs E T alb acc n)
    (hC : CriticalCase rs E T {0}) (h2 : 2 ≤ (cellNames rs).length) (hD : ∀ q ∈ rs, ∀ e, e < E → 0 < valueAt (T.diff e q.mat) 0) (ha : Calc.GoodAlbedos g alb)
    (hlib : Solve.SolvesRegular tl.num)
    (hc' : Clean lib' lines') (hraw' : Stored raw' lines') (hp' : Proper lines') (hf' : CriticalFile lib' lines' .diffusion "forward" g rs E T' alb' acc' n')
    (hC' : CriticalCase rs E T' {0}) (ha' : Calc.GoodAlbedos g alb') (hlib' : Solve.SolvesRegular tl'.num)
    (hpoor : Poorer rs E T T' 0) (h0 : alb'.v 0 ≤ alb.v 0) (h1 : g = .slab → alb'.v 1 ≤ alb.v 1) (p p' : Calc.Plant) :
    ∃ b d k φ κ y b' d' k' φ' κ' y', DiffusionOf g rs E T alb 0 b d ∧ DiffusionOf g rs E T' alb' 0 b' d' ∧
      Solve.Physical (cellNames rs).length E φ ∧ Solve.DiffusionEq d (if g = .slab then alb.v 0 else 1) (if g = .slab then alb.v 1 else alb.v 0) k φ ∧
      Solve.Physical (cellNames rs).length E φ' ∧ Solve.DiffusionEq d' (if g = .slab then alb'.v 0 else 1) (if g = .slab then alb'.v 1 else alb'.v 0) k' φ' ∧
      Tendsto κ atTop (𝓝 k) ∧ Settles (program lib tl (some raw) p) (fun p1 k1 ψ => Critical g rs E p.power (Solve.fissions d ψ) p1 k1 ψ) n acc κ y ∧
      Tendsto κ' atTop (𝓝 k') ∧ Settles (program lib' tl' (some raw') p') (fun p1 k1 ψ => Critical g rs E p'.power (Solve.fissions d' ψ) p1 k1 ψ) n' acc' κ' y' ∧
      k' ≤ k := by
  have hD' : ∀ q ∈ rs, ∀ e, e < E → 0 < valueAt (T'.diff e q.mat) 0 := fun q hq e he => by rw [hpoor.diff q hq e he]; exact hD q hq e he
  obtain ⟨b, d, k, φ, κ, y, o1, -, o3, -, o4, -, -, o5, -, o6⟩ := C97_forward hc hraw hp hf hC h2 hD ha hlib p
  obtain ⟨b', d', k', φ', κ', y', o1', -, o3', -, o4', -, -, o5', -, o6'⟩ := C97_forward hc' hraw' hp' hf' hC' h2 hD' ha' hlib' p'
  have hb := hf.full.body ⟨.diffusion, by simp, by simp⟩
  obtain ⟨G, hG⟩ := onBody_of hb hC.widths o1.faces p
  obtain ⟨G', hG'⟩ := onBody_of hb hC.widths o1'.faces p
  obtain ⟨R, -⟩ := o1.regular hG (fun _ _ => rfl) hC h2 (fun q hq e he x hx => by rw [Set.mem_singleton_iff.1 hx]; exact hD q hq e he) ha
  obtain ⟨R', -⟩ := o1'.regular hG' (fun _ _ => rfl) hC' h2 (fun q hq e he x hx => by rw [Set.mem_singleton_iff.1 hx]; exact hD' q hq e he) ha'
  refine ⟨b, d, k, φ, κ, y, b', d', k', φ', κ', y', o1, o1', o3, o4, o3', o4', o5, o6, o5', o6', ?_⟩
  exact (poorer_less hb o1 o1' (fun _ _ => hpoor) h0 h1).k_le R R' (by rw [o1.cells, o1.energies]; exact o3) o4 (by rw [o1'.cells, o1'.energies]; exact o3') o4'

/-- the cylinder of the other examples with and without the reflection at its surface -/
example (p : Calc.Plant) : ∃ k k' κ y κ' y' d d', k' ≤ k ∧ Tendsto κ atTop (𝓝 k) ∧ Tendsto κ' atTop (𝓝 k') ∧
    Settles (program critLib (Calc.exTools Solve.exLib) (some (pileFile "diffusion".toList "forward".toList "fundamental".toList)) p)
      (fun p1 k1 ψ => Critical .cylinder pileRegions 2 p.power (Solve.fissions d ψ) p1 k1 ψ) 100 (1 / 1000) κ y ∧
    Settles (program critLib (Calc.exTools Solve.exLib) (some (pileFile "diffusion".toList "forward".toList "fundamental".toList "0.0".toList)) p)
      (fun p1 k1 ψ => Critical .cylinder pileRegions 2 p.power (Solve.fissions d' ψ) p1 k1 ψ) 100 (1 / 1000) κ' y' := by
  have hq : (Calc.Kind.diffusion, "diffusion".toList, "forward".toList, "fundamental".toList, "0.5".toList) ∈ pileKinds := by simp [pileKinds]
  have hq' : (Calc.Kind.diffusion, "diffusion".toList, "forward".toList, "fundamental".toList, "0.0".toList) ∈ pileKinds := by simp [pileKinds]
  obtain ⟨b, d, k, φ, κ, y, b', d', k', φ', κ', y', -, -, -, -, -, -, h1, h2, h3, h4, h5⟩ := C65_files (tl := Calc.exTools Solve.exLib) (tl' := Calc.exTools Solve.exLib)
    (critLib_clean _) (pileStored _ hq) (pileProper _ hq)
    (pile_critical hq (dir := "forward") rfl (x := 1 / 2) rfl) pile_case (by decide) pile_diff_pos pile_good Solve.exLib_solves
    (critLib_clean _) (pileStored _ hq') (pileProper _ hq')
    (pile_critical hq' (dir := "forward") rfl (x := 0) rfl) pile_case ⟨fun h => absurd h (by decide), by simp [Vec.ofList], by simp [Vec.ofList], by simp [Vec.ofList]⟩ Solve.exLib_solves
    ⟨fun _ _ _ _ => rfl, fun _ _ _ _ => le_rfl, fun _ _ _ _ _ _ => le_rfl, fun _ _ _ _ _ _ => le_rfl⟩ (by simp [Vec.ofList]) (fun h => absurd h (by decide)) p p
  exact ⟨k, k', κ, y, κ', y', d, d', h5, h1, h3, h2, h4⟩

end

end Verif.Input
