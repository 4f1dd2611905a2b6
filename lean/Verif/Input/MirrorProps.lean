import Verif.Input.MirrorRead
import Verif.Input.CriticalProps
import Verif.Input.TurnFile

/-! # A slab and its mirror image -/

namespace Verif.Input

open Verif Outcome Finset Filter Topology

noncomputable section

variable {lib lib' : Lib} {raw lines raw' lines' : List Text} {rs : List Region} {E : Nat} {T : Tables} {alb alb' : Vec ℝ} {acc acc' : ℝ} {n n' : Nat} {tl tl' : Calc.Tools}

/-! ### C114 -/

/-- **C114.** From file to result: two files for a diffusion calculation of a slab, the second with the regions in the opposite order and the albedos of the two sides exchanged. Both
have the same k-factor, the only one with a physical flux, and the flux in cell `i` of the second slab is the one in cell `N - 1 - i` of the first. This holds for every generation of neutrons,
too: the k-factors of the two runs agree in each pass, and each run ends with the first of them that meets its accuracy (see C97). -/
theorem C114 (hc : Clean lib lines) (hraw : Stored raw lines) (hp : Proper lines) (hf : CriticalFile lib lines .diffusion "forward" .slab rs E T alb acc n)
    (hC : CriticalCase rs E T {0}) (h2 : 2 ≤ (cellNames rs).length) (hD : ∀ q ∈ rs, ∀ e, e < E → 0 < valueAt (T.diff e q.mat) 0) (ha : Calc.GoodAlbedos .slab alb)
    (hlib : Solve.SolvesRegular tl.num)
    (hc' : Clean lib' lines') (hraw' : Stored raw' lines') (hp' : Proper lines') (hf' : CriticalFile lib' lines' .diffusion "forward" .slab rs.reverse E T alb' acc' n')
    (hn' : 2 ≤ alb'.n) (hlib' : Solve.SolvesRegular tl'.num) (h0 : alb'.v 0 = alb.v 1) (h1 : alb'.v 1 = alb.v 0) (p p' : Calc.Plant) :
    ∃ b d b' d' k φ φ' κ y y', DiffusionOf .slab rs E T alb 0 b d ∧ DiffusionOf .slab rs.reverse E T alb' 0 b' d' ∧
      Solve.Physical (cellNames rs).length E φ ∧ Solve.DiffusionEq d (alb.v 0) (alb.v 1) k φ ∧
      (∀ k' ψ, Solve.Physical (cellNames rs).length E ψ → Solve.DiffusionEq d (alb.v 0) (alb.v 1) k' ψ → k' = k) ∧
      Solve.Physical (cellNames rs).length E φ' ∧ Solve.DiffusionEq d' (alb'.v 0) (alb'.v 1) k φ' ∧
      (∀ k' ψ, Solve.Physical (cellNames rs).length E ψ → Solve.DiffusionEq d' (alb'.v 0) (alb'.v 1) k' ψ → k' = k) ∧
      (∀ i e, i < (cellNames rs).length → e < E → φ' (i + e * (cellNames rs).length) = φ ((cellNames rs).length - 1 - i + e * (cellNames rs).length)) ∧
      Solve.DiffusionGenerations d (alb.v 0) (alb.v 1) κ y ∧ Solve.DiffusionGenerations d' (alb'.v 0) (alb'.v 1) κ y' ∧
      (∀ j i e, i < (cellNames rs).length → e < E → y' j (i + e * (cellNames rs).length) = y j ((cellNames rs).length - 1 - i + e * (cellNames rs).length)) ∧
      Tendsto κ atTop (𝓝 k) ∧ (∀ x, x < (cellNames rs).length * E → Tendsto (fun j => y j x) atTop (𝓝 (φ x))) ∧
      Settles (program lib tl (some raw) p) (fun p1 k1 ψ => Critical .slab rs E p.power (Solve.fissions d ψ) p1 k1 ψ) n acc κ y ∧
      Settles (program lib' tl' (some raw') p') (fun p1 k1 ψ => Critical .slab rs.reverse E p'.power (Solve.fissions d' ψ) p1 k1 ψ) n' acc' κ y' := by
  have hC' : CriticalCase rs.reverse E T {0} := hC.reverse
  have hl : (cellNames rs.reverse).length = (cellNames rs).length := by rw [cellNames_reverse, List.length_reverse]
  have ha' : Calc.GoodAlbedos .slab alb' := ⟨fun _ => ⟨hn', by rw [h1]; exact ha.2.2⟩, by omega, by rw [h0]; exact (ha.1 rfl).2⟩
  have hD' : ∀ q ∈ rs.reverse, ∀ e, e < E → 0 < valueAt (T.diff e q.mat) 0 := fun q hq => hD q (List.mem_reverse.1 hq)
  obtain ⟨b, d, k, φ, κ, y, o1, -, o3, os, o4, ou, og, o5, oy, o6⟩ := C97_forward hc hraw hp hf hC h2 hD ha hlib p
  obtain ⟨b', d', k', φ', κ', y', o1', -, o3', os', o4', ou', og', o5', oy', o6'⟩ := C97_forward hc' hraw' hp' hf' hC' (by rw [hl]; exact h2) hD' ha' hlib' p'
  simp only [if_true] at o4 ou og o4' ou' og'
  have hb := hf.full.body ⟨.diffusion, by simp, by simp⟩
  have hb' := hf'.full.body ⟨.diffusion, by simp, by simp⟩
  obtain ⟨G', hG'⟩ := onBody_of hb' hC'.widths o1'.faces p
  obtain ⟨R', -⟩ := o1'.regular hG' (fun _ _ => rfl) hC' (by rw [hl]; exact h2) (fun q hq e he x hx => by rw [Set.mem_singleton_iff.1 hx]; exact hD' q hq e he) ha'
  simp only [if_true] at R'
  have M := mirrored_of (fun h => hb'.some (by rw [h]; rfl)) hb.cells o1 o1'
  have hd0 : 0 < d.cells := by rw [o1.cells]; omega
  have me := M.equation hd0 o4
  have mg := M.generations hd0 og
  rw [← h0, ← h1, o1.cells] at me mg
  rw [hl] at o3' ou' os' oy'
  obtain ⟨rfl, -⟩ := ou' k (Solve.mirror (cellNames rs).length φ) (Solve.mirror_physical o3) me
  have U := Solve.C62_generations R'.sound R'.absorbing og' mg
  obtain rfl : κ' = κ := funext (fun j => (U j).1)
  have hy : ∀ j i e, i < (cellNames rs).length → e < E → y' j (i + e * (cellNames rs).length) = y j ((cellNames rs).length - 1 - i + e * (cellNames rs).length) := by
    intro j i e hi he
    rw [(U j).2 _ (by rw [o1'.cells, hl, o1'.energies]; exact flat_lt hi he)]
    exact Solve.mirror_flat hi
  refine ⟨b, d, b', d', k, φ, φ', κ', y, y', o1, o1', o3, o4, fun k' ψ h h' => (ou k' ψ h h').1, o3', o4', fun k' ψ h h' => (ou' k' ψ h h').1, fun i e hi he => ?_, og, og', hy, o5, oy,
    o6, o6'⟩
  have t1 := oy' _ (flat_lt hi he)
  simp only [hy _ i e hi he] at t1
  exact tendsto_nhds_unique t1 (oy _ (flat_lt (by omega) he))

/-- **C114.** With the same accuracy and the same limit of passes, both runs give up, or both end with the same k-factor and mirrored fluxes. -/
theorem C114_results (hc : Clean lib lines) (hraw : Stored raw lines) (hp : Proper lines) (hf : CriticalFile lib lines .diffusion "forward" .slab rs E T alb acc n)
    (hC : CriticalCase rs E T {0}) (h2 : 2 ≤ (cellNames rs).length) (hD : ∀ q ∈ rs, ∀ e, e < E → 0 < valueAt (T.diff e q.mat) 0) (ha : Calc.GoodAlbedos .slab alb)
    (hlib : Solve.SolvesRegular tl.num)
    (hc' : Clean lib' lines') (hraw' : Stored raw' lines') (hp' : Proper lines') (hf' : CriticalFile lib' lines' .diffusion "forward" .slab rs.reverse E T alb' acc n)
    (hn' : 2 ≤ alb'.n) (hlib' : Solve.SolvesRegular tl'.num) (h0 : alb'.v 0 = alb.v 1) (h1 : alb'.v 1 = alb.v 0) (hn : n < 2147483647) (p p' : Calc.Plant) :
    program lib tl (some raw) p = .exit ∧ program lib' tl' (some raw') p' = .exit ∨
    ∃ r r' k φ φ', program lib tl (some raw) p = .ok r ∧ program lib' tl' (some raw') p' = .ok r' ∧ Found r (cellNames rs).length E k φ ∧ Found r' (cellNames rs).length E k φ' ∧
      ∀ i e, i < (cellNames rs).length → e < E → φ' (i + e * (cellNames rs).length) = φ ((cellNames rs).length - 1 - i + e * (cellNames rs).length) := by
  obtain ⟨b, d, b', d', k, φ, φ', κ, y, y', -, -, -, -, -, -, -, -, -, -, -, hy, -, -, s, s'⟩ :=
    C114 hc hraw hp hf hC h2 hD ha hlib hc' hraw' hp' hf' hn' hlib' h0 h1 p p'
  by_cases hx : ∃ m, m + 1 ≤ n ∧ Eigen.change κ m < acc
  · classical
    obtain ⟨hm, hm'⟩ := Nat.find_spec hx
    have first : ∀ j, j < Nat.find hx → acc ≤ Eigen.change κ j := fun j hj => by
      by_contra hlt
      exact Nat.find_min hx hj ⟨by omega, not_le.1 hlt⟩
    obtain ⟨r, e, c⟩ := s.1 _ hm first hm'
    obtain ⟨r', e', c'⟩ := s'.1 _ hm first hm'
    refine Or.inr ⟨r, r', _, _, _, e, e', c.found, ?_, hy _⟩
    have := c'.found
    rwa [cellNames_reverse, List.length_reverse] at this
  · push Not at hx
    exact Or.inl ⟨s.2 hn hx, s'.2 hn hx⟩

/-- **C114.** The same for the adjoint equation: two files for an adjoint diffusion calculation of a slab, the second with the regions in the opposite order and the albedos of the two sides exchanged. Both
have the same k-factor, the only one with a physical flux, and the flux in cell `i` of the second slab is the one in cell `N - 1 - i` of the first. This holds for every generation of neutrons,
too: the k-factors of the two runs agree in each pass, and each run ends with the first of them that meets its accuracy (see C97). -/
theorem C114_adjoint (hc : Clean lib lines) (hraw : Stored raw lines) (hp : Proper lines) (hf : CriticalFile lib lines .diffusion "adjoint" .slab rs E T alb acc n)
    (hC : CriticalCase rs E T {0}) (h2 : 2 ≤ (cellNames rs).length) (hD : ∀ q ∈ rs, ∀ e, e < E → 0 < valueAt (T.diff e q.mat) 0) (ha : Calc.GoodAlbedos .slab alb)
    (hlib : Solve.SolvesRegular tl.num)
    (hc' : Clean lib' lines') (hraw' : Stored raw' lines') (hp' : Proper lines') (hf' : CriticalFile lib' lines' .diffusion "adjoint" .slab rs.reverse E T alb' acc' n')
    (hn' : 2 ≤ alb'.n) (hlib' : Solve.SolvesRegular tl'.num) (h0 : alb'.v 0 = alb.v 1) (h1 : alb'.v 1 = alb.v 0) (p p' : Calc.Plant) :
    ∃ b d b' d' k φ φ' κ y y', DiffusionOf .slab rs E T alb 0 b d ∧ DiffusionOf .slab rs.reverse E T alb' 0 b' d' ∧
      Solve.Physical (cellNames rs).length E φ ∧ Solve.AdjointEq d (alb.v 0) (alb.v 1) k φ ∧
      (∀ k' ψ, Solve.Physical (cellNames rs).length E ψ → Solve.AdjointEq d (alb.v 0) (alb.v 1) k' ψ → k' = k) ∧
      Solve.Physical (cellNames rs).length E φ' ∧ Solve.AdjointEq d' (alb'.v 0) (alb'.v 1) k φ' ∧
      (∀ k' ψ, Solve.Physical (cellNames rs).length E ψ → Solve.AdjointEq d' (alb'.v 0) (alb'.v 1) k' ψ → k' = k) ∧
      (∀ i e, i < (cellNames rs).length → e < E → φ' (i + e * (cellNames rs).length) = φ ((cellNames rs).length - 1 - i + e * (cellNames rs).length)) ∧
      Solve.AdjointGenerations d (alb.v 0) (alb.v 1) κ y ∧ Solve.AdjointGenerations d' (alb'.v 0) (alb'.v 1) κ y' ∧
      (∀ j i e, i < (cellNames rs).length → e < E → y' j (i + e * (cellNames rs).length) = y j ((cellNames rs).length - 1 - i + e * (cellNames rs).length)) ∧
      Tendsto κ atTop (𝓝 k) ∧ (∀ x, x < (cellNames rs).length * E → Tendsto (fun j => y j x) atTop (𝓝 (φ x))) ∧
      Settles (program lib tl (some raw) p) (CriticalAdjoint .slab rs E) n acc κ y ∧
      Settles (program lib' tl' (some raw') p') (CriticalAdjoint .slab rs.reverse E) n' acc' κ y' := by
  have hC' : CriticalCase rs.reverse E T {0} := hC.reverse
  have hl : (cellNames rs.reverse).length = (cellNames rs).length := by rw [cellNames_reverse, List.length_reverse]
  have ha' : Calc.GoodAlbedos .slab alb' := ⟨fun _ => ⟨hn', by rw [h1]; exact ha.2.2⟩, by omega, by rw [h0]; exact (ha.1 rfl).2⟩
  have hD' : ∀ q ∈ rs.reverse, ∀ e, e < E → 0 < valueAt (T.diff e q.mat) 0 := fun q hq => hD q (List.mem_reverse.1 hq)
  obtain ⟨b, d, k, φ, κ, y, o1, -, o3, os, o4, ou, -, og, o5, oy, o6⟩ := C97_adjoint hc hraw hp hf hC h2 hD ha hlib p
  obtain ⟨b', d', k', φ', κ', y', o1', -, o3', os', o4', ou', -, og', o5', oy', o6'⟩ := C97_adjoint hc' hraw' hp' hf' hC' (by rw [hl]; exact h2) hD' ha' hlib' p'
  simp only [if_true] at o4 ou og o4' ou' og'
  have hb := hf.full.body ⟨.diffusion, by simp, by simp⟩
  have hb' := hf'.full.body ⟨.diffusion, by simp, by simp⟩
  obtain ⟨G', hG'⟩ := onBody_of hb' hC'.widths o1'.faces p
  obtain ⟨R', -⟩ := o1'.regular hG' (fun _ _ => rfl) hC' (by rw [hl]; exact h2) (fun q hq e he x hx => by rw [Set.mem_singleton_iff.1 hx]; exact hD' q hq e he) ha'
  simp only [if_true] at R'
  have M := mirrored_of (fun h => hb'.some (by rw [h]; rfl)) hb.cells o1 o1'
  have hd0 : 0 < d.cells := by rw [o1.cells]; omega
  have me := M.equation_adjoint hd0 o4
  have mg := M.generations_adjoint hd0 og
  rw [← h0, ← h1, o1.cells] at me mg
  rw [hl] at o3' ou' os' oy'
  obtain ⟨rfl, -⟩ := ou' k (Solve.mirror (cellNames rs).length φ) (Solve.mirror_physical o3) me
  have U := Solve.C62_generations_adjoint R'.sound R'.absorbing og' mg
  obtain rfl : κ' = κ := funext (fun j => (U j).1)
  have hy : ∀ j i e, i < (cellNames rs).length → e < E → y' j (i + e * (cellNames rs).length) = y j ((cellNames rs).length - 1 - i + e * (cellNames rs).length) := by
    intro j i e hi he
    rw [(U j).2 _ (by rw [o1'.cells, hl, o1'.energies]; exact flat_lt hi he)]
    exact Solve.mirror_flat hi
  refine ⟨b, d, b', d', k, φ, φ', κ', y, y', o1, o1', o3, o4, fun k' ψ h h' => (ou k' ψ h h').1, o3', o4', fun k' ψ h h' => (ou' k' ψ h h').1, fun i e hi he => ?_, og, og', hy, o5, oy,
    o6, o6'⟩
  have t1 := oy' _ (flat_lt hi he)
  simp only [hy _ i e hi he] at t1
  exact tendsto_nhds_unique t1 (oy _ (flat_lt (by omega) he))

theorem turn_diff : ∀ q ∈ turnRegions, ∀ e, e < 1 → 0 < valueAt (turnTables.diff e q.mat) 0 := fun q hq e he => by
  simp only [turnTables, valueAt_one]
  norm_num

theorem turn_good : Calc.GoodAlbedos .slab (turnAlb false) := by
  refine ⟨fun _ => ⟨?_, ?_, ?_⟩, ?_, ?_, ?_⟩ <;> norm_num [turnAlb, Vec.ofList]

/-- a slab of two thin cells and a thick one that gives all neutrons back on the left and half of them on the right, and the same slab turned round -/
example (p p' : Calc.Plant) :
    program slimLib (Calc.exTools Solve.exLib) (some (turnFile false false)) p = .exit ∧ program slimLib (Calc.exTools Solve.exLib) (some (turnFile true false)) p' = .exit ∨
    ∃ r r' k φ φ', program slimLib (Calc.exTools Solve.exLib) (some (turnFile false false)) p = .ok r ∧ program slimLib (Calc.exTools Solve.exLib) (some (turnFile true false)) p' = .ok r' ∧
      Found r 3 1 k φ ∧ Found r' 3 1 k φ' ∧ ∀ i e, i < 3 → e < 1 → φ' (i + e * 3) = φ (3 - 1 - i + e * 3) :=
  C114_results (tl := Calc.exTools Solve.exLib) (tl' := Calc.exTools Solve.exLib) (slimLib_clean _) (turnStored false false) (turnProper false false) (turn_critical (t := false) (a := false))
    (turn_case (t := false)) (by decide) turn_diff turn_good Solve.exLib_solves (slimLib_clean _) (turnStored true false) (turnProper true false) (turn_critical (t := true) (a := false))
    (by simp [turnAlb, Vec.ofList]) Solve.exLib_solves (by norm_num [turnAlb, Vec.ofList]) (by norm_num [turnAlb, Vec.ofList]) (by norm_num) p p'

/-- the same files for the adjoint equation: the importance of each cell is that of the mirrored cell -/
example (p p' : Calc.Plant) : ∃ κ y y', (∀ j i e, i < 3 → e < 1 → y' j (i + e * 3) = y j (3 - 1 - i + e * 3)) ∧
    Settles (program slimLib (Calc.exTools Solve.exLib) (some (turnFile false true)) p) (CriticalAdjoint .slab turnRegions 1) 100 (1 / 1000) κ y ∧
    Settles (program slimLib (Calc.exTools Solve.exLib) (some (turnFile true true)) p') (CriticalAdjoint .slab turnRegions.reverse 1) 100 (1 / 1000) κ y' := by
  obtain ⟨_, _, _, _, _, _, _, κ, y, y', -, -, -, -, -, -, -, -, -, -, -, hy, -, -, s, s'⟩ :=
    C114_adjoint (tl := Calc.exTools Solve.exLib) (tl' := Calc.exTools Solve.exLib) (slimLib_clean _) (turnStored false true) (turnProper false true)
      (turn_critical (t := false) (a := true)) (turn_case (t := false)) (by decide) turn_diff turn_good Solve.exLib_solves (slimLib_clean _) (turnStored true true)
      (turnProper true true) (turn_critical (t := true) (a := true)) (by simp [turnAlb, Vec.ofList]) Solve.exLib_solves (by norm_num [turnAlb, Vec.ofList])
      (by norm_num [turnAlb, Vec.ofList]) p p'
  exact ⟨κ, y, y', hy, s, s'⟩

end

end Verif.Input
