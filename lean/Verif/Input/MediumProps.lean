import Verif.Input.MediumRead
import Verif.Input.CriticalProps
import Verif.Input.BareFile

/-! # Bodies that give all neutrons back, from file to result -/

namespace Verif.Input

open Verif Outcome Finset Filter Topology

noncomputable section

variable {lib : Lib} {raw lines : List Text} {g : Diffusion.Geom} {rs : List Region} {E : Nat} {T : Tables} {alb : Vec ℝ} {acc : ℝ} {n : Nat} {tl : Calc.Tools}

/-! ### C63 -/

/-- **C63.** From file to result: a file for a diffusion calculation of a body that gives all neutrons back, in which all materials have the same k-factor `k` and spectrum `sp` of
the infinite medium. Then `k` is the only k-factor of the body with a physical flux. The k-factors of the generations converge to `k`, their fluxes to the spectrum in each cell, and the program ends with the first of them that meets the
accuracy (see C97). -/
theorem C63_files (hc : Clean lib lines) (hraw : Stored raw lines) (hp : Proper lines) (hf : CriticalFile lib lines .diffusion "forward" g rs E T alb acc n)
    (hC : CriticalCase rs E T {0}) (h2 : 2 ≤ (cellNames rs).length) (hD : ∀ q ∈ rs, ∀ e, e < E → 0 < valueAt (T.diff e q.mat) 0) (ha : Calc.GoodAlbedos g alb)
    (hlib : Solve.SolvesRegular tl.num) (a0 : alb.v 0 = 1) (a1 : g = .slab → alb.v 1 = 1) {k : ℝ} {sp : Nat → ℝ} (s0 : ∀ e, e < E → 0 ≤ sp e) (s1 : ∑ e ∈ range E, sp e = 1)
    (hinf : ∀ q ∈ rs, Solve.InfiniteMedium E (fun e => valueAt (T.tot e q.mat) 0) (fun e f => valueAt (T.scatt e f q.mat) 0) (fun e => valueAt (T.chi e q.mat) 0)
      (fun e => valueAt (T.nu e q.mat) 0 * valueAt (T.fiss e q.mat) 0) k sp) (p : Calc.Plant) :
    ∃ b d κ y, DiffusionOf g rs E T alb 0 b d ∧ (∃ ψ, Solve.Physical (cellNames rs).length E ψ ∧ Solve.DiffusionEq d 1 1 k ψ) ∧
      (∀ k' ψ, Solve.Physical (cellNames rs).length E ψ → Solve.DiffusionEq d 1 1 k' ψ → k' = k) ∧ Solve.DiffusionGenerations d 1 1 κ y ∧ Tendsto κ atTop (𝓝 k) ∧
      (∀ i e, i < (cellNames rs).length → e < E → Tendsto (fun j => y j (i + e * (cellNames rs).length)) atTop (𝓝 (sp e / (cellNames rs).length))) ∧
      Settles (program lib tl (some raw) p) (fun p' k' ψ => Critical g rs E p.power (Solve.fissions d ψ) p' k' ψ) n acc κ y := by
  obtain ⟨b, d, k0, φ, κ, y, o1, -, o3, os, o4, ou, og, o5, oy, o6⟩ := C97_forward hc hraw hp hf hC h2 hD ha hlib p
  have hb := hf.full.body ⟨.diffusion, by simp, by simp⟩
  obtain ⟨G, hG⟩ := onBody_of hb hC.widths o1.faces p
  obtain ⟨R, -⟩ := o1.regular hG (fun _ _ => rfl) hC h2 (fun q hq e he x hx => by rw [Set.mem_singleton_iff.1 hx]; exact hD q hq e he) ha
  have eL : (if g = .slab then alb.v 0 else 1) = 1 := by split_ifs <;> simp [a0]
  have eR : (if g = .slab then alb.v 1 else alb.v 0) = 1 := by
    split_ifs with h
    · exact a1 h
    · exact a0
  rw [eL, eR] at o4 ou og R
  have heq := Solve.flat_solves R.sound (sp := fun e => sp e / (cellNames rs).length) (k := k) (fun i hi => by
    obtain ⟨q, hq, em⟩ := matAt_mem (rs := rs) (by rw [← o1.cells]; exact hi)
    rw [o1.energies]
    refine ((hinf q hq).part _).congr (fun e he => ?_) (fun e f he hf => ?_) (fun e he => ?_) (fun e he => ?_)
    · rw [o1.tot e i he hi, em]; rfl
    · rw [o1.scatt e f i he hf hi, em]; rfl
    · rw [o1.chi e i he hi, em]; rfl
    · rw [o1.nu e i he hi, o1.fiss e i he hi, em]; rfl)
  rw [o1.cells] at heq
  obtain ⟨rfl, hφ⟩ := Solve.flat_unique (by omega) s0 s1 os ou heq
  exact ⟨b, d, κ, y, o1, ⟨φ, o3, o4⟩, fun k' ψ h h' => (ou k' ψ h h').1, og, o5, fun i e hi he => hφ i e hi he ▸ oy _ (flat_lt hi he), o6⟩

theorem slim_diff : ∀ q ∈ slimRegions, ∀ e, e < 1 → 0 < valueAt (slimTables.diff e q.mat) 0 := fun q hq e he => by
  simp only [slimTables, valueAt_one]
  norm_num

theorem slim_good : Calc.GoodAlbedos .slab (Vec.ofList [1, 1]) := by
  refine ⟨fun _ => ⟨?_, ?_, ?_⟩, ?_, ?_, ?_⟩ <;> norm_num [Vec.ofList]

theorem slim_medium : ∀ q ∈ slimRegions, Solve.InfiniteMedium 1 (fun e => valueAt (slimTables.tot e q.mat) 0) (fun e f => valueAt (slimTables.scatt e f q.mat) 0)
    (fun e => valueAt (slimTables.chi e q.mat) 0) (fun e => valueAt (slimTables.nu e q.mat) 0 * valueAt (slimTables.fiss e q.mat) 0) (5 / 4) (fun _ => 1) := fun q hq e he => by
  simp only [slimTables, valueAt_one, sum_range_one]
  norm_num

/-- the thin slab: the factor is 5/4, the flux is the same in both cells -/
example (p : Calc.Plant) : ∃ κ y d, Tendsto κ atTop (𝓝 (5 / 4)) ∧ (∀ i, i < 2 → Tendsto (fun j => y j i) atTop (𝓝 (1 / 2))) ∧
    Settles (program slimLib (Calc.exTools Solve.exLib) (some slimFile) p) (fun p' k' ψ => Critical .slab slimRegions 1 p.power (Solve.fissions d ψ) p' k' ψ) 100 (1 / 1000) κ y := by
  obtain ⟨b, d, κ, y, -, -, -, -, h1, h2, h3⟩ := C63_files (tl := Calc.exTools Solve.exLib) (slimLib_clean _) slimStored slimProper slim_critical slim_case (by decide) slim_diff slim_good
    Solve.exLib_solves (by simp [Vec.ofList]) (fun _ => by simp [Vec.ofList]) (fun _ _ => zero_le_one) (by simp) slim_medium p
  refine ⟨κ, y, d, h1, fun i hi => ?_, h3⟩
  have := h2 i 0 hi one_pos
  simpa [show (cellNames slimRegions).length = 2 from rfl] using this

/-! ### C69 -/

/-- **C69.** The same for a transport calculation with exact special functions of a body with the albedo one: the k-factors of the generations converge to the k-factor of the infinite
medium, as those of a diffusion calculation do. In cylinders and spheres every ring must be thick enough for the quadrature of the code. -/
theorem C69_files_partial {dir : String} (hc : Clean lib lines) (hraw : Stored raw lines) (hp : Proper lines) (hf : CriticalFile lib lines .transport dir g rs E T alb acc n)
    (hC : CriticalCase rs E T {0}) (ht : ∀ b d, TransportOf g rs E T alb 0 b d → Solve.Thick d g) (he3 : tl.e3 = CPM.E3) (hki3 : tl.ki3 = CPM.Ki3)
    (hlib : Solve.SolvesRegular tl.num) (a0 : alb.v 0 = 1) {k : ℝ} {sp : Nat → ℝ} (s0 : ∀ e, e < E → 0 ≤ sp e) (s1 : ∑ e ∈ range E, sp e = 1)
    (hinf : ∀ q ∈ rs, Solve.InfiniteMedium E (fun e => valueAt (T.tot e q.mat) 0) (fun e f => valueAt (T.scatt e f q.mat) 0) (fun e => valueAt (T.chi e q.mat) 0)
      (fun e => valueAt (T.nu e q.mat) 0 * valueAt (T.fiss e q.mat) 0) k sp) (p : Calc.Plant) :
    ∃ b d G κ y, TransportOf g rs E T alb 0 b d ∧ CPM.vacuumCPs d CPM.E3 CPM.Ki3 g = ok G ∧
      (∃ ψ, Solve.Physical (cellNames rs).length E ψ ∧ Solve.TransportEq d G.v k ψ) ∧
      (∀ k' ψ, Solve.Physical (cellNames rs).length E ψ → Solve.TransportEq d G.v k' ψ → k' = k) ∧ Solve.TransportGenerations d G.v κ y ∧ Tendsto κ atTop (𝓝 k) ∧
      (∀ i e, i < (cellNames rs).length → e < E → Tendsto (fun j => y j (i + e * (cellNames rs).length)) atTop (𝓝 (sp e / (cellNames rs).length))) ∧
      Settles (program lib tl (some raw) p) (fun p' k' ψ => Critical g rs E p.power (Solve.fissions (Solve.reactions d) ψ) p' k' ψ) n acc κ y := by
  have ha : 0 ≤ alb.v 0 ∧ alb.v 0 ≤ 1 := by rw [a0]; exact ⟨zero_le_one, le_rfl⟩
  obtain ⟨b, d, G, k0, φ, κ, y, o1, oG, -, o3, os, o4, ou, og, o5, oy, o6⟩ := C97_transport_partial hc hraw hp hf hC ha ht he3 hki3 hlib p
  have hb := hf.full.body ⟨.transport, by simp, by simp⟩
  have h1c : 1 ≤ (cellNames rs).length := by
    obtain ⟨q, hq, -⟩ := hC.somewhere
    obtain ⟨i, hi, -⟩ := mat_somewhere hq (hb.cells q hq)
    omega
  obtain ⟨H, hH⟩ := onBody_of hb hC.widths o1.faces p
  obtain ⟨B, -⟩ := o1.body hH (fun _ _ => rfl) hC h1c hf.albedo_pos ha
  obtain ⟨G', hG', sd⟩ := CPM.vacuum_sound B.wf B.pos B.mesh B.cells
  rw [oG] at hG'
  cases hG'
  obtain ⟨-, av⟩ := toList_same o1.albedo
  have heq := Solve.flat_transport B sd (by rw [av 0 hf.albedo_pos]; exact a0) (sp := fun e => sp e / (cellNames rs).length) (k := k) (fun i hi => by
    obtain ⟨q, hq, em⟩ := matAt_mem (rs := rs) (by rw [← o1.cells]; exact hi)
    rw [o1.energies]
    refine ((hinf q hq).part _).congr (fun e he => ?_) (fun e f he hf => ?_) (fun e he => ?_) (fun e he => ?_)
    · rw [o1.tot e i he hi, em]; rfl
    · rw [o1.scatt e f i he hf hi, em]; rfl
    · rw [o1.chi e i he hi, em]; rfl
    · rw [o1.nu e i he hi, o1.fiss e i he hi, em]; rfl)
  rw [o1.cells] at heq
  obtain ⟨rfl, hφ⟩ := Solve.flat_unique (Eq := Solve.TransportEq d G.v) (by omega) s0 s1 os ou heq
  exact ⟨b, d, G, κ, y, o1, oG, ⟨φ, o3, o4⟩, fun k' ψ h h' => (ou k' ψ h h').1, og, o5, fun i e hi he => hφ i e hi he ▸ oy _ (flat_lt hi he), o6⟩

theorem bare_thick : ∀ b d, TransportOf .slab bareRegions 1 bareTables (Vec.ofList [1]) 0 b d → Solve.Thick d .slab := fun _ _ _ _ _ _ _ => trivial

theorem bare_medium : ∀ q ∈ bareRegions, Solve.InfiniteMedium 1 (fun e => valueAt (bareTables.tot e q.mat) 0) (fun e f => valueAt (bareTables.scatt e f q.mat) 0)
    (fun e => valueAt (bareTables.chi e q.mat) 0) (fun e => valueAt (bareTables.nu e q.mat) 0 * valueAt (bareTables.fiss e q.mat) 0) (5 / 8) (fun _ => 1) := fun q hq e he => by
  simp only [bareTables, valueAt_one, sum_range_one]
  norm_num

/-- the tools of the examples with exact special functions -/
def exactTools : Calc.Tools := { Calc.exTools Solve.exLib with e3 := CPM.E3, ki3 := CPM.Ki3 }

/-- the slab without scattering: the factor is 5/8 -/
example (p : Calc.Plant) : ∃ κ y d, Tendsto κ atTop (𝓝 (5 / 8)) ∧ (∀ i, i < 2 → Tendsto (fun j => y j i) atTop (𝓝 (1 / 2))) ∧
    Settles (program slimLib exactTools (some bareFile) p) (fun p' k' ψ => Critical .slab bareRegions 1 p.power (Solve.fissions (Solve.reactions d) ψ) p' k' ψ) 100 (1 / 1000) κ y := by
  obtain ⟨b, d, G, κ, y, -, -, -, -, -, h1, h2, h3⟩ := C69_files_partial (tl := exactTools) (slimLib_clean _) bareStored bareProper (bare_critical (dir := "")) bare_case bare_thick rfl rfl
    Solve.exLib_solves (by simp [Vec.ofList]) (fun _ _ => zero_le_one) (by simp) bare_medium p
  refine ⟨κ, y, d, h1, fun i hi => ?_, h3⟩
  have := h2 i 0 hi one_pos
  simpa [show (cellNames bareRegions).length = 2 from rfl] using this

/-! ### C52 -/

/-- **C52 fails from file to result.** In a body that gives all neutrons back, let collisions less scattering in, times the volume of the cell in cm³, be one for each cell and group.
Then the program ends in the first pass with the k-factor 1 and a flat flux, whatever the fissions and however strict the accuracy of the file. -/
theorem C52_files (hc : Clean lib lines) (hraw : Stored raw lines) (hp : Proper lines) (hf : CriticalFile lib lines .diffusion "forward" g rs E T alb acc n)
    (hC : CriticalCase rs E T {0}) (h2 : 2 ≤ (cellNames rs).length) (hD : ∀ q ∈ rs, ∀ e, e < E → 0 < valueAt (T.diff e q.mat) 0) (ha : Calc.GoodAlbedos g alb)
    (hlib : Solve.SolvesRegular tl.num) (a0 : alb.v 0 = 1) (a1 : g = .slab → alb.v 1 = 1)
    (hone : ∀ b, Spread (rs.map (fun r => (r.cells, r.width))) b → ∀ e i, e < E → i < (cellNames rs).length →
      (valueAt (T.tot e (matAt rs i)) 0 - ∑ f ∈ range E, valueAt (T.scatt f e (matAt rs i)) 0) * ∫ r in (100 * b.v i)..(100 * b.v (i + 1)), Mesh.area g r = 1)
    (hacc : 0 < acc) (hn : 1 ≤ n) (p : Calc.Plant) :
    ∃ p', program lib tl (some raw) p = ok p' ∧ Found p' (cellNames rs).length E 1 (fun _ => 1 / ((cellNames rs).length * E : ℕ)) := by
  obtain ⟨b, d, k, φ, κ, y, o1, ok0, -, -, -, -, og, o5, -, o6⟩ := C97_forward hc hraw hp hf hC h2 hD ha hlib p
  have hb := hf.full.body ⟨.diffusion, by simp, by simp⟩
  obtain ⟨G, hG⟩ := onBody_of hb hC.widths o1.faces p
  obtain ⟨R, -⟩ := o1.regular hG (fun _ _ => rfl) hC h2 (fun q hq e he x hx => by rw [Set.mem_singleton_iff.1 hx]; exact hD q hq e he) ha
  have eL : (if g = .slab then alb.v 0 else 1) = 1 := by split_ifs <;> simp [a0]
  have eR : (if g = .slab then alb.v 1 else alb.v 0) = 1 := by
    split_ifs with h
    · exact a1 h
    · exact a0
  rw [eL, eR] at og R
  obtain ⟨hM, -⟩ := Solve.loss_inverse R.sound R.absorbing
  obtain ⟨k0, k1, hy⟩ := Solve.Generations.flat og (fun φ ψ e i he hi h => by rw [← Solve.fission_apply φ hi, ← Solve.fission_apply ψ hi]; exact Eigen.act_congr h _)
    (fun φ hφ => Solve.inverse_inj hM (y := fun _ => 1) (fun q hq => by
      obtain ⟨i, e, hi, he, rfl⟩ := flat_surj hq
      rw [(Solve.source_balance R.sound).2 hφ e i he hi, Solve.flat_loss R.sound he hi]
      have he' : e < E := by rw [← o1.energies]; exact he
      rw [o1.tot e i he' hi, o1.vol i hi, o1.energies, sum_congr rfl (fun f hf => o1.scatt f e i (mem_range.1 hf) he' hi)]
      exact (hone b o1.faces e i he' (by rw [← o1.cells]; exact hi)).symm)) ok0.ne' o5
  obtain ⟨p', h1, h3⟩ := o6.first k0 k1 hacc hn
  rw [o1.cells, o1.energies] at hy
  exact ⟨p', h1, h3.found.congr hy⟩

theorem slim_one (b : Vec ℝ) (hb : Spread (slimRegions.map (fun r => (r.cells, r.width))) b) (e i : Nat) (_ : e < 1) (hi : i < (cellNames slimRegions).length) :
    (valueAt (slimTables.tot e (matAt slimRegions i)) 0 - ∑ f ∈ range 1, valueAt (slimTables.scatt f e (matAt slimRegions i)) 0) *
      ∫ r in (100 * b.v i)..(100 * b.v (i + 1)), Mesh.area .slab r = 1 := by
  have hi : i < 2 := hi
  have hv : ∀ j ≤ 2, b.v j = j / 100 := fun j hj => by
    have := hb.2 0 (by simp [slimRegions]) j hj
    simp [slimRegions, before] at this
    rw [this]
    ring
  simp only [slimTables, valueAt_one, sum_range_one, Mesh.area]
  rw [hv i (by omega), hv (i + 1) (by omega)]
  push_cast
  simp
  ring

/-- **C52, witness.** For the file of the thin slab the only k-factor with a physical flux is 5/4, but the program ends with 1. -/
theorem C52_file_false : ∃ (lib : Lib) (tl : Calc.Tools) (lines : List Text) (rs : List Region) (T : Tables), Clean lib lines ∧ Stored lines lines ∧ Proper lines ∧
    CriticalFile lib lines .diffusion "forward" .slab rs 1 T (Vec.ofList [1, 1]) (1 / 1000) 100 ∧ CriticalCase rs 1 T {0} ∧ Solve.SolvesRegular tl.num ∧ ∀ p : Calc.Plant,
      ∃ b d p', DiffusionOf .slab rs 1 T (Vec.ofList [1, 1]) 0 b d ∧ (∃ ψ, Solve.Physical 2 1 ψ ∧ Solve.DiffusionEq d 1 1 (5 / 4) ψ) ∧
        (∀ k ψ, Solve.Physical 2 1 ψ → Solve.DiffusionEq d 1 1 k ψ → k = 5 / 4) ∧ program lib tl (some lines) p = ok p' ∧ Found p' 2 1 1 (fun _ => 1 / 2) := by
  refine ⟨slimLib, Calc.exTools Solve.exLib, slimFile, slimRegions, slimTables, slimLib_clean _, slimStored, slimProper, slim_critical, slim_case, Solve.exLib_solves, fun p => ?_⟩
  obtain ⟨b, d, -, -, h1, h2, h3, -⟩ := C63_files (tl := Calc.exTools Solve.exLib) (slimLib_clean _) slimStored slimProper slim_critical slim_case (by decide) slim_diff slim_good
    Solve.exLib_solves (by simp [Vec.ofList]) (fun _ => by simp [Vec.ofList]) (fun _ _ => zero_le_one) (by simp) slim_medium p
  obtain ⟨p', h4, h5⟩ := C52_files (tl := Calc.exTools Solve.exLib) (slimLib_clean _) slimStored slimProper slim_critical slim_case (by decide) slim_diff slim_good
    Solve.exLib_solves (by simp [Vec.ofList]) (fun _ => by simp [Vec.ofList]) slim_one (by norm_num) (by norm_num) p
  refine ⟨b, d, p', h1, h2, h3, h4, ?_⟩
  simpa [show (cellNames slimRegions).length = 2 from rfl] using h5

/-- **C52 fails from file to result.** For every file for a transport calculation without scattering the program ends in the first pass with the k-factor 1 and a flat flux, whatever
the body, the albedo and the fissions and however strict the accuracy of the file. -/
theorem C52_transport_files {dir : String} (hc : Clean lib lines) (hraw : Stored raw lines) (hp : Proper lines) (hf : CriticalFile lib lines .transport dir g rs E T alb acc n)
    (hC : CriticalCase rs E T {0}) (ha : 0 ≤ alb.v 0 ∧ alb.v 0 ≤ 1) (ht : ∀ b d, TransportOf g rs E T alb 0 b d → Solve.Thick d g) (he3 : tl.e3 = CPM.E3) (hki3 : tl.ki3 = CPM.Ki3)
    (hlib : Solve.SolvesRegular tl.num) (hbare : ∀ q ∈ rs, ∀ e f, e < E → f < E → valueAt (T.scatt e f q.mat) 0 = 0) (hacc : 0 < acc) (hn : 1 ≤ n) (p : Calc.Plant) :
    ∃ p', program lib tl (some raw) p = ok p' ∧ Found p' (cellNames rs).length E 1 (fun _ => 1 / ((cellNames rs).length * E : ℕ)) := by
  obtain ⟨b, d, G, k, φ, κ, y, o1, oG, ok0, -, -, -, -, og, o5, -, o6⟩ := C97_transport_partial hc hraw hp hf hC ha ht he3 hki3 hlib p
  obtain ⟨k0, k1, hy⟩ := Solve.Generations.flat og (fun φ ψ e i he hi h => by
      rw [← Solve.tfission_apply φ hi, ← Solve.tfission_apply ψ hi]
      exact Eigen.act_congr h _)
    (fun φ hφ q hq => by
      obtain ⟨i, e, hi, he, rfl⟩ := flat_surj hq
      rw [hφ e i he hi, sum_eq_zero, zero_add]
      intro j hj
      have : Solve.scatterIn (Solve.reactions d) φ e j = 0 := sum_eq_zero (fun f hf => by
        show d.scatt f e j * _ = 0
        have hj := mem_range.1 hj
        obtain ⟨q, hq, em⟩ := matAt_mem (rs := rs) (by rw [← o1.cells]; exact hj)
        have hf' : f < E := by rw [← o1.energies]; exact mem_range.1 hf
        have he' : e < E := by rw [← o1.energies]; exact he
        rw [o1.scatt f e j hf' he' hj, ← em, show (0 : Nat → ℝ) j = 0 from rfl, hbare q hq f e hf' he', zero_mul])
      rw [this, mul_zero]) ok0.ne' o5
  obtain ⟨p', h1, h3⟩ := o6.first k0 k1 hacc hn
  rw [o1.cells, o1.energies] at hy
  exact ⟨p', h1, h3.found.congr hy⟩

/-- **C52, witness.** For the file of the slab without scattering the only k-factor with a physical flux is 5/8, but the program ends with 1: a reactor far below criticality is reported
as critical. -/
theorem C52_transport_file_false : ∃ (lib : Lib) (tl : Calc.Tools) (lines : List Text) (rs : List Region) (T : Tables), Clean lib lines ∧ Stored lines lines ∧ Proper lines ∧
    CriticalFile lib lines .transport "" .slab rs 1 T (Vec.ofList [1]) (1 / 1000) 100 ∧ CriticalCase rs 1 T {0} ∧ Solve.SolvesRegular tl.num ∧ ∀ p : Calc.Plant,
      ∃ b d G p', TransportOf .slab rs 1 T (Vec.ofList [1]) 0 b d ∧ CPM.vacuumCPs d CPM.E3 CPM.Ki3 .slab = ok G ∧
        (∃ ψ, Solve.Physical 2 1 ψ ∧ Solve.TransportEq d G.v (5 / 8) ψ) ∧ (∀ k ψ, Solve.Physical 2 1 ψ → Solve.TransportEq d G.v k ψ → k = 5 / 8) ∧
        program lib tl (some lines) p = ok p' ∧ Found p' 2 1 1 (fun _ => 1 / 2) := by
  refine ⟨slimLib, exactTools, bareFile, bareRegions, bareTables, slimLib_clean _, bareStored, bareProper, bare_critical, bare_case, Solve.exLib_solves, fun p => ?_⟩
  obtain ⟨b, d, G, -, -, h1, h2, h3, h4, -⟩ := C69_files_partial (tl := exactTools) (slimLib_clean _) bareStored bareProper bare_critical (dir := "") bare_case bare_thick rfl rfl
    Solve.exLib_solves (by simp [Vec.ofList]) (fun _ _ => zero_le_one) (by simp) bare_medium p
  obtain ⟨p', h5, h6⟩ := C52_transport_files (tl := exactTools) (slimLib_clean _) bareStored bareProper bare_critical (dir := "") bare_case (by simp [Vec.ofList]) bare_thick rfl rfl
    Solve.exLib_solves (fun q hq e f he hf => by simp only [bareTables, valueAt_one]) (by norm_num) (by norm_num) p
  refine ⟨b, d, G, p', h1, h2, h3, h4, h5, ?_⟩
  simpa [show (cellNames bareRegions).length = 2 from rfl] using h6

end

end Verif.Input
