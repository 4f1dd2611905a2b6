import Verif.Heat.Compare
import Verif.Input.RunLemmas

/-! # The body of a heat calculation, for comparisons -/

namespace Verif.Input

open Verif Outcome

noncomputable section

variable {lib : Lib} {lines : List Text} {g : Diffusion.Geom} {rs : List Region} {law : Text → Vec ℝ} {t q bc : Vec ℝ} {m AL BL CL AR BR CR : ℝ} {f : Nat → ℝ}

/-- the body is fit for a comparison -/
theorem case_body (hb : BodyFile lib lines g rs) (hcase : HeatCase g rs law t q bc f m AL BL CL AR BR CR) (hk : ∀ r ∈ rs, (law r.mat).n = 1) (p : Calc.Plant) :
    (∀ i < (cellNames rs).length, 0 < f (i + 1) - f i) ∧ (∀ i < (cellNames rs).length, 0 < (law ((cellNames rs).getD i [])).v 0) ∧
    (∀ i < (cellNames rs).length, 0 < Mesh.area g (f (i + 1))) ∧ (g = .slab → Mesh.area g (f 0) = 1) ∧
    (∀ i < (cellNames rs).length, 0 < ∫ r in (f i)..(f (i + 1)), Mesh.area g r) := by
  have hpos : ∀ x ∈ rs.map (fun r => (r.cells, r.width)), 1 ≤ x.1 := fun x hx => by
    obtain ⟨y, hy, rfl⟩ := List.mem_map.1 hx
    exact hb.cells y hy
  obtain ⟨f0, -, finc⟩ := C32_bounds hcase.faces (by simpa using hb.some) hpos
  have finc : ∀ i, i < (cellNames rs).length → f i < f (i + 1) := fun i hi => finc (fun x hx => by
    obtain ⟨y, hy, rfl⟩ := List.mem_map.1 hx
    exact hcase.wide y hy) i (show i + 1 < (cellNames rs).length + 1 by omega)
  have hS : Mesh.Shaped ⟨g, ⟨(cellNames rs).length + 1, f⟩, (cellNames rs).length, 0, 0, 0, p.grid.mats⟩ :=
    ⟨by
      obtain ⟨c, w, -, hg⟩ := hb.geometry
      rintro rfl
      simp [geometries] at hg, rfl, fun _ => f0.ge, finc⟩
  refine ⟨fun i hi => sub_pos.2 (finc i hi), fun i hi => ?_, fun i hi => Mesh.area_pos hS hi, ?_, fun i hi => ?_⟩
  · obtain ⟨y, hy, e⟩ := cellNames_mem hi
    have := hcase.positive y hy m le_rfl
    rw [hk y hy] at this
    rw [getD_here hi, ← e]
    simpa [Numeric.polyValue] using this
  · rintro rfl; rfl
  · obtain ⟨⟨V, eV, nV, vV, pV, -⟩, -⟩ := Mesh.C31_volumes hS
    exact (vV i hi) ▸ pV i hi

end

end Verif.Input
