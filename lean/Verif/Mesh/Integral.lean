import Verif.Mesh.Lemmas
import Mathlib.Analysis.SpecialFunctions.Integrals.Basic

/-! # Volumes as integrals of areas -/

namespace Verif.Mesh

open Verif Outcome Finset

noncomputable section

theorem shell_integral (g : Diffusion.Geom) (z y : ℝ) : shell g y z = ∫ r in z..y, area g r := by
  cases g with
  | undefined => simp [shell, area]
  | slab => simp [shell, area]
  | cylinder =>
    simp only [shell, area]
    rw [intervalIntegral.integral_const_mul, integral_id]
    ring
  | sphere =>
    simp only [shell, area]
    rw [intervalIntegral.integral_const_mul, integral_pow]
    norm_num
    ring

theorem shell_scale (g : Diffusion.Geom) (y z : ℝ) : 100 ^ dimension g * shell g y z = shell g (100 * y) (100 * z) := by
  cases g <;> simp only [shell, dimension] <;> ring

theorem area_scale {g : Diffusion.Geom} (r : ℝ) : 100 ^ (dimension g - 1) * area g r = area g (100 * r) := by
  cases g <;> simp only [area, dimension] <;> norm_num <;> ring

end

end Verif.Mesh
