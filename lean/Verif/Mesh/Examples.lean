import Mathlib.Tactic.IntervalCases
import Mathlib.Tactic.Linarith
import Mathlib.Tactic.NormNum
import Mathlib.Tactic.Positivity
import Verif.Mesh.Spec
import Verif.Mesh.Data

/-! # Meshes used as examples -/

namespace Verif.Mesh

open Verif Outcome Finset

noncomputable section

/-- A law with constant value `x`. -/
def constLaw (x : ℝ) : Vec ℝ := ⟨1, fun _ => x⟩

/-- A material with two groups whose first total cross section grows with temperature. -/
def exMat (T : ℝ) : Material where
  name := "fuel"
  energies := 2
  T := T
  q := 5
  kLaw := some ⟨2, fun i => if i = 0 then 3 else 1 / 100⟩
  tot := [⟨2, fun i => if i = 0 then 1 else 1 / 1000⟩, constLaw 2]
  fiss := [constLaw 0.1, constLaw 0.2]
  diff := [constLaw 1, constLaw 0.5]
  scatt := [constLaw 0.3, constLaw 0.2, constLaw 0, constLaw 1]
  nu := [constLaw 2, constLaw 2]
  chi := []
  flux := ⟨0, 0, fun _ _ => .fin 0⟩
  adj := ⟨0, 0, fun _ _ => .fin 0⟩
  total := ⟨0, fun _ => .fin 0⟩

/-- Two cells with boundaries at 0, 1 and 2 cm, at 100 °C and 200 °C. -/
def exGrid (g : Diffusion.Geom) : Grid where
  geom := g
  bounds := ⟨3, fun i => i / 100⟩
  cells := 2
  energies := 2
  nForward := 1
  nAdjoint := 1
  mats := ⟨2, fun i => exMat (100 * (i + 1))⟩

theorem exGrid_shaped {g : Diffusion.Geom} (h : g ≠ .undefined) : Shaped (exGrid g) where
  geom := h
  bounds_n := rfl
  first := fun _ => by norm_num [exGrid]
  incr := fun i _ => by
    show (i : ℝ) / 100 < ((i + 1 : ℕ) : ℝ) / 100
    push_cast
    linarith

theorem exGrid_furnished {g : Diffusion.Geom} : Furnished (exGrid g) := ⟨rfl, fun _ _ => rfl⟩

theorem exMat_complete (T : ℝ) : Complete (exMat T) 2 :=
  ⟨by simp [exMat], by simp [exMat], by simp [exMat], Or.inr (by simp [exMat]), Or.inl rfl⟩

theorem exMat_physical {T : ℝ} (hT : 0 ≤ T) : (∀ g, g < 2 → 0 < law (exMat T).tot T g) ∧ (∀ n, n < 4 → 0 ≤ law (exMat T).scatt T n) ∧
    ∀ g, g < 2 → ∑ h ∈ range 2, law (exMat T).scatt T (h + g * 2) < law (exMat T).tot T g := by
  refine ⟨fun g hg => ?_, fun n hn => ?_, fun g hg => ?_⟩
  · interval_cases g <;> simp [exMat, law, Numeric.polyValue, constLaw, sum_range_succ]
    positivity
  · interval_cases n <;> norm_num [exMat, law, Numeric.polyValue, constLaw, sum_range_succ]
  · interval_cases g <;> norm_num [exMat, law, Numeric.polyValue, constLaw, sum_range_succ]
    linarith

end

end Verif.Mesh
