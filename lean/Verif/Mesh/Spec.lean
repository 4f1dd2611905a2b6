import Verif.Mesh.Data
import Verif.Numeric.Spec
import Mathlib.Analysis.SpecialFunctions.Trigonometric.Basic

/-! # What a mesh and its materials should satisfy (no definition of the model is used here) -/

namespace Verif.Mesh

open Verif Outcome

noncomputable section

/-- Number of directions in which a body extends over the mesh: a slab is infinite in two directions, a cylinder in one. -/
def dimension : Diffusion.Geom → Nat
  | .undefined => 0
  | .slab => 1
  | .cylinder => 2
  | .sphere => 3

/-- Area of the boundary at position `r`: of one square unit of a plane, of one unit of height of a cylinder, of a sphere. -/
def area : Diffusion.Geom → ℝ → ℝ
  | .undefined, _ => 0
  | .slab, _ => 1
  | .cylinder, r => 2 * Real.pi * r
  | .sphere, r => 4 * Real.pi * r ^ 2

/-- A sensible mesh: a geometry, one boundary more than cells, increasing, and no negative radii. -/
structure Shaped (M : Grid) : Prop where
  geom : M.geom ≠ .undefined
  bounds_n : M.bounds.n = M.cells + 1
  first : M.geom ≠ .slab → 0 ≤ M.bounds.v 0
  incr : ∀ i, i < M.cells → M.bounds.v i < M.bounds.v (i + 1)

/-- Every cell has a material, with the number of groups of the mesh. -/
structure Furnished (M : Grid) : Prop where
  mats_n : M.mats.n = M.cells
  energies : ∀ i, i < M.cells → (M.mats.v i).energies = M.energies

/-- The value at temperature `T` of law number `g`; without such a law, zero. -/
def law (L : List (Vec ℝ)) (T : ℝ) (g : Nat) : ℝ :=
  match L[g]? with
  | some c => Numeric.polyValue c.n c.v T
  | none => 0

/-- The result is the `r × c` table with entries `f`. -/
def Gives {K : Type} (x : Outcome (Mat K)) (r c : Nat) (f : Nat → Nat → K) : Prop :=
  ∃ X, x = ok X ∧ X.r = r ∧ X.c = c ∧ ∀ i, i < r → ∀ j, j < c → X.m i j = f i j

/-- The result is the vector of length `n` with entries `f`. -/
def GivesVec {K : Type} (x : Outcome (Vec K)) (n : Nat) (f : Nat → K) : Prop :=
  ∃ X, x = ok X ∧ X.n = n ∧ ∀ i, i < n → X.v i = f i

/-- The result is the `a × b × c` table with entries `f`. -/
def GivesBox {K : Type} (x : Outcome (Box K)) (a b c : Nat) (f : Nat → Nat → Nat → K) : Prop :=
  ∃ X, x = ok X ∧ X.a = a ∧ X.b = b ∧ X.c = c ∧ ∀ i, i < a → ∀ j, j < b → ∀ k, k < c → X.v i j k = f i j k

/-- All nuclear data of a material are given for `E` groups (the fission data `ν` and `χ` may be left out altogether). -/
structure Complete (m : Material) (E : Nat) : Prop where
  tot : E ≤ m.tot.length
  fiss : E ≤ m.fiss.length
  scatt : E * E ≤ m.scatt.length
  nu : m.nu = [] ∨ E ≤ m.nu.length
  chi : m.chi = [] ∨ E ≤ m.chi.length

end

end Verif.Mesh
