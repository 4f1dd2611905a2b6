import Verif.Core.Fl
import Verif.Core.Outcome
import Mathlib.Data.List.Perm.Basic
import Mathlib.Algebra.BigOperators.Group.Finset.Basic
import Mathlib.Algebra.Order.BigOperators.Group.Finset
import Mathlib.Data.Real.Basic
import Mathlib.Data.List.Basic

/-!
# Specification vocabulary for the eigenvalue solvers (no model definitions)
-/

namespace Verif.Eigen

open Finset

/-- The matrix `A` of size `n` applied to `x`. -/
def act (n : Nat) (A : Nat → Nat → ℝ) (x : Nat → ℝ) (i : Nat) : ℝ := ∑ q ∈ range n, A i q * x q

/-- The scalar product. -/
def dot (n : Nat) (a b : Nat → ℝ) : ℝ := ∑ i ∈ range n, a i * b i

/-- The 1-norm. -/
def oneNorm (n : Nat) (x : Nat → ℝ) : ℝ := ∑ i ∈ range n, |x i|

/-- Square matrices of one size. -/
def Square (N : Nat) (M F : Mat Fl) : Prop := M.r = N ∧ M.c = N ∧ F.r = N ∧ F.c = N

/-- The entries of the stored matrix are the numbers `A`. -/
def Entries (N : Nat) (A : Nat → Nat → ℝ) (X : Mat Fl) : Prop := ∀ i j, i < N → j < N → X.m i j = .fin (A i j)

/-- A right-hand side of length `n` with finite entries. -/
def rhs (n : Nat) (b : Nat → ℝ) : List Fl := (List.range n).map (fun i => Fl.fin (b i))

/-- The first `h` steps of the power iteration with the solver `qr` and the fission matrix `F` ran through finite numbers only:
`x j` is the flux and `κ j` the k-factor after step `j`; step `0` is the flat guess. The first right-hand side is flat, later ones
are the fission source of the last flux over the last k-factor. -/
structure Iterates (n : Nat) (qr : List Fl → Nat → Fl) (F : Nat → Nat → ℝ) (x : Nat → Nat → ℝ) (κ : Nat → ℝ) (h : Nat) :
    Prop where
  flux_zero : ∀ i, i < n → x 0 i = 1
  k_zero : κ 0 = 1
  first : 0 < h → ∀ i, i < n → qr (rhs n (fun _ => 1)) i = .fin (x 1 i)
  next : ∀ j, j + 1 < h → ∀ i, i < n → qr (rhs n (fun p => act n F (x (j + 1)) p / κ (j + 1))) i = .fin (x (j + 2) i)
  overlap : ∀ j, j < h → dot n (act n F (x j)) (act n F (x (j + 1))) ≠ 0
  k_next : ∀ j, j < h → κ (j + 1) = κ j * (dot n (act n F (x (j + 1))) (act n F (x (j + 1))) /
    dot n (act n F (x j)) (act n F (x (j + 1))))

/-- The relative change of the k-factor in step `j`. -/
noncomputable def change (κ : Nat → ℝ) (j : Nat) : ℝ := |(κ (j + 1) - κ j) / κ (j + 1)|

/-- A solver for the matrix `M`: for every finite right-hand side it returns a solution. -/
def Solves (n : Nat) (M : Nat → Nat → ℝ) (qr : List Fl → Nat → Fl) : Prop :=
  ∀ b : Nat → ℝ, ∃ x : Nat → ℝ, (∀ i, i < n → qr (rhs n b) i = .fin (x i)) ∧ ∀ i, i < n → act n M x i = b i

/-- `M φ = F φ / k` with a flux that is not zero. -/
def Eigenpair (n : Nat) (M F : Nat → Nat → ℝ) (k : ℝ) (φ : Nat → ℝ) : Prop :=
  (∃ i, i < n ∧ φ i ≠ 0) ∧ ∀ i, i < n → act n M φ i = act n F φ i / k

/-- The inverse of `M` has no negative entries. -/
def InversePositive (n : Nat) (M : Nat → Nat → ℝ) : Prop :=
  ∀ x : Nat → ℝ, (∀ i, i < n → 0 ≤ act n M x i) → ∀ i, i < n → 0 ≤ x i

/-- The inverse of `M` has only positive entries. -/
def InverseStrict (n : Nat) (M : Nat → Nat → ℝ) : Prop :=
  ∀ x : Nat → ℝ, (∀ i, i < n → 0 ≤ act n M x i) → (∃ i, i < n ∧ 0 < act n M x i) → ∀ i, i < n → 0 < x i

/-- `ψ` is a non-negative adjoint flux with k-factor `k`: the transposed equations. -/
def AdjointPair (n : Nat) (M F : Nat → Nat → ℝ) (k : ℝ) (ψ : Nat → ℝ) : Prop :=
  (∀ i, i < n → 0 ≤ ψ i) ∧ ∀ q, q < n → ∑ p ∈ range n, ψ p * M p q = (∑ p ∈ range n, ψ p * F p q) / k

/-- The flat source is a combination of `r` modes `φ m` with k-factors `k m`, of which the one with number 0 dominates and is not
without fission source. -/
structure DominantMode (n : Nat) (M F : Nat → Nat → ℝ) (r : Nat) (φ : Nat → Nat → ℝ) (k c : Nat → ℝ) : Prop where
  r_pos : 0 < r
  mode : ∀ m, m < r → ∀ i, i < n → act n F (φ m) i = k m * act n M (φ m) i
  flat : ∀ i, i < n → ∑ m ∈ range r, c m * act n M (φ m) i = 1
  k_ne : k 0 ≠ 0
  dominant : ∀ m, 0 < m → m < r → |k m| < |k 0|
  source : ∃ i, i < n ∧ c 0 * act n F (φ 0) i ≠ 0

/-- Fission in two steps: `Q` turns the flux into an emission density, `L` turns that into the right-hand side of the equation. -/
structure Factored (n : Nat) (A L Q : Nat → Nat → ℝ) : Prop where
  prod : ∀ i j, i < n → j < n → A i j = ∑ p ∈ range n, L i p * Q p j
  L_nonneg : ∀ i j, i < n → j < n → 0 ≤ L i j
  Q_nonneg : ∀ i j, i < n → j < n → 0 ≤ Q i j

/-- Fission neutrons are emitted at (cell and group) `i` for some flux. -/
def Emits (n : Nat) (Q : Nat → Nat → ℝ) (i : Nat) : Prop := ∃ q, q < n ∧ Q i q ≠ 0

/-- Neutrons emitted where fission can emit them cause fission, and with it emission, wherever fission can emit. -/
def Connected (n : Nat) (M L Q : Nat → Nat → ℝ) : Prop :=
  ∀ x r : Nat → ℝ, (∀ j, j < n → 0 ≤ r j) → (∀ i, i < n → act n M x i = act n L r i) →
    (∃ j, j < n ∧ Emits n Q j ∧ 0 < r j) → ∀ i, i < n → Emits n Q i → 0 < act n Q x i

/-- The loss matrix couples different entries by gains only. -/
def OffDiagonal (n : Nat) (M : Nat → Nat → ℝ) : Prop := ∀ i j, i < n → j < n → i ≠ j → M i j ≤ 0

/-- What `std::sort` guarantees for keys that are numbers: a rearrangement in non-increasing order. -/
def SortsDown (sort : List (Fl × Vec Fl) → List (Fl × Vec Fl)) : Prop :=
  ∀ l, (∀ m ∈ l, m.1 ≠ Fl.nan) → (sort l).Perm l ∧ (sort l).Pairwise (fun a b => ¬ Fl.lt a.1 b.1)

/-- Above the tolerance `10 ε`: infinity or a larger number. -/
def Above : Fl → Prop
  | .fin x => 10 / 2 ^ 52 < x
  | .inf neg => neg = false
  | .nan => False

/-- A list of complex numbers that contains the conjugate of each of its finite members. -/
def ConjClosed (l : List (Fl × Fl)) : Prop := ∀ a b, (a, Fl.fin b) ∈ l → (a, Fl.fin (-b)) ∈ l

/-- `w` is the column `v` scaled to unit 1-norm, with the sign that makes the sum of its entries non-negative. -/
def Normalised (n : Nat) (v : Nat → ℝ) (w : Vec Fl) : Prop :=
  w.n = n ∧ ∃ c : ℝ, c ≠ 0 ∧ (∀ i, i < n → w.v i = .fin (c * v i)) ∧ ∑ i ∈ range n, |c * v i| = 1 ∧
    0 ≤ ∑ i ∈ range n, c * v i

end Verif.Eigen
