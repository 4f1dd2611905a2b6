import Verif.Core.Outcome
import Verif.Core.Fl
import Verif.Numeric.Model
import Mathlib.Data.Nat.Sqrt

/-!
# Model of the eigenvalue solvers

`/repo/Utilities/numeric_tools.cpp:24-46,173-321` and `/repo/Utilities/eigenmodesResults.h`. Numbers are `Fl`: exact reals together with
not-a-number and the infinities, since these solvers compare quotients that may be `0/0`. The linear solver (Eigen's
`ColPivHouseholderQR`), the generalized eigenvalue solver and the order in which `std::sort` leaves equal elements are parameters.
-/

namespace Verif.Eigen

open Outcome Fl

noncomputable section

/-- `Fmatrix * x` (`/repo/Utilities/numeric_tools.cpp:229-230`). A mismatch of the sizes is undefined behaviour (an assertion in debug
builds). -/
def matVec (F : Mat Fl) (x : Vec Fl) : Outcome (Vec Fl) :=
  if F.c = x.n then ok ⟨F.r, fun i => sumTo (fun j => mul (F.m i j) (x.v j)) F.c⟩ else ub

/-- `std::inner_product(a.begin(), a.end(), b.begin(), 0.0)` (`/repo/Utilities/numeric_tools.cpp:232-233`). -/
def inner (a b : Vec Fl) : Outcome Fl :=
  if a.n ≤ b.n then ok (sumTo (fun i => mul (a.v i) (b.v i)) a.n) else ub

/-- `neutronFlux2.lpNorm<1>()` (`/repo/Utilities/numeric_tools.cpp:254,298`). -/
def norm1 (x : Vec Fl) : Fl := sumTo (fun i => Fl.abs (x.v i)) x.n

/-- `is_lower(x, y)` on doubles (`/repo/Utilities/numeric_tools.h:70-74`). -/
def flLower (x y : Fl) : Prop := Fl.lt x (sub y (fin Numeric.tol))

/-- `is_greater(x, y)` on doubles (`/repo/Utilities/numeric_tools.h:58-62`). -/
def flGreater (x y : Fl) : Prop := Fl.lt (add y (fin Numeric.tol)) x

open Classical in
/-- `diagonalDominanceCheck` (`/repo/Utilities/numeric_tools.cpp:24-46`): true if the warning is printed. Rows and columns both run over
the number of rows. -/
def diagonalDominanceCheck (M : Mat Fl) : Outcome Bool := do
  let S ← loop (fun i (S : Vec Fl) =>
    loop (fun j (S : Vec Fl) => do
      let s ← S.get i
      let x ← M.get i j
      S.set i (add s (Fl.abs x))) M.r S) M.r (Vec.const M.r (fin 0))
  loop (fun i (w : Bool) => do
    let x ← M.get i i
    let s ← S.get i
    ok (w || decide (flLower x (sub s x)))) M.r false

/-- The variables of the loop of `sourceIteration` (`/repo/Utilities/numeric_tools.cpp:208-214`). -/
structure Iter where
  source2 : Vec Fl
  flux1 : Vec Fl
  flux2 : Vec Fl
  k1 : Fl
  k2 : Fl

/-- Initial values (`/repo/Utilities/numeric_tools.cpp:208-214`; `source1` is written before it is read). -/
def start (size : Nat) : Iter :=
  ⟨Vec.const size (fin 1), Vec.const size (fin 1), Vec.const size (fin 0), fin 1, fin 0⟩

/-- `CPHQR.solve(source2)` (`/repo/Utilities/numeric_tools.cpp:227`): `qr b i` is entry `i` of the vector returned for the right-hand
side `b`. The right-hand side must have one entry per row of the matrix. -/
def solve (qr : List Fl → Nat → Fl) (M : Mat Fl) (b : Vec Fl) : Outcome (Vec Fl) :=
  if b.n = M.r then ok ⟨M.c, qr b.toList⟩ else ub

/-- One pass up to the exit condition (`/repo/Utilities/numeric_tools.cpp:227-236`). -/
def pass (qr : List Fl → Nat → Fl) (M F : Mat Fl) (s : Iter) : Outcome Iter := do
  let flux2 ← solve qr M s.source2
  let source1 ← matVec F s.flux1
  let source2 ← matVec F flux2
  let sum1 ← inner source1 source2
  let sum2 ← inner source2 source2
  let k2 := mul s.k1 (div sum2 sum1)
  ok { s with source2 := ⟨source2.n, fun i => div (source2.v i) k2⟩, flux2 := flux2, k2 := k2 }

/-- The exit condition (`/repo/Utilities/numeric_tools.cpp:239`). -/
def stop (acc : ℝ) (s : Iter) : Prop := Fl.lt (Fl.abs (div (sub s.k2 s.k1) s.k2)) (fin acc)

/-- The end of a pass (`/repo/Utilities/numeric_tools.cpp:241-242`). -/
def shift (s : Iter) : Iter := { s with k1 := s.k2, flux1 := s.flux2 }

open Classical in
/-- The loop (`/repo/Utilities/numeric_tools.cpp:225-243`) from pass `h` on, with `n` passes left: the final `h` and the variables. -/
def run (qr : List Fl → Nat → Fl) (M F : Mat Fl) (acc : ℝ) : Nat → Nat → Iter → Outcome (Nat × Iter)
  | h, 0, s => ok (h, s)
  | h, n + 1, s => do
    let s ← pass qr M F s
    if stop acc s then ok (h, s) else run qr M F acc (h + 1) n (shift s)

/-- The largest `int`. -/
def intMax : Int := 2147483647

/-- Lines 247-258: the error exit or the result, the k-factor and the flux. `h + 1` is an `int`: its overflow is undefined. -/
def finish (maxIter : Int) (r : Nat × Iter) : Outcome (Fl × Vec Fl) :=
  if intMax < (r.1 : Int) + 1 then ub
  else if (r.1 : Int) + 1 > maxIter then exit
  else ok (r.2.k2, ⟨r.2.flux2.n, fun i => div (r.2.flux2.v i) (norm1 r.2.flux2)⟩)

/-- `sourceIteration` (`/repo/Utilities/numeric_tools.cpp:194-259`): the k-factor and the flux. The iteration limit is an `int`;
the square root of the number of entries is taken in doubles and cut to an integer. -/
def sourceIteration (qr : List Fl → Nat → Fl) (M F : Mat Fl) (maxIter : Int) (acc : ℝ) : Outcome (Fl × Vec Fl) := do
  let _ ← diagonalDominanceCheck M
  if M.r * M.c ≠ F.r * F.c then exit
  else run qr M F acc 0 maxIter.toNat (start (Nat.sqrt (M.r * M.c))) >>= finish maxIter

/-! ### all eigenmodes -/

/-- `hasImagValues` (`/repo/Utilities/numeric_tools.cpp:313-321`) on pairs of real and imaginary part. -/
def hasImagValues (a : List (Fl × Fl)) : Prop := ∃ z ∈ a, flGreater z.2 (fin 0)

/-- The mode kept for column `i` (`/repo/Utilities/numeric_tools.cpp:297-298`); `V i j` is the real part of the entry in row `i` and
column `j`, taken to be finite. `copysign(1.0, s)` is `1` for `s = 0`. -/
def mode (n : Nat) (V : Nat → Nat → ℝ) (i : Nat) : Vec Fl :=
  let s := sumTo (fun p => fin (V p i)) n
  let sign : ℝ := match s with
    | fin x => if x < 0 then -1 else 1
    | _ => 1
  let norm := sumTo (fun p => Fl.abs (fin (V p i))) n
  ⟨n, fun p => div (mul (fin sign) (fin (V p i))) norm⟩

open Classical in
/-- The loop of `sortEigenmodes` (`/repo/Utilities/numeric_tools.cpp:293-303`). -/
def keep (n : Nat) (V : Nat → Nat → ℝ) (evals : List (Fl × Fl)) : List (Fl × Vec Fl) :=
  (evals.zipIdx).filterMap (fun z =>
    if z.1.1 ≠ nan ∧ flGreater z.1.1 (fin 0) then some (z.1.1, mode n V z.2) else none)

open Classical in
/-- `std::sort` with `a.first > b.first` (`/repo/Utilities/numeric_tools.cpp:306-308`): with a not-a-number among the keys the
comparison is no strict weak order and the behaviour is undefined. `sort` is what the library does otherwise. -/
def stdSort (sort : List (Fl × Vec Fl) → List (Fl × Vec Fl)) (l : List (Fl × Vec Fl)) : Outcome (List (Fl × Vec Fl)) :=
  if ∃ m ∈ l, m.1 = nan then ub else ok (sort l)

open Classical in
/-- `sortEigenmodes` (`/repo/Utilities/numeric_tools.cpp:279-311`). -/
def sortEigenmodes (sort : List (Fl × Vec Fl) → List (Fl × Vec Fl)) (n : Nat) (evals : List (Fl × Fl)) (V : Nat → Nat → ℝ) :
    Outcome (List (Fl × Vec Fl)) :=
  if hasImagValues evals then exit else stdSort sort (keep n V evals)

/-- What `eigenmodesResults` holds (`/repo/Utilities/eigenmodesResults.h:10-12`). -/
structure Results where
  k : Fl
  flux : Vec Fl
  modes : List (Fl × Vec Fl)

/-- The constructor from one mode (`/repo/Utilities/eigenmodesResults.h:21-27`). -/
def ofMode (m : Fl × Vec Fl) : Results := ⟨m.1, m.2, [m]⟩

/-- The constructor from a list of modes (`/repo/Utilities/eigenmodesResults.h:29-36`): `front()` of an empty list is undefined. -/
def ofModes : List (Fl × Vec Fl) → Outcome Results
  | [] => ub
  | m :: l => ok ⟨m.1, m.2, m :: l⟩

/-- `getEigenvalues` (`/repo/Utilities/eigenmodesResults.h:42-50`). -/
def Results.eigenvalues (r : Results) : List Fl := r.modes.map Prod.fst

/-- `getKFactor` (`/repo/Backbone/Datamodel/Reactor.h:26`) after the eigenvalues were stored. -/
def kFactor : List Fl → Outcome Fl
  | [] => ub
  | k :: _ => ok k

/-- `GeneralizedEigenSolver` (`/repo/Utilities/numeric_tools.cpp:261-277`): `evals` are the eigenvalues of the library after
`cwiseInverse`, `V` the real parts of its eigenvectors. -/
def generalizedEigenSolver (sort : List (Fl × Vec Fl) → List (Fl × Vec Fl)) (n : Nat) (evals : List (Fl × Fl))
    (V : Nat → Nat → ℝ) : Outcome Results :=
  sortEigenmodes sort n evals V >>= ofModes

/-- `Numerics::sourceIteration` with its result object (`/repo/Utilities/numeric_tools.cpp:254-258`). -/
def fundamental (qr : List Fl → Nat → Fl) (M F : Mat Fl) (maxIter : Int) (acc : ℝ) : Outcome Results := do
  let r ← sourceIteration qr M F maxIter acc
  ok (ofMode r)

end

end Verif.Eigen
