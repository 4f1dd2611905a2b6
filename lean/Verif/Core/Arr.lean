import Verif.Core.Lemmas

/-!
# Arrays with several indices (`Eigen::Tensor`) with checked access

This file models no particular file of `/repo`; see `Verif/Core/Outcome.lean`.
-/

namespace Verif

open Outcome Finset

variable {ι K : Type}

/-- A run-time sized array with index type `ι` (for a `Eigen::Tensor<double, 3>` it is `ℕ × ℕ × ℕ`). Only the entries with index in
`dom` exist. -/
structure Arr (ι K : Type) where
  dom : ι → Prop
  v : ι → K

namespace Arr

open scoped Classical in
/-- reading an entry; out of bounds is undefined behaviour -/
noncomputable def get (x : Arr ι K) (i : ι) : Outcome K := if x.dom i then ok (x.v i) else ub

open scoped Classical in
/-- writing an entry; out of bounds is undefined behaviour -/
noncomputable def set (x : Arr ι K) (i : ι) (a : K) : Outcome (Arr ι K) :=
  if x.dom i then ok ⟨x.dom, fun j => if j = i then a else x.v j⟩ else ub

/-- the box `a × b × c`, `Eigen::Tensor<double, 3>(a, b, c)` after `setZero()` -/
def zero3 [Zero K] (a b c : Nat) : Arr (ℕ × ℕ × ℕ) K := ⟨fun x => x.1 < a ∧ x.2.1 < b ∧ x.2.2 < c, fun _ => 0⟩

/-- the box `a × b × c × d`, `Eigen::Tensor<double, 4>(a, b, c, d)` after `setZero()` -/
def zero4 [Zero K] (a b c d : Nat) : Arr (ℕ × ℕ × ℕ × ℕ) K :=
  ⟨fun x => x.1 < a ∧ x.2.1 < b ∧ x.2.2.1 < c ∧ x.2.2.2 < d, fun _ => 0⟩

theorem get_ok {x : Arr ι K} {i : ι} (h : x.dom i) : x.get i = ok (x.v i) := if_pos h

theorem get_ub {x : Arr ι K} {i : ι} (h : ¬ x.dom i) : x.get i = ub := if_neg h

open scoped Classical in
theorem set_ok {x : Arr ι K} {i : ι} {a : K} (h : x.dom i) :
    x.set i a = ok ⟨x.dom, fun j => if j = i then a else x.v j⟩ := if_pos h

theorem set_ub {x : Arr ι K} {i : ι} {a : K} (h : ¬ x.dom i) : x.set i a = ub := if_neg h

end Arr

end Verif
