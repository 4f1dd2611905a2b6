import Mathlib.Data.Nat.Basic
import Mathlib.Tactic.Common
import Mathlib.Logic.Function.Basic

/-!
# Outcomes of a run of the C++ code, checked containers and counted loops

This file models no particular file of `/repo`; it fixes how C++ behaviour is represented:

* `ok a`       the computation ends normally with value `a`;
* `exit`       the code prints an error message and calls `exit(-1)`;
* `throws e`   a C++ exception leaves the function;
* `ub`         undefined behaviour (index out of bounds, `front()` of an empty container, ...);
* `nonfinite`  a division by zero took place, so the C++ `double` is no longer a real number
               (`inf` or `nan`); the code carries on, the model stops, since its numbers are exact reals.
-/

namespace Verif

/-- The C++ exceptions thrown in the modelled code (`Utilities/numeric_tools.h:87,101,125,138,150,172` and the standard
library conversions used in `Backbone/IO/Input.cpp`, and `std::bad_variant_access` of
`Backbone/Datamodel/BaseCalculation.cpp:38-58`, and the exception of the logging library if a file cannot be opened, `Backbone/IO/Output.cpp:102-106`). -/
inductive Exn
  | lengthError | overflowError | invalidArgument | outOfRange | domainError | badVariant | ioError
  deriving DecidableEq, Repr

/-- Outcome of a computation, see the header of this file. -/
inductive Outcome (α : Type) where
  | ok (a : α)
  | exit
  | throws (e : Exn)
  | ub
  | nonfinite
  deriving DecidableEq, Repr

namespace Outcome

variable {α β σ : Type}

/-- Sequencing: anything but a normal end is final. -/
def bind (x : Outcome α) (f : α → Outcome β) : Outcome β :=
  match x with
  | ok a => f a
  | exit => exit
  | throws e => throws e
  | ub => ub
  | nonfinite => nonfinite

instance : Monad Outcome where
  pure := ok
  bind := bind

@[simp] theorem pure_eq (a : α) : (pure a : Outcome α) = ok a := rfl
@[simp] theorem ok_bind (a : α) (f : α → Outcome β) : (ok a >>= f) = f a := rfl
@[simp] theorem exit_bind (f : α → Outcome β) : ((exit : Outcome α) >>= f) = exit := rfl
@[simp] theorem throws_bind (e : Exn) (f : α → Outcome β) : ((throws e : Outcome α) >>= f) = throws e := rfl
@[simp] theorem ub_bind (f : α → Outcome β) : ((ub : Outcome α) >>= f) = ub := rfl
@[simp] theorem nonfinite_bind (f : α → Outcome β) : ((nonfinite : Outcome α) >>= f) = nonfinite := rfl
@[simp] theorem map_ok (f : α → β) (a : α) : (f <$> (ok a : Outcome α)) = ok (f a) := rfl
@[simp] theorem bind_eq (x : Outcome α) (f : α → Outcome β) : Outcome.bind x f = (x >>= f) := rfl

instance : LawfulMonad Outcome := LawfulMonad.mk'
  (id_map := by intro α x; cases x <;> rfl)
  (pure_bind := by intro α β a f; rfl)
  (bind_assoc := by intro α β γ x f g; cases x <;> rfl)

theorem bind_eq_ok {x : Outcome α} {f : α → Outcome β} {b : β} :
    (x >>= f) = ok b ↔ ∃ a, x = ok a ∧ f a = ok b := by
  cases x <;> simp

end Outcome

open Outcome

variable {α σ K : Type}

/-- `for (i = 0; i < n; i++) body(i)` with mutable state `σ`. -/
def loop (body : Nat → σ → Outcome σ) : Nat → σ → Outcome σ
  | 0, s => ok s
  | n + 1, s => loop body n s >>= body n

/-- `for (i = a; i < a + n; i++) body(i)` with mutable state `σ`. -/
def loopFrom (a : Nat) (body : Nat → σ → Outcome σ) (n : Nat) (s : σ) : Outcome σ :=
  loop (fun i => body (a + i)) n s

/-- The index `l - 1` (as in `Diffusion/BaseDiffusionCode.cpp:144` or `Heat/BaseHeatCode.cpp:39`), which is negative or wraps around
for `l = 0`: every use of it as an index is then out of bounds. -/
def predIdx (l : Nat) : Outcome Nat := if l = 0 then ub else ok (l - 1)

theorem predIdx_ok {l : Nat} (h : 0 < l) : predIdx l = ok (l - 1) := if_neg (by omega)

theorem loop_zero (body : Nat → σ → Outcome σ) (s : σ) : loop body 0 s = ok s := rfl

theorem loop_succ (body : Nat → σ → Outcome σ) (n : Nat) (s : σ) :
    loop body (n + 1) s = (loop body n s >>= body n) := rfl

/-- Hoare rule for counted loops. -/
theorem loop_inv {body : Nat → σ → Outcome σ} {n : Nat} {s : σ} (Inv : Nat → σ → Prop)
    (h0 : Inv 0 s)
    (hstep : ∀ i t, i < n → Inv i t → ∃ t', body i t = ok t' ∧ Inv (i + 1) t') :
    ∃ t, loop body n s = ok t ∧ Inv n t := by
  induction n with
  | zero => exact ⟨s, rfl, h0⟩
  | succ n ih =>
    obtain ⟨t, ht, hi⟩ := ih (fun i t hi => hstep i t (Nat.lt_succ_of_lt hi))
    obtain ⟨t', ht', hi'⟩ := hstep n t (Nat.lt_succ_self n) hi
    exact ⟨t', by rw [loop_succ, ht]; exact ht', hi'⟩

/-- Partial-correctness rule: what holds after a loop that did end normally. -/
theorem loop_inv_of_ok {body : Nat → σ → Outcome σ} {n : Nat} {s t : σ} (Inv : Nat → σ → Prop)
    (h0 : Inv 0 s) (hstep : ∀ i u u', i < n → Inv i u → body i u = ok u' → Inv (i + 1) u')
    (h : loop body n s = ok t) : Inv n t := by
  induction n generalizing t with
  | zero => cases h; exact h0
  | succ n ih =>
    rw [loop_succ, bind_eq_ok] at h
    obtain ⟨u, hu, hb⟩ := h
    exact hstep n u t (Nat.lt_succ_self n) (ih (fun i u u' hi => hstep i u u' (Nat.lt_succ_of_lt hi)) hu) hb

/-- If every step ends normally, so does the loop, with the folded value. -/
theorem loop_ok {body : Nat → σ → Outcome σ} {n : Nat} {s : σ} (f : Nat → σ)
    (h0 : f 0 = s) (hstep : ∀ i, i < n → body i (f i) = ok (f (i + 1))) :
    loop body n s = ok (f n) := by
  obtain ⟨t, ht, rfl⟩ := loop_inv (body := body) (n := n) (s := s) (fun i t => t = f i) h0.symm
    (by rintro i t hi rfl; exact ⟨_, hstep i hi, rfl⟩)
  exact ht

/-- Checked division of exact numbers: division by zero leaves the reals. -/
def fdiv [Div K] [Zero K] [DecidableEq K] (a b : K) : Outcome K :=
  if b = 0 then nonfinite else ok (a / b)

theorem fdiv_ok [Div K] [Zero K] [DecidableEq K] {a b : K} (h : b ≠ 0) : fdiv a b = ok (a / b) := by
  simp [fdiv, h]

/-- A container of numbers of run-time size: `std::vector<double>` or `Eigen::VectorXd`.
Only the entries `v 0, …, v (n-1)` exist. -/
structure Vec (K : Type) where
  n : Nat
  v : Nat → K

namespace Vec

/-- `x[i]` / `x(i)` for reading; out of bounds is undefined behaviour. -/
def get (x : Vec K) (i : Nat) : Outcome K := if i < x.n then ok (x.v i) else ub

/-- `x[i] = a`; out of bounds is undefined behaviour. -/
def set (x : Vec K) (i : Nat) (a : K) : Outcome (Vec K) :=
  if i < x.n then ok ⟨x.n, Function.update x.v i a⟩ else ub

/-- `x.push_back(a)`. -/
def push (x : Vec K) (a : K) : Vec K := ⟨x.n + 1, Function.update x.v x.n a⟩

/-- A vector of `n` equal entries, `std::vector<double>(n, a)`. -/
def const (n : Nat) (a : K) : Vec K := ⟨n, fun _ => a⟩

/-- A braced list `{a, b, ...}`. -/
def ofList [Inhabited K] (l : List K) : Vec K := ⟨l.length, fun i => l.getD i default⟩

/-- The existing entries as a list. -/
def toList (x : Vec K) : List K := (List.range x.n).map x.v

theorem get_ok {x : Vec K} {i : Nat} (h : i < x.n) : x.get i = ok (x.v i) := by simp [get, h]

theorem get_ub {x : Vec K} {i : Nat} (h : ¬ i < x.n) : x.get i = ub := by simp [get, h]

theorem set_ub {x : Vec K} {i : Nat} {a : K} (h : ¬ i < x.n) : x.set i a = ub := by simp [set, h]

theorem set_ok {x : Vec K} {i : Nat} {a : K} (h : i < x.n) :
    x.set i a = ok ⟨x.n, Function.update x.v i a⟩ := by simp [set, h]

end Vec

/-- A run-time sized dense matrix, `Eigen::MatrixXd`. Only entries with `i < r`, `j < c` exist. -/
structure Mat (K : Type) where
  r : Nat
  c : Nat
  m : Nat → Nat → K

namespace Mat

/-- `M(i, j)` for reading; out of bounds is undefined behaviour (an assertion in debug builds). -/
def get (x : Mat K) (i j : Nat) : Outcome K := if i < x.r ∧ j < x.c then ok (x.m i j) else ub

/-- `M(i, j) = a`; out of bounds is undefined behaviour. -/
def set (x : Mat K) (i j : Nat) (a : K) : Outcome (Mat K) :=
  if i < x.r ∧ j < x.c then
    ok ⟨x.r, x.c, fun p q => if p = i ∧ q = j then a else x.m p q⟩ else ub

/-- `Eigen::MatrixXd::Zero(r, c)`. -/
def zero [Zero K] (r c : Nat) : Mat K := ⟨r, c, fun _ _ => 0⟩

theorem get_ok {x : Mat K} {i j : Nat} (h : i < x.r) (h' : j < x.c) : x.get i j = ok (x.m i j) := by
  simp [get, h, h']

theorem get_ub {x : Mat K} {i j : Nat} (h : ¬ (i < x.r ∧ j < x.c)) : x.get i j = ub := by
  simp [get, h]

theorem set_ub {x : Mat K} {i j : Nat} {a : K} (h : ¬ (i < x.r ∧ j < x.c)) : x.set i j a = ub := by
  simp [set, h]

theorem set_ok {x : Mat K} {i j : Nat} {a : K} (h : i < x.r) (h' : j < x.c) :
    x.set i j a = ok ⟨x.r, x.c, fun p q => if p = i ∧ q = j then a else x.m p q⟩ := by
  simp [set, h, h']

end Mat

end Verif
