import Verif.Eigen.Model
import Verif.Eigen.Spec
import Verif.Core.FlLemmas
import Verif.Core.Lemmas
import Mathlib.Algebra.BigOperators.Ring.Finset
import Mathlib.Algebra.BigOperators.Field
import Mathlib.Algebra.Order.BigOperators.Ring.Finset
import Mathlib.Tactic.FieldSimp
import Mathlib.Tactic.Linarith

/-! Helper lemmas for the eigenvalue solvers. -/

namespace Verif.Eigen

open Outcome Fl Finset

noncomputable section

variable {N : Nat} {qr : List Fl → Nat → Fl} {M F : Mat Fl} {acc : ℝ}

/-- the check of the diagonal only prints -/
theorem dominance_ok {M : Mat Fl} (h : M.r ≤ M.c) : ∃ w, diagonalDominanceCheck M = ok w := by
  unfold diagonalDominanceCheck
  obtain ⟨S, eS, nS⟩ := loop_inv (body := fun i (S : Vec Fl) =>
    loop (fun j (S : Vec Fl) => do
      let s ← S.get i
      let x ← M.get i j
      S.set i (add s (Fl.abs x))) M.r S) (n := M.r) (s := Vec.const M.r (fin 0))
    (fun _ S => S.n = M.r) rfl (by
      intro i S hi hS
      obtain ⟨T, eT, nT⟩ := loop_inv (body := fun j (S : Vec Fl) => do
        let s ← S.get i
        let x ← M.get i j
        S.set i (add s (Fl.abs x))) (n := M.r) (s := S) (fun _ S => S.n = M.r) hS (by
          intro j S hj hS
          refine ⟨⟨S.n, Function.update S.v i (add (S.v i) (Fl.abs (M.m i j)))⟩, ?_, hS⟩
          rw [Vec.get_ok (by omega), ok_bind, Mat.get_ok hi (by omega), ok_bind, Vec.set_ok (by omega)])
      exact ⟨T, eT, nT⟩)
  rw [eS, ok_bind]
  obtain ⟨w, ew, -⟩ := loop_inv (body := fun i (w : Bool) => do
    let x ← M.get i i
    let s ← S.get i
    ok (w || @decide (flLower x (sub s x)) (Classical.propDecidable _))) (n := M.r) (s := false) (fun _ _ => True) trivial (by
      intro i w hi _
      rw [Mat.get_ok hi (by omega), ok_bind, Vec.get_ok (by omega), ok_bind]
      exact ⟨_, rfl, trivial⟩)
  exact ⟨w, ew⟩

theorem dominance_fin {M : Mat Fl} {N : Nat} {A : Nat → Nat → ℝ} (hr : M.r = N) (hc : M.c = N) (hA : Entries N A M) :
    ∃ w, diagonalDominanceCheck M = ok w ∧
      (w = true ↔ ∃ i, i < N ∧ A i i < ∑ j ∈ range N, |A i j| - A i i - Numeric.tol) := by
  subst hr
  unfold diagonalDominanceCheck
  obtain ⟨S, eS, nS, vS, -⟩ := loop_inv (body := fun i (S : Vec Fl) =>
    loop (fun j (S : Vec Fl) => do
      let s ← S.get i
      let x ← M.get i j
      S.set i (add s (Fl.abs x))) M.r S) (n := M.r) (s := Vec.const M.r (fin 0))
    (fun k S => S.n = M.r ∧ (∀ i, i < k → S.v i = fin (∑ j ∈ range M.r, |A i j|)) ∧ ∀ i, k ≤ i → S.v i = fin 0)
    ⟨rfl, by simp, fun _ _ => rfl⟩ (by
      rintro i S hi ⟨hS, h1, h2⟩
      obtain ⟨T, eT, nT, v1, v2⟩ := loop_inv (body := fun j (S : Vec Fl) => do
        let s ← S.get i
        let x ← M.get i j
        S.set i (add s (Fl.abs x))) (n := M.r) (s := S)
        (fun k T => T.n = M.r ∧ T.v i = fin (∑ j ∈ range k, |A i j|) ∧ ∀ p, p ≠ i → T.v p = S.v p)
        ⟨hS, by simp [h2 i le_rfl], fun _ _ => rfl⟩ (by
          rintro j T hj ⟨hT, t1, t2⟩
          refine ⟨⟨T.n, Function.update T.v i (add (T.v i) (Fl.abs (M.m i j)))⟩, ?_, hT, ?_, ?_⟩
          · rw [Vec.get_ok (by omega), ok_bind, Mat.get_ok hi (by omega), ok_bind, Vec.set_ok (by omega)]
          · dsimp only
            rw [Function.update_self, t1, hA i j hi hj, sum_range_succ]
            rfl
          · intro p hp
            dsimp only
            rw [Function.update_of_ne hp, t2 p hp])
      refine ⟨T, eT, nT, ?_, ?_⟩
      · intro p hp
        by_cases h : p = i
        · subst h; exact v1
        · rw [v2 p h, h1 p (by omega)]
      · intro p hp
        rw [v2 p (by omega), h2 p (by omega)])
  rw [eS, ok_bind]
  obtain ⟨w, ew, hw⟩ := loop_inv (body := fun i (w : Bool) => do
    let x ← M.get i i
    let s ← S.get i
    ok (w || @decide (flLower x (sub s x)) (Classical.propDecidable _))) (n := M.r) (s := false)
    (fun k w => w = true ↔ ∃ i, i < k ∧ A i i < ∑ j ∈ range M.r, |A i j| - A i i - Numeric.tol) (by simp) (by
      intro i w hi hw
      rw [Mat.get_ok hi (by omega), ok_bind, Vec.get_ok (by omega), ok_bind]
      refine ⟨_, rfl, ?_⟩
      rw [Bool.or_eq_true, hw, @decide_eq_true_iff _ (Classical.propDecidable _), hA i i hi hi, vS i hi]
      constructor
      · rintro (⟨p, hp, h⟩ | h)
        · exact ⟨p, by omega, h⟩
        · exact ⟨i, by omega, h⟩
      · rintro ⟨p, hp, h⟩
        by_cases hpi : p = i
        · subst hpi; exact Or.inr h
        · exact Or.inl ⟨p, by omega, h⟩)
  exact ⟨w, ew, hw⟩

/-- the new variables after one pass -/
def pp (N : Nat) (qr : List Fl → Nat → Fl) (F : Mat Fl) (s : Iter) : Iter :=
  let y := qr s.source2.toList
  let t1 := fun i => sumTo (fun j => mul (F.m i j) (s.flux1.v j)) N
  let t2 := fun i => sumTo (fun j => mul (F.m i j) (y j)) N
  let k2 := mul s.k1 (div (sumTo (fun i => mul (t2 i) (t2 i)) N) (sumTo (fun i => mul (t1 i) (t2 i)) N))
  ⟨⟨N, fun i => div (t2 i) k2⟩, s.flux1, ⟨N, y⟩, s.k1, k2⟩

/-- sizes of the variables at the start of a pass -/
def Sized (N : Nat) (s : Iter) : Prop := s.source2.n = N ∧ s.flux1.n = N

theorem pass_ok (hsq : Square N M F) {s : Iter} (hs : Sized N s) : pass qr M F s = ok (pp N qr F s) := by
  obtain ⟨h1, h2, h3, h4⟩ := hsq
  unfold pass solve
  rw [if_pos (by rw [hs.1, h1]), ok_bind]
  unfold matVec
  rw [if_pos (by rw [hs.2, h4]), ok_bind]
  dsimp only
  rw [if_pos (by rw [h4, h2]), ok_bind]
  unfold inner
  dsimp only
  rw [if_pos le_rfl, ok_bind, if_pos le_rfl, ok_bind]
  simp only [pp, h2, h3, h4]

theorem pp_sized {s : Iter} : Sized N (shift (pp N qr F s)) := ⟨rfl, rfl⟩

/-- the variables at the start of pass `j` -/
def st (N : Nat) (qr : List Fl → Nat → Fl) (F : Mat Fl) (j : Nat) (s : Iter) : Iter :=
  (fun s => shift (pp N qr F s))^[j] s

theorem st_zero (s : Iter) : st N qr F 0 s = s := rfl

theorem st_succ (j : Nat) (s : Iter) : st N qr F (j + 1) s = shift (pp N qr F (st N qr F j s)) :=
  Function.iterate_succ_apply' _ _ _

theorem st_succ' (j : Nat) (s : Iter) : st N qr F (j + 1) s = st N qr F j (shift (pp N qr F s)) :=
  Function.iterate_succ_apply _ _ _

theorem st_sized {s : Iter} (hs : Sized N s) (j : Nat) : Sized N (st N qr F j s) := by
  cases j with
  | zero => exact hs
  | succ j => rw [st_succ]; exact pp_sized

theorem run_stop (hsq : Square N M F) : ∀ (j h n : Nat) (s : Iter), Sized N s → j < n →
    (∀ i, i < j → ¬ stop acc (pp N qr F (st N qr F i s))) → stop acc (pp N qr F (st N qr F j s)) →
    run qr M F acc h n s = ok (h + j, pp N qr F (st N qr F j s)) := by
  intro j
  induction j with
  | zero =>
    intro h n s hs hn _ hst
    obtain ⟨n, rfl⟩ : ∃ m, n = m + 1 := ⟨n - 1, by omega⟩
    rw [run, pass_ok hsq hs, ok_bind, if_pos (show stop acc (pp N qr F s) from hst)]
    rfl
  | succ j ih =>
    intro h n s hs hn hno hst
    obtain ⟨n, rfl⟩ : ∃ m, n = m + 1 := ⟨n - 1, by omega⟩
    rw [run, pass_ok hsq hs, ok_bind, if_neg (show ¬ stop acc (pp N qr F s) from hno 0 (by omega)), ih (h + 1) n _ pp_sized (by omega)]
    · rw [← st_succ', Nat.add_assoc, Nat.add_comm 1 j]
    · intro i hi
      rw [← st_succ']
      exact hno (i + 1) (by omega)
    · rw [← st_succ']; exact hst

theorem run_never (hsq : Square N M F) : ∀ (n h : Nat) (s : Iter), Sized N s →
    (∀ i, i < n → ¬ stop acc (pp N qr F (st N qr F i s))) →
    run qr M F acc h n s = ok (h + n, st N qr F n s) := by
  intro n
  induction n with
  | zero => intro h s _ _; rfl
  | succ n ih =>
    intro h s hs hno
    rw [run, pass_ok hsq hs, ok_bind, if_neg (show ¬ stop acc (pp N qr F s) from hno 0 (by omega)), ih (h + 1) _ pp_sized]
    · rw [← st_succ', Nat.add_assoc, Nat.add_comm 1 n]
    · intro i hi
      rw [← st_succ']
      exact hno (i + 1) (by omega)

/-- what can happen in the loop -/
theorem run_cases (hsq : Square N M F) (acc : ℝ) (n : Nat) {s : Iter} (hs : Sized N s) :
    (∃ j, j < n ∧ (∀ i, i < j → ¬ stop acc (pp N qr F (st N qr F i s))) ∧ stop acc (pp N qr F (st N qr F j s)) ∧
      run qr M F acc 0 n s = ok (j, pp N qr F (st N qr F j s))) ∨
    ((∀ i, i < n → ¬ stop acc (pp N qr F (st N qr F i s))) ∧ run qr M F acc 0 n s = ok (n, st N qr F n s)) := by
  classical
  by_cases h : ∃ j, j < n ∧ stop acc (pp N qr F (st N qr F j s))
  · left
    have hmin : ∀ i, i < Nat.find h → ¬ stop acc (pp N qr F (st N qr F i s)) := by
      intro i hi hst
      exact Nat.find_min h hi ⟨lt_trans hi (Nat.find_spec h).1, hst⟩
    refine ⟨Nat.find h, (Nat.find_spec h).1, hmin, (Nat.find_spec h).2, ?_⟩
    rw [run_stop hsq (Nat.find h) 0 n s hs (Nat.find_spec h).1 hmin (Nat.find_spec h).2, Nat.zero_add]
  · right
    push Not at h
    refine ⟨h, ?_⟩
    rw [run_never hsq n 0 s hs h, Nat.zero_add]

theorem start_sized (N : Nat) : Sized N (start N) := ⟨rfl, rfl⟩

/-- the routine is the loop followed by the final test -/
theorem sourceIteration_run (hsq : Square N M F) (maxIter : Int) :
    sourceIteration qr M F maxIter acc = (run qr M F acc 0 maxIter.toNat (start N) >>= finish maxIter) := by
  obtain ⟨w, ew⟩ := dominance_ok (M := M) (by rw [hsq.1, hsq.2.1])
  obtain ⟨h1, h2, h3, h4⟩ := hsq
  unfold sourceIteration
  rw [ew, ok_bind, if_neg (by rw [h1, h2, h3, h4]; simp), h1, h2, Nat.sqrt_eq]

/-! ### finite numbers -/

/-- the finite value, or zero -/
def re : Fl → ℝ
  | .fin x => x
  | _ => 0

theorem fin_re {a : Fl} {x : ℝ} (h : a = fin x) : a = fin (re a) := by subst h; rfl

/-- a pass that ends with a finite k-factor other than zero saw finite numbers only -/
theorem pp_inv {s : Iter} {k : ℝ} (hk : (pp N qr F s).k2 = fin k) (h0 : k ≠ 0) :
    0 < N ∧ (∃ k', s.k1 = fin k' ∧ k' ≠ 0) ∧ (∀ i j, i < N → j < N → ∃ f, F.m i j = fin f) ∧
    (∀ i, i < N → ∃ x, s.flux1.v i = fin x) ∧ (∀ i, i < N → ∃ y, qr s.source2.toList i = fin y) := by
  simp only [pp] at hk
  obtain ⟨k', q, e1, e2, e3⟩ := mul_fin hk
  obtain ⟨s2, e4, h⟩ := div_fin e2
  obtain ⟨s1, e5, hs1, e6⟩ : ∃ y, _ = fin y ∧ y ≠ 0 ∧ q = s2 / y := by
    rcases h with h | ⟨-, rfl⟩
    · exact h
    · exact absurd (by rw [e3, mul_zero]) h0
  obtain ⟨g2, hg2, -⟩ := sumTo_fin e4
  obtain ⟨g1, hg1, hs⟩ := sumTo_fin e5
  have hN : 0 < N := by
    rcases Nat.eq_zero_or_pos N with rfl | h
    · simp at hs; exact absurd hs hs1
    · exact h
  have key : ∀ i, i < N → ∃ a b : ℝ, (sumTo (fun j => mul (F.m i j) (s.flux1.v j)) N = fin a) ∧
      (sumTo (fun j => mul (F.m i j) (qr s.source2.toList j)) N = fin b) := by
    intro i hi
    obtain ⟨a, b, ha, hb, -⟩ := mul_fin (hg1 i hi)
    exact ⟨a, b, ha, hb⟩
  have key2 : ∀ i j, i < N → j < N → ∃ f x y, F.m i j = fin f ∧ s.flux1.v j = fin x ∧ qr s.source2.toList j = fin y := by
    intro i j hi hj
    obtain ⟨a, b, ha, hb⟩ := key i hi
    obtain ⟨u, hu, -⟩ := sumTo_fin ha
    obtain ⟨v, hv, -⟩ := sumTo_fin hb
    obtain ⟨f, x, ef, ex, -⟩ := mul_fin (hu j hj)
    obtain ⟨f', y, -, ey, -⟩ := mul_fin (hv j hj)
    exact ⟨f, x, y, ef, ex, ey⟩
  refine ⟨hN, ⟨k', e1, ?_⟩, ?_, ?_, ?_⟩
  · rintro rfl
    exact h0 (by rw [e3, zero_mul])
  · intro i j hi hj
    obtain ⟨f, -, -, e, -⟩ := key2 i j hi hj
    exact ⟨f, e⟩
  · intro i hi
    obtain ⟨-, x, -, -, e, -⟩ := key2 0 i hN hi
    exact ⟨x, e⟩
  · intro i hi
    obtain ⟨-, -, y, -, -, e⟩ := key2 0 i hN hi
    exact ⟨y, e⟩

theorem dot_self_ne {n : Nat} {a b : Nat → ℝ} (h : dot n a b ≠ 0) : dot n b b ≠ 0 := by
  intro h0
  refine h ?_
  unfold dot at h0 ⊢
  rw [sum_eq_zero_iff_of_nonneg (fun i _ => mul_self_nonneg (b i))] at h0
  refine sum_eq_zero (fun i hi => ?_)
  rw [mul_self_eq_zero.1 (h0 i hi), mul_zero]

/-- a pass over finite numbers: the new k-factor as a quotient -/
theorem pp_k2 {s : Iter} {A : Nat → Nat → ℝ} {x y : Nat → ℝ} {k : ℝ}
    (hF : ∀ i j, i < N → j < N → F.m i j = fin (A i j)) (hx : ∀ i, i < N → s.flux1.v i = fin (x i))
    (hy : ∀ i, i < N → qr s.source2.toList i = fin (y i)) (hk : s.k1 = fin k) :
    (pp N qr F s).k2 = mul (fin k) (div (fin (dot N (act N A y) (act N A y))) (fin (dot N (act N A x) (act N A y)))) := by
  have t : ∀ (u : Nat → Fl) (z : Nat → ℝ), (∀ i, i < N → u i = fin (z i)) → ∀ i, i < N →
      sumTo (fun j => mul (F.m i j) (u j)) N = fin (act N A z i) := by
    intro u z hz i hi
    refine sumTo_of_fin (g := fun q => A i q * z q) (fun j hj => ?_)
    rw [hF i j hi hj, hz j hj, mul_of_fin]
  have d : ∀ (u v : Nat → Fl) (z w : Nat → ℝ), (∀ i, i < N → u i = fin (z i)) → (∀ i, i < N → v i = fin (w i)) →
      sumTo (fun i => mul (u i) (v i)) N = fin (dot N z w) := by
    intro u v z w hz hw
    refine sumTo_of_fin (g := fun i => z i * w i) (fun i hi => ?_)
    rw [hz i hi, hw i hi, mul_of_fin]
  simp only [pp, hk]
  rw [d _ _ _ _ (t _ _ hy) (t _ _ hy), d _ _ _ _ (t _ _ hx) (t _ _ hy)]

/-- the exit test is only passed with finite, nonzero k-factors -/
theorem stop_fin {s : Iter} (h : stop acc s) :
    ∃ a b, s.k1 = fin a ∧ s.k2 = fin b ∧ b ≠ 0 ∧ |(b - a) / b| < acc := by
  obtain ⟨x, e, hx⟩ := abs_lt_fin h
  obtain ⟨u, e1, h'⟩ := div_fin e
  obtain ⟨b, a, e2, e3, rfl⟩ := sub_fin e1
  rcases h' with ⟨y, e4, hy, rfl⟩ | ⟨⟨t, e4⟩, -⟩
  · rw [e2] at e4
    cases e4
    exact ⟨a, b, e3, e2, hy, hx⟩
  · rw [e2] at e4
    cases e4

theorem stop_of_fin {s : Iter} {a b : ℝ} (h1 : s.k1 = fin a) (h2 : s.k2 = fin b) (hb : b ≠ 0) :
    stop acc s ↔ |(b - a) / b| < acc := by
  unfold stop
  rw [h1, h2, sub_of_fin, div_of_fin hb]
  rfl

theorem toList_rhs {b : Vec Fl} {f : Nat → ℝ} (hn : b.n = N) (h : ∀ i, i < N → b.v i = fin (f i)) : b.toList = rhs N f := by
  unfold Vec.toList rhs
  rw [hn]
  exact List.map_congr_left (fun i hi => h i (List.mem_range.1 hi))

theorem rhs_congr {f g : Nat → ℝ} (h : ∀ i, i < N → f i = g i) : rhs N f = rhs N g :=
  List.map_congr_left (fun i hi => by rw [h i (List.mem_range.1 hi)])

/-- the right-hand side of step `j` -/
def bj (N : Nat) (A : Nat → Nat → ℝ) (x : Nat → Nat → ℝ) (κ : Nat → ℝ) : Nat → Nat → ℝ
  | 0 => fun _ => 1
  | j + 1 => fun p => act N A (x (j + 1)) p / κ (j + 1)

variable {A : Nat → Nat → ℝ} {x : Nat → Nat → ℝ} {κ : Nat → ℝ} {h : Nat}

theorem Iterates.k_ne (I : Iterates N qr A x κ h) : ∀ j, j ≤ h → κ j ≠ 0 := by
  intro j
  induction j with
  | zero => intro _; rw [I.k_zero]; exact one_ne_zero
  | succ j ih =>
    intro hj
    rw [I.k_next j (by omega)]
    exact mul_ne_zero (ih (by omega)) (div_ne_zero (dot_self_ne (I.overlap j (by omega))) (I.overlap j (by omega)))

theorem Iterates.solved (I : Iterates N qr A x κ h) {j : Nat} (hj : j < h) : ∀ i, i < N → qr (rhs N (bj N A x κ j)) i = fin (x (j + 1) i) := by
  cases j with
  | zero => exact I.first (by omega)
  | succ j => exact I.next j hj

/-- what the variables hold at the start of pass `j` -/
def Holds (N : Nat) (A : Nat → Nat → ℝ) (x : Nat → Nat → ℝ) (κ : Nat → ℝ) (j : Nat) (s : Iter) : Prop :=
  Sized N s ∧ s.k1 = fin (κ j) ∧ (∀ i, i < N → s.flux1.v i = fin (x j i)) ∧
    ∀ i, i < N → s.source2.v i = fin (bj N A x κ j i)

theorem holds_start (hx : ∀ i, i < N → x 0 i = 1) (hk : κ 0 = 1) : Holds N A x κ 0 (start N) :=
  ⟨start_sized N, by rw [hk]; rfl, fun i hi => by rw [hx i hi]; rfl, fun i _ => rfl⟩

theorem holds_pass (hF : ∀ i j, i < N → j < N → F.m i j = fin (A i j)) (I : Iterates N qr A x κ h) {j : Nat} (hj : j < h) {s : Iter}
    (H : Holds N A x κ j s) :
    (pp N qr F s).k2 = fin (κ (j + 1)) ∧ (pp N qr F s).k1 = fin (κ j) ∧
    (∀ i, i < N → (pp N qr F s).flux2.v i = fin (x (j + 1) i)) ∧ Holds N A x κ (j + 1) (shift (pp N qr F s)) := by
  obtain ⟨hs, hk, hx, hb⟩ := H
  have hl : s.source2.toList = rhs N (bj N A x κ j) := toList_rhs hs.1 hb
  have hy : ∀ i, i < N → qr s.source2.toList i = fin (x (j + 1) i) := by rw [hl]; exact I.solved hj
  have h2 : (pp N qr F s).k2 = fin (κ (j + 1)) := by
    rw [pp_k2 hF hx hy hk, div_of_fin (I.overlap j hj), mul_of_fin, I.k_next j hj]
  refine ⟨h2, hk, hy, pp_sized, h2, hy, ?_⟩
  intro i hi
  have e : (shift (pp N qr F s)).source2.v i =
      div (sumTo (fun j => mul (F.m i j) (qr s.source2.toList j)) N) (pp N qr F s).k2 := rfl
  have e2 : sumTo (fun j => mul (F.m i j) (qr s.source2.toList j)) N = fin (act N A (x (j + 1)) i) := by
    refine sumTo_of_fin (g := fun q => A i q * x (j + 1) q) (fun q hq => ?_)
    rw [hF i q hi hq, hy q hq, mul_of_fin]
  rw [e, h2, e2, div_of_fin (I.k_ne (j + 1) hj)]
  rfl

theorem holds_all (hF : ∀ i j, i < N → j < N → F.m i j = fin (A i j)) (I : Iterates N qr A x κ h) :
    ∀ j, j ≤ h → Holds N A x κ j (st N qr F j (start N)) := by
  intro j
  induction j with
  | zero => intro _; exact holds_start I.flux_zero I.k_zero
  | succ j ih =>
    intro hj
    rw [st_succ]
    exact (holds_pass hF I (by omega) (ih (by omega))).2.2.2

theorem stop_iff (hF : ∀ i j, i < N → j < N → F.m i j = fin (A i j)) (I : Iterates N qr A x κ h) {j : Nat} (hj : j < h) :
    stop acc (pp N qr F (st N qr F j (start N))) ↔ change κ j < acc := by
  obtain ⟨h2, h1, -, -⟩ := holds_pass hF I hj (holds_all hF I j hj.le)
  exact stop_of_fin h1 h2 (I.k_ne (j + 1) hj)

/-- if pass `h` ends with a finite k-factor other than zero, then all numbers so far were finite -/
theorem iterates_of_fin {k : ℝ} (hk : (pp N qr F (st N qr F h (start N))).k2 = fin k) (h0 : k ≠ 0) :
    ∃ A x κ, (∀ i j, i < N → j < N → F.m i j = fin (A i j)) ∧ Iterates N qr A x κ (h + 1) := by
  set s := fun j => st N qr F j (start N) with hs
  have hs1 : ∀ j, s (j + 1) = shift (pp N qr F (s j)) := fun j => st_succ j _
  have back : ∀ d, d ≤ h → ∃ k, (pp N qr F (s (h - d))).k2 = fin k ∧ k ≠ 0 := by
    intro d
    induction d with
    | zero => intro _; exact ⟨k, hk, h0⟩
    | succ d ih =>
      intro hd
      obtain ⟨k', e, hk'⟩ := ih (by omega)
      obtain ⟨-, ⟨k'', e', h''⟩, -⟩ := pp_inv e hk'
      have : h - d = (h - (d + 1)) + 1 := by omega
      rw [this, hs1] at e'
      exact ⟨k'', e', h''⟩
  have all : ∀ j, j ≤ h → ∃ k, (pp N qr F (s j)).k2 = fin k ∧ k ≠ 0 := by
    intro j hj
    have := back (h - j) (by omega)
    rwa [show h - (h - j) = j by omega] at this
  obtain ⟨k', e', hk'⟩ := all h le_rfl
  obtain ⟨hN, -, hFf, -, -⟩ := pp_inv e' hk'
  let A : Nat → Nat → ℝ := fun i j => re (F.m i j)
  let x : Nat → Nat → ℝ := fun j => match j with
    | 0 => fun _ => 1
    | j + 1 => fun i => re (qr (s j).source2.toList i)
  let κ : Nat → ℝ := fun j => match j with
    | 0 => 1
    | j + 1 => re (pp N qr F (s j)).k2
  have hF : ∀ i j, i < N → j < N → F.m i j = fin (A i j) := by
    intro i j hi hj
    obtain ⟨f, e⟩ := hFf i j hi hj
    exact fin_re e
  have hk1 : ∀ j, j ≤ h → (s j).k1 = fin (κ j) := by
    intro j hj
    cases j with
    | zero => rfl
    | succ j =>
      obtain ⟨k, e, -⟩ := all j (by omega)
      rw [hs1]
      exact fin_re e
  have hk2 : ∀ j, j ≤ h → (pp N qr F (s j)).k2 = fin (κ (j + 1)) := by
    intro j hj
    obtain ⟨k, e, -⟩ := all j hj
    exact fin_re e
  have hκ : ∀ j, j ≤ h → κ (j + 1) ≠ 0 := by
    intro j hj
    obtain ⟨k, e, hk⟩ := all j hj
    have := hk2 j hj
    rw [e] at this
    cases this
    exact hk
  have hy : ∀ j, j ≤ h → ∀ i, i < N → qr (s j).source2.toList i = fin (x (j + 1) i) := by
    intro j hj i hi
    obtain ⟨k, e, hk⟩ := all j hj
    obtain ⟨y, ey⟩ := (pp_inv e hk).2.2.2.2 i hi
    exact fin_re ey
  have hx : ∀ j, j ≤ h → ∀ i, i < N → (s j).flux1.v i = fin (x j i) := by
    intro j hj i hi
    cases j with
    | zero => rfl
    | succ j => rw [hs1]; exact hy j (by omega) i hi
  have hq : ∀ j, j ≤ h → dot N (act N A (x j)) (act N A (x (j + 1))) ≠ 0 ∧
      κ (j + 1) = κ j * (dot N (act N A (x (j + 1))) (act N A (x (j + 1))) / dot N (act N A (x j)) (act N A (x (j + 1)))) := by
    intro j hj
    have e := hk2 j hj
    rw [pp_k2 hF (hx j hj) (hy j hj) (hk1 j hj)] at e
    obtain ⟨a, q, ea, eq, e3⟩ := mul_fin e
    cases ea
    obtain ⟨u, eu, h'⟩ := div_fin eq
    cases eu
    rcases h' with ⟨v, ev, hv, rfl⟩ | ⟨⟨t, et⟩, -⟩
    · cases ev
      exact ⟨hv, e3⟩
    · cases et
  have hsrc : ∀ j, j ≤ h → (s j).source2.toList = rhs N (bj N A x κ j) := by
    intro j hj
    cases j with
    | zero => exact toList_rhs (start_sized N).1 (fun i _ => rfl)
    | succ j =>
      refine toList_rhs (st_sized (start_sized N) (j + 1)).1 (fun i hi => ?_)
      rw [hs1]
      change div (sumTo (fun q => mul (F.m i q) (qr (s j).source2.toList q)) N) (pp N qr F (s j)).k2 = _
      have e2 : sumTo (fun q => mul (F.m i q) (qr (s j).source2.toList q)) N = fin (act N A (x (j + 1)) i) := by
        refine sumTo_of_fin (g := fun q => A i q * x (j + 1) q) (fun q hq => ?_)
        rw [hF i q hi hq, hy j (by omega) q hq, mul_of_fin]
      rw [hk2 j (by omega), e2, div_of_fin (hκ j (by omega))]
      rfl
  refine ⟨A, x, κ, hF, ⟨fun _ _ => rfl, rfl, ?_, ?_, ?_, ?_⟩⟩
  · intro _ i hi
    have := hy 0 (by omega) i hi
    rwa [hsrc 0 (by omega)] at this
  · intro j hj i hi
    have := hy (j + 1) (by omega) i hi
    rwa [hsrc (j + 1) (by omega)] at this
  · intro j hj; exact (hq j (by omega)).1
  · intro j hj; exact (hq j (by omega)).2

/-- a flux whose fission source is not zero has a positive norm -/
theorem oneNorm_pos {n : Nat} {A : Nat → Nat → ℝ} {a y : Nat → ℝ} (h : dot n a (act n A y) ≠ 0) : 0 < oneNorm n y := by
  refine lt_of_le_of_ne (sum_nonneg (fun i _ => abs_nonneg _)) (fun h0 => h ?_)
  have : ∀ i ∈ range n, |y i| = 0 := (sum_eq_zero_iff_of_nonneg (fun i _ => abs_nonneg (y i))).1 h0.symm
  refine sum_eq_zero (fun i _ => ?_)
  have : act n A y i = 0 := sum_eq_zero (fun q hq => by rw [abs_eq_zero.1 (this q hq), mul_zero])
  rw [this, mul_zero]

theorem norm1_fin {x : Vec Fl} {f : Nat → ℝ} (hn : x.n = N) (h : ∀ i, i < N → x.v i = fin (f i)) :
    norm1 x = fin (oneNorm N f) := by
  unfold norm1 oneNorm
  rw [hn]
  exact sumTo_of_fin (fun i hi => by rw [h i hi]; rfl)

theorem oneNorm_div {n : Nat} {y : Nat → ℝ} (h : 0 < oneNorm n y) : oneNorm n (fun i => y i / oneNorm n y) = 1 := by
  have e : oneNorm n (fun i => y i / oneNorm n y) = oneNorm n y / oneNorm n y := by
    unfold oneNorm
    rw [sum_div]
    exact sum_congr rfl (fun i _ => by rw [abs_div, abs_of_nonneg (sum_nonneg (fun i _ => abs_nonneg (y i)))])
  rw [e, div_self h.ne']

end

end Verif.Eigen
