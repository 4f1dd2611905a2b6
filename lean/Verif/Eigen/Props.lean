import Verif.Eigen.Power
import Verif.Eigen.Fundamental
import Verif.Eigen.SortLemmas
import Mathlib.Data.EReal.Basic
import Mathlib.Tactic.IntervalCases
import Mathlib.Tactic.NormNum

/-!
# Properties of the eigenvalue solvers

Theorem names start with the identifier of the property in `properties.jsonl`.
-/

namespace Verif.Eigen

open Outcome Fl Finset Filter Topology

noncomputable section

variable {N : Nat} {qr : List Fl → Nat → Fl} {M F : Mat Fl} {Mr A : Nat → Nat → ℝ} {acc : ℝ} {maxIter : Int} {k : Fl} {φ : Vec Fl}

/-! ### C22 -/

/-- **C22.** If `sourceIteration` returns, then every number met was finite, whatever the solver did; the relative change of the
k-factor in the last pass, and in no earlier one, was below the accuracy; the number of passes is within the limit; the k-factor
returned is the last one and the flux returned is the last one scaled to unit 1-norm. -/
theorem C22_returns (hsq : Square N M F) (h : sourceIteration qr M F maxIter acc = ok (k, φ)) :
    ∃ (A : Nat → Nat → ℝ) (x : Nat → Nat → ℝ) (κ : Nat → ℝ) (n : Nat), Entries N A F ∧ ((n : Int) + 1 ≤ maxIter) ∧
      Iterates N qr A x κ (n + 1) ∧ change κ n < acc ∧ (∀ j, j < n → acc ≤ change κ j) ∧
      k = .fin (κ (n + 1)) ∧ φ.n = N ∧ (∀ i, i < N → φ.v i = .fin (x (n + 1) i / oneNorm N (x (n + 1)))) ∧
      ∑ i ∈ range N, |x (n + 1) i / oneNorm N (x (n + 1))| = 1 := by
  rw [sourceIteration_run hsq] at h
  rcases run_cases (qr := qr) hsq acc maxIter.toNat (start_sized N) with ⟨j, hj, hno, hst, e⟩ | ⟨hno, e⟩
  · rw [e, ok_bind] at h
    unfold finish at h
    split at h
    · cases h
    split at h
    · cases h
    rename_i h1 h2
    simp only [Outcome.ok.injEq, Prod.mk.injEq] at h
    obtain ⟨hk, hφ⟩ := h
    obtain ⟨a, b, e1, e2, hb, hc⟩ := stop_fin hst
    obtain ⟨A, x, κ, hF, I⟩ := iterates_of_fin e2 hb
    obtain ⟨k2, k1, f2, -⟩ := holds_pass hF I (Nat.lt_succ_self j) (holds_all hF I j (Nat.le_succ j))
    have hpos := oneNorm_pos (I.overlap j (Nat.lt_succ_self j))
    have hnorm := norm1_fin (x := (pp N qr F (st N qr F j (start N))).flux2) (N := N) rfl f2
    refine ⟨A, x, κ, j, hF, by push Not at h2; exact h2, I, ?_, ?_, ?_, ?_, ?_, ?_⟩
    · exact (stop_iff hF I (Nat.lt_succ_self j)).1 hst
    · intro i hi
      exact not_lt.1 (fun hlt => hno i hi ((stop_iff hF I (by omega)).2 hlt))
    · rw [← hk, k2]
    · rw [← hφ]; rfl
    · intro i hi
      rw [← hφ]
      dsimp only
      rw [hnorm, f2 i hi, div_of_fin hpos.ne']
    · exact oneNorm_div hpos
  · rw [e, ok_bind] at h
    unfold finish at h
    split at h
    · cases h
    rw [if_pos (by have := Int.self_le_toNat maxIter; dsimp only; omega)] at h
    cases h

/-- **C22, the other direction.** If within the limit the relative change falls below the accuracy, the routine returns. -/
theorem C22_converged (hsq : Square N M F) {x : Nat → Nat → ℝ} {κ : Nat → ℝ} {n : Nat} (hF : Entries N A F)
    (hn : (n : Int) + 1 ≤ maxIter) (hmax : maxIter ≤ 2147483647) (I : Iterates N qr A x κ (n + 1)) (hc : change κ n < acc)
    (hno : ∀ j, j < n → acc ≤ change κ j) :
    ∃ φ, sourceIteration qr M F maxIter acc = ok (.fin (κ (n + 1)), φ) ∧ φ.n = N ∧
      ∀ i, i < N → φ.v i = .fin (x (n + 1) i / oneNorm N (x (n + 1))) := by
  obtain ⟨k2, k1, f2, -⟩ := holds_pass hF I (Nat.lt_succ_self n) (holds_all hF I n (Nat.le_succ n))
  have hpos := oneNorm_pos (I.overlap n (Nat.lt_succ_self n))
  have hnorm := norm1_fin (x := (pp N qr F (st N qr F n (start N))).flux2) (N := N) rfl f2
  rw [sourceIteration_run hsq, run_stop hsq n 0 maxIter.toNat _ (start_sized N) (by omega)
    (fun i hi hst => absurd ((stop_iff hF I (by omega)).1 hst) (not_lt.2 (hno i hi)))
    ((stop_iff hF I (Nat.lt_succ_self n)).2 hc), ok_bind]
  unfold finish intMax
  rw [if_neg (by dsimp only; push_cast; omega), if_neg (by dsimp only; push_cast; omega)]
  refine ⟨_, by rw [k2], rfl, ?_⟩
  intro i hi
  dsimp only
  rw [hnorm, f2 i hi, div_of_fin hpos.ne']

/-- **C22.** Otherwise the program terminates with an error. -/
theorem C22_otherwise_exit (hsq : Square N M F) (hmax : maxIter < 2147483647) :
    (∃ k φ, sourceIteration qr M F maxIter acc = ok (k, φ)) ∨ sourceIteration qr M F maxIter acc = exit := by
  rw [sourceIteration_run hsq]
  rcases run_cases (qr := qr) hsq acc maxIter.toNat (start_sized N) with ⟨j, hj, -, -, e⟩ | ⟨-, e⟩
  · left
    rw [e, ok_bind]
    unfold finish intMax
    rw [if_neg (by dsimp only; omega), if_neg (by dsimp only; omega)]
    exact ⟨_, _, rfl⟩
  · right
    rw [e, ok_bind]
    unfold finish intMax
    by_cases h0 : 0 ≤ maxIter
    · rw [if_neg (by dsimp only; omega), if_pos (by dsimp only; omega)]
    · rw [if_neg (by dsimp only; omega), if_pos (by dsimp only; omega)]

/-- **C22.** Matrices of different size are refused. -/
theorem C22_sizes (hM : M.r ≤ M.c) (h : M.r * M.c ≠ F.r * F.c) : sourceIteration qr M F maxIter acc = exit := by
  obtain ⟨w, ew⟩ := dominance_ok hM
  unfold sourceIteration
  rw [ew, ok_bind, if_pos h]

/-! ### C52 -/

/-- **C52 fails: false convergence in the first pass.** If the solver maps the flat source to the flat flux (for instance because `M`
is the identity, as in the transport solver without scattering), the k-factor returned is 1 and the flux is flat, for *every* fission
matrix that produces neutrons at all. -/
theorem C52_flat (hsq : Square N M F) (hF : Entries N A F) (hflat : ∀ i, i < N → qr (rhs N (fun _ => 1)) i = .fin 1)
    (hsrc : ∃ i, i < N ∧ ∑ q ∈ range N, A i q ≠ 0) (hacc : 0 < acc) (h1 : 1 ≤ maxIter) (hmax : maxIter ≤ 2147483647) :
    ∃ φ, sourceIteration qr M F maxIter acc = ok (.fin 1, φ) ∧ φ.n = N ∧ ∀ i, i < N → φ.v i = .fin (1 / N) := by
  obtain ⟨i0, hi0, h0⟩ := hsrc
  have hd : dot N (act N A (fun _ => 1)) (act N A (fun _ => 1)) ≠ 0 := by
    intro h
    unfold dot at h
    rw [sum_eq_zero_iff_of_nonneg (fun i _ => mul_self_nonneg _)] at h
    have := mul_self_eq_zero.1 (h i0 (mem_range.2 hi0))
    unfold act at this
    simp only [mul_one] at this
    exact h0 this
  have I : Iterates N qr A (fun _ _ => 1) (fun _ => 1) 1 :=
    ⟨fun _ _ => rfl, rfl, fun _ => hflat, fun j hj => absurd hj (by omega), fun _ _ => hd, fun _ _ => by
      rw [div_self hd, mul_one]⟩
  obtain ⟨φ, e, hn, hv⟩ := C22_converged (n := 0) (maxIter := maxIter) (acc := acc) hsq hF (by simpa using h1) hmax I
    (by simpa [change] using hacc) (fun j hj => absurd hj (by omega))
  refine ⟨φ, e, hn, fun i hi => ?_⟩
  rw [hv i hi]
  simp [oneNorm]

/-- **C52 fails.** One cell, `M = 1`, `F = 2`, exact solver: the k-factor is 2, the one returned is 1, and no flux solves the equation with
it. -/
theorem C52_wrong_k : ∃ (qr : List Fl → Nat → Fl) (M F : Mat Fl) (φ : Vec Fl), Square 1 M F ∧ Entries 1 (fun _ _ => 1) M ∧
    Entries 1 (fun _ _ => 2) F ∧ Solves 1 (fun _ _ => 1) qr ∧ Eigenpair 1 (fun _ _ => 1) (fun _ _ => 2) 2 (fun _ => 1) ∧
    sourceIteration qr M F 1000 (1 / 10 ^ 6) = ok (.fin 1, φ) ∧ ¬ ∃ f, Eigenpair 1 (fun _ _ => 1) (fun _ _ => 2) 1 f := by
  let qr : List Fl → Nat → Fl := fun b i => b.getD i .nan
  have hq : ∀ b : Nat → ℝ, qr (rhs 1 b) 0 = .fin (b 0) := fun b => rfl
  obtain ⟨φ, e, -, -⟩ := C52_flat (N := 1) (qr := qr) (M := ⟨1, 1, fun _ _ => .fin 1⟩) (F := ⟨1, 1, fun _ _ => .fin 2⟩)
    (A := fun _ _ => 2) (acc := 1 / 10 ^ 6) (maxIter := 1000) ⟨rfl, rfl, rfl, rfl⟩ (fun _ _ _ _ => rfl)
    (fun i hi => by interval_cases i; rfl) ⟨0, by norm_num, by norm_num⟩ (by norm_num) (by norm_num) (by norm_num)
  refine ⟨qr, _, _, φ, ⟨rfl, rfl, rfl, rfl⟩, fun _ _ _ _ => rfl, fun _ _ _ _ => rfl, ?_, ?_, e, ?_⟩
  · intro b
    refine ⟨b, fun i hi => by interval_cases i; exact hq b, fun i hi => ?_⟩
    interval_cases i
    simp [act]
  · refine ⟨⟨0, by norm_num, by norm_num⟩, fun i hi => ?_⟩
    interval_cases i
    norm_num [act]
  · rintro ⟨f, ⟨i, hi, h0⟩, h⟩
    interval_cases i
    have := h 0 (by norm_num)
    simp only [act, range_one, sum_singleton, one_mul, div_one] at this
    exact h0 (by linarith)

/-- **C52, what does hold.** With a solver for `M`: the flux returned, up to its norm, solves `M y = s / k'`, where `k'` is a k-factor
within the accuracy of the one returned and `s` is the fission source of the flux before — or else it is just the answer to a flat
source, with `k' = 1`. If in the first case the last two fluxes are proportional, the pair returned satisfies the eigenvalue equation
exactly. What is missing: the flat source in the first pass (see above), and a test that the flux has converged. -/
theorem C52_partial (hsq : Square N M F) (hF : Entries N A F) (hs : Solves N Mr qr)
    (h : sourceIteration qr M F maxIter acc = ok (k, φ)) :
    ∃ (kr k' : ℝ) (y z : Nat → ℝ), k = .fin kr ∧ (∀ i, i < N → φ.v i = .fin (y i / oneNorm N y)) ∧
      kr ≠ 0 ∧ k' ≠ 0 ∧ |(kr - k') / kr| < acc ∧
      ((k' = 1 ∧ (∀ i, i < N → act N Mr y i = 1)) ∨
       ((∀ i, i < N → act N Mr y i = act N A z i / k') ∧
        ∀ c : ℝ, (∀ i, i < N → y i = c * z i) → Eigenpair N Mr A kr (fun i => y i / oneNorm N y))) := by
  obtain ⟨A', x, κ, n, hF', -, I, hc, -, hk, -, hv, -⟩ := C22_returns hsq h
  have hA : ∀ y i, i < N → act N A' y i = act N A y i := by
    intro y i hi
    refine sum_congr rfl (fun q hq => ?_)
    have := hF' i q hi (mem_range.1 hq)
    rw [hF i q hi (mem_range.1 hq)] at this
    rw [Fl.fin.inj this]
  have hpos := oneNorm_pos (I.overlap n (Nat.lt_succ_self n))
  refine ⟨κ (n + 1), κ n, x (n + 1), x n, hk, hv, I.k_ne _ le_rfl, I.k_ne _ (Nat.le_succ n), hc, ?_⟩
  have hsys := I.system hs (Nat.lt_succ_self n)
  rcases Nat.eq_zero_or_pos n with rfl | hn
  · left
    exact ⟨I.k_zero, hsys⟩
  · right
    obtain ⟨m, rfl⟩ : ∃ m, n = m + 1 := ⟨n - 1, by omega⟩
    have hsys' : ∀ i, i < N → act N Mr (x (m + 1 + 1)) i = act N A (x (m + 1)) i / κ (m + 1) := by
      intro i hi
      rw [hsys i hi, ← hA _ i hi]
      rfl
    refine ⟨hsys', ?_⟩
    intro c hcz
    have hs2 : ∀ i, act N A' (x (m + 1 + 1)) i = c * act N A' (x (m + 1)) i := by
      intro i
      rw [act_congr hcz i, act_smul N A' c (x (m + 1)) i]
    have hov := I.overlap (m + 1) (Nat.lt_succ_self _)
    have e2 : act N A' (x (m + 1 + 1)) = fun i => c * act N A' (x (m + 1)) i := funext hs2
    have d1 : dot N (act N A' (x (m + 1))) (act N A' (x (m + 1 + 1))) =
        c * dot N (act N A' (x (m + 1))) (act N A' (x (m + 1))) := by
      rw [e2]
      unfold dot
      rw [mul_sum]
      exact sum_congr rfl (fun i _ => by ring)
    have d2 : dot N (act N A' (x (m + 1 + 1))) (act N A' (x (m + 1 + 1))) =
        c * (c * dot N (act N A' (x (m + 1))) (act N A' (x (m + 1)))) := by
      rw [e2]
      unfold dot
      rw [mul_sum, mul_sum]
      exact sum_congr rfl (fun i _ => by ring)
    rw [d1] at hov
    have hc0 : c ≠ 0 := left_ne_zero_of_mul hov
    have hd0 := right_ne_zero_of_mul hov
    have hκ : κ (m + 1 + 1) = c * κ (m + 1) := by
      rw [I.k_next (m + 1) (Nat.lt_succ_self _), d1, d2]
      field_simp
    refine ⟨?_, ?_⟩
    · by_contra hall
      push Not at hall
      have : oneNorm N (x (m + 1 + 1)) = 0 := by
        refine sum_eq_zero (fun i hi => ?_)
        have := hall i (mem_range.1 hi)
        rw [div_eq_zero_iff] at this
        rcases this with h | h
        · rw [h, abs_zero]
        · exact absurd h hpos.ne'
      exact hpos.ne' this
    · intro i hi
      have eM : act N Mr (fun i => x (m + 1 + 1) i / oneNorm N (x (m + 1 + 1))) i =
          (1 / oneNorm N (x (m + 1 + 1))) * act N Mr (x (m + 1 + 1)) i := by
        rw [← act_smul]
        exact act_congr (fun q _ => by ring) i
      have eA : act N A (fun i => x (m + 1 + 1) i / oneNorm N (x (m + 1 + 1))) i =
          (1 / oneNorm N (x (m + 1 + 1))) * act N A (x (m + 1 + 1)) i := by
        rw [← act_smul]
        exact act_congr (fun q _ => by ring) i
      have hκ1 := I.k_ne (m + 1) (by omega)
      rw [eM, eA, hsys' i hi, hκ, ← hA _ i hi, ← hA _ i hi, hs2 i]
      field_simp

/-! ### C53 -/

/-- **C53.** If the inverse of the loss matrix has no negative entries (see C46 and C51) and the fission matrix has none, the k-factor
returned is positive, and the flux is non-negative and sums to one. -/
theorem C53_positive (hsq : Square N M F) (hF : Entries N A F) (hs : Solves N Mr qr) (hM : InversePositive N Mr)
    (hA : ∀ i j, i < N → j < N → 0 ≤ A i j) (h : sourceIteration qr M F maxIter acc = ok (k, φ)) :
    ∃ (kr : ℝ) (f : Nat → ℝ), k = .fin kr ∧ 0 < kr ∧ φ.n = N ∧ (∀ i, i < N → φ.v i = .fin (f i) ∧ 0 ≤ f i) ∧
      ∑ i ∈ range N, f i = 1 := by
  obtain ⟨A', x, κ, n, hF', -, I, -, -, hk, hn, hv, h1⟩ := C22_returns hsq h
  have hA' : ∀ i j, i < N → j < N → 0 ≤ A' i j := by
    intro i j hi hj
    have := hF' i j hi hj
    rw [hF i j hi hj] at this
    rw [← Fl.fin.inj this]
    exact hA i j hi hj
  obtain ⟨p1, p2⟩ := I.positive hs hM hA' (n + 1) le_rfl
  have hnn : ∀ i, i < N → 0 ≤ x (n + 1) i / oneNorm N (x (n + 1)) := fun i hi =>
    div_nonneg (p2 i hi) (sum_nonneg (fun i _ => abs_nonneg _))
  refine ⟨κ (n + 1), fun i => x (n + 1) i / oneNorm N (x (n + 1)), hk, p1, hn, fun i hi => ⟨hv i hi, hnn i hi⟩, ?_⟩
  rw [← h1]
  exact sum_congr rfl (fun i hi => (abs_of_nonneg (hnn i (mem_range.1 hi))).symm)

/-! ### C54 -/

/-- **C54.** Error bound. Unless the routine stopped in its first pass: the k-factor returned and the true one, that of any non-negative
adjoint flux that sees the fission source, both lie between the smallest and the largest ratio of two successive fission sources
(scaled by the k-factor in between); so they differ by no more than the spread of these ratios. -/
theorem C54_bound (hsq : Square N M F) (hF : Entries N A F) (hs : Solves N Mr qr) (hM : InversePositive N Mr)
    (hA : ∀ i j, i < N → j < N → 0 ≤ A i j) (h : sourceIteration qr M F maxIter acc = ok (k, φ)) :
    ∃ (kr k' : ℝ) (y z : Nat → ℝ), k = .fin kr ∧ (∀ i, i < N → φ.v i = .fin (y i / oneNorm N y)) ∧
      ((k' = 1 ∧ (∀ i, i < N → act N Mr y i = 1)) ∨
       ((∀ i, i < N → act N Mr y i = act N A z i / k') ∧ (∀ i, i < N → 0 ≤ act N A z i) ∧
        ∀ lo hi : ℝ, (∀ i, i < N → lo * act N A z i ≤ k' * act N A y i) → (∀ i, i < N → k' * act N A y i ≤ hi * act N A z i) →
          lo ≤ kr ∧ kr ≤ hi ∧
          ∀ (kt : ℝ) (ψ : Nat → ℝ), kt ≠ 0 → AdjointPair N Mr A kt ψ → 0 < dot N ψ (act N A z) →
            lo ≤ kt ∧ kt ≤ hi ∧ |kr - kt| ≤ hi - lo)) := by
  obtain ⟨A', x, κ, n, hF', -, I, -, -, hk, -, hv, -⟩ := C22_returns hsq h
  have hAA : ∀ i j, i < N → j < N → A' i j = A i j := by
    intro i j hi hj
    have := hF' i j hi hj
    rw [hF i j hi hj] at this
    exact (Fl.fin.inj this).symm
  have hact : ∀ y i, i < N → act N A' y i = act N A y i := by
    intro y i hi
    exact sum_congr rfl (fun q hq => by rw [hAA i q hi (mem_range.1 hq)])
  have hdot : ∀ y z, dot N (act N A' y) (act N A' z) = dot N (act N A y) (act N A z) := by
    intro y z
    exact sum_congr rfl (fun i hi => by rw [hact y i (mem_range.1 hi), hact z i (mem_range.1 hi)])
  have hA' : ∀ i j, i < N → j < N → 0 ≤ A' i j := fun i j hi hj => by rw [hAA i j hi hj]; exact hA i j hi hj
  have hsys := I.system hs (Nat.lt_succ_self n)
  refine ⟨κ (n + 1), κ n, x (n + 1), x n, hk, hv, ?_⟩
  rcases Nat.eq_zero_or_pos n with rfl | hn
  · left
    exact ⟨I.k_zero, hsys⟩
  · right
    obtain ⟨m, rfl⟩ : ∃ m, n = m + 1 := ⟨n - 1, by omega⟩
    obtain ⟨p1, p2⟩ := I.positive hs hM hA' (m + 1) (by omega)
    obtain ⟨-, p4⟩ := I.positive hs hM hA' (m + 1 + 1) le_rfl
    have hsys' : ∀ i, i < N → act N Mr (x (m + 1 + 1)) i = act N A (x (m + 1)) i / κ (m + 1) := by
      intro i hi
      rw [hsys i hi, ← hact _ i hi]
      rfl
    refine ⟨hsys', fun i hi => act_nonneg hA p2 hi, ?_⟩
    intro lo hi hlo hhi
    have hov := I.overlap (m + 1) (Nat.lt_succ_self _)
    rw [hdot] at hov
    have hd : 0 < dot N (act N A (x (m + 1))) (act N A (x (m + 1 + 1))) :=
      lt_of_le_of_ne (dot_nonneg (fun i hi => act_nonneg hA p2 hi) (fun i hi => act_nonneg hA p4 hi)) hov.symm
    have hq := quotient_bounds (fun i hi => act_nonneg hA p4 hi) hd hlo hhi
    rw [← hdot, ← hdot, ← I.k_next (m + 1) (Nat.lt_succ_self _)] at hq
    refine ⟨hq.1, hq.2, ?_⟩
    intro kt ψ hkt hψ hsrc
    obtain ⟨b1, b2⟩ := adjoint_bounds hψ hkt p1.ne' hsys' hsrc hlo hhi
    exact ⟨b1, b2, abs_le.2 ⟨by linarith [hq.1], by linarith [hq.2]⟩⟩

/-! ### C55 -/

/-- **C55.** Convergence. Let the inverse of the loss matrix have only positive entries, the fission matrix no negative entry and not
only zeros, and let the flat source be a combination of modes of which one dominates. Then the k-factors of the iteration tend to
that of the dominant mode, and for every accuracy there is a number of iterations from which on the routine returns. -/
theorem C55_converges (hsq : Square N M F) (hF : Entries N A F) (hs : Solves N Mr qr) (hM : InverseStrict N Mr)
    (hA : ∀ i j, i < N → j < N → 0 ≤ A i j) (hA0 : ∃ i j, i < N ∧ j < N ∧ 0 < A i j) {r : Nat} {modes : Nat → Nat → ℝ}
    {ks c : Nat → ℝ} (D : DominantMode N Mr A r modes ks c) :
    ∃ (x : Nat → Nat → ℝ) (κ : Nat → ℝ), (∀ h, Iterates N qr A x κ h) ∧ Tendsto κ atTop (𝓝 (ks 0)) ∧
      ∀ acc : ℝ, 0 < acc → ∃ n0 : Int, ∀ maxIter : Int, n0 ≤ maxIter → maxIter ≤ 2147483647 →
        ∃ k φ, sourceIteration qr M F maxIter acc = ok (k, φ) := by
  obtain ⟨sol, hsol, hq⟩ := exists_sol hs
  obtain ⟨p0, q0, hp, hq0, hpq⟩ := hA0
  have hpos := power_positive hsol hM hA hp hq0 hpq
  have I := power_iterates (A := A) hq (fun j => (hpos j).2.2.2.2.ne')
  have hinj := injective_of_strict ⟨sol (fun _ => 1), fun i hi => hsol _ i hi⟩ hM
  have hk := k_tendsto hinj hs D I
  refine ⟨_, _, I, hk, ?_⟩
  intro acc hacc
  have hex := change_small hk D.k_ne hacc
  classical
  refine ⟨(Nat.find hex : Int) + 1, fun maxIter h1 h2 => ?_⟩
  obtain ⟨φ, e, -⟩ := C22_converged hsq hF h1 h2 (I (Nat.find hex + 1)) (Nat.find_spec hex)
    (fun j hj => not_lt.1 (Nat.find_min hex hj))
  exact ⟨_, φ, e⟩

/-- **C55, without assumptions about the modes.** Let the loss matrix have a non-negative inverse and non-positive off-diagonal
entries, let the fission matrix be a product `L Q` of non-negative matrices, and let fission anywhere lead to fission everywhere. Then
there is exactly one k-factor that belongs to a non-negative flux; it is positive and its flux is unique up to a factor; the k-factors of
the iteration tend to it and the fluxes, scaled to unit norm, tend to that flux; and for every accuracy the routine returns if enough
iterations are allowed. -/
theorem C55_fundamental (hsq : Square N M F) (hF : Entries N A F) (hs : Solves N Mr qr) (hM : InversePositive N Mr)
    (hz : OffDiagonal N Mr) {L Q : Nat → Nat → ℝ} (hf : Factored N A L Q) (hc : Connected N Mr L Q)
    (hA0 : ∃ i j, i < N ∧ j < N ∧ 0 < A i j) :
    ∃ (kt : ℝ) (f : Nat → ℝ) (x : Nat → Nat → ℝ) (κ : Nat → ℝ), 0 < kt ∧ Eigenpair N Mr A kt f ∧ (∀ i, i < N → 0 ≤ f i) ∧
      ∑ i ∈ range N, f i = 1 ∧
      (∀ k ψ, Eigenpair N Mr A k ψ → (∀ i, i < N → 0 ≤ ψ i) → k = kt ∧ ∃ c, ∀ i, i < N → ψ i = c * f i) ∧
      (∀ h, Iterates N qr A x κ h) ∧ Tendsto κ atTop (𝓝 kt) ∧
      (∀ i, i < N → Tendsto (fun j => x j i / oneNorm N (x j)) atTop (𝓝 (f i))) ∧
      ∀ acc : ℝ, 0 < acc → ∃ n0 : Int, ∀ maxIter : Int, n0 ≤ maxIter → maxIter ≤ 2147483647 →
        ∃ k φ, sourceIteration qr M F maxIter acc = ok (k, φ) := by
  obtain ⟨sol, hsol, hq⟩ := exists_sol hs
  have S : Setting N Mr A L Q sol := ⟨hsol, hM, hz, hf, hc, hA0⟩
  obtain ⟨kt, f, hkt, he, hf0, hf1, huniq, hk, hx⟩ := S.fundamental
  have I := power_iterates (A := A) hq S.overlap
  refine ⟨kt, f, _, _, hkt, he, hf0, hf1, huniq, I, hk, hx, ?_⟩
  intro acc hacc
  have hex := change_small hk hkt.ne' hacc
  classical
  refine ⟨(Nat.find hex : Int) + 1, fun maxIter h1 h2 => ?_⟩
  obtain ⟨φ, e, -⟩ := C22_converged hsq hF h1 h2 (I (Nat.find hex + 1)) (Nat.find_spec hex)
    (fun j hj => not_lt.1 (Nat.find_min hex hj))
  exact ⟨_, φ, e⟩

/-- **C55, accuracy.** If the iteration converges and no step leaves the k-factor exactly as it was before the limit is reached, then for
a small enough accuracy whatever is returned is as close to the limit as desired. (If some step does leave it unchanged, the routine stops
there: see C52.) -/
theorem C55_accuracy (hsq : Square N M F) (hF : Entries N A F) {x : Nat → Nat → ℝ} {κ : Nat → ℝ} (I : ∀ h, Iterates N qr A x κ h)
    {kt : ℝ} {f : Nat → ℝ} (hk : Tendsto κ atTop (𝓝 kt))
    (hx : ∀ i, i < N → Tendsto (fun j => x j i / oneNorm N (x j)) atTop (𝓝 (f i)))
    (hne : ∀ j, change κ j = 0 → κ (j + 1) = kt ∧ ∀ i, i < N → x (j + 1) i / oneNorm N (x (j + 1)) = f i) :
    ∀ ε : ℝ, 0 < ε → ∃ acc0 : ℝ, 0 < acc0 ∧ ∀ (acc : ℝ) (maxIter : Int) (k : Fl) (φ : Vec Fl), acc < acc0 →
      sourceIteration qr M F maxIter acc = ok (k, φ) →
      ∃ (kr : ℝ) (fr : Nat → ℝ), k = .fin kr ∧ |kr - kt| < ε ∧ ∀ i, i < N → φ.v i = .fin (fr i) ∧ |fr i - f i| < ε := by
  intro ε hε
  have h1 : ∀ᶠ j in atTop, |κ j - kt| < ε := by
    have := (hk.sub_const kt).abs
    rw [sub_self, abs_zero] at this
    exact (tendsto_order.1 this).2 ε hε
  have h2 : ∀ᶠ j in atTop, ∀ i ∈ range N, |x j i / oneNorm N (x j) - f i| < ε := by
    rw [eventually_all_finset]
    intro i hi
    have := ((hx i (mem_range.1 hi)).sub_const (f i)).abs
    rw [sub_self, abs_zero] at this
    exact (tendsto_order.1 this).2 ε hε
  obtain ⟨n1, hn1⟩ := eventually_atTop.1 (h1.and h2)
  classical
  let g : Nat → ℝ := fun j => if change κ j = 0 then 1 else change κ j
  have hpos : ∀ j, 0 < g j := by
    intro j
    simp only [g]
    split
    · exact one_pos
    · rename_i hj
      exact lt_of_le_of_ne (abs_nonneg _) (Ne.symm hj)
  have hR : (range (n1 + 1)).Nonempty := ⟨0, mem_range.2 (Nat.succ_pos _)⟩
  refine ⟨(range (n1 + 1)).inf' hR g, ?_, ?_⟩
  · rw [lt_inf'_iff]
    exact fun j _ => hpos j
  · intro acc maxIter k φ hacc h
    obtain ⟨A', x', κ', n, hF', -, I', hc, -, hk', -, hv, -⟩ := C22_returns hsq h
    have I'' : Iterates N qr A x' κ' (n + 1) := I'.congr (fun i j hi hj => by
      have := hF' i j hi hj
      rw [hF i j hi hj] at this
      exact (Fl.fin.inj this).symm)
    have hu := Iterates.unique (I (n + 1)) I''
    have hch : change κ n < acc := by
      unfold change
      rw [(hu n (by omega)).1, (hu (n + 1) le_rfl).1]
      exact hc
    have hlim : |κ (n + 1) - kt| < ε ∧ ∀ i ∈ range N, |x (n + 1) i / oneNorm N (x (n + 1)) - f i| < ε := by
      by_cases h0 : change κ n = 0
      · obtain ⟨b1, b2⟩ := hne n h0
        refine ⟨by rw [b1, sub_self, abs_zero]; exact hε, fun i hi => ?_⟩
        rw [b2 i (mem_range.1 hi), sub_self, abs_zero]
        exact hε
      · refine hn1 (n + 1) ?_
        by_contra hcon
        have := inf'_le g (mem_range.2 (show n < n1 + 1 by omega))
        simp only [g] at this
        rw [if_neg h0] at this
        exact absurd (lt_of_lt_of_le (hch.trans hacc) this) (lt_irrefl _)
    obtain ⟨a1, a2⟩ := hlim
    have hnorm : oneNorm N (x (n + 1)) = oneNorm N (x' (n + 1)) :=
      sum_congr rfl (fun i hi => by rw [(hu (n + 1) le_rfl).2 i (mem_range.1 hi)])
    refine ⟨κ (n + 1), fun i => x (n + 1) i / oneNorm N (x (n + 1)), ?_, a1, fun i hi => ⟨?_, a2 i (mem_range.2 hi)⟩⟩
    · rw [hk', (hu (n + 1) le_rfl).1]
    · dsimp only
      rw [hv i hi, hnorm, (hu (n + 1) le_rfl).2 i hi]

/-! ### C56 -/

/-- **C56.** Without fission the fundamental calculation never returns a k-factor: it terminates with an error, whatever the solver. -/
theorem C56_no_fission (hsq : Square N M F) (hF : Entries N (fun _ _ => 0) F) (hmax : maxIter < 2147483647) :
    sourceIteration qr M F maxIter acc = exit := by
  rcases C22_otherwise_exit (qr := qr) (acc := acc) hsq hmax with ⟨k, φ, h⟩ | h
  · obtain ⟨A', x, κ, n, hF', -, I, -⟩ := C22_returns hsq h
    have hz : ∀ i q, i < N → q < N → A' i q = 0 := by
      intro i q hi hq
      have := hF' i q hi hq
      rw [hF i q hi hq] at this
      exact (Fl.fin.inj this).symm
    refine absurd ?_ (I.overlap n (Nat.lt_succ_self n))
    refine sum_eq_zero (fun i hi => ?_)
    have : act N A' (x n) i = 0 := sum_eq_zero (fun q hq => by rw [hz i q (mem_range.1 hi) (mem_range.1 hq), zero_mul])
    rw [this, zero_mul]
  · exact h

/-- **C56 fails for the calculation of all modes.** If no eigenvalue exceeds the tolerance (and none is complex) the code takes the first
element of an empty list: undefined behaviour instead of an error. -/
theorem C56_all_modes_undefined {sort : List (Fl × Vec Fl) → List (Fl × Vec Fl)} (hsort : SortsDown sort) {n : Nat}
    {evals : List (Fl × Fl)} {V : Nat → Nat → ℝ} (hre : ∀ z ∈ evals, ¬ Above z.1) (him : ∀ z ∈ evals, ¬ Above z.2) :
    generalizedEigenSolver sort n evals V = ub := by
  have hk : keep n V evals = [] := by
    rw [keep_eq]
    have : kept evals = [] := by
      refine List.eq_nil_iff_forall_not_mem.2 (fun i hi => ?_)
      obtain ⟨z, hz, ha⟩ := mem_kept.1 hi
      exact hre z (List.mem_of_getElem? hz) ha
    rw [this]
    rfl
  unfold generalizedEigenSolver sortEigenmodes
  rw [if_neg (by rintro ⟨z, hz, h⟩; exact him z hz ((greater_iff _).1 h)), hk]
  unfold stdSort
  rw [if_neg (by simp), ok_bind, List.perm_nil.1 (hsort [] (by simp)).1]
  rfl

/-! ### C23 -/

/-- **C23.** If no eigenvalue has an imaginary part above the tolerance, the modes reported are those of the eigenvalues above the
tolerance, each once, in non-increasing order, each with its own eigenvector, which is scaled to unit 1-norm with a non-negative sum
unless it is zero (then it is not a number). -/
theorem C23_modes {sort : List (Fl × Vec Fl) → List (Fl × Vec Fl)} (hsort : SortsDown sort) {n : Nat} {evals : List (Fl × Fl)}
    {V : Nat → Nat → ℝ} (him : ∀ z ∈ evals, ¬ Above z.2) :
    ∃ (modes : List (Fl × Vec Fl)) (cols : List Nat) (w : Nat → Vec Fl), sortEigenmodes sort n evals V = ok modes ∧ cols.Nodup ∧
      (∀ i, i ∈ cols ↔ ∃ z, evals[i]? = some z ∧ Above z.1) ∧
      modes.Perm (cols.map (fun i => ((evals.getD i (.nan, .nan)).1, w i))) ∧
      (∀ i ∈ cols, (∃ p, p < n ∧ V p i ≠ 0) → Normalised n (fun p => V p i) (w i)) ∧
      (∀ i ∈ cols, (∀ p, p < n → V p i = 0) → ∀ p, p < n → (w i).v p = .nan) ∧
      modes.Pairwise (fun a b => ¬ Fl.lt a.1 b.1) := by
  have hnan : ∀ m ∈ keep n V evals, m.1 ≠ nan := by
    intro m hm
    rw [keep_eq, List.mem_map] at hm
    obtain ⟨i, hi, rfl⟩ := hm
    obtain ⟨z, hz, ha⟩ := mem_kept.1 hi
    dsimp only
    rw [valueOf_of hz]
    exact above_ne_nan ha
  refine ⟨sort (keep n V evals), kept evals, mode n V, ?_, kept_nodup evals, fun i => mem_kept, ?_, fun i _ h => mode_normalised h,
    fun i _ h p hp => mode_zero h hp, (hsort _ hnan).2⟩
  · unfold sortEigenmodes
    rw [if_neg (by rintro ⟨z, hz, h⟩; exact him z hz ((greater_iff _).1 h))]
    unfold stdSort
    rw [if_neg (by rintro ⟨m, hm, h⟩; exact hnan m hm h)]
  · have := (hsort _ hnan).1
    rwa [keep_eq] at this ⊢

/-- **C23.** The k-factor reported is the largest eigenvalue, provided there is one above the tolerance, and it belongs to the flux
reported. -/
theorem C23_k {sort : List (Fl × Vec Fl) → List (Fl × Vec Fl)} (hsort : SortsDown sort) {n : Nat} {evals : List (Fl × Fl)}
    {V : Nat → Nat → ℝ} (him : ∀ z ∈ evals, ¬ Above z.2) (hex : ∃ z ∈ evals, Above z.1) :
    ∃ res, generalizedEigenSolver sort n evals V = ok res ∧ kFactor res.eigenvalues = ok res.k ∧ res.modes.head? = some (res.k, res.flux) ∧
      (∃ z ∈ evals, z.1 = res.k ∧ Above res.k) ∧ ∀ z ∈ evals, Above z.1 → ¬ Fl.lt res.k z.1 := by
  obtain ⟨modes, cols, w, e, hnd, hcols, hperm, -, -, hpw⟩ := C23_modes hsort (n := n) (V := V) him
  obtain ⟨z, hz, ha⟩ := hex
  have hmem : ∀ z ∈ evals, Above z.1 → ∃ m ∈ modes, m.1 = z.1 := by
    intro z hz ha
    obtain ⟨i, hi⟩ := List.getElem?_of_mem hz
    refine ⟨((evals.getD i (.nan, .nan)).1, w i), hperm.mem_iff.2 (List.mem_map.2 ⟨i, (hcols i).2 ⟨z, hi, ha⟩, rfl⟩), ?_⟩
    dsimp only
    rw [List.getD_eq_getElem?_getD, hi]
    rfl
  cases modes with
  | nil =>
    obtain ⟨m, hm, -⟩ := hmem z hz ha
    cases hm
  | cons m l =>
    refine ⟨⟨m.1, m.2, m :: l⟩, ?_, rfl, rfl, ?_, ?_⟩
    · unfold generalizedEigenSolver
      rw [e, ok_bind]
      rfl
    · have : m ∈ m :: l := List.mem_cons_self
      obtain ⟨i, hi, hm⟩ := List.mem_map.1 (hperm.mem_iff.1 this)
      obtain ⟨y, hy, hay⟩ := (hcols i).1 hi
      have e1 : m.1 = y.1 := by
        rw [← hm]
        dsimp only
        rw [List.getD_eq_getElem?_getD, hy]
        rfl
      refine ⟨y, List.mem_of_getElem? hy, e1.symm, ?_⟩
      dsimp only
      rw [e1]
      exact hay
    · intro y hy hay
      obtain ⟨m', hm', e'⟩ := hmem y hy hay
      rcases List.mem_cons.1 hm' with rfl | h
      · dsimp only
        rw [← e']
        cases m'.1 with
        | nan => simp [Fl.lt]
        | fin x => simp [Fl.lt]
        | inf b => cases b <;> simp [Fl.lt]
      · rw [← e']
        exact (List.pairwise_cons.1 hpw).1 m' h

/-- **C23.** Complex spectra are refused: the eigenvalues of a real problem come in conjugate pairs, so testing for positive imaginary
parts only is enough. -/
theorem C23_complex_refused {sort : List (Fl × Vec Fl) → List (Fl × Vec Fl)} {n : Nat} {evals : List (Fl × Fl)} {V : Nat → Nat → ℝ}
    (hconj : ConjClosed evals) (h : ∃ a b, (a, Fl.fin b) ∈ evals ∧ 10 / 2 ^ 52 < |b|) :
    sortEigenmodes sort n evals V = exit ∧ generalizedEigenSolver sort n evals V = exit := by
  obtain ⟨a, b, hab, hb⟩ := h
  have him : hasImagValues evals := by
    rcases le_total 0 b with h0 | h0
    · rw [abs_of_nonneg h0] at hb
      exact ⟨_, hab, (greater_iff _).2 hb⟩
    · rw [abs_of_nonpos h0] at hb
      exact ⟨_, hconj a b hab, (greater_iff _).2 hb⟩
  have e : sortEigenmodes sort n evals V = exit := by
    unfold sortEigenmodes
    rw [if_pos him]
  exact ⟨e, by unfold generalizedEigenSolver; rw [e]; rfl⟩

/-! ### C57 -/

/-- **C57, what does hold.** The warning is printed exactly if in some row the other entries together exceed the diagonal entry by more than
the tolerance (twice its size is added for a negative diagonal entry). What is missing: rows in which both are equal are not strictly
dominant but give no warning. -/
theorem C57_warning_partial (hr : M.r = N) (hc : M.c = N) (hM : Entries N Mr M) :
    ∃ w, diagonalDominanceCheck M = ok w ∧ ((w = true) ↔ ∃ i, i < N ∧
      Mr i i + 10 / 2 ^ 52 < ∑ j ∈ range N, (if j = i then 0 else |Mr i j|) + (|Mr i i| - Mr i i)) := by
  obtain ⟨w, e, hw⟩ := dominance_fin hr hc hM
  refine ⟨w, e, ?_⟩
  rw [hw]
  refine exists_congr (fun i => and_congr_right (fun hi => ?_))
  have h : ∑ j ∈ range N, |Mr i j| = ∑ j ∈ range N, (if j = i then 0 else |Mr i j|) + |Mr i i| := by
    have : ∀ j ∈ range N, |Mr i j| = (if j = i then 0 else |Mr i j|) + (if j = i then |Mr i i| else 0) := by
      intro j _
      split_ifs with h
      · rw [h, zero_add]
      · rw [add_zero]
    rw [sum_congr rfl this, sum_add_distrib, sum_ite_eq' (range N) i, if_pos (mem_range.2 hi)]
  rw [h]
  unfold Numeric.tol
  constructor <;> intro h <;> linarith

/-- **C57 fails.** No warning for a matrix that is not strictly diagonally dominant. -/
theorem C57_equality_not_warned : ∃ M : Mat Fl, M.r = 2 ∧ M.c = 2 ∧ Entries 2 (fun _ _ => 1) M ∧
    diagonalDominanceCheck M = ok false := by
  refine ⟨⟨2, 2, fun _ _ => .fin 1⟩, rfl, rfl, fun _ _ _ _ => rfl, ?_⟩
  obtain ⟨w, e, hw⟩ := C57_warning_partial (N := 2) (Mr := fun _ _ => 1) (M := ⟨2, 2, fun _ _ => .fin 1⟩) rfl rfl
    (fun _ _ _ _ => rfl)
  rw [e]
  cases w with
  | false => rfl
  | true =>
    obtain ⟨i, hi, h⟩ := hw.1 rfl
    interval_cases i <;> norm_num [sum_range_succ] at h

/-! ### concrete instances -/

/-- two cells, no flat coincidence: `M = (4 -2; -2 4)` -/
def exM : Nat → Nat → ℝ := fun i j => if i = j then 4 else -2

/-- fission neutrons appear in the first cell only -/
def exF : Nat → Nat → ℝ := fun i _ => if i = 0 then 1 else 0

def exMat (A : Nat → Nat → ℝ) : Mat Fl := ⟨2, 2, fun i j => .fin (A i j)⟩

/-- an exact solver for `exM` -/
def exQr : List Fl → Nat → Fl := fun b i =>
  .fin ((if i = 0 then 4 * re (b.getD 0 .nan) + 2 * re (b.getD 1 .nan) else 2 * re (b.getD 0 .nan) + 4 * re (b.getD 1 .nan)) / 12)

def exX : Nat → Nat → ℝ
  | 0 => fun _ => 1
  | 1 => fun _ => 1 / 2
  | _ => fun i => if i = 0 then 2 / 3 else 1 / 3

def exK : Nat → ℝ
  | 0 => 1
  | _ => 1 / 2

theorem exQr_rhs (b : Nat → ℝ) (i : Nat) :
    exQr (rhs 2 b) i = .fin ((if i = 0 then 4 * b 0 + 2 * b 1 else 2 * b 0 + 4 * b 1) / 12) := rfl

theorem ex_square : Square 2 (exMat exM) (exMat exF) := ⟨rfl, rfl, rfl, rfl⟩

theorem ex_entries (A : Nat → Nat → ℝ) : Entries 2 A (exMat A) := fun _ _ _ _ => rfl

theorem ex_solves : Solves 2 exM exQr := by
  intro b
  refine ⟨_, fun i _ => exQr_rhs b i, fun i hi => ?_⟩
  interval_cases i <;> norm_num [act, sum_range_succ, exM] <;> ring

theorem ex_iterates : Iterates 2 exQr exF exX exK 2 := by
  refine ⟨fun _ _ => rfl, rfl, fun _ i hi => ?_, fun j hj i hi => ?_, fun j hj => ?_, fun j hj => ?_⟩
  · rw [exQr_rhs]
    interval_cases i <;> norm_num [exX]
  · obtain rfl : j = 0 := by omega
    rw [exQr_rhs]
    interval_cases i <;> norm_num [exX, exK, act, exF, sum_range_succ]
  · interval_cases j <;> norm_num [exX, dot, act, exF, sum_range_succ]
  · interval_cases j <;> norm_num [exX, exK, dot, act, exF, sum_range_succ]

/-- two passes are needed, and `k = 1/2` -/
theorem ex_run : ∃ φ, sourceIteration exQr (exMat exM) (exMat exF) 100 (1 / 100) = ok (.fin (1 / 2), φ) ∧ φ.n = 2 ∧
    φ.v 0 = .fin (2 / 3) ∧ φ.v 1 = .fin (1 / 3) := by
  obtain ⟨φ, e, hn, hv⟩ := C22_converged (n := 1) (maxIter := 100) (acc := 1 / 100) ex_square (ex_entries exF) (by norm_num)
    (by norm_num) ex_iterates (by norm_num [change, exK]) (fun j hj => by
      obtain rfl : j = 0 := by omega
      norm_num [change, exK])
  refine ⟨φ, e, hn, ?_, ?_⟩
  · rw [hv 0 (by norm_num)]; norm_num [exX, oneNorm, sum_range_succ]
  · rw [hv 1 (by norm_num)]; norm_num [exX, oneNorm, sum_range_succ]

theorem ex_strict : InverseStrict 2 exM := by
  intro x h0 h1 i hi
  have a := h0 0 (by norm_num)
  have b := h0 1 (by norm_num)
  obtain ⟨p, hp, hpos⟩ := h1
  simp only [act, sum_range_succ, sum_range_zero, exM] at a b hpos
  norm_num at a b
  interval_cases p <;> norm_num at hpos <;> interval_cases i <;> linarith

theorem ex_positive : InversePositive 2 exM := by
  intro x h0 i hi
  have a := h0 0 (by norm_num)
  have b := h0 1 (by norm_num)
  simp only [act, sum_range_succ, sum_range_zero, exM] at a b
  norm_num at a b
  interval_cases i <;> linarith

theorem ex_nonneg : ∀ i j, i < 2 → j < 2 → 0 ≤ exF i j := by
  intro i j _ _
  unfold exF
  split <;> norm_num

theorem ex_dominant : DominantMode 2 exM exF 2 (fun m i => if m = 0 then (if i = 0 then 2 else 1) else (if i = 0 then 1 else -1))
    (fun m => if m = 0 then 1 / 2 else 0) (fun m => if m = 0 then 1 / 3 else -1 / 6) := by
  refine ⟨by norm_num, fun m hm i hi => ?_, fun i hi => ?_, by norm_num, fun m h0 h1 => ?_, ⟨0, by norm_num, ?_⟩⟩
  · interval_cases m <;> interval_cases i <;> norm_num [act, sum_range_succ, exM, exF]
  · interval_cases i <;> norm_num [act, sum_range_succ, exM]
  · obtain rfl : m = 1 := by omega
    norm_num
  · norm_num [act, sum_range_succ, exF]

theorem ex_offDiagonal : OffDiagonal 2 exM := by
  intro i j _ _ h
  unfold exM
  rw [if_neg h]
  norm_num

/-- fission neutrons are emitted in the first cell -/
theorem ex_factored : Factored 2 exF (fun i j => if i = j then 1 else 0) exF := by
  refine ⟨fun i j hi hj => ?_, fun i j _ _ => by split <;> norm_num, ex_nonneg⟩
  interval_cases i <;> interval_cases j <;> norm_num [sum_range_succ, exF]

theorem ex_connected : Connected 2 exM (fun i j => if i = j then 1 else 0) exF := by
  rintro x r hr hx ⟨j, hj, ⟨q, hq, hne⟩, hpos⟩ i hi ⟨p, hp, hne'⟩
  have a := hx 0 (by norm_num)
  have b := hx 1 (by norm_num)
  have r0 := hr 0 (by norm_num)
  have r1 := hr 1 (by norm_num)
  norm_num [act, sum_range_succ, exM, exF] at a b hne hne' ⊢
  subst hne
  subst hne'
  norm_num
  linarith

example : ∃ i j, i < 2 ∧ j < 2 ∧ 0 < exF i j := ⟨0, 0, by norm_num, by norm_num, by norm_num [exF]⟩

theorem exX_late (n : Nat) : exX (n + 2) = fun i => if i = 0 then 2 / 3 else 1 / 3 := rfl

/-- the whole iteration of the example: it reaches the limit in the second step -/
theorem ex_iterates_all (h : Nat) : Iterates 2 exQr exF exX exK h := by
  refine ⟨fun _ _ => rfl, rfl, fun _ i hi => ?_, fun j _ i hi => ?_, fun j _ => ?_, fun j _ => ?_⟩
  · rw [exQr_rhs]
    interval_cases i <;> norm_num [exX]
  · rw [exQr_rhs]
    rw [exX_late j]
    rcases j with _ | j <;> interval_cases i <;> norm_num [exX, exK, act, exF, sum_range_succ]
  · rcases j with _ | _ | j <;> norm_num [exX, dot, act, exF, sum_range_succ]
  · rcases j with _ | _ | j <;> norm_num [exX, exK, dot, act, exF, sum_range_succ]

example : (∀ h, Iterates 2 exQr exF exX exK h) ∧ Tendsto exK atTop (𝓝 (1 / 2)) ∧
    (∀ i, i < 2 → Tendsto (fun j => exX j i / oneNorm 2 (exX j)) atTop (𝓝 (if i = 0 then 2 / 3 else 1 / 3))) ∧
    ∀ j, change exK j = 0 → exK (j + 1) = 1 / 2 ∧
      ∀ i, i < 2 → exX (j + 1) i / oneNorm 2 (exX (j + 1)) = if i = 0 then 2 / 3 else 1 / 3 := by
  refine ⟨ex_iterates_all, ?_, fun i hi => ?_, fun j hj => ⟨rfl, fun i hi => ?_⟩⟩
  · refine (tendsto_add_atTop_iff_nat 1).1 ?_
    exact tendsto_const_nhds
  · refine (tendsto_add_atTop_iff_nat 2).1 ?_
    refine tendsto_const_nhds.congr (fun n => ?_)
    rw [exX_late n]
    interval_cases i <;> norm_num [oneNorm, sum_range_succ]
  · rcases j with _ | j
    · norm_num [change, exK] at hj
    · interval_cases i <;> norm_num [exX, oneNorm, sum_range_succ]

example : AdjointPair 2 exM exF (1 / 2) (fun _ => 1) :=
  ⟨fun _ _ => zero_le_one, fun q hq => by interval_cases q <;> norm_num [sum_range_succ, exM, exF]⟩

/-- a solver that never converges: the k-factor becomes not-a-number -/
example : sourceIteration (fun _ _ => .nan) (exMat exM) (exMat exF) 100 (1 / 100) = exit := by
  rcases C22_otherwise_exit (qr := fun _ _ => .nan) (acc := 1 / 100) ex_square (maxIter := 100) (by norm_num) with ⟨k, φ, h⟩ | h
  · obtain ⟨A, x, κ, n, -, -, I, -⟩ := C22_returns ex_square h
    have := I.first (by omega) 0 (by norm_num)
    cases this
  · exact h

example : exit = sourceIteration exQr (exMat exM) ⟨3, 3, fun _ _ => .fin 1⟩ 100 (1 / 100) :=
  (C22_sizes (by norm_num [exMat]) (by norm_num [exMat])).symm

example : exit = sourceIteration exQr (exMat exM) (exMat (fun _ _ => 0)) 100 (1 / 100) :=
  (C56_no_fission (N := 2) ⟨rfl, rfl, rfl, rfl⟩ (ex_entries _) (by norm_num)).symm

/-- keys for sorting -/
def key : Fl → EReal
  | .fin x => (x : EReal)
  | .inf true => ⊥
  | .inf false => ⊤
  | .nan => ⊥

theorem lt_key {a b : Fl} (h : Fl.lt a b) : key a < key b := by
  rcases a with _ | x | (_ | _) <;> rcases b with _ | y | (_ | _) <;> simp_all [Fl.lt, key]

/-- a sorting routine as the library provides one -/
def exSort (l : List (Fl × Vec Fl)) : List (Fl × Vec Fl) := l.mergeSort (fun a b => @decide (key b.1 ≤ key a.1) (Classical.propDecidable _))

theorem exSort_sorts : SortsDown exSort := by
  intro l _
  refine ⟨List.mergeSort_perm _ _, ?_⟩
  have := List.pairwise_mergeSort (le := fun a b : Fl × Vec Fl => @decide (key b.1 ≤ key a.1) (Classical.propDecidable _))
    (fun a b c h1 h2 => by simp only [decide_eq_true_iff] at *; exact le_trans h2 h1)
    (fun a b => by simp only [Bool.or_eq_true, decide_eq_true_iff]; exact le_total _ _) l
  refine List.Pairwise.imp (fun h hlt => ?_) this
  simp only [decide_eq_true_iff] at h
  exact absurd (lt_key hlt) (not_lt.2 h)

/-- four eigenvalues, one of them not a number and one negative -/
def exEvals : List (Fl × Fl) := [(.fin 2, .fin 0), (.nan, .fin 0), (.fin 3, .fin 0), (.fin (-1), .fin 0)]

example : (∀ z ∈ exEvals, ¬ Above z.2) ∧ ∃ z ∈ exEvals, Above z.1 := by
  refine ⟨?_, (.fin 2, .fin 0), by simp [exEvals], by norm_num [Above]⟩
  intro z hz
  simp only [exEvals, List.mem_cons, List.not_mem_nil, or_false] at hz
  rcases hz with rfl | rfl | rfl | rfl <;> norm_num [Above]

example : ConjClosed [(.fin 2, .fin 1), (.fin 2, .fin (-1))] := by
  intro a b h
  simp only [List.mem_cons, Prod.mk.injEq, Fl.fin.injEq, List.not_mem_nil, or_false] at h ⊢
  rcases h with ⟨rfl, rfl⟩ | ⟨rfl, rfl⟩
  · exact .inr ⟨rfl, rfl⟩
  · exact .inl ⟨rfl, by norm_num⟩

example : ∀ z ∈ [((.fin 0 : Fl), (.fin 0 : Fl)), (.nan, .fin 0)], ¬ Above z.1 := by
  intro z hz
  simp only [List.mem_cons, List.not_mem_nil, or_false] at hz
  rcases hz with rfl | rfl <;> norm_num [Above]

end

end Verif.Eigen
