import Verif.Eigen.Fundamental
import Verif.Core.LinAlg
import Mathlib.Logic.Relation

/-! Connectedness from a graph, and comparison of the k-factors of two problems. -/

namespace Verif.Eigen

open Finset

noncomputable section

open scoped Classical

variable {N : Nat} {M A L Q M' A' : Nat → Nat → ℝ} {sol : (Nat → ℝ) → Nat → ℝ}

theorem act_id (r : Nat → ℝ) {i : Nat} (hi : i < N) : act N (fun i j => if i = j then 1 else 0) r i = r i := by
  unfold act
  dsimp only
  rw [sum_eq_single i (fun q _ hq => by rw [if_neg (Ne.symm hq), zero_mul]) (fun h => absurd (mem_range.2 hi) h), if_pos rfl, one_mul]

/-- a row with something positive in it -/
theorem row_positive (hz : OffDiagonal N M) {x : Nat → ℝ} (h0 : ∀ i, i < N → 0 ≤ x i) {i : Nat} (hi : i < N)
    (h : 0 < act N M x i) : 0 < x i := by
  refine lt_of_le_of_ne (h0 i hi) (fun he => ?_)
  have : act N M x i ≤ 0 := by
    refine sum_nonpos (fun q hq => ?_)
    by_cases hqi : q = i
    · subst hqi; rw [← he, mul_zero]
    · exact mul_nonpos_of_nonpos_of_nonneg (hz i q hi (mem_range.1 hq) (Ne.symm hqi)) (h0 q (mem_range.1 hq))
  exact absurd h (not_lt.2 this)

/-- the flux spreads along the gains -/
theorem spread (hz : OffDiagonal N M) {x : Nat → ℝ} (h0 : ∀ i, i < N → 0 ≤ x i) (hM : ∀ i, i < N → 0 ≤ act N M x i) {p q : Nat}
    (hp : p < N) (hq : q < N) (hpq : M q p < 0) (hx : 0 < x p) : 0 < x q := by
  refine lt_of_le_of_ne (h0 q hq) (fun he => ?_)
  have : act N M x q < 0 := by
    refine sum_neg' (fun s hs => ?_) ⟨p, mem_range.2 hp, mul_neg_of_neg_of_pos hpq hx⟩
    by_cases hqs : s = q
    · subst hqs; rw [← he, mul_zero]
    · exact mul_nonpos_of_nonpos_of_nonneg (hz q s hq (mem_range.1 hs) (Ne.symm hqs)) (h0 s (mem_range.1 hs))
  exact absurd (hM q hq) (not_le.2 this)

theorem spread_path (hz : OffDiagonal N M) {x : Nat → ℝ} (h0 : ∀ i, i < N → 0 ≤ x i) (hM : ∀ i, i < N → 0 ≤ act N M x i) {p q : Nat}
    (h : Relation.ReflTransGen (fun p q => p < N ∧ q < N ∧ M q p < 0) p q) (hx : 0 < x p) : 0 < x q := by
  induction h with
  | refl => exact hx
  | tail _ hs ih => exact spread hz h0 hM hs.1 hs.2.1 hs.2.2 ih

/-- emission leads to emission if the gains connect the places of emission -/
theorem connected_of_links (hM : InversePositive N M) (hz : OffDiagonal N M) (hL : ∀ i j, i < N → j < N → 0 ≤ L i j)
    (hQ : ∀ i j, i < N → j < N → 0 ≤ Q i j)
    (hl : ∀ i j, i < N → j < N → Emits N Q i → Emits N Q j →
      ∃ p q, p < N ∧ q < N ∧ 0 < L p i ∧ 0 < Q j q ∧ Relation.ReflTransGen (fun p q => p < N ∧ q < N ∧ M q p < 0) p q) :
    Connected N M L Q := by
  rintro x r hr hx ⟨i, hi, hei, hri⟩ j hj hej
  have hb0 : ∀ i, i < N → 0 ≤ act N M x i := fun i hi => by rw [hx i hi]; exact act_nonneg hL hr hi
  have h0 := hM x hb0
  obtain ⟨p, q, hp, hq, hLp, hQq, path⟩ := hl i j hi hj hei hej
  have hxp : 0 < x p := by
    refine row_positive hz h0 hp ?_
    rw [hx p hp]
    exact sum_pos' (fun s hs => mul_nonneg (hL p s hp (mem_range.1 hs)) (hr s (mem_range.1 hs))) ⟨i, mem_range.2 hi, mul_pos hLp hri⟩
  exact sum_pos' (fun p hp => mul_nonneg (hQ j p hj (mem_range.1 hp)) (h0 p (mem_range.1 hp)))
    ⟨q, mem_range.2 hq, mul_pos hQq (spread_path hz h0 hb0 path hxp)⟩

/-- the inverse of the transpose is positive as well -/
theorem inverse_transpose (hM : InversePositive N M) (hs : ∀ b : Nat → ℝ, ∃ x : Nat → ℝ, ∀ p, p < N → act N M x p = b p) :
    InversePositive N (fun p q => M q p) := by
  intro y hy i hi
  obtain ⟨x, hx⟩ := hs (unit i)
  have hx0 : ∀ p, p < N → 0 ≤ x p := hM x (fun p hp => by rw [hx p hp]; unfold unit; split <;> norm_num)
  have e : ∑ p ∈ range N, y p * act N M x p = ∑ q ∈ range N, act N (fun p q => M q p) y q * x q := by
    unfold act
    simp only [mul_sum, sum_mul]
    rw [sum_comm]
    exact sum_congr rfl (fun q _ => sum_congr rfl (fun p _ => by ring))
  have e2 : ∑ p ∈ range N, y p * act N M x p = y i := by
    rw [sum_congr rfl (fun p hp => by rw [hx p (mem_range.1 hp)]), sum_eq_single i
      (fun p _ hne => by unfold unit; rw [if_neg hne, mul_zero]) (fun h => absurd (mem_range.2 hi) h)]
    unfold unit
    rw [if_pos rfl, mul_one]
  rw [← e2, e]
  exact sum_nonneg (fun q hq => mul_nonneg (hy q (mem_range.1 hq)) (hx0 q (mem_range.1 hq)))

theorem path_transpose {p q : Nat} (h : Relation.ReflTransGen (fun p q => p < N ∧ q < N ∧ M q p < 0) p q) :
    Relation.ReflTransGen (fun p q => p < N ∧ q < N ∧ (fun p q => M q p) q p < 0) q p := by
  induction h with
  | refl => exact .refl
  | tail _ hs ih => exact .head ⟨hs.2.1, hs.1, hs.2.2⟩ ih

/-- a positive inverse can be solved with -/
theorem solvable_of_positive (hM : InversePositive N M) (b : Nat → ℝ) : ∃ x : Nat → ℝ, ∀ p, p < N → act N M x p = b p := by
  refine solvable_of_injective (fun x hx => ?_) b
  refine injective_of_positive hM x (fun _ => 0) (fun p hp => ?_)
  have := hx p hp
  unfold act
  rw [this]
  simp

theorem factored_id (hA : ∀ i j, i < N → j < N → 0 ≤ A i j) : Factored N A (fun i j => if i = j then 1 else 0) A := by
  refine ⟨fun i j hi _ => ?_, fun i j _ _ => ?_, hA⟩
  · exact (act_id (fun p => A p j) hi).symm
  · split <;> norm_num

/-- less gain and more loss: the k-factor does not rise -/
theorem Setting.k_monotone (S : Setting N M A L Q sol) (hM' : InversePositive N M')
    (hMM : ∀ i j, i < N → j < N → M i j ≤ M' i j) (hAA : ∀ i j, i < N → j < N → A' i j ≤ A i j)
    {k k' : ℝ} {φ ψ : Nat → ℝ} (hφ : Eigenpair N M A k φ) (hφ0 : ∀ i, i < N → 0 ≤ φ i)
    (hψ : Eigenpair N M' A' k' ψ) (hψ0 : ∀ i, i < N → 0 ≤ ψ i) : k' ≤ k := by
  have := S.nonempty
  obtain ⟨hk, hv, hev⟩ := S.eigen_emission hφ hφ0
  by_contra hcon
  push Not at hcon
  have hk' : 0 < k' := hk.trans hcon
  obtain ⟨⟨i1, hi1, hne⟩, he⟩ := hψ
  set r : Nat → ℝ := fun p => act N Q ψ p / k' with hr
  have hr0 : ∀ p, p < N → 0 ≤ r p := fun p hp => div_nonneg (act_nonneg S.hf.Q_nonneg hψ0 hp) hk'.le
  have hLr : ∀ i, i < N → act N L r i = act N A ψ i / k' := by
    intro i hi
    rw [act_prod S.hf ψ hi]
    unfold act
    rw [sum_div]
    exact sum_congr rfl (fun q _ => by rw [hr]; unfold act; ring)
  have hle : ∀ i, i < N → act N M ψ i ≤ act N L r i := by
    intro i hi
    have h1 : act N M ψ i ≤ act N M' ψ i := sum_le_sum (fun q hq =>
      mul_le_mul_of_nonneg_right (hMM i q hi (mem_range.1 hq)) (hψ0 q (mem_range.1 hq)))
    have h2 : act N A' ψ i ≤ act N A ψ i := sum_le_sum (fun q hq =>
      mul_le_mul_of_nonneg_right (hAA i q hi (mem_range.1 hq)) (hψ0 q (mem_range.1 hq)))
    rw [hLr i hi]
    calc _ ≤ _ := h1
      _ = _ := he i hi
      _ ≤ _ := div_le_div_of_nonneg_right h2 hk'.le
  set y := sol (act N L r) with hy
  have hMy : ∀ i, i < N → act N M y i = act N L r i := fun i hi => S.hsol _ i hi
  have hψy : ∀ i, i < N → ψ i ≤ y i := fun i hi => by
    have := S.hM (fun q => y q - ψ q) (fun p hp => by rw [act_sub, hMy p hp]; exact sub_nonneg.2 (hle p hp)) i hi
    linarith
  have hno : ∀ j, j < N → ¬ Emits N Q j → r j = 0 := fun j _ h => by rw [hr]; simp only [no_emission h, zero_div]
  have hex : ∃ j, j < N ∧ Emits N Q j ∧ 0 < r j := by
    by_contra hc
    push Not at hc
    have hz : ∀ p, p < N → r p = 0 := fun p hp => by
      by_cases hem : Emits N Q p
      · exact le_antisymm (hc p hp hem) (hr0 p hp)
      · exact hno p hp hem
    have hL0 : ∀ i, i < N → act N L r i = 0 := fun i _ => sum_eq_zero (fun q hq => by rw [hz q (mem_range.1 hq), mul_zero])
    have hneg : ∀ i, i < N → 0 ≤ act N M' (fun q => 0 - ψ q) i := by
      intro i hi
      rw [act_sub, he i hi, show act N M' (fun _ => (0 : ℝ)) i = 0 from sum_eq_zero (fun q _ => mul_zero _)]
      have h2 : act N A' ψ i ≤ act N A ψ i := sum_le_sum (fun q hq =>
        mul_le_mul_of_nonneg_right (hAA i q hi (mem_range.1 hq)) (hψ0 q (mem_range.1 hq)))
      have h3 := div_le_div_of_nonneg_right h2 hk'.le
      rw [← hLr i hi, hL0 i hi] at h3
      linarith
    have h1 := hM' _ hneg i1 hi1
    have h2 := hψ0 i1 hi1
    exact hne (by linarith)
  have hu : ∀ i : Site N Q, 0 < act N Q y i := fun i => S.hc y r hr0 hMy hex i i.lt i.emits
  have hB := fun i j => next_pos S.hsol S.hc i j
  have hBr : ∀ i : Site N Q, act N Q y i = Perron.app (next N L Q sol) (fun j => r j) i :=
    fun i => emission_of (L := L) S.hsol S.hM hMy hno i
  have hru : ∀ i : Site N Q, k' * r i ≤ act N Q y i := by
    intro i
    have : act N Q ψ i ≤ act N Q y i := sum_le_sum (fun q hq =>
      mul_le_mul_of_nonneg_left (hψy q (mem_range.1 hq)) (S.hf.Q_nonneg i q i.lt (mem_range.1 hq)))
    rw [hr]
    dsimp only
    rwa [mul_div_cancel₀ _ hk'.ne']
  have hsub : ∀ i : Site N Q, k' * act N Q y i ≤ Perron.app (next N L Q sol) (fun j => act N Q y j) i := by
    intro i
    rw [hBr i, ← Perron.app_smul]
    exact sum_le_sum (fun j _ => mul_le_mul_of_nonneg_left (hru j) (hB i j).le)
  exact absurd (Perron.sub_value hB hu hv hsub hev) (not_le.2 hcon)

/-- no real mode lies above the physical one, and no other reaches it -/
theorem Setting.dominates (S : Setting N M A L Q sol) {k k' : ℝ} {φ ψ : Nat → ℝ} (hφ : Eigenpair N M A k φ)
    (hφ0 : ∀ i, i < N → 0 ≤ φ i) (hψ : Eigenpair N M A k' ψ) : |k'| ≤ k ∧ (k' = k → ∃ c, ∀ i, i < N → ψ i = c * φ i) := by
  have := S.nonempty
  obtain ⟨hk, hv, hev⟩ := S.eigen_emission hφ hφ0
  obtain ⟨⟨i1, hi1, hne⟩, he⟩ := hψ
  have hzero : ∀ z : Nat → ℝ, (∀ i, i < N → act N M z i = 0) → ∀ i, i < N → z i = 0 := by
    intro z hz
    refine injective_of_positive S.hM z (fun _ => 0) (fun i hi => ?_)
    rw [hz i hi]
    unfold act
    simp
  have hk' : k' ≠ 0 := by
    rintro rfl
    exact hne (hzero ψ (fun i hi => by rw [he i hi, div_zero]) i1 hi1)
  have hLQ : ∀ (κ : ℝ) (χ : Nat → ℝ) i, i < N → act N L (fun p => act N Q χ p / κ) i = act N A χ i / κ := by
    intro κ χ i hi
    rw [act_prod S.hf χ hi]
    unfold act
    rw [sum_div]
    exact sum_congr rfl (fun q _ => by ring)
  have hB : ∀ i : Site N Q, Perron.app (next N L Q sol) (fun j => act N Q ψ j) i = k' * act N Q ψ i := by
    intro i
    have e1 := emission_of (L := L) (y := ψ) (r := fun p => act N Q ψ p / k') S.hsol S.hM
      (fun i hi => by rw [he i hi, hLQ k' ψ i hi]) (fun j _ he => by rw [no_emission he, zero_div]) i
    rw [e1]
    have e2 := Perron.app_smul (B := next N L Q sol) (u := fun j : Site N Q => act N Q ψ j / k') k' i
    rw [← e2]
    unfold Perron.app
    exact sum_congr rfl (fun j _ => by dsimp only; rw [mul_div_cancel₀ _ hk'])
  have hBne : ∃ i : Site N Q, act N Q ψ i ≠ 0 := by
    by_contra hcon
    push Not at hcon
    refine hne (hzero ψ (fun i hi => ?_) i1 hi1)
    rw [he i hi, ← hLQ k' ψ i hi]
    refine sum_eq_zero (fun q hq => ?_)
    dsimp only
    by_cases hem : Emits N Q q
    · rw [hcon ⟨q, mem_filter.2 ⟨hq, hem⟩⟩, zero_div, mul_zero]
    · rw [no_emission hem, zero_div, mul_zero]
  obtain ⟨h1, h2⟩ := Perron.dominates (fun i j => next_pos S.hsol S.hc i j) hv hev hB hBne
  refine ⟨h1, fun e => ?_⟩
  obtain ⟨c, hc⟩ := h2 e
  subst e
  refine ⟨c, fun i hi => ?_⟩
  have := hzero (fun i => ψ i - c * φ i) (fun i hi => ?_) i hi
  · linarith
  · have e1 : act N M (fun i => ψ i - c * φ i) i = act N M ψ i - c * act N M φ i := by
      unfold act
      rw [mul_sum, ← sum_sub_distrib]
      exact sum_congr rfl (fun q _ => by ring)
    rw [e1, he i hi, hφ.2 i hi, ← hLQ k' ψ i hi, ← hLQ k' φ i hi]
    unfold act
    rw [mul_sum, ← sum_sub_distrib]
    refine sum_eq_zero (fun q hq => ?_)
    dsimp only
    by_cases hem : Emits N Q q
    · have := hc ⟨q, mem_filter.2 ⟨hq, hem⟩⟩
      unfold act at this
      dsimp only at this
      rw [this]
      ring
    · have z1 := no_emission (y := ψ) hem
      have z2 := no_emission (y := φ) hem
      unfold act at z1 z2
      rw [z1, z2]
      ring

end

end Verif.Eigen
