import Verif.Eigen.Lemmas
import Mathlib.Topology.Algebra.Order.Field
import Mathlib.Topology.Order.Basic
import Mathlib.Analysis.SpecificLimits.Basic
import Mathlib.Topology.Algebra.Monoid

/-! Power iteration: positivity, bounds and convergence. -/

namespace Verif.Eigen

open Finset Filter Topology

noncomputable section

variable {N : Nat} {qr : List Fl → Nat → Fl} {M A : Nat → Nat → ℝ} {x : Nat → Nat → ℝ} {κ : Nat → ℝ} {h : Nat}

theorem act_congr {n : Nat} {A : Nat → Nat → ℝ} {y z : Nat → ℝ} (h : ∀ i, i < n → y i = z i) (i : Nat) : act n A y i = act n A z i :=
  sum_congr rfl (fun q hq => by rw [h q (mem_range.1 hq)])

theorem act_smul (n : Nat) (A : Nat → Nat → ℝ) (c : ℝ) (y : Nat → ℝ) (i : Nat) : act n A (fun q => c * y q) i = c * act n A y i := by
  unfold act
  rw [mul_sum]
  exact sum_congr rfl (fun q _ => by ring)

theorem act_sum (n r : Nat) (A : Nat → Nat → ℝ) (c : Nat → ℝ) (y : Nat → Nat → ℝ) (i : Nat) :
    act n A (fun q => ∑ m ∈ range r, c m * y m q) i = ∑ m ∈ range r, c m * act n A (y m) i := by
  unfold act
  simp only [mul_sum]
  rw [sum_comm]
  exact sum_congr rfl (fun m _ => sum_congr rfl (fun q _ => by ring))

/-- what the solver returned in each step solves the system -/
theorem Iterates.system (I : Iterates N qr A x κ h) (hs : Solves N M qr) {j : Nat} (hj : j < h) :
    ∀ i, i < N → act N M (x (j + 1)) i = bj N A x κ j i := by
  intro i hi
  obtain ⟨y, hy, hb⟩ := hs (bj N A x κ j)
  rw [← hb i hi]
  refine act_congr (fun q hq => ?_) i
  have := I.solved hj q hq
  rw [hy q hq] at this
  exact (Fl.fin.inj this).symm

theorem act_nonneg {n : Nat} {A : Nat → Nat → ℝ} {y : Nat → ℝ} (hA : ∀ i j, i < n → j < n → 0 ≤ A i j) (hy : ∀ i, i < n → 0 ≤ y i)
    {i : Nat} (hi : i < n) : 0 ≤ act n A y i :=
  sum_nonneg (fun q hq => mul_nonneg (hA i q hi (mem_range.1 hq)) (hy q (mem_range.1 hq)))

theorem dot_nonneg {n : Nat} {a b : Nat → ℝ} (ha : ∀ i, i < n → 0 ≤ a i) (hb : ∀ i, i < n → 0 ≤ b i) : 0 ≤ dot n a b :=
  sum_nonneg (fun i hi => mul_nonneg (ha i (mem_range.1 hi)) (hb i (mem_range.1 hi)))

/-- all iterates are non-negative and all k-factors positive -/
theorem Iterates.positive (I : Iterates N qr A x κ h) (hs : Solves N M qr) (hM : InversePositive N M)
    (hA : ∀ i j, i < N → j < N → 0 ≤ A i j) : ∀ j, j ≤ h → 0 < κ j ∧ ∀ i, i < N → 0 ≤ x j i := by
  intro j
  induction j with
  | zero =>
    intro _
    rw [I.k_zero]
    exact ⟨one_pos, fun i hi => by rw [I.flux_zero i hi]; exact zero_le_one⟩
  | succ j ih =>
    intro hj
    obtain ⟨h1, h2⟩ := ih (by omega)
    have hx : ∀ i, i < N → 0 ≤ x (j + 1) i := by
      refine hM _ (fun i hi => ?_)
      rw [I.system hs (by omega) i hi]
      cases j with
      | zero => exact zero_le_one
      | succ j => exact div_nonneg (act_nonneg hA h2 hi) h1.le
    refine ⟨?_, hx⟩
    rw [I.k_next j (by omega)]
    have h3 := I.overlap j (by omega)
    have h4 : 0 ≤ dot N (act N A (x j)) (act N A (x (j + 1))) :=
      dot_nonneg (fun i hi => act_nonneg hA h2 hi) (fun i hi => act_nonneg hA hx hi)
    have h5 : 0 ≤ dot N (act N A (x (j + 1))) (act N A (x (j + 1))) := sum_nonneg (fun i _ => mul_self_nonneg _)
    exact mul_pos h1 (div_pos (lt_of_le_of_ne h5 (dot_self_ne h3).symm) (lt_of_le_of_ne h4 h3.symm))

/-- the estimate lies between the smallest and the largest ratio of two successive fission sources -/
theorem quotient_bounds {n : Nat} {s t : Nat → ℝ} {k lo hi : ℝ} (ht : ∀ i, i < n → 0 ≤ t i)
    (hd : 0 < dot n s t) (hlo : ∀ i, i < n → lo * s i ≤ k * t i) (hhi : ∀ i, i < n → k * t i ≤ hi * s i) :
    lo ≤ k * (dot n t t / dot n s t) ∧ k * (dot n t t / dot n s t) ≤ hi := by
  have e : k * (dot n t t / dot n s t) = (k * dot n t t) / dot n s t := by ring
  rw [e, le_div_iff₀ hd, div_le_iff₀ hd]
  unfold dot
  rw [mul_sum, mul_sum, mul_sum]
  constructor
  · exact sum_le_sum (fun i hi' => by
      have := mul_le_mul_of_nonneg_right (hlo i (mem_range.1 hi')) (ht i (mem_range.1 hi'))
      linarith)
  · exact sum_le_sum (fun i hi' => by
      have := mul_le_mul_of_nonneg_right (hhi i (mem_range.1 hi')) (ht i (mem_range.1 hi'))
      linarith)

/-- so does the k-factor of any non-negative adjoint flux that sees the source -/
theorem adjoint_bounds {n : Nat} {M F : Nat → Nat → ℝ} {kt : ℝ} {ψ y s : Nat → ℝ} {k lo hi : ℝ} (hψ : AdjointPair n M F kt ψ)
    (hkt : kt ≠ 0) (hk : k ≠ 0) (hy : ∀ i, i < n → act n M y i = s i / k) (hs : 0 < dot n ψ s)
    (hlo : ∀ i, i < n → lo * s i ≤ k * act n F y i) (hhi : ∀ i, i < n → k * act n F y i ≤ hi * s i) : lo ≤ kt ∧ kt ≤ hi := by
  have sw : ∀ B : Nat → Nat → ℝ, dot n ψ (act n B y) = ∑ q ∈ range n, (∑ p ∈ range n, ψ p * B p q) * y q := by
    intro B
    unfold dot act
    simp only [mul_sum, sum_mul]
    rw [sum_comm]
    exact sum_congr rfl (fun q _ => sum_congr rfl (fun p _ => by ring))
  have e1 : dot n ψ (act n M y) = dot n ψ s / k := by
    unfold dot
    rw [sum_div]
    exact sum_congr rfl (fun i hi => by rw [hy i (mem_range.1 hi)]; ring)
  have e2 : dot n ψ (act n M y) = dot n ψ (act n F y) / kt := by
    rw [sw, sw, sum_div]
    exact sum_congr rfl (fun q hq => by rw [hψ.2 q (mem_range.1 hq)]; ring)
  have e3 : kt * dot n ψ s = k * dot n ψ (act n F y) := by
    rw [e1] at e2
    field_simp at e2
    linarith
  have b1 : lo * dot n ψ s ≤ k * dot n ψ (act n F y) := by
    unfold dot
    rw [mul_sum, mul_sum]
    exact sum_le_sum (fun i hi' => by
      have := mul_le_mul_of_nonneg_left (hlo i (mem_range.1 hi')) (hψ.1 i (mem_range.1 hi'))
      linarith)
  have b2 : k * dot n ψ (act n F y) ≤ hi * dot n ψ s := by
    unfold dot
    rw [mul_sum, mul_sum]
    exact sum_le_sum (fun i hi' => by
      have := mul_le_mul_of_nonneg_left (hhi i (mem_range.1 hi')) (hψ.1 i (mem_range.1 hi'))
      linarith)
  rw [← e3] at b1 b2
  exact ⟨le_of_mul_le_mul_right b1 hs, le_of_mul_le_mul_right b2 hs⟩

/-! ### convergence -/

/-- a strictly positive inverse is an inverse -/
theorem injective_of_strict (hs : ∃ z : Nat → ℝ, ∀ i, i < N → act N M z i = 1) (hM : InverseStrict N M) :
    ∀ y z : Nat → ℝ, (∀ i, i < N → act N M y i = act N M z i) → ∀ i, i < N → y i = z i := by
  intro y z hyz i hi
  obtain ⟨w, hw⟩ := hs
  have key : ∀ c : ℝ, 0 < w i + c * (y i - z i) := by
    intro c
    have e : ∀ p, p < N → act N M (fun q => w q + c * (y q - z q)) p = 1 := by
      intro p hp
      have : act N M (fun q => w q + c * (y q - z q)) p = act N M w p + c * (act N M y p - act N M z p) := by
        unfold act
        rw [mul_sub, mul_sum, mul_sum, ← sum_sub_distrib, ← sum_add_distrib]
        exact sum_congr rfl (fun q _ => by ring)
      rw [this, hw p hp, hyz p hp, sub_self, mul_zero, add_zero]
    exact hM _ (fun p hp => by rw [e p hp]; exact zero_le_one) ⟨i, hi, by rw [e i hi]; exact one_pos⟩ i hi
  by_contra hne
  have h0 : y i - z i ≠ 0 := sub_ne_zero.2 hne
  have := key (-(w i) / (y i - z i))
  rw [div_mul_cancel₀ _ h0] at this
  linarith

/-- fluxes and k-factors of the power iteration with an exact solver -/
def power (N : Nat) (A : Nat → Nat → ℝ) (sol : (Nat → ℝ) → Nat → ℝ) : Nat → (Nat → ℝ) × (Nat → ℝ) × ℝ
  | 0 => (fun _ => 1, fun _ => 1, 1)
  | j + 1 =>
    let s := power N A sol j
    let y := sol s.2.1
    let k := s.2.2 * (dot N (act N A y) (act N A y) / dot N (act N A s.1) (act N A y))
    (y, fun p => act N A y p / k, k)

variable {sol : (Nat → ℝ) → Nat → ℝ}

/-- the strictly positive iteration never breaks down -/
theorem power_positive (hsol : ∀ b i, i < N → act N M (sol b) i = b i) (hM : InverseStrict N M)
    (hA : ∀ i j, i < N → j < N → 0 ≤ A i j) {p0 q0 : Nat} (hp : p0 < N) (hq : q0 < N) (hpq : 0 < A p0 q0) (j : Nat) :
    (∀ i, i < N → 0 < (power N A sol j).1 i) ∧ 0 < (power N A sol j).2.2 ∧ (∀ i, i < N → 0 ≤ (power N A sol j).2.1 i) ∧
    0 < (power N A sol j).2.1 p0 ∧ 0 < dot N (act N A (power N A sol j).1) (act N A (power N A sol (j + 1)).1) := by
  have pos : ∀ y : Nat → ℝ, (∀ i, i < N → 0 < y i) → 0 < act N A y p0 := by
    intro y hy
    refine sum_pos' (fun q hq' => mul_nonneg (hA p0 q hp (mem_range.1 hq')) (hy q (mem_range.1 hq')).le)
      ⟨q0, mem_range.2 hq, mul_pos hpq (hy q0 hq)⟩
  have dpos : ∀ y z : Nat → ℝ, (∀ i, i < N → 0 < y i) → (∀ i, i < N → 0 < z i) → 0 < dot N (act N A y) (act N A z) := by
    intro y z hy hz
    exact sum_pos' (fun i hi => mul_nonneg (act_nonneg hA (fun i hi => (hy i hi).le) (mem_range.1 hi))
      (act_nonneg hA (fun i hi => (hz i hi).le) (mem_range.1 hi))) ⟨p0, mem_range.2 hp, mul_pos (pos y hy) (pos z hz)⟩
  have spos : ∀ b : Nat → ℝ, (∀ i, i < N → 0 ≤ b i) → 0 < b p0 → ∀ i, i < N → 0 < sol b i := by
    intro b hb hb0
    refine hM _ (fun i hi => ?_) ⟨p0, hp, ?_⟩
    · rw [hsol b i hi]; exact hb i hi
    · rw [hsol b p0 hp]; exact hb0
  induction j with
  | zero =>
    have h1 : ∀ i, i < N → 0 < (power N A sol 0).1 i := fun _ _ => one_pos
    exact ⟨h1, one_pos, fun _ _ => zero_le_one, one_pos, dpos _ _ h1 (spos _ (fun _ _ => zero_le_one) one_pos)⟩
  | succ j ih =>
    obtain ⟨h1, h2, h3, h4, h5⟩ := ih
    have h1' : ∀ i, i < N → 0 < (power N A sol (j + 1)).1 i := spos _ h3 h4
    have h2' : 0 < (power N A sol (j + 1)).2.2 := mul_pos h2 (div_pos (dpos _ _ h1' h1') h5)
    have h3' : ∀ i, i < N → 0 ≤ (power N A sol (j + 1)).2.1 i := fun i hi =>
      div_nonneg (act_nonneg hA (fun i hi => (h1' i hi).le) hi) h2'.le
    have h4' : 0 < (power N A sol (j + 1)).2.1 p0 := div_pos (pos _ h1') h2'
    exact ⟨h1', h2', h3', h4', dpos _ _ h1' (spos _ h3' h4')⟩

/-- the code's solver, as a function of real right-hand sides -/
theorem exists_sol (hs : Solves N M qr) : ∃ sol : (Nat → ℝ) → Nat → ℝ, (∀ b i, i < N → act N M (sol b) i = b i) ∧
    ∀ b i, i < N → qr (rhs N b) i = .fin (sol b i) := by
  choose sol h using hs
  exact ⟨sol, fun b => (h b).2, fun b => (h b).1⟩

theorem power_iterates (hq : ∀ b i, i < N → qr (rhs N b) i = .fin (sol b i))
    (hov : ∀ j, dot N (act N A (power N A sol j).1) (act N A (power N A sol (j + 1)).1) ≠ 0) (h : Nat) :
    Iterates N qr A (fun j => (power N A sol j).1) (fun j => (power N A sol j).2.2) h :=
  ⟨fun _ _ => rfl, rfl, fun _ i hi => hq _ i hi, fun _ _ i hi => hq _ i hi, fun j _ => hov j, fun _ _ => rfl⟩

variable {r : Nat} {φ : Nat → Nat → ℝ} {k c : Nat → ℝ}

/-- the iterates in terms of the modes -/
theorem iterates_modes (hinj : ∀ y z : Nat → ℝ, (∀ i, i < N → act N M y i = act N M z i) → ∀ i, i < N → y i = z i)
    (hs : Solves N M qr) (D : DominantMode N M A r φ k c) (I : ∀ h, Iterates N qr A x κ h) (j : Nat) :
    ∃ P : ℝ, P ≠ 0 ∧ P * κ (j + 1) ≠ 0 ∧
      (∀ i, i < N → x (j + 1) i = (1 / P) * ∑ m ∈ range r, c m * k m ^ j * φ m i) ∧
      (∀ i, i < N → x (j + 2) i = (1 / (P * κ (j + 1))) * ∑ m ∈ range r, c m * k m ^ (j + 1) * φ m i) := by
  have hκ : ∀ j, κ j ≠ 0 := fun j => (I j).k_ne j le_rfl
  have step : ∀ j (P : ℝ), P ≠ 0 → (∀ i, i < N → x (j + 1) i = (1 / P) * ∑ m ∈ range r, c m * k m ^ j * φ m i) →
      ∀ i, i < N → x (j + 2) i = (1 / (P * κ (j + 1))) * ∑ m ∈ range r, c m * k m ^ (j + 1) * φ m i := by
    intro j P hP hx
    refine hinj _ _ (fun i hi => ?_)
    rw [(I (j + 2)).system hs (by omega) i hi, act_smul N M _ (fun q => ∑ m ∈ range r, c m * k m ^ (j + 1) * φ m q), act_sum]
    show act N A (x (j + 1)) i / κ (j + 1) = _
    rw [act_congr hx i, act_smul N A _ (fun q => ∑ m ∈ range r, c m * k m ^ j * φ m q), act_sum]
    have : ∑ m ∈ range r, c m * k m ^ j * act N A (φ m) i = ∑ m ∈ range r, c m * k m ^ (j + 1) * act N M (φ m) i :=
      sum_congr rfl (fun m hm => by rw [D.mode m (mem_range.1 hm) i hi]; ring)
    rw [this]
    field_simp [hκ (j + 1)]
  have all : ∀ j, ∃ P : ℝ, P ≠ 0 ∧ ∀ i, i < N → x (j + 1) i = (1 / P) * ∑ m ∈ range r, c m * k m ^ j * φ m i := by
    intro j
    induction j with
    | zero =>
      refine ⟨1, one_ne_zero, ?_⟩
      refine hinj _ _ (fun i hi => ?_)
      rw [(I 1).system hs (by omega) i hi, act_smul N M _ (fun q => ∑ m ∈ range r, c m * k m ^ 0 * φ m q), act_sum]
      show (1 : ℝ) = _
      simp only [pow_zero, mul_one, div_one, one_mul]
      exact (D.flat i hi).symm
    | succ j ih =>
      obtain ⟨P, hP, hx⟩ := ih
      exact ⟨P * κ (j + 1), mul_ne_zero hP (hκ _), step j P hP hx⟩
  obtain ⟨P, hP, hx⟩ := all j
  exact ⟨P, hP, mul_ne_zero hP (hκ _), hx, step j P hP hx⟩

/-- the sum of the modes divided by the power of the dominant k-factor -/
theorem modes_tendsto (D : DominantMode N M A r φ k c) (z : Nat → ℝ) :
    Tendsto (fun j => (∑ m ∈ range r, c m * k m ^ j * z m) / k 0 ^ j) atTop (𝓝 (c 0 * z 0)) := by
  have e : ∀ j, (∑ m ∈ range r, c m * k m ^ j * z m) / k 0 ^ j = ∑ m ∈ range r, c m * z m * (k m / k 0) ^ j := by
    intro j
    rw [sum_div]
    refine sum_congr rfl (fun m _ => ?_)
    rw [div_pow]
    ring
  simp only [e]
  have lim : Tendsto (fun j => ∑ m ∈ range r, c m * z m * (k m / k 0) ^ j) atTop
      (𝓝 (∑ m ∈ range r, if m = 0 then c 0 * z 0 else 0)) := by
    refine tendsto_finsetSum _ (fun m hm => ?_)
    by_cases hm0 : m = 0
    · subst hm0
      simp only [div_self D.k_ne, one_pow, mul_one, if_true]
      exact tendsto_const_nhds
    · rw [if_neg hm0]
      have : |k m / k 0| < 1 := by
        rw [abs_div, div_lt_one (abs_pos.2 D.k_ne)]
        exact D.dominant m (Nat.pos_of_ne_zero hm0) (mem_range.1 hm)
      have h := (tendsto_pow_atTop_nhds_zero_iff.2 this).const_mul (c m * z m)
      rwa [mul_zero] at h
  rwa [sum_ite_eq' (range r) 0, if_pos (mem_range.2 D.r_pos)] at lim

/-- the k-factors tend to the dominant one -/
theorem k_tendsto (hinj : ∀ y z : Nat → ℝ, (∀ i, i < N → act N M y i = act N M z i) → ∀ i, i < N → y i = z i)
    (hs : Solves N M qr) (D : DominantMode N M A r φ k c) (I : ∀ h, Iterates N qr A x κ h) : Tendsto κ atTop (𝓝 (k 0)) := by
  set u : Nat → Nat → ℝ := fun j i => (∑ m ∈ range r, c m * k m ^ j * act N A (φ m) i) / k 0 ^ j with hu
  have hpow : ∀ j, k 0 ^ j ≠ 0 := fun j => pow_ne_zero j D.k_ne
  have hκ : ∀ j, κ (j + 2) = k 0 * (dot N (u (j + 1)) (u (j + 1)) / dot N (u j) (u (j + 1))) := by
    intro j
    obtain ⟨P, hP, hP', h1, h2⟩ := iterates_modes hinj hs D I j
    have hk1 : κ (j + 1) ≠ 0 := fun h => hP' (by rw [h, mul_zero])
    have s1 : ∀ i, act N A (x (j + 1)) i = (k 0 ^ j / P) * u j i := by
      intro i
      rw [act_congr h1 i, act_smul N A _ (fun q => ∑ m ∈ range r, c m * k m ^ j * φ m q), act_sum, hu]
      dsimp only
      field_simp [hpow j]
    have s2 : ∀ i, act N A (x (j + 2)) i = (k 0 ^ (j + 1) / (P * κ (j + 1))) * u (j + 1) i := by
      intro i
      rw [act_congr h2 i, act_smul N A _ (fun q => ∑ m ∈ range r, c m * k m ^ (j + 1) * φ m q), act_sum, hu]
      dsimp only
      field_simp [hpow (j + 1)]
    have d : ∀ (a b : ℝ) (f g : Nat → ℝ), dot N (fun i => a * f i) (fun i => b * g i) = a * b * dot N f g := by
      intro a b f g
      unfold dot
      rw [mul_sum]
      exact sum_congr rfl (fun i _ => by ring)
    have hne := (I (j + 2)).overlap (j + 1) (by omega)
    have e1 : act N A (x (j + 1)) = fun i => (k 0 ^ j / P) * u j i := funext s1
    have e2 : act N A (x (j + 2)) = fun i => (k 0 ^ (j + 1) / (P * κ (j + 1))) * u (j + 1) i := funext s2
    rw [(I (j + 2)).k_next (j + 1) (by omega)]
    show κ (j + 1) * (dot N (act N A (x (j + 2))) (act N A (x (j + 2))) / dot N (act N A (x (j + 1))) (act N A (x (j + 2)))) = _
    change dot N (act N A (x (j + 1))) (act N A (x (j + 2))) ≠ 0 at hne
    rw [e1, e2, d] at hne
    rw [e1, e2, d, d]
    have hd : dot N (u j) (u (j + 1)) ≠ 0 := fun h0 => hne (by rw [h0, mul_zero])
    have := hpow j
    have hk0 := D.k_ne
    rw [pow_succ]
    field_simp
  have hlim : ∀ i, Tendsto (fun j => u j i) atTop (𝓝 (c 0 * act N A (φ 0) i)) := fun i =>
    modes_tendsto D (fun m => act N A (φ m) i)
  have hlim1 : ∀ i, Tendsto (fun j => u (j + 1) i) atTop (𝓝 (c 0 * act N A (φ 0) i)) := fun i =>
    (tendsto_add_atTop_iff_nat 1).2 (hlim i)
  set w : Nat → ℝ := fun i => c 0 * act N A (φ 0) i with hw
  have d1 : Tendsto (fun j => dot N (u (j + 1)) (u (j + 1))) atTop (𝓝 (dot N w w)) :=
    tendsto_finsetSum _ (fun i _ => (hlim1 i).mul (hlim1 i))
  have d2 : Tendsto (fun j => dot N (u j) (u (j + 1))) atTop (𝓝 (dot N w w)) :=
    tendsto_finsetSum _ (fun i _ => (hlim i).mul (hlim1 i))
  have hww : dot N w w ≠ 0 := by
    obtain ⟨i, hi, h0⟩ := D.source
    intro h
    unfold dot at h
    rw [sum_eq_zero_iff_of_nonneg (fun i _ => mul_self_nonneg (w i))] at h
    exact h0 (mul_self_eq_zero.1 (h i (mem_range.2 hi)))
  have lim : Tendsto (fun j => κ (j + 2)) atTop (𝓝 (k 0)) := by
    simp only [hκ]
    have := (d1.div d2 hww).const_mul (k 0)
    rwa [div_self hww, mul_one] at this
  exact (tendsto_add_atTop_iff_nat 2).1 lim

/-- so the relative change falls below every accuracy -/
theorem change_small {k0 acc : ℝ} (hk : Tendsto κ atTop (𝓝 k0)) (h0 : k0 ≠ 0) (hacc : 0 < acc) : ∃ j, change κ j < acc := by
  have h1 : Tendsto (fun j => κ (j + 1)) atTop (𝓝 k0) := (tendsto_add_atTop_iff_nat 1).2 hk
  have h2 : Tendsto (fun j => change κ j) atTop (𝓝 |(k0 - k0) / k0|) := ((h1.sub hk).div h1 h0).abs
  rw [sub_self, zero_div, abs_zero] at h2
  exact ((tendsto_order.1 h2).2 acc hacc).exists

end

end Verif.Eigen
