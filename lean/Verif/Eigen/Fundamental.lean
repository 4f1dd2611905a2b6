import Verif.Core.Perron
import Verif.Eigen.Power

/-! The fundamental mode: existence, uniqueness and convergence of the iteration. -/

namespace Verif.Eigen

open Finset Filter Topology

noncomputable section

open scoped Classical

variable {N : Nat} {M A L Q : Nat → Nat → ℝ} {sol : (Nat → ℝ) → Nat → ℝ}

theorem act_sub (n : Nat) (A : Nat → Nat → ℝ) (y z : Nat → ℝ) (i : Nat) :
    act n A (fun q => y q - z q) i = act n A y i - act n A z i := by
  unfold act
  rw [← sum_sub_distrib]
  exact sum_congr rfl (fun q _ => by ring)

theorem injective_of_positive (hM : InversePositive N M) (y z : Nat → ℝ) (h : ∀ i, i < N → act N M y i = act N M z i) :
    ∀ i, i < N → y i = z i := by
  intro i hi
  have h1 := hM (fun q => y q - z q) (fun p hp => by rw [act_sub, h p hp, sub_self]) i hi
  have h2 := hM (fun q => z q - y q) (fun p hp => by rw [act_sub, h p hp, sub_self]) i hi
  linarith

theorem act_prod (hf : Factored N A L Q) (y : Nat → ℝ) {i : Nat} (hi : i < N) : act N A y i = act N L (act N Q y) i := by
  unfold act
  rw [sum_congr rfl (fun q hq => by rw [hf.prod i q hi (mem_range.1 hq), sum_mul])]
  rw [sum_comm]
  refine sum_congr rfl (fun p _ => ?_)
  rw [mul_sum]
  exact sum_congr rfl (fun q _ => by ring)

/-- the flat source lights up everything -/
theorem flat_positive (hM : InversePositive N M) (hz : OffDiagonal N M) {x : Nat → ℝ} (hx : ∀ i, i < N → 0 < act N M x i) :
    ∀ i, i < N → 0 < x i := by
  intro i hi
  have h0 := hM x (fun p hp => (hx p hp).le)
  refine lt_of_le_of_ne (h0 i hi) (fun he => ?_)
  have : act N M x i ≤ 0 := by
    refine sum_nonpos (fun q hq => ?_)
    by_cases hqi : q = i
    · subst hqi; rw [← he, mul_zero]
    · exact mul_nonpos_of_nonpos_of_nonneg (hz i q hi (mem_range.1 hq) (Ne.symm hqi)) (h0 q (mem_range.1 hq))
  exact absurd (hx i hi) (not_lt.2 this)

/-- the iteration depends on the entries of the matrix only -/
theorem Iterates.congr {qr : List Fl → Nat → Fl} {A A' : Nat → Nat → ℝ} {x : Nat → Nat → ℝ} {κ : Nat → ℝ} {h : Nat}
    (I : Iterates N qr A x κ h) (hA : ∀ i j, i < N → j < N → A i j = A' i j) : Iterates N qr A' x κ h := by
  have ha : ∀ y i, i < N → act N A y i = act N A' y i := fun y i hi =>
    sum_congr rfl (fun q hq => by rw [hA i q hi (mem_range.1 hq)])
  have hd : ∀ y z, dot N (act N A y) (act N A z) = dot N (act N A' y) (act N A' z) := fun y z =>
    sum_congr rfl (fun i hi => by rw [ha y i (mem_range.1 hi), ha z i (mem_range.1 hi)])
  refine ⟨I.flux_zero, I.k_zero, I.first, fun j hj i hi => ?_, fun j hj => ?_, fun j hj => ?_⟩
  · rw [← I.next j hj i hi]
    exact congrArg (fun l => qr l i) (rhs_congr (fun p hp => by rw [ha _ p hp]))
  · rw [← hd]; exact I.overlap j hj
  · rw [← hd, ← hd]; exact I.k_next j hj

/-- the iteration is determined by the solver and the matrix -/
theorem Iterates.unique {qr : List Fl → Nat → Fl} {x x' : Nat → Nat → ℝ} {κ κ' : Nat → ℝ} {h : Nat}
    (I : Iterates N qr A x κ h) (J : Iterates N qr A x' κ' h) :
    ∀ j, j ≤ h → κ j = κ' j ∧ ∀ i, i < N → x j i = x' j i := by
  intro j
  induction j with
  | zero => exact fun _ => ⟨by rw [I.k_zero, J.k_zero], fun i hi => by rw [I.flux_zero i hi, J.flux_zero i hi]⟩
  | succ j ih =>
    intro hj
    obtain ⟨hk, hx⟩ := ih (by omega)
    have hx' : ∀ i, i < N → x (j + 1) i = x' (j + 1) i := by
      intro i hi
      refine Fl.fin.inj ?_
      rcases j with _ | j
      · rw [← I.first (by omega) i hi, ← J.first (by omega) i hi]
      · rw [← I.next j (by omega) i hi, ← J.next j (by omega) i hi]
        exact congrArg (fun l => qr l i) (rhs_congr (fun p _ => by rw [act_congr hx p, hk]))
    refine ⟨?_, hx'⟩
    rw [I.k_next j (by omega), J.k_next j (by omega), hk, show act N A (x j) = act N A (x' j) from funext (act_congr hx),
      show act N A (x (j + 1)) = act N A (x' (j + 1)) from funext (act_congr hx')]

/-- where fission emits -/
abbrev Site (N : Nat) (Q : Nat → Nat → ℝ) := {i : Nat // i ∈ (range N).filter (Emits N Q)}

theorem Site.lt (i : Site N Q) : (i : Nat) < N := mem_range.1 (mem_filter.1 i.2).1

theorem Site.emits (i : Site N Q) : Emits N Q i := (mem_filter.1 i.2).2

/-- unit source -/
def unit (j : Nat) : Nat → ℝ := fun p => if p = j then 1 else 0

/-- the flux of a unit emission -/
def resp (N : Nat) (L : Nat → Nat → ℝ) (sol : (Nat → ℝ) → Nat → ℝ) (j : Nat) : Nat → ℝ := sol (act N L (unit j))

/-- emission at one site caused by a unit emission at another -/
def next (N : Nat) (L Q : Nat → Nat → ℝ) (sol : (Nat → ℝ) → Nat → ℝ) (i j : Site N Q) : ℝ := act N Q (resp N L sol j) i

theorem act_unit {j i : Nat} (hj : j < N) : act N L (unit j) i = L i j := by
  unfold act unit
  rw [sum_eq_single j (fun q _ hq => by rw [if_neg hq, mul_zero]) (fun h => absurd (mem_range.2 hj) h), if_pos rfl, mul_one]

theorem next_pos (hsol : ∀ b i, i < N → act N M (sol b) i = b i) (hc : Connected N M L Q) (i j : Site N Q) : 0 < next N L Q sol i j :=
  hc _ (unit j) (fun p _ => by unfold unit; split <;> norm_num) (fun p hp => hsol _ p hp)
    ⟨j, j.lt, j.emits, by unfold unit; rw [if_pos rfl]; exact one_pos⟩ i i.lt i.emits

/-- flux of an emission density -/
theorem flux_of (hsol : ∀ b i, i < N → act N M (sol b) i = b i) (hM : InversePositive N M) {y r : Nat → ℝ}
    (hy : ∀ i, i < N → act N M y i = act N L r i) (hr : ∀ j, j < N → ¬ Emits N Q j → r j = 0) :
    ∀ p, p < N → y p = ∑ j : Site N Q, r j * resp N L sol j p := by
  have h1 : ∀ p, p < N → y p = ∑ j ∈ range N, r j * resp N L sol j p := by
    refine injective_of_positive hM _ _ (fun i hi => ?_)
    rw [hy i hi, act_sum]
    unfold act
    refine sum_congr rfl (fun j hj => ?_)
    have := hsol (act N L (unit j)) i hi
    rw [act_unit (mem_range.1 hj)] at this
    unfold act at this
    show L i j * r j = r j * ∑ q ∈ range N, M i q * resp N L sol j q
    unfold resp act
    rw [this]
    ring
  intro p hp
  rw [h1 p hp]
  rw [sum_coe_sort ((range N).filter (Emits N Q)) (fun j => r j * resp N L sol j p), sum_filter]
  refine sum_congr rfl (fun j hj => ?_)
  split
  · rfl
  · rename_i he
    rw [hr j (mem_range.1 hj) he, zero_mul]

theorem emission_of (hsol : ∀ b i, i < N → act N M (sol b) i = b i) (hM : InversePositive N M) {y r : Nat → ℝ}
    (hy : ∀ i, i < N → act N M y i = act N L r i) (hr : ∀ j, j < N → ¬ Emits N Q j → r j = 0) (i : Site N Q) :
    act N Q y i = Perron.app (next N L Q sol) (fun j => r j) i := by
  rw [act_congr (flux_of hsol hM hy hr) i]
  unfold act Perron.app next act
  simp only [mul_sum, sum_mul]
  rw [sum_comm]
  exact sum_congr rfl (fun j _ => sum_congr rfl (fun q _ => by ring))

theorem no_emission {y : Nat → ℝ} {j : Nat} (h : ¬ Emits N Q j) : act N Q y j = 0 := by
  refine sum_eq_zero (fun q hq => ?_)
  have : Q j q = 0 := by
    by_contra h0
    exact h ⟨q, mem_range.1 hq, h0⟩
  rw [this, zero_mul]

/-- the hypotheses of the convergence theorem -/
structure Setting (N : Nat) (M A L Q : Nat → Nat → ℝ) (sol : (Nat → ℝ) → Nat → ℝ) : Prop where
  hsol : ∀ b i, i < N → act N M (sol b) i = b i
  hM : InversePositive N M
  hz : OffDiagonal N M
  hf : Factored N A L Q
  hc : Connected N M L Q
  hA : ∃ i j, i < N ∧ j < N ∧ 0 < A i j

variable (S : Setting N M A L Q sol)
include S

theorem Setting.site : ∃ i0 p0, i0 < N ∧ p0 < N ∧ Emits N Q p0 ∧ 0 < L i0 p0 := by
  obtain ⟨i, j, hi, hj, h⟩ := S.hA
  rw [S.hf.prod i j hi hj] at h
  obtain ⟨p, hp, h0⟩ := exists_lt_of_sum_lt (show ∑ p ∈ range N, (0 : ℝ) < ∑ p ∈ range N, L i p * Q p j by simpa using h)
  have hp := mem_range.1 hp
  have hQ : Q p j ≠ 0 := fun e => by rw [e, mul_zero] at h0; exact lt_irrefl _ h0
  have hL : L i p ≠ 0 := fun e => by rw [e, zero_mul] at h0; exact lt_irrefl _ h0
  exact ⟨i, p, hi, hp, ⟨j, hj, hQ⟩, lt_of_le_of_ne (S.hf.L_nonneg i p hi hp) hL.symm⟩

theorem Setting.nonempty : Nonempty (Site N Q) := by
  obtain ⟨i, p, hi, hp, he, -⟩ := S.site
  exact ⟨⟨p, mem_filter.2 ⟨mem_range.2 hp, he⟩⟩⟩

theorem Setting.A_nonneg : ∀ i j, i < N → j < N → 0 ≤ A i j := fun i j hi hj => by
  rw [S.hf.prod i j hi hj]
  exact sum_nonneg (fun p hp => mul_nonneg (S.hf.L_nonneg i p hi (mem_range.1 hp)) (S.hf.Q_nonneg p j (mem_range.1 hp) hj))

/-- emission at all sites gives a source somewhere fixed -/
theorem Setting.source_pos {y z : Nat → ℝ} (hy : ∀ i, i < N → 0 ≤ y i) (hz : ∀ i, i < N → 0 ≤ z i)
    (hye : ∀ i, i < N → Emits N Q i → 0 < act N Q y i) (hze : ∀ i, i < N → Emits N Q i → 0 < act N Q z i) :
    0 < dot N (act N A y) (act N A z) := by
  obtain ⟨i0, p0, hi, hp, he, hL⟩ := S.site
  have one : ∀ w : Nat → ℝ, (∀ i, i < N → 0 ≤ w i) → (∀ i, i < N → Emits N Q i → 0 < act N Q w i) → 0 < act N A w i0 := by
    intro w hw hwe
    rw [act_prod S.hf w hi]
    exact sum_pos' (fun q hq => mul_nonneg (S.hf.L_nonneg i0 q hi (mem_range.1 hq)) (act_nonneg S.hf.Q_nonneg hw (mem_range.1 hq)))
      ⟨p0, mem_range.2 hp, mul_pos hL (hwe p0 hp he)⟩
  exact sum_pos' (fun i hi => mul_nonneg (act_nonneg S.A_nonneg hy (mem_range.1 hi)) (act_nonneg S.A_nonneg hz (mem_range.1 hi)))
    ⟨i0, mem_range.2 hi, mul_pos (one y hy hye) (one z hz hze)⟩

theorem emits_pos_of_flux {y : Nat → ℝ} (hy : ∀ i, i < N → 0 < y i) : ∀ i, i < N → Emits N Q i → 0 < act N Q y i := by
  rintro i hi ⟨q, hq, hne⟩
  exact sum_pos' (fun p hp => mul_nonneg (S.hf.Q_nonneg i p hi (mem_range.1 hp)) (hy p (mem_range.1 hp)).le)
    ⟨q, mem_range.2 hq, mul_pos (lt_of_le_of_ne (S.hf.Q_nonneg i q hi hq) hne.symm) (hy q hq)⟩

/-- the state of the iteration after `j` steps -/
theorem Setting.power_ok (j : Nat) :
    0 < (power N A sol j).2.2 ∧ (∀ i, i < N → 0 ≤ (power N A sol j).1 i) ∧
    (∀ i, i < N → Emits N Q i → 0 < act N Q (power N A sol j).1 i) ∧
    (∀ i, i < N → 0 ≤ (power N A sol (j + 1)).1 i) ∧
    (∀ i, i < N → Emits N Q i → 0 < act N Q (power N A sol (j + 1)).1 i) := by
  induction j with
  | zero =>
    have hx : ∀ i, i < N → 0 < (power N A sol 1).1 i := by
      refine flat_positive S.hM S.hz (fun i hi => ?_)
      show 0 < act N M (sol (fun _ => 1)) i
      rw [S.hsol _ i hi]
      exact one_pos
    exact ⟨one_pos, fun _ _ => zero_le_one, emits_pos_of_flux S (fun _ _ => one_pos), fun i hi => (hx i hi).le, emits_pos_of_flux S hx⟩
  | succ j ih =>
    obtain ⟨h1, h2, h3, h4, h5⟩ := ih
    have hk : 0 < (power N A sol (j + 1)).2.2 :=
      mul_pos h1 (div_pos (S.source_pos h4 h4 h5 h5) (S.source_pos h2 h4 h3 h5))
    have hsrc : ∀ i, i < N → act N M (power N A sol (j + 2)).1 i =
        act N L (fun p => act N Q (power N A sol (j + 1)).1 p / (power N A sol (j + 1)).2.2) i := by
      intro i hi
      show act N M (sol (power N A sol (j + 1)).2.1) i = _
      rw [S.hsol _ i hi]
      show act N A (power N A sol (j + 1)).1 i / _ = _
      rw [act_prod S.hf _ hi]
      unfold act
      rw [sum_div]
      exact sum_congr rfl (fun q _ => mul_div_assoc _ _ _)
    have hr : ∀ p, p < N → 0 ≤ act N Q (power N A sol (j + 1)).1 p / (power N A sol (j + 1)).2.2 := fun p hp =>
      div_nonneg (act_nonneg S.hf.Q_nonneg h4 hp) hk.le
    refine ⟨hk, h4, h5, ?_, ?_⟩
    · refine S.hM _ (fun i hi => ?_)
      rw [hsrc i hi]
      exact act_nonneg S.hf.L_nonneg hr hi
    · obtain ⟨-, p0, -, hp, he, -⟩ := S.site
      exact S.hc _ _ hr hsrc ⟨p0, hp, he, div_pos (h5 p0 hp he) hk⟩

theorem Setting.overlap (j : Nat) : dot N (act N A (power N A sol j).1) (act N A (power N A sol (j + 1)).1) ≠ 0 := by
  obtain ⟨-, h2, h3, h4, h5⟩ := S.power_ok j
  exact (S.source_pos h2 h4 h3 h5).ne'

/-- the emission density of the iterates -/
def emis (N : Nat) (A Q : Nat → Nat → ℝ) (sol : (Nat → ℝ) → Nat → ℝ) (n : Nat) (i : Site N Q) : ℝ :=
  act N Q (power N A sol (n + 1)).1 i

theorem Setting.system (n : Nat) : ∀ i, i < N → act N M (power N A sol (n + 2)).1 i =
    act N L (fun p => act N Q (power N A sol (n + 1)).1 p / (power N A sol (n + 1)).2.2) i := by
  intro i hi
  show act N M (sol (power N A sol (n + 1)).2.1) i = _
  rw [S.hsol _ i hi]
  show act N A (power N A sol (n + 1)).1 i / _ = _
  rw [act_prod S.hf _ hi]
  unfold act
  rw [sum_div]
  exact sum_congr rfl (fun q _ => mul_div_assoc _ _ _)

theorem Setting.emis_step (n : Nat) (i : Site N Q) :
    emis N A Q sol (n + 1) i = Perron.app (next N L Q sol) (emis N A Q sol n) i / (power N A sol (n + 1)).2.2 := by
  have := emission_of (L := L) S.hsol S.hM (S.system n) (fun j _ he => by rw [no_emission he, zero_div]) i
  unfold emis
  rw [this]
  unfold Perron.app
  rw [sum_div]
  exact sum_congr rfl (fun j _ => by rw [mul_div_assoc])

/-- k-factors between the ratios of the emission densities -/
theorem Setting.k_bounds [Nonempty (Site N Q)] (n : Nat) :
    Perron.lo (next N L Q sol) (emis N A Q sol n) ≤ (power N A sol (n + 2)).2.2 ∧
    (power N A sol (n + 2)).2.2 ≤ Perron.hi (next N L Q sol) (emis N A Q sol n) := by
  obtain ⟨hk, h2, h3, h4, h5⟩ := S.power_ok (n + 1)
  have hpos : ∀ i, 0 < emis N A Q sol n i := fun i => h3 i i.lt i.emits
  have hs : ∀ i : Site N Q, Perron.app (next N L Q sol) (emis N A Q sol n) i =
      (power N A sol (n + 1)).2.2 * emis N A Q sol (n + 1) i := fun i => by
    rw [S.emis_step, mul_div_cancel₀ _ hk.ne']
  have q1 : ∀ p, p < N → Perron.lo (next N L Q sol) (emis N A Q sol n) * act N Q (power N A sol (n + 1)).1 p ≤
      (power N A sol (n + 1)).2.2 * act N Q (power N A sol (n + 2)).1 p := by
    intro p hp
    by_cases he : Emits N Q p
    · have := Perron.lo_mul (B := next N L Q sol) hpos ⟨p, mem_filter.2 ⟨mem_range.2 hp, he⟩⟩
      rwa [hs] at this
    · rw [no_emission he, no_emission he, mul_zero, mul_zero]
  have q2 : ∀ p, p < N → (power N A sol (n + 1)).2.2 * act N Q (power N A sol (n + 2)).1 p ≤
      Perron.hi (next N L Q sol) (emis N A Q sol n) * act N Q (power N A sol (n + 1)).1 p := by
    intro p hp
    by_cases he : Emits N Q p
    · have := Perron.hi_mul (B := next N L Q sol) hpos ⟨p, mem_filter.2 ⟨mem_range.2 hp, he⟩⟩
      rwa [hs] at this
    · rw [no_emission he, no_emission he, mul_zero, mul_zero]
  have lift : ∀ (a b : ℝ) (f g : Nat → ℝ), (∀ p, p < N → a * act N Q f p ≤ b * act N Q g p) →
      ∀ i, i < N → a * act N A f i ≤ b * act N A g i := by
    intro a b f g h i hi
    rw [act_prod S.hf f hi, act_prod S.hf g hi]
    unfold act
    rw [mul_sum, mul_sum]
    refine sum_le_sum (fun p hp => ?_)
    have := mul_le_mul_of_nonneg_left (h p (mem_range.1 hp)) (S.hf.L_nonneg i p hi (mem_range.1 hp))
    unfold act at this
    linarith
  exact quotient_bounds (fun i hi => act_nonneg S.A_nonneg h4 hi) (S.source_pos h2 h4 h3 h5) (lift _ _ _ _ q1) (lift _ _ _ _ q2)

/-- the emission density of a flux that solves the equation with a positive k-factor is an eigenvector -/
theorem Setting.eigen_emission {k : ℝ} {ψ : Nat → ℝ} (hψ : Eigenpair N M A k ψ) (h0 : ∀ i, i < N → 0 ≤ ψ i) :
    0 < k ∧ (∀ i : Site N Q, 0 < act N Q ψ i) ∧
    ∀ i : Site N Q, Perron.app (next N L Q sol) (fun j => act N Q ψ j) i = k * act N Q ψ i := by
  obtain ⟨⟨i1, hi1, hne⟩, he⟩ := hψ
  have hA := fun i hi => act_nonneg S.A_nonneg h0 (i := i) hi
  have hzero : ∀ z : Nat → ℝ, (∀ i, i < N → act N M z i = 0) → ∀ i, i < N → z i = 0 := by
    intro z hz
    refine injective_of_positive S.hM z (fun _ => 0) (fun i hi => ?_)
    rw [hz i hi]
    exact (sum_eq_zero (fun q _ => mul_zero _)).symm
  have hk : 0 < k := by
    by_contra hk
    push Not at hk
    have : ∀ i, i < N → 0 ≤ act N M (fun q => 0 - ψ q) i := by
      intro i hi
      rw [act_sub, he i hi, show act N M (fun _ => (0 : ℝ)) i = 0 from sum_eq_zero (fun q _ => mul_zero _)]
      have := div_nonpos_of_nonneg_of_nonpos (hA i hi) hk
      linarith
    have h1 := S.hM _ this i1 hi1
    have h2 := h0 i1 hi1
    exact hne (by linarith)
  have hsys : ∀ i, i < N → act N M ψ i = act N L (fun p => act N Q ψ p / k) i := by
    intro i hi
    rw [he i hi, act_prod S.hf ψ hi]
    unfold act
    rw [sum_div]
    exact sum_congr rfl (fun q _ => by rw [mul_div_assoc])
  have hr : ∀ j, j < N → 0 ≤ act N Q ψ j / k := fun j hj => div_nonneg (act_nonneg S.hf.Q_nonneg h0 hj) hk.le
  have hex : ∃ j, j < N ∧ Emits N Q j ∧ 0 < act N Q ψ j / k := by
    by_contra hcon
    push Not at hcon
    refine hne (hzero ψ (fun i hi => ?_) i1 hi1)
    rw [hsys i hi]
    refine sum_eq_zero (fun q hq => ?_)
    have : act N Q ψ q / k = 0 := by
      by_cases hem : Emits N Q q
      · exact le_antisymm (hcon q (mem_range.1 hq) hem) (hr q (mem_range.1 hq))
      · rw [no_emission hem, zero_div]
    dsimp only
    rw [this, mul_zero]
  have hpos := S.hc ψ _ hr hsys hex
  refine ⟨hk, fun i => hpos i i.lt i.emits, fun i => ?_⟩
  have := emission_of (L := L) S.hsol S.hM hsys (fun j _ he => by rw [no_emission he, zero_div]) i
  rw [this]
  have e : (fun j : Site N Q => act N Q ψ j / k) = fun j : Site N Q => (1 / k) * act N Q ψ j := funext (fun j => by ring)
  rw [e, Perron.app_smul, ← mul_assoc, mul_one_div_cancel hk.ne', one_mul]

/-- existence, uniqueness, convergence -/
theorem Setting.fundamental : ∃ (kt : ℝ) (φ : Nat → ℝ), 0 < kt ∧ Eigenpair N M A kt φ ∧ (∀ i, i < N → 0 ≤ φ i) ∧
    ∑ i ∈ range N, φ i = 1 ∧
    (∀ k ψ, Eigenpair N M A k ψ → (∀ i, i < N → 0 ≤ ψ i) → k = kt ∧ ∃ c, ∀ i, i < N → ψ i = c * φ i) ∧
    Tendsto (fun j => (power N A sol j).2.2) atTop (𝓝 kt) ∧
    ∀ i, i < N → Tendsto (fun j => (power N A sol j).1 i / oneNorm N (power N A sol j).1) atTop (𝓝 (φ i)) := by
  have := S.nonempty
  have hB := fun i j => next_pos S.hsol S.hc i j
  obtain ⟨hpos, a, ha, hlo, hhi⟩ := Perron.ratios_tendsto (B := next N L Q sol) (u := emis N A Q sol)
    (c := fun n => (power N A sol (n + 1)).2.2) hB (fun n => (S.power_ok (n + 1)).1)
    (fun i => (S.power_ok 0).2.2.2.2 i i.lt i.emits) (fun n i => S.emis_step n i)
  obtain ⟨v0, hv0, hev0⟩ := Perron.exists_eigen hB hpos ha hlo hhi
  have hs0 : 0 < ∑ j, v0 j := sum_pos (fun j _ => hv0 j) univ_nonempty
  set v : Site N Q → ℝ := fun i => (1 / ∑ j, v0 j) * v0 i with hv
  have hvpos : ∀ i, 0 < v i := fun i => mul_pos (one_div_pos.2 hs0) (hv0 i)
  have hvs : ∑ i, v i = 1 := by rw [hv, ← mul_sum, one_div_mul_cancel hs0.ne']
  have hve : ∀ i, Perron.app (next N L Q sol) v i = a * v i := by
    intro i
    rw [hv, Perron.app_smul, hev0]
    ring
  -- the flux belonging to an emission density
  let ext : (Site N Q → ℝ) → Nat → ℝ := fun w j => if h : j ∈ (range N).filter (Emits N Q) then w ⟨j, h⟩ else 0
  have ext_site : ∀ w (j : Site N Q), ext w j = w j := fun w j => by simp only [ext]; rw [dif_pos j.2]
  have ext_no : ∀ w j, j < N → ¬ Emits N Q j → ext w j = 0 := fun w j hj he => by
    simp only [ext]
    rw [dif_neg (fun h => he (mem_filter.1 h).2)]
  let φ0 : Nat → ℝ := sol (act N L (ext v))
  have hsys : ∀ i, i < N → act N M φ0 i = act N L (ext v) i := fun i hi => S.hsol _ i hi
  have hφ0 : ∀ p, p < N → φ0 p = ∑ j : Site N Q, v j * resp N L sol j p := by
    intro p hp
    rw [flux_of (Q := Q) S.hsol S.hM hsys (ext_no v) p hp]
    exact sum_congr rfl (fun j _ => by rw [ext_site])
  have hext0 : ∀ j, j < N → 0 ≤ ext v j := by
    intro j hj
    by_cases he : Emits N Q j
    · have := ext_site v ⟨j, mem_filter.2 ⟨mem_range.2 hj, he⟩⟩
      rw [this]
      exact (hvpos _).le
    · rw [ext_no v j hj he]
  have hφ0n : ∀ i, i < N → 0 ≤ φ0 i := S.hM _ (fun i hi => by rw [hsys i hi]; exact act_nonneg S.hf.L_nonneg hext0 hi)
  have hQφ : ∀ j, j < N → act N Q φ0 j = a * ext v j := by
    intro j hj
    by_cases he : Emits N Q j
    · set s : Site N Q := ⟨j, mem_filter.2 ⟨mem_range.2 hj, he⟩⟩ with hs
      have h1 := emission_of (L := L) S.hsol S.hM hsys (ext_no v) s
      have h2 : (fun j : Site N Q => ext v j) = v := funext (fun j => ext_site v j)
      rw [h2, hve, ← ext_site v s] at h1
      exact h1
    · rw [no_emission he, ext_no v j hj he, mul_zero]
  have hAφ : ∀ i, i < N → act N M φ0 i = act N A φ0 i / a := by
    intro i hi
    rw [hsys i hi, act_prod S.hf φ0 hi, act_congr hQφ i, act_smul, mul_div_cancel_left₀ _ ha.ne']
  have hne : ∃ i, i < N ∧ φ0 i ≠ 0 := by
    by_contra hcon
    push Not at hcon
    obtain ⟨s⟩ := S.nonempty
    have h1 := hQφ s s.lt
    rw [ext_site, act_congr (z := fun _ => 0) hcon, show act N Q (fun _ => (0 : ℝ)) s = 0 from sum_eq_zero (fun q _ => mul_zero _)] at h1
    exact (mul_pos ha (hvpos s)).ne h1
  have hsum : 0 < ∑ i ∈ range N, φ0 i := by
    obtain ⟨i, hi, h⟩ := hne
    exact sum_pos' (fun i hi => hφ0n i (mem_range.1 hi)) ⟨i, mem_range.2 hi, lt_of_le_of_ne (hφ0n i hi) h.symm⟩
  set C := 1 / ∑ i ∈ range N, φ0 i with hC
  have hCpos : 0 < C := one_div_pos.2 hsum
  refine ⟨a, fun i => C * φ0 i, ha, ⟨?_, ?_⟩, ?_, ?_, ?_, ?_, ?_⟩
  · obtain ⟨i, hi, h⟩ := hne
    exact ⟨i, hi, mul_ne_zero hCpos.ne' h⟩
  · intro i hi
    rw [act_smul, act_smul, hAφ i hi]
    ring
  · exact fun i hi => mul_nonneg hCpos.le (hφ0n i hi)
  · rw [← mul_sum, hC, one_div_mul_cancel hsum.ne']
  · intro k ψ hψ hψ0
    obtain ⟨hk, hp, hev⟩ := S.eigen_emission hψ hψ0
    have hka : k = a := Perron.unique_value hB hp hvpos hev hve
    refine ⟨hka, ?_⟩
    subst hka
    obtain ⟨c, hc⟩ := Perron.unique_vector hB hvpos hev hve
    have hψs : ∀ i, i < N → act N M ψ i = act N L (fun p => act N Q ψ p / k) i := by
      intro i hi
      rw [hψ.2 i hi, act_prod S.hf ψ hi]
      unfold act
      rw [sum_div]
      exact sum_congr rfl (fun q _ => by rw [mul_div_assoc])
    refine ⟨c / k / C, fun i hi => ?_⟩
    rw [flux_of (L := L) (Q := Q) S.hsol S.hM hψs (fun j _ he => by rw [no_emission he, zero_div]) i hi]
    dsimp only
    rw [hφ0 i hi, ← mul_assoc, div_mul_cancel₀ _ hCpos.ne', mul_sum]
    exact sum_congr rfl (fun j _ => by rw [hc j]; ring)
  · refine (tendsto_add_atTop_iff_nat 2).1 ?_
    exact tendsto_of_tendsto_of_tendsto_of_le_of_le hlo hhi (fun n => (S.k_bounds n).1) (fun n => (S.k_bounds n).2)
  · intro i hi
    refine (tendsto_add_atTop_iff_nat 2).1 ?_
    have hshape := fun j => Perron.shape_tendsto hB hpos hlo hhi hvpos hvs hve j
    set W : Nat → Site N Q → ℝ := fun n j => emis N A Q sol n j / ∑ j, emis N A Q sol n j with hW
    have hflux : ∀ p, p < N → Tendsto (fun n => ∑ j : Site N Q, W n j * resp N L sol j p) atTop (𝓝 (φ0 p)) := by
      intro p hp
      rw [hφ0 p hp]
      exact tendsto_finsetSum _ (fun j _ => (hshape j).mul_const _)
    have hden : Tendsto (fun n => ∑ p ∈ range N, ∑ j : Site N Q, W n j * resp N L sol j p) atTop (𝓝 (∑ p ∈ range N, φ0 p)) :=
      tendsto_finsetSum _ (fun p hp => hflux p (mem_range.1 hp))
    have hq := (hflux i hi).div hden hsum.ne'
    have hlim : φ0 i / ∑ p ∈ range N, φ0 p = C * φ0 i := by rw [hC]; ring
    rw [hlim] at hq
    refine hq.congr (fun n => ?_)
    have hes : 0 < ∑ j, emis N A Q sol n j := sum_pos (fun j _ => hpos n j) univ_nonempty
    have hk := (S.power_ok (n + 1)).1
    have hx : ∀ p, p < N → (power N A sol (n + 2)).1 p =
        ((∑ j, emis N A Q sol n j) / (power N A sol (n + 1)).2.2) * ∑ j : Site N Q, W n j * resp N L sol j p := by
      intro p hp
      rw [flux_of (L := L) (Q := Q) S.hsol S.hM (S.system n) (fun j _ he => by rw [no_emission he, zero_div]) p hp, mul_sum]
      refine sum_congr rfl (fun j _ => ?_)
      show emis N A Q sol n j / _ * _ = _
      rw [hW]
      field_simp
    have hnorm : oneNorm N (power N A sol (n + 2)).1 = ∑ p ∈ range N, (power N A sol (n + 2)).1 p :=
      sum_congr rfl (fun p hp => abs_of_nonneg ((S.power_ok (n + 1)).2.2.2.1 p (mem_range.1 hp)))
    have hx2 : (power N A sol (n + 2)).1 i / ∑ p ∈ range N, (power N A sol (n + 2)).1 p =
        (∑ j : Site N Q, W n j * resp N L sol j i) / ∑ p ∈ range N, ∑ j : Site N Q, W n j * resp N L sol j p := by
      rw [sum_congr rfl (fun p hp => hx p (mem_range.1 hp)), ← mul_sum, hx i hi]
      exact mul_div_mul_left _ _ (div_pos hes hk).ne'
    show _ = (power N A sol (n + 2)).1 i / oneNorm N (power N A sol (n + 2)).1
    rw [hnorm, hx2]
    rfl

end

end Verif.Eigen
