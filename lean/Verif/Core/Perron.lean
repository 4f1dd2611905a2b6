import Mathlib.Analysis.SpecificLimits.Basic
import Mathlib.Analysis.Convex.StdSimplex
import Mathlib.Algebra.Order.BigOperators.Group.Finset
import Mathlib.Tactic.FieldSimp
import Mathlib.Tactic.Linarith
import Mathlib.Topology.Order.MonotoneConvergence
import Mathlib.Topology.Sequences
import Mathlib.Algebra.BigOperators.Field

/-! Matrices with positive entries: the ratios of successive iterates contract to the one positive eigenvalue. -/

namespace Verif.Perron

open Finset Filter Topology

noncomputable section

variable {ι : Type*} [Fintype ι] [Nonempty ι]

/-- matrix times vector -/
def app (B : ι → ι → ℝ) (u : ι → ℝ) (i : ι) : ℝ := ∑ j, B i j * u j

/-- smallest ratio -/
def lo (B : ι → ι → ℝ) (u : ι → ℝ) : ℝ := univ.inf' univ_nonempty (fun i => app B u i / u i)

/-- largest ratio -/
def hi (B : ι → ι → ℝ) (u : ι → ℝ) : ℝ := univ.sup' univ_nonempty (fun i => app B u i / u i)

variable {B : ι → ι → ℝ} {u v : ι → ℝ}

theorem app_pos (hB : ∀ i j, 0 < B i j) (hu : ∀ i, 0 < u i) (i : ι) : 0 < app B u i :=
  sum_pos (fun j _ => mul_pos (hB i j) (hu j)) univ_nonempty

omit [Nonempty ι] in
theorem app_sub (c : ℝ) (i : ι) : app B (fun j => u j - c * v j) i = app B u i - c * app B v i := by
  unfold app
  rw [mul_sum, ← sum_sub_distrib]
  exact sum_congr rfl (fun j _ => by ring)

omit [Nonempty ι] in
theorem app_smul (c : ℝ) (i : ι) : app B (fun j => c * u j) i = c * app B u i := by
  unfold app
  rw [mul_sum]
  exact sum_congr rfl (fun j _ => by ring)

omit [Nonempty ι] in
theorem app_nonneg (hB : ∀ i j, 0 < B i j) (hu : ∀ i, 0 ≤ u i) (i : ι) : 0 ≤ app B u i :=
  sum_nonneg (fun j _ => mul_nonneg (hB i j).le (hu j))

theorem lo_le (i : ι) : lo B u ≤ app B u i / u i := inf'_le _ (mem_univ i)

theorem le_hi (i : ι) : app B u i / u i ≤ hi B u := le_sup' (fun i => app B u i / u i) (mem_univ i)

theorem lo_mul (hu : ∀ i, 0 < u i) (i : ι) : lo B u * u i ≤ app B u i := (le_div_iff₀ (hu i)).1 (lo_le i)

theorem hi_mul (hu : ∀ i, 0 < u i) (i : ι) : app B u i ≤ hi B u * u i := (div_le_iff₀ (hu i)).1 (le_hi i)

theorem lo_le_hi : lo B u ≤ hi B u := by
  obtain ⟨i⟩ := ‹Nonempty ι›
  exact (lo_le i).trans (le_hi i)

theorem lo_pos (hB : ∀ i j, 0 < B i j) (hu : ∀ i, 0 < u i) : 0 < lo B u := by
  obtain ⟨i, -, h⟩ := exists_mem_eq_inf' (univ_nonempty : (univ : Finset ι).Nonempty) (fun i => app B u i / u i)
  unfold lo
  rw [h]
  exact div_pos (app_pos hB hu i) (hu i)

theorem lo_smul {c : ℝ} (hc : c ≠ 0) : lo B (fun i => c * u i) = lo B u := by
  unfold lo
  congr 1
  funext i
  rw [app_smul, mul_div_mul_left _ _ hc]

theorem hi_smul {c : ℝ} (hc : c ≠ 0) : hi B (fun i => c * u i) = hi B u := by
  unfold hi
  congr 1
  funext i
  rw [app_smul, mul_div_mul_left _ _ hc]

/-- the rows are comparable -/
theorem exists_delta (hB : ∀ i j, 0 < B i j) : ∃ δ : ℝ, 0 < δ ∧ δ ≤ 1 ∧ ∀ i i' j, δ * B i' j ≤ B i j := by
  have ne : (univ : Finset (ι × ι)).Nonempty := univ_nonempty
  set m := univ.inf' ne (fun p => B p.1 p.2) with hm
  set X := univ.sup' ne (fun p => B p.1 p.2) with hX
  have m_le : ∀ i j, m ≤ B i j := fun i j => inf'_le (fun p : ι × ι => B p.1 p.2) (mem_univ (i, j))
  have le_X : ∀ i j, B i j ≤ X := fun i j => le_sup' (fun p : ι × ι => B p.1 p.2) (mem_univ (i, j))
  have m_pos : 0 < m := by
    obtain ⟨p, -, h⟩ := exists_mem_eq_inf' ne (fun p => B p.1 p.2)
    rw [hm, h]
    exact hB _ _
  obtain ⟨i0⟩ := ‹Nonempty ι›
  have X_pos : 0 < X := (hB i0 i0).trans_le (le_X i0 i0)
  refine ⟨m / X, div_pos m_pos X_pos, (div_le_one X_pos).2 ((m_le i0 i0).trans (le_X i0 i0)), fun i i' j => ?_⟩
  calc m / X * B i' j ≤ m / X * X := mul_le_mul_of_nonneg_left (le_X i' j) (div_pos m_pos X_pos).le
    _ = m := div_mul_cancel₀ _ X_pos.ne'
    _ ≤ B i j := m_le i j

omit [Nonempty ι] in
theorem compare {δ : ℝ} (hδ : ∀ i i' j, δ * B i' j ≤ B i j) (hu : ∀ i, 0 ≤ u i) (i i' : ι) : δ * app B u i' ≤ app B u i := by
  unfold app
  rw [mul_sum]
  exact sum_le_sum (fun j _ => by
    have := mul_le_mul_of_nonneg_right (hδ i i' j) (hu j)
    linarith)

/-- the ratios contract -/
theorem contract {δ : ℝ} (hB : ∀ i j, 0 < B i j) (hδ0 : 0 < δ) (hδ : ∀ i i' j, δ * B i' j ≤ B i j) (hu : ∀ i, 0 < u i) :
    lo B u ≤ lo B (app B u) ∧ hi B (app B u) ≤ hi B u ∧
      hi B (app B u) - lo B (app B u) ≤ (1 - δ ^ 2) * (hi B u - lo B u) := by
  have hBu := app_pos hB hu
  have w0 : ∀ i, 0 ≤ app B u i - lo B u * u i := fun i => sub_nonneg.2 (lo_mul hu i)
  have e1 : ∀ i, app B (fun j => app B u j - lo B u * u j) i = app B (app B u) i - lo B u * app B u i := fun i => app_sub _ i
  have h1 : lo B u ≤ lo B (app B u) := by
    obtain ⟨i, -, h⟩ := exists_mem_eq_inf' (univ_nonempty : (univ : Finset ι).Nonempty) (fun i => app B (app B u) i / app B u i)
    conv_rhs => unfold lo
    rw [h, le_div_iff₀ (hBu i)]
    have := app_nonneg hB w0 i
    rw [e1] at this
    linarith
  have h2 : hi B (app B u) ≤ hi B u := by
    obtain ⟨i, -, h⟩ := exists_mem_eq_sup' (univ_nonempty : (univ : Finset ι).Nonempty) (fun i => app B (app B u) i / app B u i)
    conv_lhs => unfold hi
    rw [h, div_le_iff₀ (hBu i)]
    have := app_nonneg hB (u := fun j => hi B u * u j - app B u j) (fun i => sub_nonneg.2 (hi_mul hu i)) i
    have e2 : app B (fun j => hi B u * u j - app B u j) i = hi B u * app B u i - app B (app B u) i := by
      have := app_sub (B := B) (u := fun j => hi B u * u j) (v := app B u) 1 i
      rw [app_smul] at this
      simpa using this
    rw [e2] at this
    linarith
  refine ⟨h1, h2, ?_⟩
  have key : ∀ i i', δ ^ 2 * (app B (app B u) i' / app B u i' - lo B u) ≤ app B (app B u) i / app B u i - lo B u := by
    intro i i'
    have a := compare hδ w0 i i'
    have b := compare hδ (fun j => (hu j).le) i' i
    rw [e1, e1] at a
    have x := hBu i
    have x' := hBu i'
    have q : app B (app B u) i / app B u i - lo B u = (app B (app B u) i - lo B u * app B u i) / app B u i := by
      field_simp
    have q' : app B (app B u) i' / app B u i' - lo B u = (app B (app B u) i' - lo B u * app B u i') / app B u i' := by
      field_simp
    rw [q, q', ← mul_div_assoc, div_le_div_iff₀ x' x]
    have z : 0 ≤ app B (app B u) i' - lo B u * app B u i' := by
      have := app_nonneg hB w0 i'
      rwa [e1] at this
    have z1 : 0 ≤ app B (app B u) i - lo B u * app B u i := by
      have := app_nonneg hB w0 i
      rwa [e1] at this
    calc δ ^ 2 * (app B (app B u) i' - lo B u * app B u i') * app B u i
        = (δ * (app B (app B u) i' - lo B u * app B u i')) * (δ * app B u i) := by ring
      _ ≤ (app B (app B u) i - lo B u * app B u i) * app B u i' := mul_le_mul a b (mul_nonneg hδ0.le x.le) z1
  obtain ⟨i, -, hi1⟩ := exists_mem_eq_inf' (univ_nonempty : (univ : Finset ι).Nonempty) (fun i => app B (app B u) i / app B u i)
  obtain ⟨i', -, hi2⟩ := exists_mem_eq_sup' (univ_nonempty : (univ : Finset ι).Nonempty) (fun i => app B (app B u) i / app B u i)
  have k := key i i'
  have c1 : lo B (app B u) = app B (app B u) i / app B u i := hi1
  have c2 : hi B (app B u) = app B (app B u) i' / app B u i' := hi2
  rw [← c1, ← c2] at k
  have hδ1 : δ ^ 2 ≤ 1 := by
    have : δ ≤ 1 := by
      have := hδ i i i
      have := hB i i
      nlinarith
    nlinarith
  nlinarith [mul_nonneg (sub_nonneg.2 hδ1) (sub_nonneg.2 h2)]

/-- two positive eigenvectors have the same eigenvalue -/
theorem unique_value {a b : ℝ} (hB : ∀ i j, 0 < B i j) (hu : ∀ i, 0 < u i) (hv : ∀ i, 0 < v i) (ha : ∀ i, app B u i = a * u i)
    (hb : ∀ i, app B v i = b * v i) : a = b := by
  have half : ∀ {a b : ℝ} {u v : ι → ℝ}, (∀ i, 0 < u i) → (∀ i, 0 < v i) → (∀ i, app B u i = a * u i) →
      (∀ i, app B v i = b * v i) → b ≤ a := by
    intro a b u v hu hv ha hb
    obtain ⟨i, -, h⟩ := exists_mem_eq_inf' (univ_nonempty : (univ : Finset ι).Nonempty) (fun i => u i / v i)
    set c := univ.inf' univ_nonempty (fun i => u i / v i) with hc
    have hcp : 0 < c := by rw [h]; exact div_pos (hu i) (hv i)
    have h1 : ∀ j, 0 ≤ u j - c * v j := by
      intro j
      have : c ≤ u j / v j := inf'_le (fun i => u i / v i) (mem_univ j)
      rw [le_div_iff₀ (hv j)] at this
      linarith
    have h2 := app_nonneg hB h1 i
    rw [app_sub, ha, hb] at h2
    have h3 : c * v i = u i := by rw [h]; exact div_mul_cancel₀ _ (hv i).ne'
    have h4 : 0 ≤ (a - b) * u i := by
      have : a * u i - c * (b * v i) = (a - b) * u i := by rw [← h3]; ring
      linarith
    by_contra hlt
    have := mul_neg_of_neg_of_pos (show a - b < 0 by linarith) (hu i)
    linarith
  exact le_antisymm (half hv hu hb ha) (half hu hv ha hb)

/-- a positive vector that grows by at least `b` bounds the eigenvalue of a positive eigenvector from below -/
theorem sub_value {a b : ℝ} (hB : ∀ i j, 0 < B i j) (hu : ∀ i, 0 < u i) (hv : ∀ i, 0 < v i) (hb : ∀ i, b * u i ≤ app B u i)
    (ha : ∀ i, app B v i = a * v i) : b ≤ a := by
  obtain ⟨i, -, h⟩ := exists_mem_eq_inf' (univ_nonempty : (univ : Finset ι).Nonempty) (fun i => v i / u i)
  set c := univ.inf' univ_nonempty (fun i => v i / u i) with hc
  have hi : v i = c * u i := by rw [h, div_mul_cancel₀ _ (hu i).ne']
  have hcp : 0 < c := by rw [h]; exact div_pos (hv i) (hu i)
  have h1 : ∀ j, 0 ≤ v j - c * u j := by
    intro j
    have : c ≤ v j / u j := inf'_le (fun i => v i / u i) (mem_univ j)
    rw [le_div_iff₀ (hu j)] at this
    linarith
  have h2 := app_nonneg hB h1 i
  rw [app_sub, ha i] at h2
  have h3 := mul_le_mul_of_nonneg_left (hb i) hcp.le
  have h4 : b * v i ≤ a * v i := by rw [hi] at h2 ⊢; nlinarith
  exact le_of_mul_le_mul_right h4 (hv i)

/-- every real eigenvalue is at most the one of the positive vector, and only its multiples attain it -/
theorem dominates {a b : ℝ} {w : ι → ℝ} (hB : ∀ i j, 0 < B i j) (hu : ∀ i, 0 < u i) (ha : ∀ i, app B u i = a * u i)
    (hw : ∀ i, app B w i = b * w i) (hne : ∃ i, w i ≠ 0) : |b| ≤ a ∧ (b = a → ∃ c, ∀ i, w i = c * u i) := by
  constructor
  · obtain ⟨i, -, h⟩ := exists_mem_eq_sup' (univ_nonempty : (univ : Finset ι).Nonempty) (fun i => |w i| / u i)
    set c := univ.sup' univ_nonempty (fun i => |w i| / u i) with hc
    have hi : |w i| = c * u i := by rw [h, div_mul_cancel₀ _ (hu i).ne']
    have hle : ∀ j, |w j| ≤ c * u j := fun j => (div_le_iff₀ (hu j)).1 (le_sup' (fun i => |w i| / u i) (mem_univ j))
    have hcp : 0 < c := by
      obtain ⟨j, hj⟩ := hne
      exact (div_pos (abs_pos.2 hj) (hu j)).trans_le (le_sup' (fun i => |w i| / u i) (mem_univ j))
    have h1 : |b| * |w i| ≤ a * |w i| := by
      calc |b| * |w i| = |app B w i| := by rw [hw i, abs_mul]
        _ ≤ ∑ j, |B i j * w j| := abs_sum_le_sum_abs _ _
        _ ≤ ∑ j, B i j * (c * u j) := sum_le_sum (fun j _ => by
            rw [abs_mul, abs_of_pos (hB i j)]
            exact mul_le_mul_of_nonneg_left (hle j) (hB i j).le)
        _ = app B (fun j => c * u j) i := rfl
        _ = a * |w i| := by rw [app_smul, ha i, hi]; ring
    exact le_of_mul_le_mul_right h1 (by rw [hi]; exact mul_pos hcp (hu i))
  · rintro rfl
    obtain ⟨i, -, h⟩ := exists_mem_eq_sup' (univ_nonempty : (univ : Finset ι).Nonempty) (fun i => w i / u i)
    set c := univ.sup' univ_nonempty (fun i => w i / u i) with hc
    have hi : w i = c * u i := by rw [h, div_mul_cancel₀ _ (hu i).ne']
    have hle : ∀ j, 0 ≤ w j * (-1) - (-c) * u j := fun j => by
      have := (div_le_iff₀ (hu j)).1 (le_sup' (fun i => w i / u i) (mem_univ j))
      linarith
    refine ⟨c, fun j => ?_⟩
    have e : app B (fun j => (-1) * w j - (-c) * u j) i = 0 := by
      rw [app_sub, app_smul, hw i, ha i, hi]; ring
    have hz := (sum_eq_zero_iff_of_nonneg (fun j _ => mul_nonneg (hB i j).le (by have := hle j; linarith))).1 e j (mem_univ j)
    have := (mul_eq_zero.1 hz).resolve_left (hB i j).ne'
    linarith

/-- the ratios of a sequence of (scaled) iterates tend to a common limit -/
theorem ratios_tendsto (hB : ∀ i j, 0 < B i j) {u : ℕ → ι → ℝ} {c : ℕ → ℝ} (hc : ∀ n, 0 < c n) (h0 : ∀ i, 0 < u 0 i)
    (hstep : ∀ n i, u (n + 1) i = app B (u n) i / c n) :
    (∀ n i, 0 < u n i) ∧ ∃ a : ℝ, 0 < a ∧ Tendsto (fun n => lo B (u n)) atTop (𝓝 a) ∧ Tendsto (fun n => hi B (u n)) atTop (𝓝 a) := by
  obtain ⟨δ, hδ0, hδ1, hδ⟩ := exists_delta hB
  have hpos : ∀ n i, 0 < u n i := by
    intro n
    induction n with
    | zero => exact h0
    | succ n ih => exact fun i => by rw [hstep]; exact div_pos (app_pos hB ih i) (hc n)
  have hscale : ∀ n, u (n + 1) = fun i => (1 / c n) * app B (u n) i := fun n => funext (fun i => by rw [hstep]; ring)
  have hne : ∀ n, (1 / c n) ≠ 0 := fun n => one_div_ne_zero (hc n).ne'
  have st : ∀ n, lo B (u n) ≤ lo B (u (n + 1)) ∧ hi B (u (n + 1)) ≤ hi B (u n) ∧
      hi B (u (n + 1)) - lo B (u (n + 1)) ≤ (1 - δ ^ 2) * (hi B (u n) - lo B (u n)) := by
    intro n
    rw [hscale n, lo_smul (hne n), hi_smul (hne n)]
    exact contract hB hδ0 hδ (hpos n)
  have hmono : Monotone (fun n => lo B (u n)) := monotone_nat_of_le_succ (fun n => (st n).1)
  have hanti : Antitone (fun n => hi B (u n)) := antitone_nat_of_succ_le (fun n => (st n).2.1)
  have hbdd : BddAbove (Set.range (fun n => lo B (u n))) := by
    refine ⟨hi B (u 0), ?_⟩
    rintro _ ⟨n, rfl⟩
    exact lo_le_hi.trans (hanti (Nat.zero_le n))
  have hlim := tendsto_atTop_ciSup hmono hbdd
  have hq0 : 0 ≤ 1 - δ ^ 2 := by nlinarith
  have hq1 : 1 - δ ^ 2 < 1 := by nlinarith [pow_pos hδ0 2]
  have hgeo : ∀ n, hi B (u n) - lo B (u n) ≤ (1 - δ ^ 2) ^ n * (hi B (u 0) - lo B (u 0)) := by
    intro n
    induction n with
    | zero => simp
    | succ n ih =>
      calc _ ≤ (1 - δ ^ 2) * (hi B (u n) - lo B (u n)) := (st n).2.2
        _ ≤ (1 - δ ^ 2) * ((1 - δ ^ 2) ^ n * (hi B (u 0) - lo B (u 0))) := mul_le_mul_of_nonneg_left ih hq0
        _ = _ := by rw [pow_succ]; ring
  have hz : Tendsto (fun n => hi B (u n) - lo B (u n)) atTop (𝓝 0) := by
    have h1 := (tendsto_pow_atTop_nhds_zero_of_lt_one hq0 hq1).mul_const (hi B (u 0) - lo B (u 0))
    rw [zero_mul] at h1
    exact squeeze_zero (fun n => sub_nonneg.2 lo_le_hi) hgeo h1
  refine ⟨hpos, _, ?_, hlim, ?_⟩
  · exact lt_of_lt_of_le (lo_pos hB (hpos 0)) (le_ciSup hbdd 0)
  · have := hlim.add hz
    rw [add_zero] at this
    refine this.congr (fun n => by ring)

/-- and the limit is an eigenvalue with a positive eigenvector -/
theorem exists_eigen (hB : ∀ i j, 0 < B i j) {u : ℕ → ι → ℝ} (hpos : ∀ n i, 0 < u n i) {a : ℝ} (ha : 0 < a)
    (hl : Tendsto (fun n => lo B (u n)) atTop (𝓝 a)) (hh : Tendsto (fun n => hi B (u n)) atTop (𝓝 a)) :
    ∃ v : ι → ℝ, (∀ i, 0 < v i) ∧ ∀ i, app B v i = a * v i := by
  let w : ℕ → ι → ℝ := fun n i => u n i / ∑ j, u n j
  have hs : ∀ n, 0 < ∑ j, u n j := fun n => sum_pos (fun j _ => hpos n j) univ_nonempty
  have hw : ∀ n, w n ∈ stdSimplex ℝ ι := fun n =>
    ⟨fun i => (div_pos (hpos n i) (hs n)).le, by
      show ∑ i, u n i / ∑ j, u n j = 1
      rw [← sum_div, div_self (hs n).ne']⟩
  obtain ⟨v, hv, f, hf, hlim⟩ := (isCompact_stdSimplex ℝ ι).tendsto_subseq hw
  have hlimi : ∀ i, Tendsto (fun n => w (f n) i) atTop (𝓝 (v i)) := fun i => (tendsto_pi_nhds.1 hlim) i
  have happ : ∀ i, Tendsto (fun n => app B (w (f n)) i) atTop (𝓝 (app B v i)) := fun i =>
    tendsto_finsetSum _ (fun j _ => (hlimi j).const_mul (B i j))
  have hr : ∀ i, Tendsto (fun n => app B (u n) i / u n i) atTop (𝓝 a) := fun i =>
    tendsto_of_tendsto_of_tendsto_of_le_of_le hl hh (fun n => lo_le i) (fun n => le_hi i)
  have heq : ∀ i, app B v i = a * v i := by
    intro i
    have h1 : Tendsto (fun n => app B (u (f n)) i / u (f n) i * w (f n) i) atTop (𝓝 (a * v i)) :=
      ((hr i).comp hf.tendsto_atTop).mul (hlimi i)
    refine tendsto_nhds_unique (happ i) (h1.congr (fun n => ?_))
    have hwu : w (f n) = fun j => (1 / ∑ j, u (f n) j) * u (f n) j := funext (fun j => by
      show u (f n) j / _ = _
      ring)
    rw [hwu, app_smul]
    have := (hpos (f n) i).ne'
    field_simp
  have hvpos : ∀ i, 0 < v i := by
    obtain ⟨j, hj⟩ : ∃ j, 0 < v j := by
      by_contra hcon
      push Not at hcon
      have : ∑ i, v i ≤ 0 := sum_nonpos (fun i _ => hcon i)
      rw [hv.2] at this
      linarith
    intro i
    have : 0 < app B v i := sum_pos' (fun k _ => mul_nonneg (hB i k).le (hv.1 k)) ⟨j, mem_univ j, mul_pos (hB i j) hj⟩
    rw [heq i] at this
    exact pos_of_mul_pos_right this ha.le
  exact ⟨v, hvpos, heq⟩

/-- positive eigenvectors of one eigenvalue are proportional -/
theorem unique_vector {a : ℝ} (hB : ∀ i j, 0 < B i j) (hv : ∀ i, 0 < v i) (ha : ∀ i, app B u i = a * u i)
    (hb : ∀ i, app B v i = a * v i) : ∃ c, ∀ i, u i = c * v i := by
  obtain ⟨i, -, h⟩ := exists_mem_eq_inf' (univ_nonempty : (univ : Finset ι).Nonempty) (fun i => u i / v i)
  set c := univ.inf' univ_nonempty (fun i => u i / v i) with hc
  have h1 : ∀ j, 0 ≤ u j - c * v j := by
    intro j
    have : c ≤ u j / v j := inf'_le (fun i => u i / v i) (mem_univ j)
    rw [le_div_iff₀ (hv j)] at this
    linarith
  have h3 : c * v i = u i := by rw [h]; exact div_mul_cancel₀ _ (hv i).ne'
  have h2 : app B (fun j => u j - c * v j) i = 0 := by
    rw [app_sub, ha, hb, ← h3]
    ring
  unfold app at h2
  rw [sum_eq_zero_iff_of_nonneg (fun j _ => mul_nonneg (hB i j).le (h1 j))] at h2
  refine ⟨c, fun j => ?_⟩
  have := (mul_eq_zero.1 (h2 j (mem_univ j))).resolve_left (hB i j).ne'
  linarith

/-- the shape of the iterates tends to that of the eigenvector -/
theorem shape_tendsto (hB : ∀ i j, 0 < B i j) {u : ℕ → ι → ℝ} (hpos : ∀ n i, 0 < u n i) {a : ℝ}
    (hl : Tendsto (fun n => lo B (u n)) atTop (𝓝 a)) (hh : Tendsto (fun n => hi B (u n)) atTop (𝓝 a))
    (hv : ∀ i, 0 < v i) (hvs : ∑ i, v i = 1) (heig : ∀ i, app B v i = a * v i) (i : ι) :
    Tendsto (fun n => u n i / ∑ j, u n j) atTop (𝓝 (v i)) := by
  let w : ℕ → ι → ℝ := fun n i => u n i / ∑ j, u n j
  have hs : ∀ n, 0 < ∑ j, u n j := fun n => sum_pos (fun j _ => hpos n j) univ_nonempty
  have hw : ∀ n, w n ∈ stdSimplex ℝ ι := fun n =>
    ⟨fun i => (div_pos (hpos n i) (hs n)).le, by
      show ∑ i, u n i / ∑ j, u n j = 1
      rw [← sum_div, div_self (hs n).ne']⟩
  have hr : ∀ i, Tendsto (fun n => app B (u n) i / u n i) atTop (𝓝 a) := fun i =>
    tendsto_of_tendsto_of_tendsto_of_le_of_le hl hh (fun n => lo_le i) (fun n => le_hi i)
  have main : Tendsto w atTop (𝓝 v) := by
    refine tendsto_of_subseq_tendsto (fun ns hns => ?_)
    obtain ⟨z, hz, f, hf, hlim⟩ := (isCompact_stdSimplex ℝ ι).tendsto_subseq (fun n => hw (ns n))
    refine ⟨f, ?_⟩
    have hlimi : ∀ i, Tendsto (fun n => w (ns (f n)) i) atTop (𝓝 (z i)) := fun i => (tendsto_pi_nhds.1 hlim) i
    have heq : ∀ i, app B z i = a * z i := by
      intro i
      have h1 : Tendsto (fun n => app B (u (ns (f n))) i / u (ns (f n)) i * w (ns (f n)) i) atTop (𝓝 (a * z i)) :=
        ((hr i).comp (hns.comp hf.tendsto_atTop)).mul (hlimi i)
      have happ : Tendsto (fun n => app B (w (ns (f n))) i) atTop (𝓝 (app B z i)) :=
        tendsto_finsetSum _ (fun j _ => (hlimi j).const_mul (B i j))
      refine tendsto_nhds_unique happ (h1.congr (fun n => ?_))
      have hwu : w (ns (f n)) = fun j => (1 / ∑ j, u (ns (f n)) j) * u (ns (f n)) j := funext (fun j => by
        show u (ns (f n)) j / _ = _
        ring)
      rw [hwu, app_smul]
      have := (hpos (ns (f n)) i).ne'
      field_simp
    obtain ⟨c, hc⟩ := unique_vector hB hv heq heig
    have hc1 : c = 1 := by
      have := hz.2
      rw [sum_congr rfl (fun i _ => hc i), ← mul_sum, hvs, mul_one] at this
      exact this
    have hzv : z = v := funext (fun i => by rw [hc i, hc1, one_mul])
    rw [← hzv]
    exact hlim
  exact (tendsto_pi_nhds.1 main) i

end

end Verif.Perron
