import Verif.Solve.Diffusion
import Verif.Solve.Run

/-! The diffusion solver from its input to the stored results. -/

namespace Verif.Solve

open Verif Outcome Finset Eigen Filter Topology

noncomputable section

open scoped Classical

variable {d : Diffusion.Data} {aL aR : ℝ} {lib : Numerics} {power : ℝ} {volM : Vec ℝ}

theorem fissions_rate {x : Vec ℝ} {y : Nat → ℝ} (hv : ∀ i, i < d.cells * d.energies → x.v i = y i) {i : Nat} (hi : i < d.cells) :
    Diffusion.rate d x.v i = fissions d y i := by
  unfold Diffusion.rate fissions
  rw [sum_mul]
  exact sum_congr rfl (fun e he => by rw [hv _ (flat_lt hi (mem_range.1 he))])

theorem fissions_sum {x : Vec ℝ} {y : Nat → ℝ} (hv : ∀ i, i < d.cells * d.energies → x.v i = y i) :
    ∑ i ∈ range d.cells, Diffusion.rate d x.v i = ∑ i ∈ range d.cells, fissions d y i :=
  sum_congr rfl (fun _ hi => fissions_rate hv (mem_range.1 hi))

theorem heat_exists (wf : Diffusion.WellFormed d) (hV : Volumes d.cells volM) {y : Nat → ℝ}
    (h0 : ∑ i ∈ range d.cells, fissions d y i ≠ 0) {x : Vec ℝ} (xn : x.n = d.cells * d.energies)
    (xv : ∀ i, i < d.cells * d.energies → x.v i = y i) : ∃ q, Diffusion.newHeatSource d power volM [x] = ok q := by
  obtain ⟨q, hq, -⟩ := (Diffusion.heat_ok (modes := []) wf xn hV.1 (fun i hi => (hV.2 i hi).ne') power).1
    (by rw [fissions_sum xv]; exact h0)
  exact ⟨q, hq⟩

theorem heat_of (wf : Diffusion.WellFormed d) (hV : Volumes d.cells volM) (hc : 0 < d.cells) {y : Nat → ℝ} {x q : Vec ℝ}
    (xn : x.n = d.cells * d.energies) (xv : ∀ i, i < d.cells * d.energies → x.v i = y i)
    (h : Diffusion.newHeatSource d power volM [x] = ok q) :
    Heats d.cells power volM (fissions d y) q ∧ ∑ i ∈ range d.cells, fissions d y i ≠ 0 := by
  obtain ⟨h1, h2⟩ := Diffusion.heat_ok (modes := []) wf xn hV.1 (fun i hi => (hV.2 i hi).ne') power
  rw [fissions_sum xv] at h1 h2
  by_cases h0 : ∑ i ∈ range d.cells, fissions d y i = 0
  · rw [h2 h0 hc] at h; cases h
  · obtain ⟨q', hq', qn, qv⟩ := h1 h0
    rw [h] at hq'
    injection hq' with hq'
    subst hq'
    have e : ∀ i, i < d.cells → q.v i * volM.v i = power * fissions d y i / ∑ i ∈ range d.cells, fissions d y i := fun i hi => by
      rw [qv i hi, div_mul_cancel₀ _ (hV.2 i hi).ne', fissions_rate xv hi]
    refine ⟨⟨qn, ?_, fun i hi => ?_⟩, h0⟩
    · rw [sum_congr rfl (fun i hi => e i (mem_range.1 hi)), ← sum_div, ← mul_sum, mul_div_cancel_right₀ _ h0]
    · rw [e i hi, div_mul_cancel₀ _ h0]

theorem heats_nonneg {cells : Nat} {rate : Nat → ℝ} {q : Vec ℝ} (hV : Volumes cells volM) (h : Heats cells power volM rate q)
    (hp : 0 ≤ power) (hr : ∀ i, i < cells → 0 ≤ rate i) (h0 : ∑ i ∈ range cells, rate i ≠ 0) : ∀ i, i < cells → 0 ≤ q.v i := by
  intro i hi
  have hs : 0 < ∑ i ∈ range cells, rate i := lt_of_le_of_ne (sum_nonneg (fun i hi => hr i (mem_range.1 hi))) (Ne.symm h0)
  have := h.2.2 i hi
  have h1 : 0 ≤ q.v i * (volM.v i * ∑ i ∈ range cells, rate i) := by
    rw [← mul_assoc, this]; exact mul_nonneg hp (hr i hi)
  exact nonneg_of_mul_nonneg_left h1 (mul_pos (hV.2 i hi) hs)

theorem fissions_nonneg (hvol : ∀ i, i < d.cells → 0 < d.vol.v i) (hf : ∀ g i, g < d.energies → i < d.cells → 0 ≤ d.fiss.m g i)
    {y : Nat → ℝ} (hy : ∀ p, p < d.cells * d.energies → 0 ≤ y p) {i : Nat} (hi : i < d.cells) : 0 ≤ fissions d y i :=
  sum_nonneg (fun e he => mul_nonneg (mul_nonneg (hy _ (flat_lt hi (mem_range.1 he))) (hf e i (mem_range.1 he) hi)) (hvol i hi).le)

/-- emission needs fissions -/
theorem fissions_pos (hvol : ∀ i, i < d.cells → 0 < d.vol.v i) (hf : ∀ g i, g < d.energies → i < d.cells → 0 ≤ d.fiss.m g i)
    {y : Nat → ℝ} (hy : ∀ p, p < d.cells * d.energies → 0 ≤ y p) {p : Nat} (hp : p < d.cells)
    (he : 0 < act (d.cells * d.energies) (prod d) y p) : 0 < ∑ i ∈ range d.cells, fissions d y i := by
  obtain ⟨x, hx, h0⟩ := exists_lt_of_sum_lt (show ∑ x ∈ range (d.cells * d.energies), (0 : ℝ) <
    ∑ x ∈ range (d.cells * d.energies), prod d p x * y x by rw [sum_const_zero]; exact he)
  have hx := mem_range.1 hx
  obtain ⟨i, g, hi, hg, rfl⟩ := flat_surj hx
  rw [prod_flat hi] at h0
  split_ifs at h0 with c
  · obtain ⟨rfl, -⟩ := c
    have hy0 := hy _ hx
    have hf0 := hf g i hg hi
    have y1 : 0 < y (i + g * d.cells) := lt_of_le_of_ne hy0 (fun e => by rw [← e, mul_zero] at h0; exact lt_irrefl _ h0)
    have f1 : 0 < d.fiss.m g i := lt_of_le_of_ne hf0 (fun e => by rw [← e] at h0; simp at h0)
    refine sum_pos' (fun i hi => fissions_nonneg hvol hf hy (mem_range.1 hi)) ⟨i, mem_range.2 hi, ?_⟩
    exact sum_pos' (fun e he => mul_nonneg (mul_nonneg (hy _ (flat_lt hi (mem_range.1 he))) (hf e i (mem_range.1 he) hi)) (hvol i hi).le)
      ⟨g, mem_range.2 hg, mul_pos (mul_pos y1 f1) (hvol i hi)⟩
  · rw [zero_mul] at h0; exact absurd h0 (lt_irrefl _)

theorem forward_run (S : Sound d aL aR) : ∃ M F, Square (d.cells * d.energies) M F ∧ Entries (d.cells * d.energies) (loss d aL aR) M ∧
    Entries (d.cells * d.energies) (fission d) F ∧ ∀ (lib : Numerics) (maxIter : Int) (acc power : ℝ) (volM : Vec ℝ) (m : ModesKind)
      (s : State), diffusion lib ⟨.forward, m, maxIter, acc⟩ d power volM s =
        eigenmodes lib ⟨.forward, m, maxIter, acc⟩ M F >>= fun ms =>
          setForward d.cells d.energies (Diffusion.newHeatSource d power volM) ms { s with oldHeat := s.heat } := by
  obtain ⟨M, F, h, sq, eM, eF⟩ := forward_ok S
  refine ⟨lift M, lift F, sq, eM, eF, fun lib maxIter acc power volM m s => ?_⟩
  unfold diffusion
  dsimp only
  rw [h, ok_bind]

theorem adjoint_run (S : Sound d aL aR) : ∃ M F, Square (d.cells * d.energies) M F ∧
    Entries (d.cells * d.energies) (fun p q => loss d aL aR q p) M ∧ Entries (d.cells * d.energies) (fun p q => fission d q p) F ∧
    ∀ (lib : Numerics) (maxIter : Int) (acc power : ℝ) (volM : Vec ℝ) (m : ModesKind) (s : State),
      diffusion lib ⟨.adjoint, m, maxIter, acc⟩ d power volM s =
        eigenmodes lib ⟨.adjoint, m, maxIter, acc⟩ M F >>= fun ms =>
          setAdjoint d.cells d.energies ms { s with oldHeat := s.heat } := by
  obtain ⟨M, F, h, sq, eM, eF⟩ := adjoint_ok S
  refine ⟨lift M, lift F, sq, eM, eF, fun lib maxIter acc power volM m s => ?_⟩
  unfold diffusion
  dsimp only
  rw [h, ok_bind]

theorem fission_nonneg (hvol : ∀ i, i < d.cells → 0 < d.vol.v i) (hf : NonnegFission d) {p q : Nat} (hp : p < d.cells * d.energies)
    (hq : q < d.cells * d.energies) : 0 ≤ fission d p q := by
  obtain ⟨i, g, hi, hg, rfl⟩ := flat_surj hp
  obtain ⟨j, h, hj, hh, rfl⟩ := flat_surj hq
  rw [fission_flat hi hj]
  split_ifs
  · exact mul_nonneg (mul_nonneg (hf.chi g i hg hi) (hvol i hi).le) (hf.prod h i hh hi)
  · exact le_rfl

/-! ### balance of the mesh -/

theorem global_balance {φ : Nat → ℝ} {J : Nat → Nat → ℝ} {k : ℝ}
    (hchi : ∀ i, i < d.cells → (∃ g, g < d.energies ∧ d.nu.m g i * d.fiss.m g i ≠ 0) → ∑ g ∈ range d.energies, d.chi.m g i = 1)
    (he : ∀ g i, g < d.energies → i < d.cells → d.tot.m g i * d.vol.v i * φ (i + g * d.cells) + J g (i + 1) - J g i =
      d.vol.v i * (scatterIn d φ g i + d.chi.m g i * production d φ i / k)) :
    (∑ i ∈ range d.cells, d.vol.v i * production d φ i) / k =
      ∑ i ∈ range d.cells, d.vol.v i * absorption d φ i + ∑ g ∈ range d.energies, (J g d.cells - J g 0) := by
  have hprod : ∀ i, i < d.cells → (∑ g ∈ range d.energies, d.chi.m g i) * production d φ i = production d φ i := by
    intro i hi
    by_cases h : ∃ g, g < d.energies ∧ d.nu.m g i * d.fiss.m g i ≠ 0
    · rw [hchi i hi h, one_mul]
    · push Not at h
      have : production d φ i = 0 := sum_eq_zero (fun g hg => by rw [h g (mem_range.1 hg), zero_mul])
      rw [this, mul_zero]
  have tele : ∀ g, J g d.cells - J g 0 = ∑ i ∈ range d.cells, (J g (i + 1) - J g i) := fun g => (sum_range_sub (J g) d.cells).symm
  have habs : ∀ i, absorption d φ i = ∑ g ∈ range d.energies, (d.tot.m g i * φ (i + g * d.cells) - scatterIn d φ g i) := by
    intro i
    unfold absorption scatterIn
    rw [sum_sub_distrib, sum_comm (f := fun g h => d.scatt h g i * φ (i + h * d.cells)), ← sum_sub_distrib]
    exact sum_congr rfl (fun g _ => by rw [sub_mul, sum_mul])
  rw [sum_congr rfl (fun g _ => tele g), sum_comm, ← sum_add_distrib, sum_div]
  refine sum_congr rfl (fun i hi => ?_)
  have hi := mem_range.1 hi
  rw [habs, ← hprod i hi, sum_mul, mul_sum, sum_div, mul_sum, ← sum_add_distrib]
  refine sum_congr rfl (fun g hg => ?_)
  have := he g i (mem_range.1 hg) hi
  have e : d.vol.v i * (d.chi.m g i * production d φ i) / k = d.vol.v i * (d.chi.m g i * production d φ i / k) := by ring
  rw [e]
  linear_combination -this

theorem boundary_current {D h a S f J : ℝ} (p1 : 0 < D) (p2 : 0 < h) (h1 : -1 ≤ a) (h2 : a ≤ 1) (hS : 0 ≤ S) (hf : 0 ≤ f)
    (x : Diffusion.AlbedoCurrent D h a S f J) : 0 ≤ J ∧ (a = 1 → J = 0) := by
  have e := albedo_unique p1 p2 h1 h2 x (Diffusion.albedo_current (S := S) (f := f) p1 p2 h1 h2)
  have hd := Diffusion.albedo_den_pos p1 p2 h1 h2
  rw [e]
  unfold Diffusion.bc
  refine ⟨?_, fun h => by rw [h]; simp⟩
  have : 0 ≤ 1 - a := by linarith
  positivity

theorem absorption_pos (habs : Diffusion.Absorbing d) {φ : Nat → ℝ} (hφ : Physical d.cells d.energies φ) :
    0 < ∑ i ∈ range d.cells, d.vol.v i * absorption d φ i := by
  obtain ⟨h0, p, hp, hne⟩ := hφ
  obtain ⟨i, g, hi, hg, rfl⟩ := flat_surj hp
  have term : ∀ g i, g < d.energies → i < d.cells →
      0 ≤ (d.tot.m g i - ∑ h ∈ range d.energies, d.scatt g h i) * φ (i + g * d.cells) := fun g i hg hi =>
    mul_nonneg (sub_nonneg.2 (habs.absorbs g i hg hi).le) (h0 _ (flat_lt hi hg))
  refine sum_pos' (fun i hi => mul_nonneg (habs.vol_pos i (mem_range.1 hi)).le
    (sum_nonneg (fun g hg => term g i (mem_range.1 hg) (mem_range.1 hi)))) ⟨i, mem_range.2 hi, mul_pos (habs.vol_pos i hi) ?_⟩
  refine sum_pos' (fun g hg => term g i (mem_range.1 hg) hi) ⟨g, mem_range.2 hg, mul_pos (sub_pos.2 (habs.absorbs g i hg hi)) ?_⟩
  exact lt_of_le_of_ne (h0 _ hp) (Ne.symm hne)

/-! ### regular problems -/

theorem Regular.site_lt (R : Regular d aL aR) {p : Nat} (hp : p < d.cells) : p < d.cells * d.energies := by
  obtain ⟨i, g, hi, hg, -⟩ := R.multiplying.somewhere
  exact lt_of_lt_of_le hp (Nat.le_mul_of_pos_right _ (by omega))

theorem emits_of_fissile {p : Nat} (hp : p < d.cells) (hf : Fissile d p) : Emits (d.cells * d.energies) (prod d) p := by
  have hf' := hf
  obtain ⟨g, hg, h⟩ := hf
  refine ⟨p + g * d.cells, flat_lt hp hg, ?_⟩
  rw [prod_flat hp, if_pos ⟨rfl, hf'⟩]
  exact h.ne'

theorem Regular.some_site (R : Regular d aL aR) : ∃ p, p < d.cells ∧ Emits (d.cells * d.energies) (prod d) p := by
  obtain ⟨i, g, hi, hg, h⟩ := R.multiplying.somewhere
  exact ⟨i, hi, emits_of_fissile hi ⟨g, hg, h⟩⟩

theorem Regular.same_k (R : Regular d aL aR) {k k' : ℝ} {φ ψ : Nat → ℝ}
    (hφ : Eigenpair (d.cells * d.energies) (loss d aL aR) (fission d) k' φ) (hφ0 : ∀ p, p < d.cells * d.energies → 0 ≤ φ p)
    (hψ : Eigenpair (d.cells * d.energies) (fun p q => loss d aL aR q p) (fun p q => fission d q p) k ψ)
    (hψ0 : ∀ p, p < d.cells * d.energies → 0 ≤ ψ p) : k' = k := by
  obtain ⟨sol, S⟩ := R.setting
  obtain ⟨hM, hsolv⟩ := loss_inverse R.sound R.absorbing
  have hMt := inverse_transpose hM hsolv
  choose solt hsolt using solvable_of_positive hMt
  have St : Setting (d.cells * d.energies) (fun p q => loss d aL aR q p) (fun p q => fission d q p) (fun x p => prod d p x)
      (fun p x => emit d x p) solt := ⟨hsolt, hMt,
    fun i j hi hj hne => loss_off R.sound R.absorbing j i hj hi (Ne.symm hne), adjoint_factored R.absorbing.vol_pos R.multiplying,
    R.connected_adjoint, by obtain ⟨x, y, hx, hy, h⟩ := R.fission_pos; exact ⟨y, x, hy, hx, h⟩⟩
  obtain ⟨hk', he, -⟩ := S.eigen_emission hφ hφ0
  obtain ⟨hk, he', -⟩ := St.eigen_emission hψ hψ0
  set N := d.cells * d.energies with hN
  have swap : ∀ B : Nat → Nat → ℝ, ∑ p ∈ range N, ψ p * act N B φ p = ∑ q ∈ range N, act N (fun p q => B q p) ψ q * φ q := by
    intro B
    unfold act
    simp only [mul_sum, sum_mul]
    rw [sum_comm]
    exact sum_congr rfl (fun q _ => sum_congr rfl (fun p _ => by ring))
  have e1 : ∑ p ∈ range N, ψ p * act N (loss d aL aR) φ p = (∑ p ∈ range N, ψ p * act N (fission d) φ p) / k' := by
    rw [sum_div]
    exact sum_congr rfl (fun p hp => by rw [hφ.2 p (mem_range.1 hp), mul_div_assoc])
  have e2 : ∑ p ∈ range N, ψ p * act N (loss d aL aR) φ p = (∑ p ∈ range N, ψ p * act N (fission d) φ p) / k := by
    rw [swap, swap, sum_div]
    exact sum_congr rfl (fun p hp => by rw [hψ.2 p (mem_range.1 hp), div_mul_eq_mul_div])
  have e3 : ∑ p ∈ range N, ψ p * act N (fission d) φ p =
      ∑ p ∈ range N, act N (fun p x => emit d x p) ψ p * act N (prod d) φ p := by
    have hA : ∀ p, p < N → act N (fission d) φ p = ∑ r ∈ range N, emit d p r * act N (prod d) φ r := fun p hp =>
      act_prod (fission_factored R.absorbing.vol_pos R.multiplying) φ hp
    rw [sum_congr rfl (fun p hp => by rw [hA p (mem_range.1 hp), mul_sum]), sum_comm]
    refine sum_congr rfl (fun r _ => ?_)
    rw [show act N (fun p x => emit d x p) ψ r = ∑ x ∈ range N, emit d x r * ψ x from rfl, sum_mul]
    exact sum_congr rfl (fun x _ => by ring)
  have hpos : 0 < ∑ p ∈ range N, ψ p * act N (fission d) φ p := by
    rw [e3]
    obtain ⟨i, g, hi, hg, h⟩ := R.multiplying.somewhere
    obtain ⟨h', hh', hchi⟩ := R.multiplying.emitted i g hi hg h
    have hiN := R.site_lt hi
    have em : Emits N (prod d) i := emits_of_fissile hi ⟨g, hg, h⟩
    have em' : Emits N (fun p x => emit d x p) i := by
      refine ⟨i + h' * d.cells, flat_lt hi hh', ?_⟩
      dsimp only
      rw [emit_flat hi, if_pos ⟨rfl, ⟨g, hg, h⟩⟩]
      exact (mul_pos hchi (R.absorbing.vol_pos i hi)).ne'
    refine sum_pos' (fun p hp => mul_nonneg (act_nonneg St.hf.Q_nonneg hψ0 (mem_range.1 hp))
      (act_nonneg S.hf.Q_nonneg hφ0 (mem_range.1 hp))) ⟨i, mem_range.2 hiN, mul_pos ?_ ?_⟩
    · exact he' ⟨i, mem_filter.2 ⟨mem_range.2 hiN, em'⟩⟩
    · exact he ⟨i, mem_filter.2 ⟨mem_range.2 hiN, em⟩⟩
  have := e1.symm.trans e2
  rw [div_eq_div_iff hk'.ne' hk.ne'] at this
  exact (mul_left_cancel₀ hpos.ne' this).symm

/-- a flux that is the same in all cells -/
theorem flat_solves (S : Sound d 1 1) {k : ℝ} {sp : Nat → ℝ}
    (hinf : ∀ i, i < d.cells → InfiniteMedium d.energies (fun g => d.tot.m g i) (fun g h => d.scatt g h i) (fun g => d.chi.m g i)
      (fun g => d.nu.m g i * d.fiss.m g i) k sp) :
    DiffusionEq d 1 1 k (fun p => sp (p / d.cells)) := by
  have hc := S.cells
  refine ⟨fun _ _ => 0, ⟨fun g i hg hi => ?_, fun g hg => ?_, fun g hg => ?_⟩, fun g i hg hi => ?_⟩
  · rw [flat_div (by omega), flat_div hi]
    exact ⟨sp g, by simp, by simp⟩
  · rw [flat_div (by omega)]
    exact ⟨sp g, by simp, by simp⟩
  · rw [flat_div (by omega)]
    exact ⟨sp g, by simp, by simp⟩
  · have h := hinf i hi g hg
    dsimp only at h ⊢
    unfold scatterIn production
    simp only [flat_div hi]
    rw [← h]
    ring

theorem flat_loss (S : Sound d 1 1) {g i : Nat} (hg : g < d.energies) (hi : i < d.cells) :
    act (d.cells * d.energies) (loss d 1 1) (fun _ => 1) (i + g * d.cells) =
      (d.tot.m g i - ∑ h ∈ range d.energies, d.scatt h g i) * d.vol.v i := by
  obtain ⟨J, hJ, h⟩ := loss_apply S (fun _ => 1)
  have h0 : Currents d 1 1 (fun _ => 1) (fun _ _ => 0) :=
    ⟨fun _ _ _ _ => ⟨1, by simp, by simp⟩, fun _ _ => ⟨1, by simp, by simp⟩, fun _ _ => ⟨1, by simp, by simp⟩⟩
  rw [h g i hg hi, hJ.unique S h0 g (i + 1) hg hi, hJ.unique S h0 g i hg hi.le]
  unfold scatterIn
  simp only [mul_one]
  ring

/-! ### all modes -/

theorem Eigenpair.congr' {N : Nat} {M M' F F' : Nat → Nat → ℝ} (hM : ∀ p q, p < N → q < N → M p q = M' p q)
    (hF : ∀ p q, p < N → q < N → F p q = F' p q) {k : ℝ} {ψ : Nat → ℝ} (h : Eigenpair N M F k ψ) : Eigenpair N M' F' k ψ := by
  refine ⟨h.1, fun p hp => ?_⟩
  have := h.2 p hp
  unfold act at this ⊢
  rw [sum_congr rfl (fun q hq => by rw [← hM p q hp (mem_range.1 hq)]), this]
  congr 1
  exact sum_congr rfl (fun q hq => by rw [hF p q hp (mem_range.1 hq)])

/-- the adjoint problem in the form needed for dominance -/
theorem Regular.setting_adjoint (R : Regular d aL aR) : ∃ sol, Setting (d.cells * d.energies) (fun p q => loss d aL aR q p)
    (fun p q => fission d q p) (fun x p => prod d p x) (fun p x => emit d x p) sol := by
  obtain ⟨h1, h2⟩ := loss_inverse R.sound R.absorbing
  have hMt := inverse_transpose h1 h2
  choose sol hsol using solvable_of_positive hMt
  obtain ⟨x, y, hx, hy, h⟩ := R.fission_pos
  exact ⟨sol, hsol, hMt, fun i j hi hj hne => loss_off R.sound R.absorbing j i hj hi (Ne.symm hne),
    adjoint_factored R.absorbing.vol_pos R.multiplying, R.connected_adjoint, y, x, hy, hx, h⟩

/-! ### comparison -/

theorem bc_anti {a a' D h S : ℝ} (hD : 0 < D) (hh : 0 < h) (hS : 0 ≤ S) (h1 : -1 ≤ a') (haa : a' ≤ a) (h2 : a ≤ 1) :
    Diffusion.bc a D h S ≤ Diffusion.bc a' D h S := by
  have p1 := Diffusion.albedo_den_pos hD hh (h1.trans haa) h2
  have p2 := Diffusion.albedo_den_pos hD hh h1 (haa.trans h2)
  unfold Diffusion.bc
  rw [div_le_div_iff₀ p1 p2]
  have : 0 ≤ D * S * (8 * D * (a - a')) := by
    have : 0 ≤ a - a' := by linarith
    positivity
  nlinarith [this]

theorem LessReactive.loss_le {d' : Diffusion.Data} {aL' aR' : ℝ} (w : LessReactive d d' aL aR aL' aR') (S : Sound d aL aR)
    (S' : Sound d' aL' aR') (habs : Diffusion.Absorbing d) {p q : Nat} (hp : p < d.cells * d.energies) (hq : q < d.cells * d.energies) :
    loss d aL aR p q ≤ loss d' aL' aR' p q := by
  have hc := S.cells
  obtain ⟨i, g, hi, hg, rfl⟩ := flat_surj hp
  obtain ⟨j, h, hj, hh, rfl⟩ := flat_surj hq
  have e := loss_flat (d := d') (aL := aL') (aR := aR') (g := g) (h := h) (i := i) (j := j) (by rw [w.cells]; exact hi) (by rw [w.cells]; exact hj)
  rw [w.cells] at e
  rw [loss_flat hi hj, e, w.vol i hi]
  have h1 : (if i = j then d'.scatt h g i * d.vol.v i else 0) ≤ if i = j then d.scatt h g i * d.vol.v i else 0 := by
    split_ifs
    · exact mul_le_mul_of_nonneg_right (w.scatt h g i hh hg hi) (habs.vol_pos i hi).le
    · exact le_rfl
  have hdi : ∀ m, m + 1 < d.cells → Diffusion.di d' g m = Diffusion.di d g m := by
    intro m hm
    unfold Diffusion.di
    rw [w.D g m hg (by omega), w.D g (m + 1) hg hm, w.surf (m + 1) hm.le, w.size m (by omega), w.size (m + 1) hm]
  have h2 : (if g = h then Diffusion.row d aL aR g i j else 0) ≤ if g = h then Diffusion.row d' aL' aR' g i j else 0 := by
    split_ifs with hgh
    · unfold Diffusion.row Diffusion.tri
      rw [w.cells]
      by_cases hji : j = i
      · rw [if_pos hji, if_pos hji]
        have t1 : (if i = 0 then Diffusion.bc aL (d.D.m g 0) (d.size.v 0) (d.surf.v 0) else Diffusion.di d g (i - 1)) ≤
            if i = 0 then Diffusion.bc aL' (d'.D.m g 0) (d'.size.v 0) (d'.surf.v 0) else Diffusion.di d' g (i - 1) := by
          split_ifs with h0
          · rw [w.D g 0 hg (by omega), w.size 0 (by omega), w.surf 0 (by omega)]
            exact bc_anti (S.pos.D_pos g hg 0 (by omega)) (S.pos.size_pos 0 (by omega)) (habs.surf_nonneg 0 (by omega)) S'.left.1 w.left
              S.left.2
          · rw [hdi (i - 1) (by omega)]
        have t2 : (if i + 1 = d.cells then Diffusion.bc aR (d.D.m g (d.cells - 1)) (d.size.v (d.cells - 1)) (d.surf.v d.cells)
            else Diffusion.di d g i) ≤ if i + 1 = d.cells then
              Diffusion.bc aR' (d'.D.m g (d.cells - 1)) (d'.size.v (d.cells - 1)) (d'.surf.v d.cells) else Diffusion.di d' g i := by
          split_ifs with h0
          · rw [w.D g _ hg (by omega), w.size _ (by omega), w.surf d.cells le_rfl]
            exact bc_anti (S.pos.D_pos g hg _ (by omega)) (S.pos.size_pos _ (by omega)) (habs.surf_nonneg _ le_rfl) S'.right.1 w.right
              S.right.2
          · rw [hdi i (by omega)]
        have t3 : d.tot.m g i * d.vol.v i ≤ d'.tot.m g i * d'.vol.v i := by
          rw [w.vol i hi]
          exact mul_le_mul_of_nonneg_right (w.tot g i hg hi) (habs.vol_pos i hi).le
        linarith
      · rw [if_neg hji, if_neg hji]
        split_ifs with h3 h4
        · rw [hdi i (by omega)]
        · rw [hdi j (by omega)]
        · exact le_rfl
    · exact le_rfl
  linarith

theorem LessReactive.fission_le {d' : Diffusion.Data} {aL' aR' : ℝ} (w : LessReactive d d' aL aR aL' aR')
    (habs : Diffusion.Absorbing d) {p q : Nat} (hp : p < d.cells * d.energies) (hq : q < d.cells * d.energies) :
    fission d' p q ≤ fission d p q := by
  obtain ⟨i, g, hi, hg, rfl⟩ := flat_surj hp
  obtain ⟨j, h, hj, hh, rfl⟩ := flat_surj hq
  have e := fission_flat (d := d') (g := g) (h := h) (i := i) (j := j) (by rw [w.cells]; exact hi) (by rw [w.cells]; exact hj)
  rw [w.cells] at e
  rw [fission_flat hi hj, e, w.vol i hi]
  split_ifs
  · have := mul_le_mul_of_nonneg_right (w.emission g h i hg hh hi) (habs.vol_pos i hi).le
    nlinarith [this]
  · exact le_rfl

end

end Verif.Solve
