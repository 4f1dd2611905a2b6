import Verif.Input.PoorerRead

/-! # Bodies that give all neutrons back: lemmas -/

namespace Verif.Solve

open Verif Outcome Finset Filter Topology

variable {cells energies : Nat}

/-- if the first flux is one everywhere, the first k-factor is one -/
theorem Generations.flat {src : (Nat → ℝ) → Nat → Nat → ℝ} {Ans : (Nat → Nat → ℝ) → (Nat → ℝ) → Prop} {κ : Nat → ℝ} {y : Nat → Nat → ℝ}
    (h : Generations cells energies src Ans κ y)
    (hsrc : ∀ φ ψ g i, g < energies → i < cells → (∀ p, p < cells * energies → φ p = ψ p) → src φ g i = src ψ g i)
    (hAns : ∀ φ, Ans (fun _ _ => 1) φ → ∀ p, p < cells * energies → φ p = 1) {k : ℝ} (hk : k ≠ 0) (ht : Tendsto κ atTop (𝓝 k)) :
    κ 0 = 1 ∧ κ 1 = 1 ∧ ∀ p, p < cells * energies → y 1 p = 1 / (cells * energies : ℕ) := by
  obtain ⟨x, k0, x0, x1, -, kn, hy⟩ := h
  have hx1 := hAns _ x1
  have e : ∑ g ∈ range energies, ∑ i ∈ range cells, src (x 0) g i * src (x (0 + 1)) g i = ∑ g ∈ range energies, ∑ i ∈ range cells, src (x (0 + 1)) g i * src (x (0 + 1)) g i :=
    sum_congr rfl (fun g hg => sum_congr rfl (fun i hi => by
      rw [hsrc (x 0) (x (0 + 1)) g i (mem_range.1 hg) (mem_range.1 hi) (fun p hp => by rw [x0 p hp, hx1 p hp])]))
  refine ⟨k0, ?_, fun p hp => ?_⟩
  · have h := kn 0
    rw [k0, one_mul, e] at h
    by_cases hz : ∑ g ∈ range energies, ∑ i ∈ range cells, src (x (0 + 1)) g i * src (x (0 + 1)) g i = 0
    · rw [hz, div_zero] at h
      have hall : ∀ j, κ (j + 1) = 0 := by
        intro j
        induction j with
        | zero => exact h
        | succ j ih => rw [kn (j + 1), ih, zero_mul]
      exact absurd (tendsto_nhds_unique ((tendsto_add_atTop_iff_nat 1).2 ht) (by simp only [hall]; exact tendsto_const_nhds)) hk
    · rw [div_self hz] at h
      exact h
  · rw [hy 1 p hp, hx1 p hp, sum_congr rfl (fun q hq => by rw [hx1 q (mem_range.1 hq)])]
    simp

/-- a flat flux that solves an equation with one physical solution is this solution -/
theorem flat_unique {N E : Nat} (hN : 0 < N) {Eq : ℝ → (Nat → ℝ) → Prop} {k k0 : ℝ} {φ sp : Nat → ℝ} (s0 : ∀ e, e < E → 0 ≤ sp e) (s1 : ∑ e ∈ range E, sp e = 1)
    (hs : ∑ x ∈ range (N * E), φ x = 1) (hu : ∀ k' ψ, Physical N E ψ → Eq k' ψ → k' = k0 ∧ ∃ c, ∀ x, x < N * E → ψ x = c * φ x)
    (heq : Eq k (fun x => sp (x / N) / N)) : k = k0 ∧ ∀ i e, i < N → e < E → φ (i + e * N) = sp e / N := by
  have hNr : (N : ℝ) ≠ 0 := by exact_mod_cast hN.ne'
  have hphys : Physical N E (fun x => sp (x / N) / N) := by
    refine ⟨fun x hx => ?_, ?_⟩
    · obtain ⟨i, e, hi, he, rfl⟩ := flat_surj hx
      dsimp only
      rw [flat_div hi]
      exact div_nonneg (s0 e he) (Nat.cast_nonneg _)
    · by_contra hcon
      push Not at hcon
      have : ∑ e ∈ range E, sp e = 0 := sum_eq_zero (fun e he => by
        have := hcon (0 + e * N) (flat_lt hN (mem_range.1 he))
        rw [flat_div hN] at this
        exact (div_eq_zero_iff.1 this).resolve_right hNr)
      rw [this] at s1
      exact zero_ne_one s1
  obtain ⟨e, c, hc⟩ := hu k _ hphys heq
  have hsum : ∑ x ∈ range (N * E), sp (x / N) / N = 1 := by
    rw [sum_flat, ← s1]
    refine sum_congr rfl (fun e he => ?_)
    rw [sum_congr rfl (fun i hi => by rw [flat_div (mem_range.1 hi)]), sum_const, card_range, nsmul_eq_mul, mul_div_cancel₀ _ hNr]
  have c1 : c = 1 := by
    rw [sum_congr rfl (fun x hx => hc x (mem_range.1 hx)), ← mul_sum, hs, mul_one] at hsum
    exact hsum
  refine ⟨e, fun i e hi he => ?_⟩
  have := hc _ (flat_lt hi he)
  rw [c1, one_mul, flat_div hi] at this
  exact this.symm

/-- a part of the spectrum satisfies the same equation -/
theorem InfiniteMedium.part {E : Nat} {tot chi prod sp : Nat → ℝ} {scatt : Nat → Nat → ℝ} {k : ℝ} (h : InfiniteMedium E tot scatt chi prod k sp) (c : ℝ) :
    InfiniteMedium E tot scatt chi prod k (fun e => sp e / c) := fun e he => by
  have := h e he
  dsimp only
  rw [mul_div_assoc', this, add_div, sum_div]
  congr 1
  · exact sum_congr rfl (fun h _ => by ring)
  · rw [mul_div_assoc, mul_div_assoc, div_right_comm, mul_div_assoc, sum_div]
    congr 2
    exact sum_congr rfl (fun h _ => by ring)

/-- the equation depends on the data of the groups only -/
theorem InfiniteMedium.congr {E : Nat} {tot chi prod sp tot' chi' prod' : Nat → ℝ} {scatt scatt' : Nat → Nat → ℝ} {k : ℝ} (h : InfiniteMedium E tot scatt chi prod k sp)
    (h1 : ∀ e, e < E → tot' e = tot e) (h2 : ∀ e f, e < E → f < E → scatt' e f = scatt e f) (h3 : ∀ e, e < E → chi' e = chi e) (h4 : ∀ e, e < E → prod' e = prod e) :
    InfiniteMedium E tot' scatt' chi' prod' k sp := fun e he => by
  have a1 : ∑ f ∈ range E, scatt' f e * sp f = ∑ f ∈ range E, scatt f e * sp f := sum_congr rfl (fun f hf => by rw [h2 f e (mem_range.1 hf) he])
  have a2 : ∑ f ∈ range E, prod' f * sp f = ∑ f ∈ range E, prod f * sp f := sum_congr rfl (fun f hf => by rw [h4 f (mem_range.1 hf)])
  rw [h1 e he, h e he, h3 e he, a1, a2]

end Verif.Solve

namespace Verif.Input

open Verif Outcome

variable {lib : Lib} {lines : List Text} {g : Diffusion.Geom} {rs : List Region} {E : Nat} {T : Tables} {alb : Vec ℝ} {acc : ℝ} {n : Nat}

/-- a transport solver has an albedo -/
theorem CriticalFile.albedo_pos {dir : String} (hf : CriticalFile lib lines .transport dir g rs E T alb acc n) : 1 ≤ alb.n := by
  obtain ⟨ws, h1, h2⟩ := hf.albedo
  obtain ⟨ws', h3, h4⟩ := hf.full.settings .transport (by simp [everyone]) "albedo" (by simp [settingsOf])
  obtain rfl := setting_unique h1 h3
  have : ws.length = alb.n := by
    have := List.Forall₂.length_eq h2
    simpa [Vec.toList] using this
  rw [← this]
  generalize hkey : "albedo" = key at h4
  cases h4 with
  | oneAlbedo => simp
  | twoAlbedos => simp
  | _ => exact absurd hkey (by decide)

/-- a run that meets the accuracy in the first pass -/
theorem Settles.first {run : Outcome Calc.Plant} {R : Calc.Plant → ℝ → (Nat → ℝ) → Prop} {κ : Nat → ℝ} {y : Nat → Nat → ℝ} (h : Settles run R n acc κ y) (k0 : κ 0 = 1)
    (k1 : κ 1 = 1) (hacc : 0 < acc) (hn : 1 ≤ n) : ∃ p', run = ok p' ∧ R p' 1 (y 1) := by
  obtain ⟨p', h1, h3⟩ := h.1 0 hn (fun j hj => absurd hj (Nat.not_lt_zero j)) (by
    unfold Eigen.change
    rw [k0, zero_add, k1]
    simpa using hacc)
  rw [zero_add, k1] at h3
  exact ⟨p', h1, h3⟩

theorem Found.congr {p : Calc.Plant} {N E : Nat} {k : ℝ} {φ ψ : Nat → ℝ} (h : Found p N E k φ) (e : ∀ x, x < N * E → φ x = ψ x) : Found p N E k ψ :=
  ⟨h.1, h.2.1, fun f i hf hi => by rw [h.2.2 f i hf hi, e _ (flat_lt hi hf)]⟩

end Verif.Input
