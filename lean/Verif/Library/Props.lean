import Verif.Library.Model
import Verif.Library.Spec
import Mathlib.Tactic.Linarith
import Mathlib.Tactic.NormNum
import Mathlib.Tactic.Positivity

/-!
# Properties of the material library
-/

namespace Verif.Library

open Verif Numeric

noncomputable section

theorem alpha_at {T : ℝ} (h : Within T 273 942) : density T = 19360 - 1.03347 * kelvin T ∧ heatCapacity T = 104.82 + 0.0053686 * kelvin T + 0.000101823 * kelvin T ^ 2 := by
  obtain ⟨h1, h2⟩ := h
  unfold density heatCapacity isLower isGreater tol
  unfold gap kelvin at *
  constructor
  · rw [if_neg (by norm_num at *; linarith), if_pos (by constructor <;> norm_num at * <;> linarith)]
    norm_num
  · rw [if_neg (by norm_num at *; linarith), if_pos (by constructor <;> norm_num at * <;> linarith)]
    norm_num

theorem beta_at {T : ℝ} (h : Within T 942 1049) : density T = 19092 - 0.9807 * kelvin T ∧ heatCapacity T = 176.4 := by
  obtain ⟨h1, h2⟩ := h
  unfold density heatCapacity isLower isGreater tol
  unfold gap kelvin at *
  constructor
  · rw [if_neg (by norm_num at *; linarith), if_neg (by rintro ⟨-, h⟩; norm_num at *; linarith), if_pos (by constructor <;> norm_num at * <;> linarith)]
    norm_num
  · rw [if_neg (by norm_num at *; linarith), if_neg (by rintro ⟨-, h⟩; norm_num at *; linarith), if_pos (by constructor <;> norm_num at * <;> linarith)]

theorem gamma_at {T : ℝ} (h : Within T 1049 1405) : density T = 18447 - 0.5166 * kelvin T ∧ heatCapacity T = 156.8 := by
  obtain ⟨h1, h2⟩ := h
  unfold density heatCapacity isLower isGreater tol
  unfold gap kelvin at *
  constructor
  · rw [if_neg (by norm_num at *; linarith), if_neg (by rintro ⟨-, h⟩; norm_num at *; linarith), if_neg (by rintro ⟨-, h⟩; norm_num at *; linarith),
      if_pos (by constructor <;> norm_num at * <;> linarith)]
    norm_num
  · rw [if_neg (by norm_num at *; linarith), if_neg (by rintro ⟨-, h⟩; norm_num at *; linarith), if_neg (by rintro ⟨-, h⟩; norm_num at *; linarith),
      if_pos (by constructor <;> norm_num at * <;> linarith)]

theorem conducts_at {T : ℝ} (h : Within T 273 1405) : thermalConductivity T = 22 + 0.023 * (kelvin T - 273) := by
  obtain ⟨h1, h2⟩ := h
  unfold thermalConductivity isLower isGreater tol
  unfold gap kelvin at *
  rw [if_neg (by norm_num at *; linarith), if_pos (by constructor <;> norm_num at * <;> linarith)]
  norm_num

theorem gap_pos : 0 < gap := by unfold gap; positivity

theorem solid_within {T : ℝ} (h : Solid T) : Within T 273 1405 := by
  have := gap_pos
  rcases h with ⟨h1, h2⟩ | ⟨h1, h2⟩ | ⟨h1, h2⟩ <;> constructor <;> linarith

/-- **C108, partial.** The data of solid uranium make sense: the density is that of uranium and falls with the temperature, through all forms of the crystals; the heat capacity is positive; the conductivity
is positive and grows with the temperature up to the melting point. *Missing:* the temperatures at which the crystals change (`C108_false`). -/
theorem C108_partial {T : ℝ} (h : Solid T) :
    (17700 < density T ∧ density T < 19100) ∧ (104 < heatCapacity T ∧ heatCapacity T < 201) ∧
    (∀ T', Solid T' → T < T' → density T' < density T) ∧
    (∀ T', Within T' 273 1405 → (T < T' ↔ thermalConductivity T < thermalConductivity T') ∧ 22 < thermalConductivity T' ∧ thermalConductivity T' < 49) := by
  have hg := gap_pos
  refine ⟨?_, ?_, ?_, ?_⟩
  · rcases h with h | h | h
    · rw [(alpha_at h).1]; constructor <;> linarith [h.1, h.2]
    · rw [(beta_at h).1]; constructor <;> linarith [h.1, h.2]
    · rw [(gamma_at h).1]; constructor <;> linarith [h.1, h.2]
  · rcases h with h | h | h
    · rw [(alpha_at h).2]
      have h1 : 273 < kelvin T := by linarith [h.1]
      have h2 : kelvin T < 942 := by linarith [h.2]
      constructor <;> nlinarith
    · rw [(beta_at h).2]; norm_num
    · rw [(gamma_at h).2]; norm_num
  · intro T' h' hT
    have hk : kelvin T < kelvin T' := by unfold kelvin; linarith
    rcases h with h | h | h <;> rcases h' with h' | h' | h' <;>
      first
        | (rw [(alpha_at h).1, (alpha_at h').1]; linarith)
        | (rw [(alpha_at h).1, (beta_at h').1]; linarith [h.1, h.2, h'.1, h'.2])
        | (rw [(alpha_at h).1, (gamma_at h').1]; linarith [h.1, h.2, h'.1, h'.2])
        | (rw [(beta_at h).1, (beta_at h').1]; linarith)
        | (rw [(beta_at h).1, (gamma_at h').1]; linarith [h.1, h.2, h'.1, h'.2])
        | (rw [(gamma_at h).1, (gamma_at h').1]; linarith)
        | (exfalso; linarith [h.1, h.2, h'.1, h'.2])
  · intro T' h'
    rw [conducts_at (solid_within h), conducts_at h']
    refine ⟨⟨fun hT => ?_, fun hT => ?_⟩, ?_, ?_⟩
    · have : kelvin T < kelvin T' := by unfold kelvin; linarith
      linarith
    · have : kelvin T < kelvin T' := by linarith
      unfold kelvin at this
      linarith
    · linarith [h'.1]
    · linarith [h'.2]

/-- **C108, false as stated.** Just at the temperatures at which the crystals change, solid uranium has no density and no heat capacity, though it conducts heat. -/
theorem C108_false {T : ℝ} (h : At T 942 ∨ At T 1049) : density T = 0 ∧ heatCapacity T = 0 ∧ 22 < thermalConductivity T := by
  have hg := gap_pos
  have hs : gap < 1 := by unfold gap; norm_num
  have hw : Within T 273 1405 := by rcases h with h | h <;> constructor <;> linarith [h.1, h.2]
  refine ⟨?_, ?_, ?_⟩
  · unfold density isLower isGreater tol
    rcases h with ⟨h1, h2⟩ | ⟨h1, h2⟩ <;> unfold gap kelvin at * <;>
      rw [if_neg (by norm_num at *; linarith), if_neg (by rintro ⟨h3, h4⟩; norm_num at *; linarith), if_neg (by rintro ⟨h3, h4⟩; norm_num at *; linarith),
        if_neg (by rintro ⟨h3, h4⟩; norm_num at *; linarith)]
  · unfold heatCapacity isLower isGreater tol
    rcases h with ⟨h1, h2⟩ | ⟨h1, h2⟩ <;> unfold gap kelvin at * <;>
      rw [if_neg (by norm_num at *; linarith), if_neg (by rintro ⟨h3, h4⟩; norm_num at *; linarith), if_neg (by rintro ⟨h3, h4⟩; norm_num at *; linarith),
        if_neg (by rintro ⟨h3, h4⟩; norm_num at *; linarith)]
  · rw [conducts_at hw]
    linarith [hw.1]

/-- **C108, outside.** Below 273 K and from the melting point on, everything is zero: there is no message. -/
theorem C108_outside {T : ℝ} (h : kelvin T ≤ 273 + gap ∨ 1405 - gap ≤ kelvin T) : density T = 0 ∧ heatCapacity T = 0 ∧ thermalConductivity T = 0 := by
  have hg := gap_pos
  have hs : gap < 1 := by unfold gap; norm_num
  refine ⟨?_, ?_, ?_⟩
  · unfold density isLower isGreater tol
    dsimp only
    split_ifs with h1 h2 h3 h4 <;> first | rfl | (exfalso; unfold gap kelvin at *; norm_num at *; rcases h with h | h <;> linarith [h2.1, h2.2]) |
      (exfalso; unfold gap kelvin at *; norm_num at *; rcases h with h | h <;> linarith [h3.1, h3.2]) | (exfalso; unfold gap kelvin at *; norm_num at *; rcases h with h | h <;> linarith [h4.1, h4.2])
  · unfold heatCapacity isLower isGreater tol
    dsimp only
    split_ifs with h1 h2 h3 h4 <;> first | rfl | (exfalso; unfold gap kelvin at *; norm_num at *; rcases h with h | h <;> linarith [h2.1, h2.2]) |
      (exfalso; unfold gap kelvin at *; norm_num at *; rcases h with h | h <;> linarith [h3.1, h3.2]) | (exfalso; unfold gap kelvin at *; norm_num at *; rcases h with h | h <;> linarith [h4.1, h4.2])
  · unfold thermalConductivity isLower isGreater tol
    dsimp only
    split_ifs with h1 h2 <;> first | rfl | (exfalso; unfold gap kelvin at *; norm_num at *; rcases h with h | h <;> linarith [h2.1, h2.2])

/-! ### examples -/

/-- At 20 °C and at 700 °C uranium is solid … -/
example : Solid 20 ∧ Solid 700 ∧ density 700 < density 20 := by
  have h1 : Solid 20 := .inl (by unfold Within kelvin gap; norm_num)
  have h2 : Solid 700 := .inr (.inl (by unfold Within kelvin gap; norm_num))
  exact ⟨h1, h2, (C108_partial h1).2.2.1 700 h2 (by norm_num)⟩

/-- … at 668.85 °C it weighs nothing … -/
example : density 668.85 = 0 := (C108_false (.inl (by unfold At kelvin gap; norm_num))).1

/-- … and at 1500 °C it is molten. -/
example : heatCapacity 1500 = 0 := (C108_outside (.inr (by unfold kelvin gap; norm_num))).2.1

end

end Verif.Library
