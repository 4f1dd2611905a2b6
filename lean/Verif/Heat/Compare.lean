import Verif.Heat.Lemmas

/-! # Comparing the temperatures of one body under different sources and surroundings -/

namespace Verif.Heat

open Verif Finset

noncomputable section

variable {g : Diffusion.Geom} {n : Nat} {h k S Q Q' : Nat → ℝ} {AL BL CL CL' AR BR CR CR' : ℝ} {t t' : Nat → ℝ}

/-- data with the given numbers -/
def dataOf (g : Diffusion.Geom) (n : Nat) (h k S Q : Nat → ℝ) : Data :=
  ⟨n, g, ⟨n + 1, fun i => ∑ j ∈ range i, h j⟩, ⟨n, h⟩, ⟨n, fun _ => 1⟩, ⟨n + 1, S⟩, ⟨n, k⟩, ⟨n, Q⟩, ⟨0, fun _ => 0⟩⟩

theorem dataOf_physical (h2 : 2 ≤ n) (hh : ∀ i < n, 0 < h i) (hk : ∀ i < n, 0 < k i) (hS : ∀ i < n, 0 < S (i + 1)) (h0 : g = .slab → S 0 = 1) :
    Physical (dataOf g n h k S Q) where
  two := h2
  radii_n := rfl
  size_n := rfl
  vol_n := rfl
  surf_n := rfl
  k_n := rfl
  q_n := rfl
  size_eq := fun i _ => by
    show h i = ∑ j ∈ range (i + 1), h j - ∑ j ∈ range i, h j
    rw [sum_range_succ]; ring
  size_pos := hh
  surf_pos := hS
  slab := h0
  k_pos := hk
  vol_pos := fun _ _ => one_pos

/-- the system matrix -/
def matOf (d : Data) (AL BL AR BR : ℝ) : Mat ℝ :=
  ⟨d.cells, d.cells, fun i j => tm d i j + (if i = 0 ∧ j = 0 ∧ d.geom = .slab then bl d AL BL AL else 0) +
    (if i = d.cells - 1 ∧ j = d.cells - 1 then br d AR BR AR else 0)⟩

/-- the left-hand side of row `i` -/
def row (d : Data) (AL BL AR BR : ℝ) (x : Nat → ℝ) (i : Nat) : ℝ :=
  gl d i * (x i - x (i - 1)) + gr d i * (x i - x (i + 1)) +
    ((if i = 0 ∧ d.geom = .slab then bl d AL BL AL else 0) + (if i = d.cells - 1 then br d AR BR AR else 0)) * x i

theorem row_min' {d : Data} (ph : Physical d) (ha : Admissible d AL BL AR BR) {x : Nat → ℝ} (hx : ∀ i, i < d.cells → 0 ≤ row d AL BL AR BR x i) :
    ∀ i, i < d.cells → 0 ≤ x i :=
  system_min ph ha (T := matOf d AL BL AR BR) (fun _ _ _ _ => rfl) (fun i hi => by
    rw [system_row (T := matOf d AL BL AR BR) (fun _ _ _ _ => rfl) x hi]; exact hx i hi)

theorem row_lin {d : Data} (a b : ℝ) (x y : Nat → ℝ) (i : Nat) :
    row d AL BL AR BR (fun i => a * x i + b * y i) i = a * row d AL BL AR BR x i + b * row d AL BL AR BR y i := by
  unfold row; ring

/-- the equations, for any sources -/
theorem conducted_rows (h2 : 2 ≤ n) (hh : ∀ i < n, 0 < h i) (hk : ∀ i < n, 0 < k i) (hS : ∀ i < n, 0 < S (i + 1)) (h0 : g = .slab → S 0 = 1)
    (hd : Determined (dataOf g n h k S 0) AL BL AR BR) :
    Conducted g n h k S Q AL BL CL AR BR CR t ↔ ∀ i < n, row (dataOf g n h k S 0) AL BL AR BR t i =
      Q i + (if i = 0 ∧ g = .slab then bl (dataOf g n h k S 0) AL BL CL else 0) + (if i = n - 1 then br (dataOf g n h k S 0) AR BR CR else 0) := by
  have e := conducted_iff (d := dataOf g n h k S Q) (dataOf_physical h2 hh hk hS h0) (AL := AL) (BL := BL) (CL := CL) (AR := AR) (BR := BR) (CR := CR)
    ⟨hd.left, hd.right⟩ (t := t)
  simp only [show ∀ i, (dataOf g n h k S Q).q.v i * (dataOf g n h k S Q).vol.v i = Q i from fun i => mul_one _] at e
  exact e

/-- more heat and warmer surroundings -/
theorem conducted_le (h2 : 2 ≤ n) (hh : ∀ i < n, 0 < h i) (hk : ∀ i < n, 0 < k i) (hS : ∀ i < n, 0 < S (i + 1)) (h0 : g = .slab → S 0 = 1)
    (ha : Admissible (dataOf g n h k S 0) AL BL AR BR) (c : Conducted g n h k S Q AL BL CL AR BR CR t) (c' : Conducted g n h k S Q' AL BL CL' AR BR CR' t')
    (hQ : ∀ i < n, Q i ≤ Q' i) (hL : g = .slab → CL ≤ CL') (hR : CR ≤ CR') :
    (∀ i < n, t i ≤ t' i) ∧ ∀ i < n, Q i < Q' i → t i < t' i := by
  have ph := dataOf_physical (Q := 0) h2 hh hk hS h0
  obtain ⟨pL, pR⟩ := ha.determined ph
  have hd : Determined (dataOf g n h k S 0) AL BL AR BR := ⟨fun hg => (pL hg).ne', pR.ne'⟩
  rw [conducted_rows h2 hh hk hS h0 hd] at c c'
  have hsc : 0 < S n := by
    have := hS (n - 1) (by omega)
    rwa [show n - 1 + 1 = n by omega] at this
  have bL : g = .slab → bl (dataOf g n h k S 0) AL BL CL ≤ bl (dataOf g n h k S 0) AL BL CL' := fun hg => div_le_div_of_nonneg_right (hL hg) (pL hg).le
  have bR : br (dataOf g n h k S 0) AR BR CR ≤ br (dataOf g n h k S 0) AR BR CR' := div_le_div_of_nonneg_right (mul_le_mul_of_nonneg_right hR hsc.le) pR.le
  have hrow : ∀ i < n, Q' i - Q i ≤ row (dataOf g n h k S 0) AL BL AR BR (fun i => 1 * t' i + (-1) * t i) i := by
    intro i hi
    rw [row_lin, c i hi, c' i hi]
    have e1 : (if i = 0 ∧ g = .slab then bl (dataOf g n h k S 0) AL BL CL else 0) ≤ (if i = 0 ∧ g = .slab then bl (dataOf g n h k S 0) AL BL CL' else 0) := by
      split_ifs with hc
      · exact bL hc.2
      · exact le_rfl
    have e2 : (if i = n - 1 then br (dataOf g n h k S 0) AR BR CR else 0) ≤ (if i = n - 1 then br (dataOf g n h k S 0) AR BR CR' else 0) := by
      split_ifs with hc
      · exact bR
      · exact le_rfl
    linarith
  have hx := row_min' ph ha (x := fun i => 1 * t' i + (-1) * t i) (fun i hi => by
    have := hrow i hi
    have := hQ i hi
    linarith)
  have hle : ∀ i < n, t i ≤ t' i := fun i hi => by have := hx i hi; linarith
  refine ⟨hle, fun i hi hq => lt_of_le_of_ne (hle i hi) (fun e => ?_)⟩
  have hr := hrow i hi
  simp only [row] at hr
  have z : 1 * t' i + (-1) * t i = 0 := by linarith
  rw [z, mul_zero, add_zero] at hr
  have l : gl (dataOf g n h k S 0) i * (0 - (1 * t' (i - 1) + (-1) * t (i - 1))) ≤ 0 := by
    by_cases hi0 : i = 0
    · rw [gl, if_pos hi0, zero_mul]
    · have := gl_pos ph (by omega) hi
      have := hle (i - 1) (by omega)
      nlinarith
  have r : gr (dataOf g n h k S 0) i * (0 - (1 * t' (i + 1) + (-1) * t (i + 1))) ≤ 0 := by
    by_cases hi0 : i = n - 1
    · rw [gr, if_pos (show i = (dataOf g n h k S 0).cells - 1 from hi0), zero_mul]
    · have := gr_pos ph (i := i) (show i + 1 < n by omega)
      have := hle (i + 1) (by omega)
      nlinarith
  linarith

/-- superposition -/
theorem conducted_lin (h2 : 2 ≤ n) (hh : ∀ i < n, 0 < h i) (hk : ∀ i < n, 0 < k i) (hS : ∀ i < n, 0 < S (i + 1)) (h0 : g = .slab → S 0 = 1)
    (ha : Admissible (dataOf g n h k S 0) AL BL AR BR) (a b : ℝ) (c : Conducted g n h k S Q AL BL CL AR BR CR t)
    (c' : Conducted g n h k S Q' AL BL CL' AR BR CR' t') :
    Conducted g n h k S (fun i => a * Q i + b * Q' i) AL BL (a * CL + b * CL') AR BR (a * CR + b * CR') (fun i => a * t i + b * t' i) := by
  have ph := dataOf_physical (Q := 0) h2 hh hk hS h0
  obtain ⟨pL, pR⟩ := ha.determined ph
  have hd : Determined (dataOf g n h k S 0) AL BL AR BR := ⟨fun hg => (pL hg).ne', pR.ne'⟩
  rw [conducted_rows h2 hh hk hS h0 hd] at c c' ⊢
  intro i hi
  rw [row_lin, c i hi, c' i hi]
  unfold bl br
  split_ifs <;> ring

/-- the temperatures are determined -/
theorem conducted_unique (h2 : 2 ≤ n) (hh : ∀ i < n, 0 < h i) (hk : ∀ i < n, 0 < k i) (hS : ∀ i < n, 0 < S (i + 1)) (h0 : g = .slab → S 0 = 1)
    (ha : Admissible (dataOf g n h k S 0) AL BL AR BR) (c : Conducted g n h k S Q AL BL CL AR BR CR t)
    (c' : Conducted g n h k S Q AL BL CL AR BR CR t') : ∀ i < n, t i = t' i := fun i hi =>
  le_antisymm ((conducted_le h2 hh hk hS h0 ha c c' (fun _ _ => le_rfl) (fun _ => le_rfl) le_rfl).1 i hi)
    ((conducted_le h2 hh hk hS h0 ha c' c (fun _ _ => le_rfl) (fun _ => le_rfl) le_rfl).1 i hi)

end

end Verif.Heat
