import Verif.Input.RunProps

/-!
# How far the temperatures of a heat calculation are those of steady heat conduction
-/

namespace Verif.Input

open Verif Outcome

noncomputable section

/-! ### C85 -/

/-- **C85.** Where the errors of the equations do no harm (equal sizes or equal conductivities at every face but the last one; there equal sizes and conductivities), the temperatures of
`C85_partial` are those of steady heat conduction. -/
theorem C85_right {g : Diffusion.Geom} {n : Nat} {f k q : Nat → ℝ} {AL BL CL AR BR CR : ℝ} (hn : 2 ≤ n) (hm : Heat.Harmless n (fun i => f (i + 1) - f i) k) (t : Nat → ℝ) :
    ConductedHeat g n f k q AL BL CL AR BR CR t ↔ SteadyHeat g n f k q AL BL CL AR BR CR t :=
  Heat.conducted_steady hn hm t

/-- four cells of fuel, of two sizes, and two of water -/
example : Heat.Harmless 6 (fun i => (if i + 1 ≤ 2 then 2 * ((i + 1 : ℕ) : ℝ) else (i + 1 : ℕ) + 2) - if i ≤ 2 then 2 * (i : ℝ) else i + 2) (fun i => if i ≤ 2 then 3 else 1 / 2) where
  inner i h1 h2 := by
    have : i = 1 ∨ i = 2 ∨ i = 3 ∨ i = 4 := by omega
    rcases this with rfl | rfl | rfl | rfl <;> norm_num
  last := by norm_num
  third _ := by norm_num

/-- The conductivities of the wall of the example. -/
theorem vConductivity (i : Nat) : (vLaw ((cellNames vRegions).getD i [])).v 0 = if i < 2 then 3 else 1 / 2 := by
  match i with
  | 0 => rfl
  | 1 => rfl
  | 2 => rfl
  | n + 3 => rfl

/-- **C85 is false at the last face**, on an ordinary file with equal cells: between the fuel and the water of the example the temperature should fall by 7/4 degrees, the program
finds 3 degrees. -/
theorem C85_false (num : Solve.Numerics) (p : Calc.Plant) : ∃ p', program vLib (Calc.exTools num) (some vFile) p = ok p' ∧ Meshed vRegions p'.grid ∧
    Calc.temp p' 1 - Calc.temp p' 2 = 3 ∧
    ∀ T, SteadyHeat .slab 3 p'.grid.bounds.v (fun i => (vLaw ((cellNames vRegions).getD i [])).v 0) (Vec.ofList [3, 3, 1 / 2]).v 0 1 0 1 0 20 T → T 1 - T 2 = 7 / 4 := by
  obtain ⟨p', h1, -, h3, hS⟩ := C85_constant (vLib_clean vFile) vStored vProper vHeatFile vCase (tl := Calc.exTools num) Calc.exLin_solves (by norm_num)
    (by norm_num) (fun _ _ => rfl) p
  rw [show (cellNames vRegions).length = 3 from rfl] at hS
  obtain ⟨J, I, j1, -, -, j4, -, j6, -⟩ := hS
  have hb : ∀ i, i ≤ 3 → p'.grid.bounds.v i = i * (1 / 2) := fun i hi => heatRead_bounds vHeatFile.body vCase h3 (by rw [h3.cells]; exact hi)
  have q0 : (Vec.ofList [3, 3, 1 / 2] : Vec ℝ).v 0 = 3 := rfl
  have q1 : (Vec.ofList [3, 3, 1 / 2] : Vec ℝ).v 1 = 3 := rfl
  refine ⟨p', h1, h3, ?_, fun T hT => ?_⟩
  · rw [if_pos rfl] at j1
    obtain ⟨x, -, x2⟩ := j1
    have f0 := j6 0 (by norm_num)
    have f1 := j6 1 (by norm_num)
    obtain ⟨y, y1, y2⟩ := j4
    simp only [Mesh.area, intervalIntegral.integral_const, smul_eq_mul, q0, q1, vConductivity] at f0 f1 y1 y2
    norm_num at x2 f0 f1 y1 y2
    linarith
  · obtain ⟨L, l1, -, l3, l4⟩ := hT
    rw [if_pos rfl] at l1
    obtain ⟨x, -, x2⟩ := l1
    have f0 := l4 0 (by norm_num)
    have f1 := l4 1 (by norm_num)
    obtain ⟨y, y1, y2⟩ := l3 2 (by norm_num) (by norm_num)
    simp only [Mesh.area, intervalIntegral.integral_const, smul_eq_mul, q0, q1, vConductivity, hb 0 (by norm_num), hb 1 (by norm_num), hb 2 (by norm_num), hb 3 (by norm_num),
      Nat.reduceAdd, Nat.reduceSub] at f0 f1 y1 y2
    norm_num at x2 f0 f1 y1 y2
    linarith

/-! ### unequal cells -/

/-- A slab of one material in cells of one metre and of half a metre, insulated on the left and kept at 20 degrees on the right. -/
def uFile : List Text :=
  ["solvers heat".toList, "geometry slab".toList, "mesh 1 1.0 fuel 1 0.5 fuel".toList, "temperatures 20.0 2".toList, "heat_sources 3.0 0.5".toList,
    "solver heat".toList, "accuracy 0.01".toList, "max_iteration_number 20".toList, "heat_boundary_conditions 0.0 1.0 0.0 1.0 0.0 20.0".toList,
    "material fuel".toList, "thermal_conductivity 3.0".toList]

def uRegions : List Region := [⟨1, 1, "fuel".toList⟩, ⟨1, 1 / 2, "fuel".toList⟩]

def uLaw (_ : Text) : Vec ℝ := Vec.ofList [3]

def uFaces (i : Nat) : ℝ := if i = 0 then 0 else if i = 1 then 1 else 3 / 2

theorem uStored : Stored uFile uFile := (C36_tidy uFile uFile).1 (by rfl)

theorem uProper : Proper uFile := proper_eval (by decide +kernel)

theorem uHeatFile : HeatFile vLib uFile .slab uRegions uLaw ⟨2, fun _ => 20⟩ (Vec.ofList [3, 1 / 2]) (Vec.ofList [0, 1, 0, 1, 0, 20]) (1 / 100) 20 where
  solvers := ⟨"solvers".toList, card_eval vLib_sane (l := "solvers heat".toList) (by rfl) (by rfl)⟩
  header := ⟨"solver".toList, "heat".toList, card_eval vLib_sane (l := "solver heat".toList) (by rfl) (by rfl)⟩
  accuracy := ⟨"0.01".toList, ⟨5, 4294967295, findBlock_sound vLib_sane (b := (5, 4294967295)) (by rfl),
    card_eval vLib_sane (l := "accuracy 0.01".toList) (by rfl) (by rfl)⟩, rfl⟩
  limit := ⟨"20".toList, ⟨5, 4294967295, findBlock_sound vLib_sane (b := (5, 4294967295)) (by rfl),
    card_eval vLib_sane (l := "max_iteration_number 20".toList) (by rfl) (by rfl)⟩, .snoc (wDigit (i := 2) (by decide)) (i := 0) (by decide), by decide⟩
  boundary := ⟨["0.0".toList, "1.0".toList, "0.0".toList, "1.0".toList, "0.0".toList, "20.0".toList],
    ⟨5, 4294967295, findBlock_sound vLib_sane (b := (5, 4294967295)) (by rfl),
      card_eval vLib_sane (l := "heat_boundary_conditions 0.0 1.0 0.0 1.0 0.0 20.0".toList) (by rfl) (by rfl)⟩,
    by rw [ofList_toList]; exact .cons rfl (.cons rfl (.cons rfl (.cons rfl (.cons rfl (.cons rfl .nil))))), rfl⟩
  body := {
    geometry := ⟨"geometry".toList, "slab".toList, card_eval vLib_sane (l := "geometry slab".toList) (by rfl) (by rfl), by simp [geometries]⟩
    mesh := ⟨"mesh".toList, ["1".toList, "1.0".toList, "fuel".toList, "1".toList, "0.5".toList, "fuel".toList],
      card_eval vLib_sane (l := "mesh 1 1.0 fuel 1 0.5 fuel".toList) (by rfl) (by rfl),
      .cons (wDigit (i := 1) (by decide)) rfl (.cons (wDigit (i := 1) (by decide)) rfl .nil)⟩
    some := by simp [uRegions]
    cells := by simp [uRegions]
    few := by simp [uRegions]
    named := by
      intro q hq
      simp only [uRegions, List.mem_cons, List.not_mem_nil, or_false] at hq
      rcases hq with rfl | rfl
      · exact wNamed _ _ (by decide)
      · exact wNamed _ _ (by decide)
    headers := by
      intro q hq
      simp only [uRegions, List.mem_cons, List.not_mem_nil, or_false] at hq
      rcases hq with rfl | rfl
      · exact ⟨"material".toList, "fuel".toList, card_eval vLib_sane (l := "material fuel".toList) (by rfl) (by rfl)⟩
      · exact ⟨"material".toList, "fuel".toList, card_eval vLib_sane (l := "material fuel".toList) (by rfl) (by rfl)⟩ }
  laws := by
    intro r hr
    refine ⟨?_, le_rfl, Nat.le_of_ble_eq_true rfl⟩
    have : r.mat = "fuel".toList := by
      simp only [uRegions, List.mem_cons, List.not_mem_nil, or_false] at hr
      rcases hr with rfl | rfl <;> rfl
    rw [this]
    exact ⟨9, 4294967295, ["thermal_conductivity".toList, "3.0".toList], findBlock_sound vLib_sane (b := (9, 4294967295)) (by rfl),
      card_eval vLib_sane (l := "thermal_conductivity 3.0".toList) (by rfl) (by rfl), by decide, by unfold uLaw; rw [ofList_toList]; exact .cons rfl .nil⟩
  temperatures := ⟨⟨"temperatures".toList, ["20.0".toList, "2".toList], card_eval vLib_sane (l := "temperatures 20.0 2".toList) (by rfl) (by rfl),
    .copies (l := [(20, 2)]) (.cons rfl (wDigit (i := 2) (by decide)) .nil) (by simp)
      (fun w hw => by
        cases hw
        exact vDecimal (a := ['2', '0']) (b := ['0']) rfl (by simp [Digit]) (by simp [Digit]) (by simp) (by simp)) (by simp)
      ⟨rfl, fun k hk j _ => by
        obtain rfl : k = 0 := by simpa using hk
        rfl⟩⟩, rfl⟩
  sources := ⟨⟨"heat_sources".toList, ["3.0".toList, "0.5".toList], card_eval vLib_sane (l := "heat_sources 3.0 0.5".toList) (by rfl) (by rfl),
    .plain (by rw [ofList_toList]; exact .cons rfl (.cons rfl .nil)) (by simp)
      (fun w hw => by
        simp only [List.mem_cons, List.not_mem_nil, or_false] at hw
        rcases hw with rfl | rfl
        · exact vDecimal (a := ['3']) (b := ['0']) rfl (by simp [Digit]) (by simp [Digit]) (by simp) (by simp)
        · exact vDecimal (a := ['0']) (b := ['5']) rfl (by simp [Digit]) (by simp [Digit]) (by simp) (by simp))⟩, rfl⟩
  plots := Or.inl (fun i m _ _ hS => by
    rcases findKeyword_sound vLib_sane (ls := uFile) (key := "plots".toList) (low := 0) (top := 4294967295) (opt := true) (l := []) (by rfl) with ⟨j, m', hf, e⟩ | ⟨-, -, h⟩
    · have := hf.1.2
      rw [← e, List.infix_nil] at this
      exact absurd this (by decide)
    · exact h i m (by omega) (by omega) hS)

theorem uCase : HeatCase .slab uRegions uLaw ⟨2, fun _ => 20⟩ (Vec.ofList [3, 1 / 2]) (Vec.ofList [0, 1, 0, 1, 0, 20]) uFaces 20 0 1 0 1 0 20 where
  wide := by
    intro r hr
    simp only [uRegions, List.mem_cons, List.not_mem_nil, or_false] at hr
    rcases hr with rfl | rfl <;> norm_num
  faces := by
    refine ⟨rfl, fun k hk j hj => ?_⟩
    have hk : k < 2 := hk
    interval_cases k
    · have hj : j ≤ 1 := hj
      interval_cases j <;> simp [uRegions, before, uFaces]
    · have hj : j ≤ 1 := hj
      interval_cases j <;> simp [uRegions, before, uFaces]
      norm_num
  two := by decide
  positive := by
    intro r hr x _
    simp [uLaw, Numeric.polyValue, Vec.ofList]
  temperatures := fun i _ => le_rfl
  sources := by
    intro i hi
    have hi : i < 2 := hi
    interval_cases i <;> norm_num [Vec.ofList]
  boundaries := Or.inr (by rw [ofList_toList])
  AL_nonneg := le_rfl
  BL_nonneg := zero_le_one
  AR_nonneg := zero_le_one
  BR_nonneg := le_rfl
  left := by norm_num
  right := by norm_num
  tied := by norm_num
  lowLeft := by norm_num
  lowRight := by norm_num

/-- **C85 is false for unequal cells**: in a slab of one material 13/4 watts per square metre are produced, but with the temperatures of the program only 7/4 leave it. -/
theorem C85_lost (num : Solve.Numerics) (p : Calc.Plant) : ∃ p', program vLib (Calc.exTools num) (some uFile) p = ok p' ∧ Meshed uRegions p'.grid ∧
    Calc.totalHeat p' = 13 / 4 ∧ ∀ J, Heat.OutFlow 1 0 20 3 (1 / 2) 1 (Calc.temp p' 1) J → J = 7 / 4 := by
  obtain ⟨p', h1, h2, h3, hS⟩ := C85_constant (vLib_clean uFile) uStored uProper uHeatFile uCase (tl := Calc.exTools num) Calc.exLin_solves (by norm_num)
    (by norm_num) (fun _ _ => rfl) p
  rw [show (cellNames uRegions).length = 2 from rfl] at hS
  obtain ⟨J, I, j1, j2, -, j4, j5, j6, j7⟩ := hS
  have hb : ∀ i, i ≤ 2 → p'.grid.bounds.v i = uFaces i := fun i hi => heatRead_bounds uHeatFile.body uCase h3 (by rw [h3.cells]; exact hi)
  have hq := (C85_partial (vLib_clean uFile) uStored uProper uHeatFile uCase (tl := Calc.exTools num) Calc.exLin_solves h1).2.2.1
  have hc : p'.grid.cells = 2 := h3.cells
  have q0 : (Vec.ofList [3, 1 / 2] : Vec ℝ).v 0 = 3 := rfl
  have q1 : (Vec.ofList [3, 1 / 2] : Vec ℝ).v 1 = 1 / 2 := rfl
  have k1 : ∀ i, (uLaw ((cellNames uRegions).getD i [])).v 0 = 3 := fun _ => rfl
  refine ⟨p', h1, h3, ?_, fun K hK => ?_⟩
  · have e0 := (hq 0 (by decide)).1
    have e1 := (hq 1 (by decide)).1
    unfold Calc.totalHeat
    rw [hc]
    simp only [Finset.sum_range_succ, Finset.sum_range_zero, e0, e1, q0, q1, Calc.volume, h2, hb 0 (by norm_num), hb 1 (by norm_num), hb 2 (by norm_num), Nat.reduceAdd, uFaces]
    norm_num [Mesh.area]
  · rw [if_pos rfl] at j1
    obtain ⟨x, -, x2⟩ := j1
    have f0 := j6 0 (by norm_num)
    obtain ⟨y, y1, y2⟩ := j4
    obtain ⟨z, z1, z2⟩ := j5
    obtain ⟨w, w1, w2⟩ := j2
    obtain ⟨v, v1, v2⟩ := hK
    have f1 := j7
    simp only [Mesh.area, intervalIntegral.integral_const, smul_eq_mul, q0, q1, k1, uFaces] at f0 f1 y1 y2 z1 z2 w1
    norm_num [uRegions, cellNames] at x2 f0 f1 y1 y2 z1 z2 w1 w2 v1 v2
    linarith

end

end Verif.Input
