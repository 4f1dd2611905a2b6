import Verif.Input.PileFile
import Verif.Input.RunProps

/-! # A wall with figures, for examples -/

namespace Verif.Input

open Verif Outcome

noncomputable section

/-- The slab of the other examples with figures; `w` is the heat source in the water. -/
def wallFile (w : Text) : List Text :=
  ["solvers heat".toList, "geometry slab".toList, "mesh 2 1.0 fuel 1 0.5 water".toList, "temperatures 20.0 3".toList, "heat_sources 3.0 3.0 ".toList ++ w, "plots powerdensity temperature".toList,
    "solver heat".toList, "accuracy 0.01".toList, "max_iteration_number 20".toList, "heat_boundary_conditions 0.0 1.0 0.0 1.0 0.0 20.0".toList,
    "material fuel".toList, "thermal_conductivity 3.0".toList, "material water".toList, "thermal_conductivity 0.5".toList]

/-- Water with a source, without one and with twice the source. -/
def walls : List Text := ["0.5".toList, "0.0".toList, "1.0".toList]

/-- The heat sources. -/
def wallHeat (w : Text) : Vec ℝ := Vec.ofList [3, 3, if w = "0.5".toList then 1 / 2 else if w = "1.0".toList then 1 else 0]

theorem wallStored : ∀ w ∈ walls, Stored (wallFile w) (wallFile w) := by
  intro w h
  simp only [walls, List.mem_cons, List.not_mem_nil, or_false] at h
  rcases h with rfl | rfl | rfl <;> exact (C36_tidy _ _).1 (by rfl)

theorem wallProper : ∀ w ∈ walls, Proper (wallFile w) := by
  have h : ∀ w ∈ walls, (active (wallFile w)).all (fun m => settingKeys.all (fun k => !has (small k.toList) (small m) || (splitLine (small m)).head? == some k.toList)) = true := by
    decide +kernel
  exact fun w hw => proper_eval (h w hw)

theorem wallBlocks : ∀ w ∈ walls, blockB vLib (wallFile w) "solver".toList (blockName .heat) 6 4294967295 = true ∧
    blockB vLib (wallFile w) "material".toList "fuel".toList 10 12 = true ∧ blockB vLib (wallFile w) "material".toList "water".toList 12 4294967295 = true := by
  decide +kernel

/-- The cards of the file outside blocks. -/
def wallSays (w : Text) : List (List Text) := [["solvers".toList, "heat".toList], ["geometry".toList, "slab".toList], ["mesh".toList, "2".toList, "1.0".toList, "fuel".toList, "1".toList, "0.5".toList, "water".toList],
      ["temperatures".toList, "20.0".toList, "3".toList], ["heat_sources".toList, "3.0".toList, "3.0".toList, w], ["plots".toList, "powerdensity".toList, "temperature".toList]]

/-- The cards in the block of the solver. -/
def wallSet : List (List Text) := [["accuracy".toList, "0.01".toList], ["max_iteration_number".toList, "20".toList],
      ["heat_boundary_conditions".toList, "0.0".toList, "1.0".toList, "0.0".toList, "1.0".toList, "0.0".toList, "20.0".toList]]

theorem wallCards : ∀ w ∈ walls, ∀ ws ∈ wallSays w,
    saysB vLib (wallFile w) (ws.headD []) 0 4294967295 ws = true := by
  decide +kernel

theorem wallHeaders : ∀ w ∈ walls, ∀ ws ∈ [("solver heat".toList, "solver".toList, "heat".toList), ("material fuel".toList, "material".toList, "fuel".toList), ("material water".toList, "material".toList, "water".toList)],
    saysB vLib (wallFile w) ws.1 0 4294967295 [ws.2.1, ws.2.2] = true := by
  decide +kernel

theorem wallSettings : ∀ w ∈ walls, ∀ ws ∈ wallSet,
    saysB vLib (wallFile w) (ws.headD []) 6 4294967295 ws = true := by
  decide +kernel

theorem wallLaws : ∀ w ∈ walls, saysB vLib (wallFile w) "thermal_conductivity".toList 10 12 ["thermal_conductivity".toList, "3.0".toList] = true ∧
    saysB vLib (wallFile w) "thermal_conductivity".toList 12 4294967295 ["thermal_conductivity".toList, "0.5".toList] = true := by
  decide +kernel

theorem wall_card {w : Text} (hw : w ∈ walls) {key : Text} {ws : List Text} (h : (key :: ws) ∈ wallSays w) :
    CardIn (wallFile w) key 0 4294967295 (key :: ws) :=
  saysB_card vLib_sane (show saysB vLib (wallFile w) key 0 4294967295 (key :: ws) = true from wallCards w hw (key :: ws) h)

theorem wall_setting {w : Text} (hw : w ∈ walls) {key : String} {ws : List Text} (h : (key.toList :: ws) ∈ wallSet) :
    Setting (wallFile w) .heat key ws :=
  ⟨_, _, blockB_block vLib_sane (wallBlocks w hw).1, saysB_card vLib_sane (show saysB vLib (wallFile w) key.toList 6 4294967295 (key.toList :: ws) = true from wallSettings w hw (key.toList :: ws) h)⟩

theorem wall_plots {w : Text} (hw : w ∈ walls) : Card (wallFile w) "plots" ["plots".toList, "powerdensity".toList, "temperature".toList] :=
  wall_card hw (by simp [wallSays])

theorem wall_decimal : ∀ w ∈ "3.0".toList :: walls, Decimal w ∧ w.getLast? ≠ some '.' := by
  intro w hw
  simp only [walls, List.mem_cons, List.not_mem_nil, or_false] at hw
  rcases hw with rfl | rfl | rfl | rfl
  · exact vDecimal (a := ['3']) (b := ['0']) rfl (by simp [Digit]) (by simp [Digit]) (by simp) (by simp)
  · exact vDecimal (a := ['0']) (b := ['5']) rfl (by simp [Digit]) (by simp [Digit]) (by simp) (by simp)
  · exact vDecimal (a := ['0']) (b := ['0']) rfl (by simp [Digit]) (by simp [Digit]) (by simp) (by simp)
  · exact vDecimal (a := ['1']) (b := ['0']) rfl (by simp [Digit]) (by simp [Digit]) (by simp) (by simp)

theorem wall_stod {w : Text} (hw : w ∈ walls) : vLib.stod w = ok (if w = "0.5".toList then 1 / 2 else if w = "1.0".toList then 1 else 0) := by
  simp only [walls, List.mem_cons, List.not_mem_nil, or_false] at hw
  rcases hw with rfl | rfl | rfl
  · rfl
  · rfl
  · simp [vLib]

theorem wall_heat {w : Text} (hw : w ∈ walls) : HeatFile vLib (wallFile w) .slab vRegions vLaw ⟨3, fun _ => 20⟩ (wallHeat w) (Vec.ofList [0, 1, 0, 1, 0, 20]) (1 / 100) 20 where
  solvers := ⟨_, wall_card hw (by simp [wallSays])⟩
  header := ⟨_, _, saysB_card vLib_sane (wallHeaders w hw ("solver heat".toList, "solver".toList, "heat".toList) (by simp))⟩
  accuracy := ⟨_, wall_setting hw (ws := ["0.01".toList]) (by simp [wallSet]), rfl⟩
  limit := ⟨_, wall_setting hw (ws := ["20".toList]) (by simp [wallSet]), .snoc (wDigit (i := 2) (by decide)) (i := 0) (by decide), by decide⟩
  boundary := ⟨_, wall_setting hw (ws := ["0.0".toList, "1.0".toList, "0.0".toList, "1.0".toList, "0.0".toList, "20.0".toList]) (by simp [wallSet]),
    by rw [ofList_toList]; exact .cons rfl (.cons rfl (.cons rfl (.cons rfl (.cons rfl (.cons rfl .nil))))), rfl⟩
  body := {
    geometry := ⟨_, _, wall_card hw (ws := ["slab".toList]) (by simp [wallSays]), by simp [geometries]⟩
    mesh := ⟨_, _, wall_card hw (ws := ["2".toList, "1.0".toList, "fuel".toList, "1".toList, "0.5".toList, "water".toList]) (by simp [wallSays]),
      .cons (wDigit (i := 2) (by decide)) rfl (.cons (wDigit (i := 1) (by decide)) rfl .nil)⟩
    some := by simp [vRegions]
    cells := by simp [vRegions]
    few := by simp [vRegions]
    named := vHeatFile.body.named
    headers := by
      intro q hq
      simp only [vRegions, List.mem_cons, List.not_mem_nil, or_false] at hq
      rcases hq with rfl | rfl
      · exact ⟨_, _, saysB_card vLib_sane (wallHeaders w hw ("material fuel".toList, "material".toList, "fuel".toList) (by simp))⟩
      · exact ⟨_, _, saysB_card vLib_sane (wallHeaders w hw ("material water".toList, "material".toList, "water".toList) (by simp))⟩ }
  laws := by
    intro r hr
    refine ⟨?_, le_rfl, Nat.le_of_ble_eq_true rfl⟩
    simp only [vRegions, List.mem_cons, List.not_mem_nil, or_false] at hr
    rcases hr with rfl | rfl
    · exact ⟨_, _, _, blockB_block vLib_sane (wallBlocks w hw).2.1, saysB_card vLib_sane (wallLaws w hw).1, by decide, by unfold vLaw; rw [ofList_toList]; exact .cons rfl .nil⟩
    · exact ⟨_, _, _, blockB_block vLib_sane (wallBlocks w hw).2.2, saysB_card vLib_sane (wallLaws w hw).2, by decide, by unfold vLaw; rw [ofList_toList]; exact .cons rfl .nil⟩
  temperatures := ⟨⟨_, _, wall_card hw (ws := ["20.0".toList, "3".toList]) (by simp [wallSays]),
    .copies (l := [(20, 3)]) (.cons rfl (wDigit (i := 3) (by decide)) .nil) (by simp)
      (fun w hw => by
        cases hw
        exact vDecimal (a := ['2', '0']) (b := ['0']) rfl (by simp [Digit]) (by simp [Digit]) (by simp) (by simp)) (by simp)
      ⟨rfl, fun k hk j _ => by
        obtain rfl : k = 0 := by simpa using hk
        rfl⟩⟩, rfl⟩
  sources := ⟨⟨_, _, wall_card hw (ws := ["3.0".toList, "3.0".toList, w]) (by simp [wallSays]),
    .plain (by unfold wallHeat; rw [ofList_toList]; exact .cons rfl (.cons rfl (.cons (wall_stod hw) .nil))) (by simp)
      (fun u hu => by
        simp only [List.mem_cons, List.not_mem_nil, or_false] at hu
        rcases hu with rfl | rfl | rfl
        · exact wall_decimal _ List.mem_cons_self
        · exact wall_decimal _ List.mem_cons_self
        · exact wall_decimal _ (List.mem_cons_of_mem _ hw))⟩, rfl⟩
  plots := Or.inr ⟨_, _, by simp, wall_plots hw⟩

theorem wall_case (w : Text) : HeatCase .slab vRegions vLaw ⟨3, fun _ => 20⟩ (wallHeat w) (Vec.ofList [0, 1, 0, 1, 0, 20]) (fun i => i * (1 / 2)) 20 0 1 0 1 0 20 :=
  { vCase with
    sources := by
      intro i hi
      have hi : i < 3 := hi
      interval_cases i
      · norm_num [wallHeat, Vec.ofList]
      · norm_num [wallHeat, Vec.ofList]
      · show (0 : ℝ) ≤ if w = "0.5".toList then 1 / 2 else if w = "1.0".toList then 1 else 0
        split_ifs <;> norm_num }

end

end Verif.Input
