import Verif.Input.PileFile
import Verif.Input.TransientSpec
import Verif.Kinetics.Props

/-! # A kinetics calculation, for examples -/

namespace Verif.Input

open Verif Outcome

noncomputable section

/-- A library that reads the numbers of the example. -/
def pulseLib : Lib := ⟨fun w => ok (if w = "1.0".toList then 1 else if w = "2.0".toList then 2 else if w = "5.0".toList then 5 else if w = "0.0001".toList then 1 / 10000
  else if w = "1.0e-03".toList then 1 / 1000 else if w = "3.0e-03".toList then 3 / 1000 else if w = "-4.0e-03".toList then -4 / 1000 else 0), ok 'x'⟩

theorem pulseLib_sane : Sane pulseLib := fun c e => by cases e; decide

theorem pulseLib_clean (ls : List Text) : Clean pulseLib ls := ⟨pulseLib_sane, fun _ => ⟨'x', rfl⟩⟩

/-- The words behind the keywords for the decay constants, the fractions and the times, and further lines. -/
structure Pulse where
  constants : List String
  fractions : List String
  times : List String
  more : List String

/-- The reactivity is raised for one second and lowered for four. -/
def pulseFile (q : Pulse) : List Text :=
  ["solvers kinetics".toList, "generation_time 0.0001".toList, "initial_power 5.0".toList, ("delayed_constants ".toList ++ (" ".intercalate q.constants).toList),
    ("delayed_fractions ".toList ++ (" ".intercalate q.fractions).toList),
    ("times ".toList ++ (" ".intercalate q.times).toList), "reactivities 1.0e-03 -4.0e-03".toList, "solver kinetics".toList, "accuracy 1.0".toList, "max_iteration_number 100".toList] ++ q.more.map String.toList

/-- Two groups of delayed neutrons. -/
def pulseTwo : Pulse := ⟨["1.0", "2.0"], ["1.0e-03", "3.0e-03"], ["1.0", "5.0"], []⟩

/-- The same with a figure. -/
def pulseDrawn : Pulse := ⟨["1.0", "2.0"], ["1.0e-03", "3.0e-03"], ["1.0", "5.0"], ["plots temperature"]⟩

/-- The same without the second decay constant. -/
def pulseSurplus : Pulse := ⟨["1.0"], ["1.0e-03", "3.0e-03"], ["1.0", "5.0"], []⟩

/-- The same without the second fraction. -/
def pulseShort : Pulse := ⟨["1.0", "2.0"], ["1.0e-03"], ["1.0", "5.0"], []⟩

/-- The same without the second time. -/
def pulseUneven : Pulse := ⟨["1.0", "2.0"], ["1.0e-03", "3.0e-03"], ["1.0"], []⟩

/-- The same with one decay constant for both groups. -/
def pulseTwin : Pulse := ⟨["1.0", "1.0"], ["1.0e-03", "3.0e-03"], ["1.0", "5.0"], []⟩

def pulses : List Pulse := [pulseTwo, pulseDrawn, pulseSurplus, pulseShort, pulseUneven, pulseTwin]

theorem pulseStored : ∀ q ∈ pulses, Stored (pulseFile q) (pulseFile q) := by
  intro q h
  simp only [pulses, List.mem_cons, List.not_mem_nil, or_false] at h
  rcases h with rfl | rfl | rfl | rfl | rfl | rfl <;> exact (C36_tidy _ _).1 (by rfl)

/-- The cards of the file outside the block of the solver. -/
def pulseSays (q : Pulse) : List (List String) := [["solvers", "kinetics"], ["generation_time", "0.0001"], ["initial_power", "5.0"], "delayed_constants" :: q.constants,
  "delayed_fractions" :: q.fractions, "times" :: q.times, ["reactivities", "1.0e-03", "-4.0e-03"]]

theorem pulseCards : ∀ q ∈ pulses, ∀ ws ∈ pulseSays q, saysB pulseLib (pulseFile q) (ws.headD "").toList 0 4294967295 (ws.map String.toList) = true := by
  decide +kernel

theorem pulseSettings : ∀ q ∈ pulses, blockB pulseLib (pulseFile q) "solver".toList (blockName .kinetics) 7 4294967295 = true ∧
    saysB pulseLib (pulseFile q) "solver kinetics".toList 0 4294967295 ["solver".toList, "kinetics".toList] = true ∧
    saysB pulseLib (pulseFile q) "accuracy".toList 7 4294967295 ["accuracy".toList, "1.0".toList] = true ∧
    saysB pulseLib (pulseFile q) "max_iteration_number".toList 7 4294967295 ["max_iteration_number".toList, "100".toList] = true := by
  decide +kernel

theorem pulsePlots : (∀ q ∈ [pulseTwo, pulseSurplus, pulseShort, pulseUneven, pulseTwin], ∀ m ∈ active (pulseFile q), ¬ small "plots".toList <:+: small m) ∧
    saysB pulseLib (pulseFile pulseDrawn) "plots".toList 0 4294967295 ["plots".toList, "temperature".toList] = true := by
  decide +kernel

theorem pulseSilent {q : Pulse} (hq : q ∈ [pulseTwo, pulseSurplus, pulseShort, pulseUneven, pulseTwin]) : Silent (pulseFile q) "plots".toList 0 4294967295 :=
  fun _ m _ _ h => pulsePlots.1 q hq m (List.mem_of_getElem? h.1) h.2

theorem pulseDecimal : ∀ w ∈ ["1.0".toList, "2.0".toList, "5.0".toList, "1.0e-03".toList, "3.0e-03".toList, "-4.0e-03".toList], Decimal w ∧ w.getLast? ≠ some '.' := by
  intro w hw
  simp only [List.mem_cons, List.not_mem_nil, or_false] at hw
  rcases hw with rfl | rfl | rfl | rfl | rfl | rfl
  · exact ⟨⟨[], ['1'], ['0'], [], rfl, Or.inl rfl, by simp [Digit], by simp [Digit], by simp, Or.inl rfl⟩, by decide⟩
  · exact ⟨⟨[], ['2'], ['0'], [], rfl, Or.inl rfl, by simp [Digit], by simp [Digit], by simp, Or.inl rfl⟩, by decide⟩
  · exact ⟨⟨[], ['5'], ['0'], [], rfl, Or.inl rfl, by simp [Digit], by simp [Digit], by simp, Or.inl rfl⟩, by decide⟩
  · exact ⟨⟨[], ['1'], ['0'], "e-03".toList, rfl, Or.inl rfl, by simp [Digit], by simp [Digit], by simp,
      Or.inr ⟨'e', ['-'], ['0', '3'], rfl, Or.inl rfl, by simp, by simp, by simp [Digit]⟩⟩, by decide⟩
  · exact ⟨⟨[], ['3'], ['0'], "e-03".toList, rfl, Or.inl rfl, by simp [Digit], by simp [Digit], by simp,
      Or.inr ⟨'e', ['-'], ['0', '3'], rfl, Or.inl rfl, by simp, by simp, by simp [Digit]⟩⟩, by decide⟩
  · exact ⟨⟨['-'], ['4'], ['0'], "e-03".toList, rfl, Or.inr (Or.inr rfl), by simp [Digit], by simp [Digit], by simp,
      Or.inr ⟨'e', ['-'], ['0', '3'], rfl, Or.inl rfl, by simp, by simp, by simp [Digit]⟩⟩, by decide⟩

theorem pulse_stod : pulseLib.stod "1.0".toList = ok 1 ∧ pulseLib.stod "2.0".toList = ok 2 ∧ pulseLib.stod "5.0".toList = ok 5
    ∧ pulseLib.stod "0.0001".toList = ok (1 / 10000) ∧ pulseLib.stod "1.0e-03".toList = ok (1 / 1000) ∧ pulseLib.stod "3.0e-03".toList = ok (3 / 1000) ∧ pulseLib.stod "-4.0e-03".toList = ok (-4 / 1000) := by
  refine ⟨congrArg ok (if_pos rfl), congrArg ok ((if_neg (by decide)).trans (if_pos rfl)), congrArg ok ((if_neg (by decide)).trans ((if_neg (by decide)).trans (if_pos rfl))), congrArg ok ((if_neg (by decide)).trans ((if_neg (by decide)).trans ((if_neg (by decide)).trans (if_pos rfl)))), congrArg ok ((if_neg (by decide)).trans ((if_neg (by decide)).trans ((if_neg (by decide)).trans ((if_neg (by decide)).trans (if_pos rfl))))), congrArg ok ((if_neg (by decide)).trans ((if_neg (by decide)).trans ((if_neg (by decide)).trans ((if_neg (by decide)).trans ((if_neg (by decide)).trans (if_pos rfl)))))), congrArg ok ((if_neg (by decide)).trans ((if_neg (by decide)).trans ((if_neg (by decide)).trans ((if_neg (by decide)).trans ((if_neg (by decide)).trans ((if_neg (by decide)).trans (if_pos rfl)))))))⟩

/-- The numbers of the words. -/
def pulseWords : List String := ["1.0", "2.0", "5.0", "1.0e-03", "3.0e-03", "-4.0e-03"]

/-- The list of the file behind a keyword. -/
def pulseVec (ws : List String) : Vec ℝ := Vec.ofList (ws.map fun w => if w = "1.0" then 1 else if w = "2.0" then 2 else if w = "5.0" then 5 else if w = "1.0e-03" then 1 / 1000
  else if w = "3.0e-03" then 3 / 1000 else -4 / 1000)

theorem pulse_reads {ws : List String} (h : ∀ w ∈ ws, w ∈ pulseWords) : Reads pulseLib (ws.map String.toList) (pulseVec ws).toList := by
  unfold pulseVec
  rw [ofList_toList]
  induction ws with
  | nil => exact .nil
  | cons w ws ih =>
    refine .cons ?_ (ih fun w hw => h w (List.mem_cons_of_mem _ hw))
    have := h w List.mem_cons_self
    simp only [pulseWords, List.mem_cons, List.not_mem_nil, or_false] at this
    rcases this with rfl | rfl | rfl | rfl | rfl | rfl
    · exact pulse_stod.1
    · exact pulse_stod.2.1
    · exact pulse_stod.2.2.1
    · exact pulse_stod.2.2.2.2.1
    · exact pulse_stod.2.2.2.2.2.1
    · exact pulse_stod.2.2.2.2.2.2

theorem pulse_list {q : Pulse} (hq : q ∈ pulses) {key : String} {ws : List String} (h : (key :: ws) ∈ pulseSays q) (h0 : ws ≠ []) (hw : ∀ w ∈ ws, w ∈ pulseWords) :
    ListFile pulseLib (pulseFile q) key (pulseVec ws) := by
  refine ⟨key.toList, ws.map String.toList, saysB_card pulseLib_sane (key := key.toList) (ws := key.toList :: ws.map String.toList) (pulseCards q hq (key :: ws) h),
    .plain (pulse_reads hw) (by simpa using h0) fun w hw' => ?_⟩
  obtain ⟨u, hu, rfl⟩ := List.mem_map.1 hw'
  exact pulseDecimal _ (List.mem_map_of_mem (hw u hu))

theorem pulse_words : ∀ q ∈ pulses, (q.constants ≠ [] ∧ ∀ w ∈ q.constants, w ∈ pulseWords) ∧ (q.fractions ≠ [] ∧ ∀ w ∈ q.fractions, w ∈ pulseWords) ∧ q.times ≠ [] ∧ ∀ w ∈ q.times, w ∈ pulseWords := by
  decide +kernel

theorem pulse_file {q : Pulse} (hq : q ∈ pulses) : TransientFile pulseLib (pulseFile q) (pulseVec q.constants) (pulseVec q.fractions) (1 / 10000) 5
    (pulseVec q.times) (pulseVec ["1.0e-03", "-4.0e-03"]) where
  solvers := ⟨_, saysB_card pulseLib_sane (pulseCards q hq ["solvers", "kinetics"] (by simp [pulseSays]))⟩
  header := ⟨_, _, saysB_card pulseLib_sane (pulseSettings q hq).2.1⟩
  accuracy := ⟨_, _, ⟨_, _, blockB_block pulseLib_sane (pulseSettings q hq).1, saysB_card pulseLib_sane (pulseSettings q hq).2.2.1⟩, rfl⟩
  limit := ⟨_, _, ⟨_, _, blockB_block pulseLib_sane (pulseSettings q hq).1, saysB_card pulseLib_sane (pulseSettings q hq).2.2.2⟩, n100, by decide⟩
  constants := pulse_list hq (by simp [pulseSays]) (pulse_words q hq).1.1 (pulse_words q hq).1.2
  fractions := pulse_list hq (by simp [pulseSays]) (pulse_words q hq).2.1.1 (pulse_words q hq).2.1.2
  generation := ⟨_, _, saysB_card pulseLib_sane (pulseCards q hq ["generation_time", "0.0001"] (by simp [pulseSays])), pulse_stod.2.2.2.1⟩
  start := ⟨_, _, saysB_card pulseLib_sane (pulseCards q hq ["initial_power", "5.0"] (by simp [pulseSays])), pulse_stod.2.2.1⟩
  times := pulse_list hq (by simp [pulseSays]) (pulse_words q hq).2.2.1 (pulse_words q hq).2.2.2
  reactivities := pulse_list hq (by simp [pulseSays]) (by simp) (by decide +kernel)
  plots := by
    simp only [pulses, List.mem_cons, List.not_mem_nil, or_false] at hq
    rcases hq with rfl | rfl | rfl | rfl | rfl | rfl
    · exact Or.inl (pulseSilent (by simp))
    · exact Or.inr ⟨_, _, by simp, saysB_card pulseLib_sane pulsePlots.2⟩
    · exact Or.inl (pulseSilent (by simp))
    · exact Or.inl (pulseSilent (by simp))
    · exact Or.inl (pulseSilent (by simp))
    · exact Or.inl (pulseSilent (by simp))

theorem pulse_values : pulseVec ["1.0", "2.0"] = Vec.ofList [1, 2] ∧ pulseVec ["1.0"] = Vec.ofList [1] ∧ pulseVec ["1.0e-03", "3.0e-03"] = Vec.ofList [1 / 1000, 3 / 1000] := by
  simp [pulseVec]

theorem pulseTwo_physical : Kinetics.Physical 2 (pulseVec pulseTwo.constants).v (pulseVec pulseTwo.fractions).v (1 / 10000) where
  alpha_pos := by norm_num
  lam_pos i hi := by interval_cases i <;> norm_num [pulse_values, Vec.ofList, pulseTwo]
  beta_pos i hi := by interval_cases i <;> norm_num [pulse_values, Vec.ofList, pulseTwo]
  lam_inj i hi j hj := by interval_cases i <;> interval_cases j <;> norm_num [pulse_values, Vec.ofList, pulseTwo]

theorem pulseSurplus_physical : Kinetics.Physical 1 (pulseVec pulseSurplus.constants).v (pulseVec pulseSurplus.fractions).v (1 / 10000) where
  alpha_pos := by norm_num
  lam_pos i hi := by interval_cases i; norm_num [pulse_values, Vec.ofList, pulseSurplus]
  beta_pos i hi := by interval_cases i; norm_num [pulse_values, Vec.ofList, pulseSurplus]
  lam_inj i hi j hj := by interval_cases i; interval_cases j; norm_num

end

end Verif.Input
