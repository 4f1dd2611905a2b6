import Verif.Input.CoupledSpec
import Verif.Input.PileFile
import Verif.Input.RunProps

/-! # A cylinder with neutronics and heat conduction, for examples -/

namespace Verif.Input

open Verif Outcome

noncomputable section

/-- A library that reads the numbers of the example. -/
def duoLib : Lib := ⟨fun w => ok (if w = "1.0".toList then 1 else if w = "0.5".toList then 1 / 2 else if w = "2.5".toList then 5 / 2 else if w = "2.0".toList then 2 else
  if w = "0.001".toList then 1 / 1000 else if w = "20.0".toList then 20 else 0), ok 'x'⟩

theorem duoLib_sane : Sane duoLib := fun c e => by cases e; decide

theorem duoLib_clean (ls : List Text) : Clean duoLib ls := ⟨duoLib_sane, fun _ => ⟨'x', rfl⟩⟩

/-- The neutronics solver of the file. -/
def duoKind (t : Bool) : Calc.Kind := if t then .transport else .diffusion

/-- Its name. -/
def duoName (t : Bool) : Text := if t then "transport".toList else "diffusion".toList

/-- The solvers in their order. -/
def duoSolvers (first t : Bool) : List Text := if first then [duoName t, "heat".toList] else ["heat".toList, duoName t]

/-- A cylinder of fuel, which absorbs more neutrons when it is hot, and water, cooled at 20 degrees, with transport (`t`) or diffusion, before or after heat conduction. -/
def duoFile (first t : Bool) : List Text :=
  ["solvers ".toList ++ (if first then duoName t ++ " heat".toList else "heat ".toList ++ duoName t), "geometry cylinder".toList, "mesh 2 1.0 fuel 1 0.5 water".toList,
    "temperatures 20.0 3".toList, "thermal_power 2.0".toList, "plots temperature powerDensity".toList,
    "solver ".toList ++ duoName t, "accuracy 0.001".toList, "max_iteration_number 100".toList, "albedo 0.5".toList, "energies 1".toList, "direction forward".toList,
    "eigenmodes fundamental".toList,
    "solver heat".toList, "accuracy 0.001".toList, "max_iteration_number 100".toList, "heat_boundary_conditions 1.0 0.0 20.0".toList,
    "solver coupled".toList, "accuracy 0.5".toList, "max_iteration_number 100".toList, "relaxation_parameter 0.5".toList,
    "material fuel".toList, "ni(1) 2.5".toList, "chi(1) 1.0".toList, "fission(1) 0.5".toList, "total(1) 2.0 0.001".toList, "diffCoeff(1) 1.0".toList,
    "scattMatrix(1, 1) 1.0".toList, "thermal_conductivity 2.0".toList,
    "material water".toList, "ni(1) 0.0".toList, "chi(1) 0.0".toList, "fission(1) 0.0".toList, "total(1) 2.0".toList, "diffCoeff(1) 1.0".toList,
    "scattMatrix(1, 1) 1.0".toList, "thermal_conductivity 0.5".toList]

def duoRegions : List Region := [⟨2, 1, "fuel".toList⟩, ⟨1, 1 / 2, "water".toList⟩]

/-- The nuclear data of the file. -/
def duoTables : Tables where
  nu _ w := Vec.ofList [if w = "fuel".toList then 5 / 2 else 0]
  chi _ w := Vec.ofList [if w = "fuel".toList then 1 else 0]
  fiss _ w := Vec.ofList [if w = "fuel".toList then 1 / 2 else 0]
  tot _ w := if w = "fuel".toList then Vec.ofList [2, 1 / 1000] else Vec.ofList [2]
  scatt _ _ _ := Vec.ofList [1]
  diff _ _ := Vec.ofList [1]

/-- The thermal conductivities of the file. -/
def duoLaw (w : Text) : Vec ℝ := Vec.ofList [if w = "fuel".toList then 2 else 1 / 2]

theorem duoStored : ∀ first t, Stored (duoFile first t) (duoFile first t) := by
  intro first t
  cases first <;> cases t <;> exact (C36_tidy _ _).1 (by rfl)

theorem duoProper : ∀ first t, Proper (duoFile first t) := by
  have h : ∀ first t, (active (duoFile first t)).all (fun m => settingKeys.all (fun k => !has (small k.toList) (small m) || (splitLine (small m)).head? == some k.toList)) = true := by
    decide +kernel
  exact fun first t => proper_eval (h first t)

/-- The lines of the material. -/
def duoLines (w : Text) : Nat × Nat := if w = "fuel".toList then (21, 29) else (29, 4294967295)

theorem duoBlocks : ∀ first t, blockB duoLib (duoFile first t) "solver".toList (duoName t) 6 17 = true ∧ blockB duoLib (duoFile first t) "solver".toList "heat".toList 13 17 = true ∧
    blockB duoLib (duoFile first t) "solver".toList "coupled".toList 17 4294967295 = true ∧
    blockB duoLib (duoFile first t) "material".toList "fuel".toList 21 29 = true ∧ blockB duoLib (duoFile first t) "material".toList "water".toList 29 4294967295 = true := by
  decide +kernel

/-- The words of the file under the heading `name`. -/
def duoWords (name : String) (w : Text) : List Text :=
  if name = "ni" then (if w = "fuel".toList then ["2.5".toList] else ["0.0".toList])
  else if name = "chi" then (if w = "fuel".toList then ["1.0".toList] else ["0.0".toList])
  else if name = "fission" then (if w = "fuel".toList then ["0.5".toList] else ["0.0".toList])
  else if name = "total" then (if w = "fuel".toList then ["2.0".toList, "0.001".toList] else ["2.0".toList])
  else ["1.0".toList]

/-- The word for the conductivity. -/
def duoHeat (w : Text) : Text := if w = "fuel".toList then "2.0".toList else "0.5".toList

theorem duoMaterials : ∀ first t, ∀ w ∈ ["fuel".toList, "water".toList], (∀ name ∈ ["ni", "chi", "fission", "total", "diffCoeff"],
    saysB duoLib (duoFile first t) (groupKey name 0) (duoLines w).1 (duoLines w).2 (small (groupKey name 0) :: duoWords name w) = true) ∧
    saysB duoLib (duoFile first t) (scattKey 0 0) (duoLines w).1 (duoLines w).2 (splitLine (small (scattKey 0 0)) ++ ["1.0".toList]) = true ∧
    saysB duoLib (duoFile first t) "thermal_conductivity".toList (duoLines w).1 (duoLines w).2 ["thermal_conductivity".toList, duoHeat w] = true := by
  decide +kernel

theorem duoMatrix : (splitLine (small (scattKey 0 0))).length = 2 := by decide +kernel

theorem duoNuclear : ∀ first t, ∀ s ∈ [("accuracy", ["0.001".toList]), ("max_iteration_number", ["100".toList]), ("albedo", ["0.5".toList]), ("energies", ["1".toList]),
    ("direction", ["forward".toList]), ("eigenmodes", ["fundamental".toList])], saysB duoLib (duoFile first t) s.1.toList 6 17 (s.1.toList :: s.2) = true := by
  decide +kernel

theorem duoThermal : ∀ first t, ∀ s ∈ [("accuracy", ["0.001".toList]), ("max_iteration_number", ["100".toList]),
    ("heat_boundary_conditions", ["1.0".toList, "0.0".toList, "20.0".toList])], saysB duoLib (duoFile first t) s.1.toList 13 17 (s.1.toList :: s.2) = true := by
  decide +kernel

theorem duoCoupled : ∀ first t, ∀ s ∈ [("accuracy", ["0.5".toList]), ("max_iteration_number", ["100".toList]), ("relaxation_parameter", ["0.5".toList])],
    saysB duoLib (duoFile first t) s.1.toList 17 4294967295 (s.1.toList :: s.2) = true := by
  decide +kernel

theorem duoCards : ∀ first t, saysB duoLib (duoFile first t) "solvers".toList 0 4294967295 ("solvers".toList :: duoSolvers first t) = true ∧
    saysB duoLib (duoFile first t) ("solver ".toList ++ duoName t) 0 4294967295 ["solver".toList, duoName t] = true ∧
    saysB duoLib (duoFile first t) "solver heat".toList 0 4294967295 ["solver".toList, "heat".toList] = true ∧
    saysB duoLib (duoFile first t) "solver coupled".toList 0 4294967295 ["solver".toList, "coupled".toList] = true ∧
    saysB duoLib (duoFile first t) "geometry".toList 0 4294967295 ["geometry".toList, "cylinder".toList] = true ∧
    saysB duoLib (duoFile first t) "mesh".toList 0 4294967295 ["mesh".toList, "2".toList, "1.0".toList, "fuel".toList, "1".toList, "0.5".toList, "water".toList] = true ∧
    saysB duoLib (duoFile first t) "plots".toList 0 4294967295 ["plots".toList, "temperature".toList, "powerdensity".toList] = true ∧
    saysB duoLib (duoFile first t) "temperatures".toList 0 4294967295 ["temperatures".toList, "20.0".toList, "3".toList] = true ∧
    saysB duoLib (duoFile first t) "thermal_power".toList 0 4294967295 ["thermal_power".toList, "2.0".toList] = true ∧
    saysB duoLib (duoFile first t) "material fuel".toList 0 4294967295 ["material".toList, "fuel".toList] = true ∧
    saysB duoLib (duoFile first t) "material water".toList 0 4294967295 ["material".toList, "water".toList] = true := by
  decide +kernel

variable {first t : Bool}

theorem duo_block {w : Text} (hw : w = "fuel".toList ∨ w = "water".toList) : Block (duoFile first t) "material".toList w (duoLines w).1 (duoLines w).2 := by
  rcases hw with rfl | rfl
  · exact blockB_block duoLib_sane (duoBlocks first t).2.2.2.1
  · exact blockB_block duoLib_sane (duoBlocks first t).2.2.2.2

theorem duo_law {w : Text} (hw : w = "fuel".toList ∨ w = "water".toList) {name : String} (hn : name ∈ ["ni", "chi", "fission", "total", "diffCoeff"]) {e : Nat} (he : e < 1)
    {v : Vec ℝ} (hx : Reads duoLib (duoWords name w) v.toList) : Law duoLib (duoFile first t) w (groupKey name e) 1 v := by
  obtain rfl : e = 0 := by omega
  exact ⟨_, _, small (groupKey name 0) :: duoWords name w, duo_block hw, saysB_card duoLib_sane ((duoMaterials first t w (by simpa using hw)).1 name hn), by simp, hx⟩

theorem duo_scatt {w : Text} (hw : w = "fuel".toList ∨ w = "water".toList) {e f : Nat} (he : e < 1) (hf : f < 1) :
    Law duoLib (duoFile first t) w (scattKey e f) 2 (Vec.ofList [1]) := by
  obtain rfl : e = 0 := by omega
  obtain rfl : f = 0 := by omega
  refine ⟨_, _, _, duo_block hw, saysB_card duoLib_sane (duoMaterials first t w (by simpa using hw)).2.1, by simp [duoMatrix], ?_⟩
  rw [ofList_toList, ← duoMatrix, List.drop_left]
  exact .cons rfl .nil

theorem duo_conducts {w : Text} (hw : w = "fuel".toList ∨ w = "water".toList) : Law duoLib (duoFile first t) w "thermal_conductivity".toList 1 (duoLaw w) := by
  refine ⟨_, _, ["thermal_conductivity".toList, duoHeat w], duo_block hw, saysB_card duoLib_sane (duoMaterials first t w (by simpa using hw)).2.2, by simp, ?_⟩
  unfold duoLaw
  rw [ofList_toList]
  refine .cons ?_ .nil
  rcases hw with rfl | rfl <;> simp [duoHeat, duoLib]

theorem duo_mat {r : Region} (hr : r ∈ duoRegions) : r.mat = "fuel".toList ∨ r.mat = "water".toList := by
  simp only [duoRegions, List.mem_cons, List.not_mem_nil, or_false] at hr
  rcases hr with rfl | rfl
  · exact Or.inl rfl
  · exact Or.inr rfl

theorem duo_tables : TableFile duoLib (duoFile first t) duoRegions 1 duoTables where
  nu r hr e he := duo_law (duo_mat hr) (by simp) he (by
    rcases duo_mat hr with h | h <;> rw [h] <;> simp only [duoTables] <;> rw [ofList_toList] <;> exact .cons (by simp [duoLib]) .nil)
  chi r hr e he := duo_law (duo_mat hr) (by simp) he (by
    rcases duo_mat hr with h | h <;> rw [h] <;> simp only [duoTables] <;> rw [ofList_toList] <;> exact .cons (by simp [duoLib]) .nil)
  fiss r hr e he := duo_law (duo_mat hr) (by simp) he (by
    rcases duo_mat hr with h | h <;> rw [h] <;> simp only [duoTables] <;> rw [ofList_toList] <;> exact .cons (by simp [duoLib]) .nil)
  tot r hr e he := duo_law (duo_mat hr) (by simp) he (by
    rcases duo_mat hr with h | h
    · rw [h]
      simp only [duoTables, if_pos]
      rw [ofList_toList]
      exact .cons (by simp [duoLib]) (.cons (by simp [duoLib]) .nil)
    · rw [h]
      simp only [duoTables]
      rw [if_neg (by decide), ofList_toList]
      exact .cons (by simp [duoLib]) .nil)
  scatt r hr e f he hf := duo_scatt (duo_mat hr) he hf

theorem duo_diff : DiffFile duoLib (duoFile first t) duoRegions 1 duoTables := fun r hr e he => duo_law (duo_mat hr) (by simp) he (by
    rcases duo_mat hr with h | h <;> rw [h] <;> simp only [duoTables] <;> rw [ofList_toList] <;> exact .cons (by simp [duoLib]) .nil)

theorem duo_setting {s : String × List Text} (hs : s ∈ [("accuracy", ["0.001".toList]), ("max_iteration_number", ["100".toList]), ("albedo", ["0.5".toList]),
    ("energies", ["1".toList]), ("direction", ["forward".toList]), ("eigenmodes", ["fundamental".toList])]) : Setting (duoFile first t) (duoKind t) s.1 s.2 :=
  ⟨6, 17, by
    cases t
    · exact blockB_block duoLib_sane (duoBlocks first false).1
    · exact blockB_block duoLib_sane (duoBlocks first true).1, saysB_card duoLib_sane (duoNuclear first t s hs)⟩

theorem duo_thermal {s : String × List Text} (hs : s ∈ [("accuracy", ["0.001".toList]), ("max_iteration_number", ["100".toList]),
    ("heat_boundary_conditions", ["1.0".toList, "0.0".toList, "20.0".toList])]) : Setting (duoFile first t) .heat s.1 s.2 :=
  ⟨13, 17, blockB_block duoLib_sane (duoBlocks first t).2.1, saysB_card duoLib_sane (duoThermal first t s hs)⟩

theorem duo_coupled {s : String × List Text} (hs : s ∈ [("accuracy", ["0.5".toList]), ("max_iteration_number", ["100".toList]), ("relaxation_parameter", ["0.5".toList])]) :
    Setting (duoFile first t) .coupled s.1 s.2 :=
  ⟨17, 4294967295, blockB_block duoLib_sane (duoBlocks first t).2.2.1, saysB_card duoLib_sane (duoCoupled first t s hs)⟩

theorem duo_body : BodyFile duoLib (duoFile first t) .cylinder duoRegions where
  geometry := ⟨_, _, saysB_card duoLib_sane (duoCards first t).2.2.2.2.1, by simp [geometries]⟩
  mesh := ⟨_, _, saysB_card duoLib_sane (duoCards first t).2.2.2.2.2.1, .cons (wDigit (i := 2) (by decide)) (by simp [duoLib]) (.cons (wDigit (i := 1) (by decide)) (by simp [duoLib]) .nil)⟩
  some := by simp [duoRegions]
  cells := by simp [duoRegions]
  few := by simp [duoRegions]
  named := by
    intro r hr
    simp only [duoRegions, List.mem_cons, List.not_mem_nil, or_false] at hr
    rcases hr with rfl | rfl
    · exact wNamed _ _ (by decide)
    · exact wNamed _ _ (by decide)
  headers := by
    intro r hr
    simp only [duoRegions, List.mem_cons, List.not_mem_nil, or_false] at hr
    rcases hr with rfl | rfl
    · exact ⟨_, _, saysB_card duoLib_sane (duoCards first t).2.2.2.2.2.2.2.2.2.1⟩
    · exact ⟨_, _, saysB_card duoLib_sane (duoCards first t).2.2.2.2.2.2.2.2.2.2⟩

theorem duo_temperatures : ListFile duoLib (duoFile first t) "temperatures" ⟨3, fun _ => 20⟩ :=
  ⟨_, _, saysB_card duoLib_sane (duoCards first t).2.2.2.2.2.2.2.1, .copies (l := [(20, 3)]) (.cons (by simp [duoLib]) (wDigit (i := 3) (by decide)) .nil) (by simp)
      (fun w hw => by
        cases hw
        exact vDecimal (a := ['2', '0']) (b := ['0']) rfl (by simp [Digit]) (by simp [Digit]) (by simp) (by simp)) (by simp)
      ⟨rfl, fun k hk j _ => by
        obtain rfl : k = 0 := by simpa using hk
        rfl⟩⟩

theorem duo_power : NumberFile duoLib (duoFile first t) "thermal_power" 2 := ⟨_, _, saysB_card duoLib_sane (duoCards first t).2.2.2.2.2.2.2.2.1, by simp [duoLib]⟩

theorem duo_full : Full duoLib (duoFile first t) (if first then [duoKind t, .heat] else [.heat, duoKind t]) .cylinder duoRegions 1 where
  solvers := ⟨_, duoSolvers first t, saysB_card duoLib_sane (duoCards first t).1, by
    cases first <;> cases t <;> exact .cons (by simp [solverNames, duoName, duoKind]) (.cons (by simp [solverNames, duoName, duoKind]) .nil)⟩
  some := by cases first <;> simp
  headers := by
    intro k hk
    have : k = duoKind t ∨ k = .heat ∨ k = .coupled := by
      cases first <;> simp [everyone] at hk <;> tauto
    rcases this with rfl | rfl | rfl
    · cases t
      · exact ⟨_, _, saysB_card duoLib_sane (duoCards first false).2.1⟩
      · exact ⟨_, _, saysB_card duoLib_sane (duoCards first true).2.1⟩
    · exact ⟨_, _, saysB_card duoLib_sane (duoCards first t).2.2.1⟩
    · exact ⟨_, _, saysB_card duoLib_sane (duoCards first t).2.2.2.1⟩
  settings := by
    intro k hk key hkey
    have : k = duoKind t ∨ k = .heat ∨ k = .coupled := by
      cases first <;> simp [everyone] at hk <;> tauto
    rcases this with rfl | rfl | rfl
    · have S := fun s hs => duo_setting (first := first) (t := t) (s := s) hs
      have hkey' : key = "accuracy" ∨ key = "max_iteration_number" ∨ key = "albedo" ∨ key = "energies" ∨ key = "direction" ∨ key = "eigenmodes" := by
        cases t <;> simp [settingsOf, duoKind] at hkey <;> tauto
      rcases hkey' with rfl | rfl | rfl | rfl | rfl | rfl
      · exact ⟨_, S ("accuracy", ["0.001".toList]) (by simp), .accuracy rfl⟩
      · exact ⟨_, S ("max_iteration_number", ["100".toList]) (by simp), .limit n100 (by decide)⟩
      · exact ⟨_, S ("albedo", ["0.5".toList]) (by simp), .oneAlbedo (Or.inr (by decide)) rfl⟩
      · exact ⟨_, S ("energies", ["1".toList]) (by simp), .groups (wDigit (i := 1) (by decide)) (by decide)⟩
      · exact ⟨_, S ("direction", ["forward".toList]) (by simp), .direction (Or.inl rfl)⟩
      · exact ⟨_, S ("eigenmodes", ["fundamental".toList]) (by simp), .modes (Or.inl rfl)⟩
    · have S := fun s hs => duo_thermal (first := first) (t := t) (s := s) hs
      simp [settingsOf] at hkey
      rcases hkey with rfl | rfl | rfl
      · exact ⟨_, S ("accuracy", ["0.001".toList]) (by simp), .accuracy rfl⟩
      · exact ⟨_, S ("max_iteration_number", ["100".toList]) (by simp), .limit n100 (by decide)⟩
      · exact ⟨_, S ("heat_boundary_conditions", ["1.0".toList, "0.0".toList, "20.0".toList]) (by simp),
          .three (xs := [_, _, _]) (by decide) rfl (.cons rfl (.cons rfl (.cons rfl .nil)))⟩
    · have S := fun s hs => duo_coupled (first := first) (t := t) (s := s) hs
      simp [settingsOf] at hkey
      rcases hkey with rfl | rfl
      · exact ⟨_, S ("accuracy", ["0.5".toList]) (by simp), .accuracy rfl⟩
      · exact ⟨_, S ("max_iteration_number", ["100".toList]) (by simp), .limit n100 (by decide)⟩
  relaxation := fun _ _ => ⟨_, duo_coupled (s := ("relaxation_parameter", ["0.5".toList])) (by simp), .relaxation rfl⟩
  body := fun _ => duo_body
  tables := by
    intro k hk hn r hr name hname e he
    obtain ⟨xs, hx⟩ := reads_exist (lib := duoLib) (fun w => ⟨_, rfl⟩) (duoWords name r.mat)
    refine ⟨Vec.ofList xs, duo_law (duo_mat hr) ?_ he (by rw [ofList_toList]; exact hx)⟩
    unfold tables at hname
    split at hname <;> simp at hname <;> simp <;> tauto
  scattering := fun k hk hn r hr e f he hf => ⟨_, duo_scatt (duo_mat hr) he hf⟩
  conductivity := fun _ r hr => ⟨_, duo_conducts (duo_mat hr), by simp [duoLaw, Vec.ofList], by simp [duoLaw, Vec.ofList]⟩
  temperatures := fun _ => ⟨_, duo_temperatures, by simp [cellNames, duoRegions]⟩
  sources := by cases first <;> cases t <;> simp [duoKind]
  power := fun _ _ => ⟨_, duo_power⟩
  kinetics := by cases first <;> cases t <;> simp [duoKind]
  plots := Or.inr ⟨_, _, by simp, saysB_card duoLib_sane (duoCards first t).2.2.2.2.2.2.1⟩

theorem duo_asks : CoupledAsks duoLib (duoFile first t) first (duoKind t) .cylinder duoRegions 1 2 (1 / 2) 100 (1 / 2) where
  full := duo_full
  accuracy := ⟨_, duo_coupled (s := ("accuracy", ["0.5".toList])) (by simp), by simp [duoLib]⟩
  limit := ⟨_, duo_coupled (s := ("max_iteration_number", ["100".toList])) (by simp), n100⟩
  relaxation := ⟨_, duo_coupled (s := ("relaxation_parameter", ["0.5".toList])) (by simp), by simp [duoLib]⟩
  power := duo_power

theorem duo_critical : CriticalAsks duoLib (duoFile first t) (duoKind t) "forward" (Vec.ofList [1 / 2]) (1 / 1000) 100 where
  accuracy := ⟨_, duo_setting (s := ("accuracy", ["0.001".toList])) (by simp), by simp [duoLib]⟩
  limit := ⟨_, duo_setting (s := ("max_iteration_number", ["100".toList])) (by simp), n100, by decide⟩
  albedo := ⟨_, duo_setting (s := ("albedo", ["0.5".toList])) (by simp), by rw [ofList_toList]; exact .cons (by simp [duoLib]) .nil⟩
  direction := fun _ => duo_setting (s := ("direction", ["forward".toList])) (by simp)
  modes := duo_setting (s := ("eigenmodes", ["fundamental".toList])) (by simp)

theorem duo_heat : HeatAsks duoLib (duoFile first t) .cylinder duoRegions duoLaw ⟨3, fun _ => 20⟩ (Vec.ofList [1, 0, 20]) (1 / 1000) 100 where
  accuracy := ⟨_, duo_thermal (s := ("accuracy", ["0.001".toList])) (by simp), by simp [duoLib]⟩
  limit := ⟨_, duo_thermal (s := ("max_iteration_number", ["100".toList])) (by simp), n100⟩
  boundary := ⟨_, duo_thermal (s := ("heat_boundary_conditions", ["1.0".toList, "0.0".toList, "20.0".toList])) (by simp),
    by rw [ofList_toList]; exact .cons (by simp [duoLib]) (.cons (by simp [duoLib]) (.cons (by simp [duoLib]) .nil)), rfl⟩
  laws r hr := duo_conducts (duo_mat hr)
  temperatures := ⟨duo_temperatures, rfl⟩

theorem duo_tot (e : Nat) (w : Text) (x : ℝ) : valueAt (duoTables.tot e w) x = if w = "fuel".toList then 2 + x / 1000 else 2 := by
  simp only [duoTables]
  split_ifs
  · simp [valueAt, Numeric.polyValue, Vec.ofList, Finset.sum_range_succ]
    ring
  · rw [valueAt_one]

theorem duo_case : CriticalCase duoRegions 1 duoTables (Set.Ici 20) where
  widths := by simp [duoRegions]
  nu r hr e he x hx := by
    simp only [duoTables, valueAt_one]
    split_ifs <;> norm_num
  chi r hr e he x hx := by
    simp only [duoTables, valueAt_one]
    split_ifs <;> norm_num
  fiss r hr e he x hx := by
    simp only [duoTables, valueAt_one]
    split_ifs <;> norm_num
  scatt r hr e f he hf x hx := by
    simp only [duoTables, valueAt_one]
    norm_num
  absorbs r hr e he x hx := by
    have hx : (20 : ℝ) ≤ x := hx
    rw [duo_tot]
    simp only [duoTables, valueAt_one, Finset.sum_range_succ, Finset.sum_range_zero]
    split_ifs
    · linarith
    · norm_num
  somewhere := ⟨⟨2, 1, "fuel".toList⟩, by simp [duoRegions], 0, by norm_num, fun x hx => by simp only [duoTables, valueAt_one]; norm_num⟩
  emitted := by
    rintro r hr ⟨e, he, x, hx, h⟩
    rcases duo_mat hr with h' | h'
    · exact ⟨0, by norm_num, fun x hx => by rw [h']; simp only [duoTables, valueAt_one]; norm_num⟩
    · rw [h'] at h
      simp only [duoTables, valueAt_one] at h
      simp at h
  linked := by
    have fuel : ∀ r ∈ duoRegions, Fissile 1 duoTables (Set.Ici 20) r.mat → r.mat = "fuel".toList := by
      rintro r hr ⟨e, he, x, hx, h⟩
      rcases duo_mat hr with h' | h'
      · exact h'
      · rw [h'] at h
        simp only [duoTables, valueAt_one] at h
        simp at h
    intro a ha b hb fa fb
    rw [fuel a ha fa, fuel b hb fb]
    exact ⟨0, 0, by norm_num, by norm_num, fun x hx => by simp only [duoTables, valueAt_one]; norm_num, fun x hx => by simp only [duoTables, valueAt_one]; norm_num, .refl⟩

theorem duo_conduction : HeatCase .cylinder duoRegions duoLaw ⟨3, fun _ => 20⟩ ⟨0, fun _ => 0⟩ (Vec.ofList [1, 0, 20]) (fun i => i * (1 / 2)) 20 0 1 0 1 0 20 where
  wide := by
    intro r hr
    simp only [duoRegions, List.mem_cons, List.not_mem_nil, or_false] at hr
    rcases hr with rfl | rfl <;> norm_num
  faces := by
    refine ⟨rfl, fun k hk j _ => ?_⟩
    have hk : k < 2 := hk
    interval_cases k
    · simp [duoRegions, before]
      ring
    · simp [duoRegions, before]
      ring
  two := by decide
  positive := by
    intro r hr x _
    have : Numeric.polyValue (duoLaw r.mat).n (duoLaw r.mat).v x = if r.mat = "fuel".toList then 2 else 1 / 2 := by
      simp [duoLaw, Numeric.polyValue, Vec.ofList]
    rw [this]
    split <;> norm_num
  temperatures := fun i _ => le_rfl
  sources := fun i _ => le_rfl
  boundaries := Or.inl ⟨by rw [ofList_toList], rfl, rfl, rfl⟩
  AL_nonneg := le_rfl
  BL_nonneg := zero_le_one
  AR_nonneg := zero_le_one
  BR_nonneg := le_rfl
  left := by norm_num
  right := by norm_num
  tied := by norm_num
  lowLeft := by norm_num
  lowRight := by norm_num

end

end Verif.Input
