import Verif.Output.TransientProps
import Verif.Input.WallFile

/-! # Properties of the figures of heat calculations -/

namespace Verif.Output

open Verif Outcome Input

noncomputable section

variable {e : Env} {disk : Text → Option (List Text)} {prog input output base : Text} {names raw lines : List Text} {p' : Calc.Plant} {g : Diffusion.Geom} {rs : List Region}
  {law : Text → Vec ℝ} {t q bc : Vec ℝ} {acc m AL BL CL AR BR CR : ℝ} {f : Nat → ℝ} {n : Nat} {want : List Plot}

theorem allFigures_mem {G : Mesh.Grid} {k : Plot} (hk : k ∈ want) {f : Figure} (hf : f ∈ figuresFor base G k) : f ∈ allFigures base G want := by
  refine List.mem_flatMap.2 ⟨k, ?_, by rw [if_pos hk]; exact hf⟩
  cases k <;> simp

theorem allFigures_of {G : Mesh.Grid} {f : Figure} (hf : f ∈ allFigures base G want) : ∃ k, f ∈ figuresFor base G k := by
  obtain ⟨k, -, hf⟩ := List.mem_flatMap.1 hf
  split at hf
  · exact ⟨k, hf⟩
  · simp at hf

/-- what the two theorems below have in common -/
theorem heat_figures (hs : Started e disk input output names base) (hd : disk input = some raw) (hraw : Stored raw lines) (hc : Clean e.lib lines) (hp : Proper lines)
    (hf : HeatFile e.lib lines g rs law t q bc acc n) (hcase : HeatCase g rs law t q bc f m AL BL CL AR BR CR) (hlin : Calc.LinSolves e.tools.lin) (hb : Blank e.plant)
    (hT : ∀ ws, Card lines "plots" ws → "totalflux".toList ∉ ws) (a : Level) (hW : Wanted lines want)
    (hrun : ((main e [prog, input, output, a.word]).run (World.start disk)).2 = ok p') :
    Meshed rs p'.grid ∧ (∀ i, i < (cellNames rs).length → (p'.grid.mats.v i).q = q.v i ∧ m ≤ (p'.grid.mats.v i).T) ∧
      Logged e a output names (e.talk (some raw)) p' (heatLog e.fmt p'.grid) (allFigures base p'.grid want) ((main e [prog, input, output, a.word]).run (World.start disk)) := by
  obtain ⟨h1, h2⟩ := C91 (prog := prog) hs hd hraw hc (heatFile_full hf) hb hT a
  obtain ⟨-, want', hW', hl⟩ := h2 p' hrun
  rw [wanted_unique hW' hW] at hl
  rw [h1] at hrun
  obtain ⟨-, hM, hq, -⟩ := C85_partial hc hraw hp hf hcase hlin hrun
  exact ⟨hM, hq, hl⟩

/-- **C94, partial.** A heat calculation whose file asks for the power densities, all of them positive: the figure is drawn, and shows the heat sources of the file over the middles of the
cells. Missing: sources that vanish somewhere (`C94_dark`). -/
theorem C94_partial (hs : Started e disk input output names base) (hd : disk input = some raw) (hraw : Stored raw lines) (hc : Clean e.lib lines) (hp : Proper lines)
    (hf : HeatFile e.lib lines g rs law t q bc acc n) (hcase : HeatCase g rs law t q bc f m AL BL CL AR BR CR) (hlin : Calc.LinSolves e.tools.lin) (hb : Blank e.plant)
    (hT : ∀ ws, Card lines "plots" ws → "totalflux".toList ∉ ws) (a : Level) (hW : Wanted lines want) (hk : .powerDensity ∈ want)
    (hq : ∀ i, i < (cellNames rs).length → 10 / 2 ^ 52 ≤ q.v i)
    (hrun : ((main e [prog, input, output, a.word]).run (World.start disk)).2 = ok p') :
    Meshed rs p'.grid ∧ cellFigure base "powerdensity" "Thermal Power Density [W/m3]" p'.grid q.v ∈ ((main e [prog, input, output, a.word]).run (World.start disk)).1.drawn := by
  obtain ⟨hM, hv, hl⟩ := heat_figures hs hd hraw hc hp hf hcase hlin hb hT a hW hrun
  refine ⟨hM, ?_⟩
  rw [hl.drawn]
  refine allFigures_mem hk ?_
  show _ ∈ powerFigures base p'.grid
  unfold powerFigures
  rw [if_neg, List.mem_singleton]
  · unfold cellFigure
    rw [show (List.range p'.grid.cells).map (fun i => Fl.fin (q.v i)) = (List.range p'.grid.cells).map (fun i => Fl.fin (p'.grid.mats.v i).q) from
      List.map_congr_left fun i hi => by rw [(hv i (by rw [← hM.cells]; exact List.mem_range.1 hi)).1]]
  · rintro ⟨i, hi, h1, -⟩
    rw [hM.cells] at hi
    have h2 := hq i hi
    beta_reduce at h1
    rw [(hv i hi).1] at h1
    have := (abs_lt.1 h1).2
    linarith

/-- **C94.** If one of the heat sources vanishes, no figure of the power densities is drawn, although the file asks for it. -/
theorem C94_dark (hs : Started e disk input output names base) (hd : disk input = some raw) (hraw : Stored raw lines) (hc : Clean e.lib lines) (hp : Proper lines)
    (hf : HeatFile e.lib lines g rs law t q bc acc n) (hcase : HeatCase g rs law t q bc f m AL BL CL AR BR CR) (hlin : Calc.LinSolves e.tools.lin) (hb : Blank e.plant)
    (hT : ∀ ws, Card lines "plots" ws → "totalflux".toList ∉ ws) (a : Level) (hW : Wanted lines want) {i : Nat} (hi : i < (cellNames rs).length) (hq : q.v i = 0)
    (hrun : ((main e [prog, input, output, a.word]).run (World.start disk)).2 = ok p') :
    ∀ f ∈ ((main e [prog, input, output, a.word]).run (World.start disk)).1.drawn, f.axis ≠ "Thermal Power Density [W/m3]".toList := by
  obtain ⟨hM, hv, hl⟩ := heat_figures hs hd hraw hc hp hf hcase hlin hb hT a hW hrun
  rw [hl.drawn]
  intro f hf'
  obtain ⟨k, hk⟩ := allFigures_of hf'
  cases k with
  | temperature =>
    change f ∈ temperatureFigures base p'.grid at hk
    unfold temperatureFigures at hk
    split at hk
    · simp at hk
    · rw [List.mem_singleton] at hk
      rw [hk]
      show "Temperature [C]".toList ≠ _
      decide
  | powerDensity =>
    change f ∈ powerFigures base p'.grid at hk
    unfold powerFigures at hk
    rw [if_pos] at hk
    · simp at hk
    · refine ⟨i, by rw [hM.cells]; exact hi, ?_, fun j hj => ?_⟩
      · beta_reduce
        rw [(hv i hi).1, hq]
        norm_num
      · rw [hM.cells] at hj
        beta_reduce
        rw [(hv i hi).1, (hv j hj).1, hq]
        exact hcase.sources j hj
  | totalFlux => simp [figuresFor] at hk
  | neutronFlux =>
    change f ∈ fluxFigures base "neutronflux" "Neutron Flux [1/cm2/s]" p'.grid _ _ at hk
    unfold fluxFigures at hk
    split at hk
    · simp at hk
    · obtain ⟨x, -, rfl⟩ := List.mem_map.1 hk
      show "Neutron Flux [1/cm2/s]".toList ≠ _
      decide
  | adjointFlux =>
    change f ∈ fluxFigures base "adjointflux" "Adjoint Flux [arbitrary]" p'.grid _ _ at hk
    unfold fluxFigures at hk
    split at hk
    · simp at hk
    · obtain ⟨x, -, rfl⟩ := List.mem_map.1 hk
      show "Adjoint Flux [arbitrary]".toList ≠ _
      decide

/-- **C94.** If the temperatures are to be drawn and cannot fall to zero, they are drawn, and they are those in the log. -/
theorem C94_temperature (hs : Started e disk input output names base) (hd : disk input = some raw) (hraw : Stored raw lines) (hc : Clean e.lib lines) (hp : Proper lines)
    (hf : HeatFile e.lib lines g rs law t q bc acc n) (hcase : HeatCase g rs law t q bc f m AL BL CL AR BR CR) (hlin : Calc.LinSolves e.tools.lin) (hb : Blank e.plant)
    (hT : ∀ ws, Card lines "plots" ws → "totalflux".toList ∉ ws) (a : Level) (hW : Wanted lines want) (hk : .temperature ∈ want) (hm : 10 / 2 ^ 52 ≤ m)
    (hrun : ((main e [prog, input, output, a.word]).run (World.start disk)).2 = ok p') :
    ∃ T : Nat → ℝ, cellFigure base "temperature" "Temperature [C]" p'.grid T ∈ ((main e [prog, input, output, a.word]).run (World.start disk)).1.drawn ∧ Meshed rs p'.grid ∧
      ((main e [prog, input, output, a.word]).run (World.start disk)).1.disk output =
        some (opening e ++ names ++ shown a (e.talk (some raw)) ++ block "Final temperatures [C]:" (cellTexts e.fmt (cellNames rs).length T) ++ closing e) := by
  obtain ⟨hM, hv, hl⟩ := heat_figures hs hd hraw hc hp hf hcase hlin hb hT a hW hrun
  refine ⟨fun i => (p'.grid.mats.v i).T, ?_, hM, ?_⟩
  · rw [hl.drawn]
    refine allFigures_mem hk ?_
    show _ ∈ temperatureFigures base p'.grid
    unfold temperatureFigures
    rw [if_neg, List.mem_singleton]
    rintro ⟨i, hi, h1, -⟩
    rw [hM.cells] at hi
    have := (abs_lt.1 h1).2
    have := (hv i hi).2
    linarith
  · rw [hl.log]
    unfold heatLog
    rw [hM.cells]

/-! ### examples -/

theorem wallWanted {w : Text} (hw : w ∈ walls) : Wanted (wallFile w) [.powerDensity, .temperature] :=
  Or.inl ⟨_, _, wall_plots hw, by simp, .plot (by simp [plotNames]) (.plot (by simp [plotNames]) .nil)⟩

theorem wallQuiet {w : Text} (hw : w ∈ walls) (ws : List Text) (h : Card (wallFile w) "plots" ws) : "totalflux".toList ∉ ws := by
  rw [card_unique h (wall_plots hw)]
  decide

theorem wallRun {w : Text} (hw : w ∈ walls) : ∃ p', (reportRun vLib (wallFile w)).2 = ok p' := by
  obtain ⟨p', T, h, -⟩ := C91_constant (prog := "almost".toList) (reportStarted vLib _) (reportDisk_get _) (wallStored w hw) (vLib_clean _) (wallProper w hw) (wall_heat hw) (wall_case w)
    Calc.exLin_solves (reportBlank vLib) (wallQuiet hw) (by norm_num) (by norm_num) (fun _ _ => rfl) .err
  exact ⟨p', h⟩

/-- water that heats itself: both figures are drawn -/
example : ∃ (p' : Calc.Plant) (T : Nat → ℝ), (reportRun vLib (wallFile "0.5".toList)).2 = ok p' ∧ Meshed vRegions p'.grid ∧
    cellFigure "bar".toList "powerdensity" "Thermal Power Density [W/m3]" p'.grid (Vec.ofList [3, 3, 1 / 2]).v ∈ (reportRun vLib (wallFile "0.5".toList)).1.drawn ∧
    cellFigure "bar".toList "temperature" "Temperature [C]" p'.grid T ∈ (reportRun vLib (wallFile "0.5".toList)).1.drawn := by
  have hw : "0.5".toList ∈ walls := by simp [walls]
  have e : wallHeat "0.5".toList = Vec.ofList [3, 3, 1 / 2] := by simp [wallHeat]
  obtain ⟨p', h⟩ := wallRun hw
  obtain ⟨h1, h2⟩ := C94_partial (prog := "almost".toList) (reportStarted vLib _) (reportDisk_get _) (wallStored _ hw) (vLib_clean _) (wallProper _ hw) (wall_heat hw) (wall_case _)
    Calc.exLin_solves (reportBlank vLib) (wallQuiet hw) .err (wallWanted hw) (by simp) (fun i hi => by
      rw [e]
      have hi : i < 3 := hi
      interval_cases i <;> norm_num [Vec.ofList]) h
  obtain ⟨T, h3, -⟩ := C94_temperature (prog := "almost".toList) (reportStarted vLib _) (reportDisk_get _) (wallStored _ hw) (vLib_clean _) (wallProper _ hw) (wall_heat hw) (wall_case _)
    Calc.exLin_solves (reportBlank vLib) (wallQuiet hw) .err (wallWanted hw) (by simp) (by norm_num) h
  rw [e] at h2
  exact ⟨p', T, h, h1, h2, h3⟩

/-- **C94 fails.** A wall of fuel and water that is heated in the fuel: the program comes to its end without the figure of the power densities the file asks for. -/
theorem C94_false : ∃ (e : Env) (disk : Text → Option (List Text)) (prog input output base : Text) (names lines : List Text) (want : List Plot) (p' : Calc.Plant) (a : Level),
    Started e disk input output names base ∧ disk input = some lines ∧ Stored lines lines ∧ Clean e.lib lines ∧ Proper lines ∧
    HeatFile e.lib lines .slab vRegions vLaw ⟨3, fun _ => 20⟩ (Vec.ofList [3, 3, 0]) (Vec.ofList [0, 1, 0, 1, 0, 20]) (1 / 100) 20 ∧
    Blank e.plant ∧ Wanted lines want ∧ .powerDensity ∈ want ∧ ((main e [prog, input, output, a.word]).run (World.start disk)).2 = ok p' ∧
    ∀ f ∈ ((main e [prog, input, output, a.word]).run (World.start disk)).1.drawn, f.axis ≠ "Thermal Power Density [W/m3]".toList := by
  have hw : "0.0".toList ∈ walls := by simp [walls]
  have e : wallHeat "0.0".toList = Vec.ofList [3, 3, 0] := by simp [wallHeat]
  obtain ⟨p', h⟩ := wallRun hw
  have hh := wall_heat hw
  rw [e] at hh
  exact ⟨reportEnv vLib, _, _, _, _, _, _, wallFile "0.0".toList, _, p', .err, reportStarted vLib _, reportDisk_get _, wallStored _ hw, vLib_clean _, wallProper _ hw, hh, reportBlank vLib,
    wallWanted hw, by simp, h,
    C94_dark (reportStarted vLib _) (reportDisk_get _) (wallStored _ hw) (vLib_clean _) (wallProper _ hw) hh (by rw [← e]; exact wall_case _)
      Calc.exLin_solves (reportBlank vLib) (wallQuiet hw) .err (wallWanted hw) (i := 2) (by decide) (by simp [Vec.ofList]) h⟩

end

end Verif.Output
