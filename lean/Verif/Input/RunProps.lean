import Verif.Input.RunLemmas

/-!
# Properties of the program from the input file to the result
-/

namespace Verif.Input

open Verif Outcome

noncomputable section

variable {lib : Lib} {raw lines : List Text} {g : Diffusion.Geom} {rs : List Region} {law : Text → Vec ℝ} {t q bc : Vec ℝ} {acc m AL BL CL AR BR CR : ℝ} {f : Nat → ℝ} {n : Nat}
  {tl : Calc.Tools}

/-! ### C85 -/

/-- **C85.** A heat calculation from the file to the temperatures: if the program ends normally, the reactor has the mesh and the sources of the file, and its temperatures are
those of the program's equations of heat conduction (see C85_right below for when these are the right ones, C85_false and C85_lost for when they are not) on any mesh, for
conductivities taken at some temperatures `s`, none below `m`. These agree with the result within the accuracy of the file, unless the very
first field happens to lie within the accuracy of one degree (which cannot be if `m` is at least one plus the accuracy). -/
theorem C85_partial (hc : Clean lib lines) (hraw : Stored raw lines) (hp : Proper lines) (hf : HeatFile lib lines g rs law t q bc acc n)
    (hcase : HeatCase g rs law t q bc f m AL BL CL AR BR CR) (hlin : Calc.LinSolves tl.lin) {p p' : Calc.Plant} (hrun : program lib tl (some raw) p = ok p') :
    p'.grid.geom = g ∧ Meshed rs p'.grid ∧
    (∀ i, i < (cellNames rs).length → Calc.heat p' i = q.v i ∧ m ≤ Calc.temp p' i) ∧
    ∃ s : Nat → ℝ, ConductedHeat g (cellNames rs).length f (fun i => conductivityAt rs law i (s i)) q.v AL BL CL AR BR CR (Calc.temp p') ∧
      ((∀ i, i < (cellNames rs).length → |Calc.temp p' i - s i| < acc) ∨
        (∀ i, i < (cellNames rs).length → s i = t.v i) ∧ ∀ i, i < (cellNames rs).length → |Calc.temp p' i - 1| < acc) ∧
      (1 + acc ≤ m → ∀ i, i < (cellNames rs).length → |Calc.temp p' i - s i| < acc) := by
  obtain ⟨r, o, hr, hread⟩ := heatFile_read hc hraw hp hf p
  obtain ⟨c, c1, c2⟩ := heatRead_cell hread
  unfold program at hrun
  rw [hr, ok_bind, hread.solvers] at hrun
  have hcells := hread.mesh.cells
  obtain ⟨⟨g', e, hg⟩, hlow, s, d, on, hS, -, hacc, hacc'⟩ := Calc.C75_steady hread.kind (heatRead_conducting hread hf.body hcase c1 c2) hlin
    (fun i hi => by
      rw [hcells] at hi
      show 0 ≤ (r.plant.grid.mats.v i).q
      rw [hread.heat i hi]
      exact hcase.sources i hi)
    (fun i hi => by
      rw [hcells] at hi
      show m ≤ (r.plant.grid.mats.v i).T
      rw [hread.temp i hi]
      exact hcase.temperatures i hi) hrun
  rw [hcells] at hlow hacc hacc'
  have eg : p'.grid = g' := by rw [e]
  rw [hread.acc] at hacc hacc'
  refine ⟨?_, ?_, fun i hi => ⟨?_, hlow i hi⟩, s, conducted_heat hread hf.body hcase c2 on hS, ?_, hacc'⟩
  · rw [eg, hg.geom, hread.geom]
  · rw [eg]
    exact meshed_heated hread.mesh hg
  · show (p'.grid.mats.v i).q = _
    rw [eg, hg.mats i (by rw [hcells]; exact hi)]
    exact hread.heat i hi
  · rcases hacc with hacc | ⟨h1, h2⟩
    · exact Or.inl hacc
    · refine Or.inr ⟨fun i hi => ?_, h2⟩
      rw [h1 i hi]
      exact hread.temp i hi

/-- **C85.** Such a calculation ends normally or with an error message, whatever the library does apart from linear systems; only with the largest `int` as limit undefined
behaviour is possible. -/
theorem C85_outcome (hc : Clean lib lines) (hraw : Stored raw lines) (hp : Proper lines) (hf : HeatFile lib lines g rs law t q bc acc n)
    (hcase : HeatCase g rs law t q bc f m AL BL CL AR BR CR) (hlin : Calc.LinSolves tl.lin) (hn : n < 2147483647) (p : Calc.Plant) :
    (∃ p', program lib tl (some raw) p = ok p') ∨ program lib tl (some raw) p = exit := by
  obtain ⟨r, o, hr, hread⟩ := heatFile_read hc hraw hp hf p
  obtain ⟨c, c1, c2⟩ := heatRead_cell hread
  have hcells := hread.mesh.cells
  obtain ⟨u, -, -, -, k1, k2⟩ := Calc.C75_run hread.kind (heatRead_conducting hread hf.body hcase c1 c2) hlin
    (fun i hi => by
      rw [hcells] at hi
      show 0 ≤ (r.plant.grid.mats.v i).q
      rw [hread.heat i hi]
      exact hcase.sources i hi)
    (fun i hi => by
      rw [hcells] at hi
      show m ≤ (r.plant.grid.mats.v i).T
      rw [hread.temp i hi]
      exact hcase.temperatures i hi)
  unfold program
  rw [hr, ok_bind, hread.solvers]
  classical
  by_cases hex : ∃ k : Nat, (k : Int) < o.maxIter ∧ Calc.Calm r.plant.grid.cells o.acc u k
  · obtain ⟨hk, hcalm⟩ := Nat.find_spec hex
    obtain ⟨g', e, -⟩ := k1 (Nat.find hex) hk hcalm (fun k hk' hc' => Nat.find_min hex hk' ⟨by omega, hc'⟩)
    exact Or.inl ⟨_, e⟩
  · right
    rw [k2 (fun k hk hcalm => hex ⟨k, hk, hcalm⟩), if_neg]
    rw [hread.limit]
    omega

/-- **C85.** With conductivities that do not depend on the temperature, a positive accuracy and at least two passes the program ends normally with the temperatures of its
equations. -/
theorem C85_constant (hc : Clean lib lines) (hraw : Stored raw lines) (hp : Proper lines) (hf : HeatFile lib lines g rs law t q bc acc n)
    (hcase : HeatCase g rs law t q bc f m AL BL CL AR BR CR) (hlin : Calc.LinSolves tl.lin) (hn : 2 ≤ n) (hacc : 0 < acc)
    (hk : ∀ r ∈ rs, (law r.mat).n = 1) (p : Calc.Plant) :
    ∃ p', program lib tl (some raw) p = ok p' ∧ p'.grid.geom = g ∧ Meshed rs p'.grid ∧
      ConductedHeat g (cellNames rs).length f (fun i => (law ((cellNames rs).getD i [])).v 0) q.v AL BL CL AR BR CR (Calc.temp p') := by
  obtain ⟨r, o, hr, hread⟩ := heatFile_read hc hraw hp hf p
  obtain ⟨c, c1, c2⟩ := heatRead_cell hread
  have hcells := hread.mesh.cells
  have hconst : ∀ i, i < (cellNames rs).length → ∀ x, conductivityAt rs law i x = (law ((cellNames rs).getD i [])).v 0 := by
    intro i hi x
    obtain ⟨y, hy, e⟩ := cellNames_mem hi
    have := hk y hy
    unfold conductivityAt
    rw [getD_here hi]
    rw [e] at this
    rw [this]
    simp [Numeric.polyValue]
  obtain ⟨p', e, -⟩ := Calc.C75_constant hread.kind (heatRead_conducting hread hf.body hcase c1 c2) hlin
    (fun i hi => by
      rw [hcells] at hi
      show 0 ≤ (r.plant.grid.mats.v i).q
      rw [hread.heat i hi]
      exact hcase.sources i hi)
    (fun i hi => by
      rw [hcells] at hi
      show m ≤ (r.plant.grid.mats.v i).T
      rw [hread.temp i hi]
      exact hcase.temperatures i hi)
    (fun i hi x y => by
      rw [c2 i hi, c2 i hi, hconst i (by rw [← hcells]; exact hi), hconst i (by rw [← hcells]; exact hi)])
    (by rw [hread.acc]; exact hacc) (by rw [hread.limit]; exact_mod_cast hn)
  have hprog : program lib tl (some raw) p = ok p' := by
    unfold program
    rw [hr, ok_bind, hread.solvers]
    exact e
  obtain ⟨h1, h2, -, s, hS, -⟩ := C85_partial hc hraw hp hf hcase hlin hprog
  exact ⟨p', hprog, h1, h2, hS.congr hcase.two (fun _ _ => rfl) (fun i hi => hconst i hi _) (fun _ _ => rfl) (fun _ _ => rfl) (fun _ _ => rfl)⟩

/-! ### example -/

/-- A library that reads the numbers of the example. -/
def vLib : Lib := ⟨fun w => ok (if w = "20.0".toList then 20 else if w = "3.0".toList then 3 else if w = "1.0".toList then 1 else if w = "0.5".toList then 1 / 2 else
  if w = "0.01".toList then 1 / 100 else 0), ok 'x'⟩

theorem vLib_sane : Sane vLib := fun c e => by cases e; decide

theorem vLib_clean (ls : List Text) : Clean vLib ls := ⟨vLib_sane, fun _ => ⟨'x', rfl⟩⟩

/-- A slab of two materials, insulated on the left and kept at 20 degrees on the right. -/
def vFile : List Text :=
  ["solvers heat".toList, "geometry slab".toList, "mesh 2 1.0 fuel 1 0.5 water".toList, "temperatures 20.0 3".toList, "heat_sources 3.0 3.0 0.5".toList,
    "solver heat".toList, "accuracy 0.01".toList, "max_iteration_number 20".toList, "heat_boundary_conditions 0.0 1.0 0.0 1.0 0.0 20.0".toList,
    "material fuel".toList, "thermal_conductivity 3.0".toList, "material water".toList, "thermal_conductivity 0.5".toList]

def vRegions : List Region := [⟨2, 1, "fuel".toList⟩, ⟨1, 1 / 2, "water".toList⟩]

def vLaw (w : Text) : Vec ℝ := Vec.ofList [if w = "fuel".toList then 3 else 1 / 2]

theorem vStored : Stored vFile vFile := (C36_tidy vFile vFile).1 (by rfl)

theorem vProper : Proper vFile := proper_eval (by decide +kernel)

theorem vDecimal {w : Text} {a b : Text} (h : w = a ++ '.' :: b) (ha : ∀ c ∈ a, Digit c) (hb : ∀ c ∈ b, Digit c) (h0 : a ≠ []) (h1 : b ≠ []) :
    Decimal w ∧ w.getLast? ≠ some '.' := by
  refine ⟨⟨[], a, b, [], by simpa using h, Or.inl rfl, ha, hb, Or.inl h0, Or.inl rfl⟩, ?_⟩
  rw [h, List.getLast?_append_of_ne_nil _ (by simp), List.getLast?_cons_of_ne_nil h1]
  intro e
  have := hb _ (List.mem_of_getLast? e)
  simp [Digit] at this

theorem vHeatFile : HeatFile vLib vFile .slab vRegions vLaw ⟨3, fun _ => 20⟩ (Vec.ofList [3, 3, 1 / 2]) (Vec.ofList [0, 1, 0, 1, 0, 20]) (1 / 100) 20 where
  solvers := ⟨"solvers".toList, card_eval vLib_sane (l := "solvers heat".toList) (by rfl) (by rfl)⟩
  header := ⟨"solver".toList, "heat".toList, card_eval vLib_sane (l := "solver heat".toList) (by rfl) (by rfl)⟩
  accuracy := ⟨"0.01".toList, ⟨5, 4294967295, findBlock_sound vLib_sane (b := (5, 4294967295)) (by rfl),
    card_eval vLib_sane (l := "accuracy 0.01".toList) (by rfl) (by rfl)⟩, rfl⟩
  limit := ⟨"20".toList, ⟨5, 4294967295, findBlock_sound vLib_sane (b := (5, 4294967295)) (by rfl),
    card_eval vLib_sane (l := "max_iteration_number 20".toList) (by rfl) (by rfl)⟩, .snoc (wDigit (i := 2) (by decide)) (i := 0) (by decide), by decide⟩
  boundary := ⟨["0.0".toList, "1.0".toList, "0.0".toList, "1.0".toList, "0.0".toList, "20.0".toList],
    ⟨5, 4294967295, findBlock_sound vLib_sane (b := (5, 4294967295)) (by rfl),
      card_eval vLib_sane (l := "heat_boundary_conditions 0.0 1.0 0.0 1.0 0.0 20.0".toList) (by rfl) (by rfl)⟩,
    by rw [ofList_toList]; exact .cons rfl (.cons rfl (.cons rfl (.cons rfl (.cons rfl (.cons rfl .nil))))), rfl⟩
  body := {
    geometry := ⟨"geometry".toList, "slab".toList, card_eval vLib_sane (l := "geometry slab".toList) (by rfl) (by rfl), by simp [geometries]⟩
    mesh := ⟨"mesh".toList, ["2".toList, "1.0".toList, "fuel".toList, "1".toList, "0.5".toList, "water".toList],
      card_eval vLib_sane (l := "mesh 2 1.0 fuel 1 0.5 water".toList) (by rfl) (by rfl),
      .cons (wDigit (i := 2) (by decide)) rfl (.cons (wDigit (i := 1) (by decide)) rfl .nil)⟩
    some := by simp [vRegions]
    cells := by simp [vRegions]
    few := by simp [vRegions]
    named := by
      intro q hq
      simp only [vRegions, List.mem_cons, List.not_mem_nil, or_false] at hq
      rcases hq with rfl | rfl
      · exact wNamed _ _ (by decide)
      · exact wNamed _ _ (by decide)
    headers := by
      intro q hq
      simp only [vRegions, List.mem_cons, List.not_mem_nil, or_false] at hq
      rcases hq with rfl | rfl
      · exact ⟨"material".toList, "fuel".toList, card_eval vLib_sane (l := "material fuel".toList) (by rfl) (by rfl)⟩
      · exact ⟨"material".toList, "water".toList, card_eval vLib_sane (l := "material water".toList) (by rfl) (by rfl)⟩ }
  laws := by
    intro r hr
    refine ⟨?_, le_rfl, Nat.le_of_ble_eq_true rfl⟩
    simp only [vRegions, List.mem_cons, List.not_mem_nil, or_false] at hr
    rcases hr with rfl | rfl
    · exact ⟨9, 11, ["thermal_conductivity".toList, "3.0".toList], findBlock_sound vLib_sane (b := (9, 11)) (by rfl),
        card_eval vLib_sane (l := "thermal_conductivity 3.0".toList) (by rfl) (by rfl), by decide, by unfold vLaw; rw [ofList_toList]; exact .cons rfl .nil⟩
    · exact ⟨11, 4294967295, ["thermal_conductivity".toList, "0.5".toList], findBlock_sound vLib_sane (b := (11, 4294967295)) (by rfl),
        card_eval vLib_sane (l := "thermal_conductivity 0.5".toList) (by rfl) (by rfl), by decide, by unfold vLaw; rw [ofList_toList]; exact .cons rfl .nil⟩
  temperatures := ⟨⟨"temperatures".toList, ["20.0".toList, "3".toList], card_eval vLib_sane (l := "temperatures 20.0 3".toList) (by rfl) (by rfl),
    .copies (l := [(20, 3)]) (.cons rfl (wDigit (i := 3) (by decide)) .nil) (by simp)
      (fun w hw => by
        cases hw
        exact vDecimal (a := ['2', '0']) (b := ['0']) rfl (by simp [Digit]) (by simp [Digit]) (by simp) (by simp)) (by simp)
      ⟨rfl, fun k hk j _ => by
        obtain rfl : k = 0 := by simpa using hk
        rfl⟩⟩, rfl⟩
  sources := ⟨⟨"heat_sources".toList, ["3.0".toList, "3.0".toList, "0.5".toList], card_eval vLib_sane (l := "heat_sources 3.0 3.0 0.5".toList) (by rfl) (by rfl),
    .plain (by rw [ofList_toList]; exact .cons rfl (.cons rfl (.cons rfl .nil))) (by simp)
      (fun w hw => by
        simp only [List.mem_cons, List.not_mem_nil, or_false] at hw
        rcases hw with rfl | rfl | rfl
        · exact vDecimal (a := ['3']) (b := ['0']) rfl (by simp [Digit]) (by simp [Digit]) (by simp) (by simp)
        · exact vDecimal (a := ['3']) (b := ['0']) rfl (by simp [Digit]) (by simp [Digit]) (by simp) (by simp)
        · exact vDecimal (a := ['0']) (b := ['5']) rfl (by simp [Digit]) (by simp [Digit]) (by simp) (by simp))⟩, rfl⟩
  plots := Or.inl (fun i m _ _ hS => by
    rcases findKeyword_sound vLib_sane (ls := vFile) (key := "plots".toList) (low := 0) (top := 4294967295) (opt := true) (l := []) (by rfl) with ⟨j, m', hf, e⟩ | ⟨-, -, h⟩
    · have := hf.1.2
      rw [← e, List.infix_nil] at this
      exact absurd this (by decide)
    · exact h i m (by omega) (by omega) hS)

theorem vFaces : Spread (vRegions.map (fun r => (r.cells, r.width))) ⟨3 + 1, fun i => i * (1 / 2)⟩ := by
  refine ⟨rfl, fun k hk j _ => ?_⟩
  have hk : k < 2 := hk
  interval_cases k
  · simp [vRegions, before]
    ring
  · simp [vRegions, before]
    ring

theorem vCase : HeatCase .slab vRegions vLaw ⟨3, fun _ => 20⟩ (Vec.ofList [3, 3, 1 / 2]) (Vec.ofList [0, 1, 0, 1, 0, 20]) (fun i => i * (1 / 2)) 20 0 1 0 1 0 20 where
  wide := by
    intro r hr
    simp only [vRegions, List.mem_cons, List.not_mem_nil, or_false] at hr
    rcases hr with rfl | rfl <;> norm_num
  faces := vFaces
  two := by decide
  positive := by
    intro r hr x _
    have : Numeric.polyValue (vLaw r.mat).n (vLaw r.mat).v x = if r.mat = "fuel".toList then 3 else 1 / 2 := by
      simp [vLaw, Numeric.polyValue, Vec.ofList]
    rw [this]
    split <;> norm_num
  temperatures := fun i _ => le_rfl
  sources := by
    intro i hi
    have hi : i < 3 := hi
    interval_cases i <;> norm_num [Vec.ofList]
  boundaries := Or.inr (by rw [ofList_toList])
  AL_nonneg := le_rfl
  BL_nonneg := zero_le_one
  AR_nonneg := zero_le_one
  BR_nonneg := le_rfl
  left := by norm_num
  right := by norm_num
  tied := by norm_num
  lowLeft := by norm_num
  lowRight := by norm_num

example (num : Solve.Numerics) (p : Calc.Plant) : ∃ p', program vLib (Calc.exTools num) (some vFile) p = ok p' ∧ p'.grid.geom = .slab ∧ Meshed vRegions p'.grid ∧
    ConductedHeat .slab 3 (fun i => i * (1 / 2)) (fun i => (vLaw ((cellNames vRegions).getD i [])).v 0) (Vec.ofList [3, 3, 1 / 2]).v 0 1 0 1 0 20 (Calc.temp p') ∧
    ∀ i, i < 3 → 20 ≤ Calc.temp p' i := by
  obtain ⟨p', h1, h2, h3, h4⟩ := C85_constant (vLib_clean vFile) vStored vProper vHeatFile vCase (tl := Calc.exTools num) Calc.exLin_solves (by norm_num) (by norm_num)
    (fun _ _ => rfl) p
  exact ⟨p', h1, h2, h3, h4, fun i hi =>
    ((C85_partial (vLib_clean vFile) vStored vProper vHeatFile vCase (tl := Calc.exTools num) Calc.exLin_solves h1).2.2.1 i hi).2⟩

end

end Verif.Input
