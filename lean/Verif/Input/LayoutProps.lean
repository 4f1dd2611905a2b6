import Verif.Input.LayoutRead
import Verif.Input.RunProps

/-!
# Properties of the layout of input files
-/

namespace Verif.Input

open Verif Outcome

noncomputable section

variable {lib : Lib} {raw raw' lines lines' c : List Text}

/-! ### C81 -/

/-- **C81.** Two files with the same content are the same to the program, whatever their letter case, blank lines, comment lines, white space at the ends of lines and
comments that mention no keyword; the beginnings must agree in saying something in the first line or not. -/
theorem C81_partial (hs : Stored raw lines) (hs' : Stored raw' lines') (hc : Clean lib lines) (hc' : Clean lib lines') (h : Content lines c) (h' : Content lines' c)
    (hh : Harmless lines) (hh' : Harmless lines') (ho : Opens lines ↔ Opens lines') (hl : lines.length ≤ 4294967296) (hl' : lines'.length ≤ 4294967296)
    (t : Calc.Tools) (p : Calc.Plant) : program lib t (some raw) p = program lib t (some raw') p :=
  (program_sim (content_agree hc hc' h h' hh hh' ho hl hl') ((C36_tidy _ _).2 hs) ((C36_tidy _ _).2 hs') t p).symm

/-- **C81.** Reading such files gives the same solvers, reactor, materials and plots, or the same failure. -/
theorem C81_read (hs : Stored raw lines) (hs' : Stored raw' lines') (hc : Clean lib lines) (hc' : Clean lib lines') (h : Content lines c) (h' : Content lines' c)
    (hh : Harmless lines) (hh' : Harmless lines') (ho : Opens lines ↔ Opens lines') (hl : lines.length ≤ 4294967296) (hl' : lines'.length ≤ 4294967296)
    (p : Calc.Plant) :
    (∃ r, readData lib (some raw) p = ok r ∧ readData lib (some raw') p = ok { r with lines := lines' }) ∨
    ((∀ r, readData lib (some raw) p ≠ ok r) ∧ readData lib (some raw') p = readData lib (some raw) p) := by
  have := readData_sim (content_agree hc hc' h h' hh hh' ho hl hl') ((C36_tidy _ _).2 hs) ((C36_tidy _ _).2 hs') p
  cases he : readData lib (some raw) p with
  | ok r =>
    rw [he, ok_bind] at this
    exact Or.inl ⟨r, rfl, this⟩
  | exit =>
    rw [he] at this
    exact Or.inr ⟨fun _ e => (by cases e), this⟩
  | throws e =>
    rw [he] at this
    exact Or.inr ⟨fun _ e => (by cases e), this⟩
  | ub =>
    rw [he] at this
    exact Or.inr ⟨fun _ e => (by cases e), this⟩
  | nonfinite =>
    rw [he] at this
    exact Or.inr ⟨fun _ e => (by cases e), this⟩

/-! ### C82 -/

theorem active_agree (hc : Clean lib lines) (hc' : Clean lib lines') (h : active lines = active lines') : Agree lib lines lines' := by
  have hf : ∀ key a b opt, findKeyword lib lines key a b opt = findKeyword lib lines' key a b opt := by
    intro key a b opt
    rcases C34_cases lines key a b with ⟨i, m, hF⟩ | hS
    · rw [findKeyword_first hc opt hF, findKeyword_first hc' opt (by unfold First Speaks at *; rw [← h]; exact hF)]
    · rw [findKeyword_silent hc opt hS, findKeyword_silent hc' opt (by unfold Silent Speaks at *; rw [← h]; exact hS)]
  refine ⟨fun _ opt => ?_, fun {one two} _ _ => ?_⟩
  · unfold look
    rw [hf]
  · have hb := block_fold lines (one := one) (two := two)
    obtain ⟨x, hx⟩ : ∃ x : Nat × Nat, Block lines one two x.1 x.2 := ⟨_, hb⟩
    refine ⟨x, x, findBlock_block hc hx, findBlock_block hc' (by unfold Block Last Speaks at *; rw [← h]; exact hx), fun _ => ?_⟩
    unfold look
    rw [hf]

/-- **C82.** Lines that begin with a percent sign, after blanks, do not matter at all, whatever is written in them. -/
theorem C82_partial (hs : Stored raw lines) (hs' : Stored raw' lines') (hc : Clean lib lines) (hc' : Clean lib lines') (h : active lines = active lines')
    (t : Calc.Tools) (p : Calc.Plant) : program lib t (some raw) p = program lib t (some raw') p :=
  (program_sim (active_agree hc hc' h) ((C36_tidy _ _).2 hs) ((C36_tidy _ _).2 hs') t p).symm

/-! ### examples -/

/-- The text of a line, computed. -/
def gistOf (l : Text) : Text := ((((small l).takeWhile (fun c => c != '%')).reverse).dropWhile isSpace).reverse

theorem takeWhile_cut (l : Text) : Cut l (l.takeWhile (fun c => c != '%')) := cut_iff.2 rfl

theorem gist_eval (l : Text) : Gist l (gistOf l) := by
  refine ⟨(((small l).takeWhile (fun c => c != '%')).reverse.takeWhile isSpace).reverse, ?_, ?_, ?_⟩
  · unfold gistOf
    rw [← List.reverse_append, List.takeWhile_append_dropWhile, List.reverse_reverse]
    exact takeWhile_cut _
  · intro c hc
    exact isSpace_iff.1 (List.mem_takeWhile_imp (List.mem_reverse.1 hc))
  · intro c hc
    unfold gistOf at hc
    rw [List.getLast?_reverse] at hc
    intro hw
    have := List.head?_dropWhile_not isSpace ((small l).takeWhile (fun c => c != '%')).reverse
    rw [Option.mem_def.1 hc] at this
    simp [isSpace_iff.2 hw] at this

/-- The content of a file, computed. -/
def contentOf (lines : List Text) : List Text := (lines.map gistOf).filter (fun t => t ≠ [])

theorem content_eval {lines c : List Text} (h : contentOf lines = c) : Content lines c := by
  subst h
  induction lines with
  | nil => exact .nil
  | cons l ls ih =>
    unfold contentOf at *
    rw [List.map_cons]
    by_cases hl : gistOf l = []
    · rw [List.filter_cons_of_neg (by simp [hl])]
      exact .skip (hl ▸ gist_eval l) ih
    · rw [List.filter_cons_of_pos (by simp [hl])]
      exact .line (gist_eval l) hl ih

theorem harmless_eval {lines : List Text}
    (h : ∀ l ∈ active lines, ∀ w ∈ vocabulary, ¬ w.toList <:+: small (l.dropWhile (fun c => c != '%'))) : Harmless lines := by
  intro l hl m r hm hr
  have : r = l.dropWhile (fun c => c != '%') := by
    have h1 := List.takeWhile_append_dropWhile (p := fun c => c != '%') (l := l)
    rw [cut_iff.1 hm] at h1
    exact List.append_cancel_left (hr.symm.trans h1.symm)
  rw [this]
  exact h l hl

theorem opens_eval {lines : List Text} {l : Text} {ls : List Text} (h : active lines = l :: ls) (hg : gistOf l ≠ []) : Opens lines :=
  ⟨l, gistOf l, by rw [h]; rfl, gist_eval l, hg⟩

/-- The heat calculation of C85 with another layout. -/
def uRaw : List Text :=
  ["   % heat conduction in a slab".toList, "  SOLVERS    Heat  ".toList, "".toList, "Geometry Slab % two layers".toList, "mesh 2 1.0 fuel 1 0.5 water".toList,
    "% the mesh has   three cells".toList, "temperatures 20.0 3".toList, " ".toList, "heat_sources 3.0 3.0 0.5%W/m3".toList,
    "solver heat".toList, "    Accuracy 0.01".toList, "    MAX_iteration_number 20".toList, "heat_boundary_conditions 0.0 1.0 0.0 1.0 0.0 20.0".toList,
    "MATERIAL Fuel".toList, "thermal_conductivity 3.0 % constant".toList, "material water".toList, "thermal_conductivity 0.5 ".toList, "".toList]

/-- What is kept of it. -/
def uKept : List Text :=
  ["% heat conduction in a slab".toList, "SOLVERS Heat ".toList, "".toList, "Geometry Slab % two layers".toList, "mesh 2 1.0 fuel 1 0.5 water".toList,
    "% the mesh has three cells".toList, "temperatures 20.0 3".toList, "".toList, "heat_sources 3.0 3.0 0.5%W/m3".toList,
    "solver heat".toList, "Accuracy 0.01".toList, "MAX_iteration_number 20".toList, "heat_boundary_conditions 0.0 1.0 0.0 1.0 0.0 20.0".toList,
    "MATERIAL Fuel".toList, "thermal_conductivity 3.0 % constant".toList, "material water".toList, "thermal_conductivity 0.5 ".toList, "".toList]

/-- C81 at work: the two layouts give the same. -/
theorem uSame (t : Calc.Tools) (p : Calc.Plant) : program vLib t (some uRaw) p = program vLib t (some vFile) p :=
  C81_partial (c := vFile) ((C36_tidy uRaw uKept).1 (by rfl)) vStored (vLib_clean _) (vLib_clean _) (content_eval (by decide +kernel)) (content_eval (by decide +kernel))
    (harmless_eval (by decide +kernel)) (harmless_eval (by decide +kernel))
    (iff_of_true (opens_eval (l := "SOLVERS Heat ".toList) (ls := (active uKept).tail) (by decide +kernel) (by decide +kernel))
      (opens_eval (l := "solvers heat".toList) (ls := (active vFile).tail) (by decide +kernel) (by decide +kernel))) (by decide +kernel) (by decide +kernel) t p

example (num : Solve.Numerics) (p : Calc.Plant) : ∃ p', program vLib (Calc.exTools num) (some uRaw) p = ok p' ∧ p'.grid.geom = .slab ∧ Meshed vRegions p'.grid := by
  obtain ⟨p', h1, h2, h3, -⟩ := C85_constant (vLib_clean vFile) vStored vProper vHeatFile vCase (tl := Calc.exTools num) Calc.exLin_solves (by norm_num) (by norm_num)
    (fun _ _ => rfl) p
  exact ⟨p', by rw [uSame]; exact h1, h2, h3⟩

/-- C82 at work: any comment may stand at the beginning. -/
example (t : Calc.Tools) (p : Calc.Plant) :
    program vLib t (some ("  % geometry sphere, solvers transport".toList :: vFile)) p = program vLib t (some vFile) p :=
  C82_partial (lines := "% geometry sphere, solvers transport".toList :: vFile) ((C36_tidy _ _).1 (by rfl)) vStored (vLib_clean _) (vLib_clean _) (by decide +kernel) t p

/-- **C82.** A comment line that is indented with a tab is not recognised: if it mentions a keyword that must be followed by one word, the behaviour is undefined. -/
theorem C82_tab (t : Calc.Tools) (p : Calc.Plant) : program vLib t (some ("\t% geometry of the wall".toList :: vFile)) p = ub := by rfl

/-- The heat calculation of C85 with a comment behind the last line. -/
def xFile : List Text := vFile.dropLast ++ ["thermal_conductivity 0.5 % material fuel has 3.0".toList]

def xLaw (_ : Text) : Vec ℝ := Vec.ofList [1 / 2]

theorem xStored : Stored xFile xFile := (C36_tidy xFile xFile).1 (by rfl)

theorem xProper : Proper xFile := proper_eval (by decide +kernel)

theorem xHeatFile : HeatFile vLib xFile .slab vRegions xLaw ⟨3, fun _ => 20⟩ (Vec.ofList [3, 3, 1 / 2]) (Vec.ofList [0, 1, 0, 1, 0, 20]) (1 / 100) 20 where
  solvers := ⟨"solvers".toList, card_eval vLib_sane (l := "solvers heat".toList) (by rfl) (by rfl)⟩
  header := ⟨"solver".toList, "heat".toList, card_eval vLib_sane (l := "solver heat".toList) (by rfl) (by rfl)⟩
  accuracy := ⟨"0.01".toList, ⟨5, 4294967295, findBlock_sound vLib_sane (b := (5, 4294967295)) (by rfl),
    card_eval vLib_sane (l := "accuracy 0.01".toList) (by rfl) (by rfl)⟩, rfl⟩
  limit := ⟨"20".toList, ⟨5, 4294967295, findBlock_sound vLib_sane (b := (5, 4294967295)) (by rfl),
    card_eval vLib_sane (l := "max_iteration_number 20".toList) (by rfl) (by rfl)⟩, .snoc (wDigit (i := 2) (by decide)) (i := 0) (by decide), by decide⟩
  boundary := ⟨["0.0".toList, "1.0".toList, "0.0".toList, "1.0".toList, "0.0".toList, "20.0".toList],
    ⟨5, 4294967295, findBlock_sound vLib_sane (b := (5, 4294967295)) (by rfl),
      card_eval vLib_sane (l := "heat_boundary_conditions 0.0 1.0 0.0 1.0 0.0 20.0".toList) (by rfl) (by rfl)⟩,
    by rw [ofList_toList]; exact .cons rfl (.cons rfl (.cons rfl (.cons rfl (.cons rfl (.cons rfl .nil))))), rfl⟩
  body := {
    geometry := ⟨"geometry".toList, "slab".toList, card_eval vLib_sane (l := "geometry slab".toList) (by rfl) (by rfl), by simp [geometries]⟩
    mesh := ⟨"mesh".toList, ["2".toList, "1.0".toList, "fuel".toList, "1".toList, "0.5".toList, "water".toList],
      card_eval vLib_sane (l := "mesh 2 1.0 fuel 1 0.5 water".toList) (by rfl) (by rfl),
      .cons (wDigit (i := 2) (by decide)) rfl (.cons (wDigit (i := 1) (by decide)) rfl .nil)⟩
    some := by simp [vRegions]
    cells := by simp [vRegions]
    few := by simp [vRegions]
    named := by
      intro q hq
      simp only [vRegions, List.mem_cons, List.not_mem_nil, or_false] at hq
      rcases hq with rfl | rfl
      · exact wNamed _ _ (by decide)
      · exact wNamed _ _ (by decide)
    headers := by
      intro q hq
      simp only [vRegions, List.mem_cons, List.not_mem_nil, or_false] at hq
      rcases hq with rfl | rfl
      · exact ⟨"material".toList, "fuel".toList, card_eval vLib_sane (l := "material fuel".toList) (by rfl) (by rfl)⟩
      · exact ⟨"material".toList, "water".toList, card_eval vLib_sane (l := "material water".toList) (by rfl) (by rfl)⟩ }
  laws := by
    intro r hr
    refine ⟨?_, le_rfl, Nat.le_of_ble_eq_true rfl⟩
    simp only [vRegions, List.mem_cons, List.not_mem_nil, or_false] at hr
    rcases hr with rfl | rfl
    · exact ⟨12, 12, ["thermal_conductivity".toList, "0.5".toList], findBlock_sound vLib_sane (b := (12, 12)) (by rfl),
        card_eval vLib_sane (l := "thermal_conductivity 0.5 % material fuel has 3.0".toList) (by rfl) (by rfl), by decide,
        by unfold xLaw; rw [ofList_toList]; exact .cons rfl .nil⟩
    · exact ⟨11, 12, ["thermal_conductivity".toList, "0.5".toList], findBlock_sound vLib_sane (b := (11, 12)) (by rfl),
        card_eval vLib_sane (l := "thermal_conductivity 0.5 % material fuel has 3.0".toList) (by rfl) (by rfl), by decide,
        by unfold xLaw; rw [ofList_toList]; exact .cons rfl .nil⟩
  temperatures := ⟨⟨"temperatures".toList, ["20.0".toList, "3".toList], card_eval vLib_sane (l := "temperatures 20.0 3".toList) (by rfl) (by rfl),
    .copies (l := [(20, 3)]) (.cons rfl (wDigit (i := 3) (by decide)) .nil) (by simp)
      (fun w hw => by
        cases hw
        exact vDecimal (a := ['2', '0']) (b := ['0']) rfl (by simp [Digit]) (by simp [Digit]) (by simp) (by simp)) (by simp)
      ⟨rfl, fun k hk j _ => by
        obtain rfl : k = 0 := by simpa using hk
        rfl⟩⟩, rfl⟩
  sources := ⟨⟨"heat_sources".toList, ["3.0".toList, "3.0".toList, "0.5".toList], card_eval vLib_sane (l := "heat_sources 3.0 3.0 0.5".toList) (by rfl) (by rfl),
    .plain (by rw [ofList_toList]; exact .cons rfl (.cons rfl (.cons rfl .nil))) (by simp)
      (fun w hw => by
        simp only [List.mem_cons, List.not_mem_nil, or_false] at hw
        rcases hw with rfl | rfl | rfl
        · exact vDecimal (a := ['3']) (b := ['0']) rfl (by simp [Digit]) (by simp [Digit]) (by simp) (by simp)
        · exact vDecimal (a := ['3']) (b := ['0']) rfl (by simp [Digit]) (by simp [Digit]) (by simp) (by simp)
        · exact vDecimal (a := ['0']) (b := ['5']) rfl (by simp [Digit]) (by simp [Digit]) (by simp) (by simp))⟩, rfl⟩
  plots := Or.inl (fun i m _ _ hS => by
    rcases findKeyword_sound vLib_sane (ls := xFile) (key := "plots".toList) (low := 0) (top := 4294967295) (opt := true) (l := []) (by rfl) with ⟨j, m', hf, e⟩ | ⟨-, -, h⟩
    · have := hf.1.2
      rw [← e, List.infix_nil] at this
      exact absurd this (by decide)
    · exact h i m (by omega) (by omega) hS)

theorem xCase : HeatCase .slab vRegions xLaw ⟨3, fun _ => 20⟩ (Vec.ofList [3, 3, 1 / 2]) (Vec.ofList [0, 1, 0, 1, 0, 20]) (fun i => i * (1 / 2)) 20 0 1 0 1 0 20 where
  wide := vCase.wide
  faces := vFaces
  two := by decide
  positive := by
    intro r hr x _
    have : Numeric.polyValue (xLaw r.mat).n (xLaw r.mat).v x = 1 / 2 := by
      simp [xLaw, Numeric.polyValue, Vec.ofList]
    rw [this]
    norm_num
  temperatures := fun i _ => le_rfl
  sources := vCase.sources
  boundaries := Or.inr (by rw [ofList_toList])
  AL_nonneg := le_rfl
  BL_nonneg := zero_le_one
  AR_nonneg := zero_le_one
  BR_nonneg := le_rfl
  left := by norm_num
  right := by norm_num
  tied := by norm_num
  lowLeft := by norm_num
  lowRight := by norm_num

/-- The temperature drop between the first two cells of the example. -/
theorem steady_drop {k : Nat → ℝ} {t : Nat → ℝ} {a : ℝ} (ha : 0 < a) (h0 : k 0 = a) (h1 : k 1 = a)
    (h : ConductedHeat .slab 3 (fun i => i * (1 / 2)) k (Vec.ofList [3, 3, 1 / 2]).v 0 1 0 1 0 20 t) : t 0 - t 1 = 3 / 4 / a := by
  obtain ⟨J, I, j1, -, j3, -, -, j5, -⟩ := h
  have f1 := j3 1 (by norm_num) (by norm_num)
  have f0 := j5 0 (by norm_num)
  rw [if_pos rfl] at j1
  obtain ⟨x, _, j1⟩ := j1
  obtain ⟨ts, f1, f2⟩ := f1
  have e : (Vec.ofList [3, 3, 1 / 2] : Vec ℝ).v 0 = 3 := rfl
  simp only [Mesh.area, intervalIntegral.integral_const, smul_eq_mul, e] at f0
  have z : J 0 = 0 := by
    have : 0 * x - 1 * (-J 0 / 1) = (0 : ℝ) := j1
    linarith
  rw [z] at f0
  norm_num at f0
  norm_num [h1, Mesh.area] at f2
  norm_num [h0, Mesh.area] at f1
  rw [eq_div_iff ha.ne']
  have g1 : a * (t 0 - ts) = J 1 / 4 := by
    rw [f1]
    ring
  have g2 : a * (ts - t 1) = J 1 / 4 := by
    rw [f2]
    ring
  linear_combination g1 + g2 + f0 / 2

/-- **C82.** A comment behind the data of a line can change the result without any message: here the conductivity of the fuel becomes that of the water, because the comment
mentions the material. -/
theorem C82_false (num : Solve.Numerics) (p : Calc.Plant) : ∃ p₁ p₂, program vLib (Calc.exTools num) (some vFile) p = ok p₁ ∧
    program vLib (Calc.exTools num) (some (vFile.dropLast ++ ["thermal_conductivity 0.5 % material fuel has 3.0".toList])) p = ok p₂ ∧
    Calc.temp p₁ 0 - Calc.temp p₁ 1 = 1 / 4 ∧ Calc.temp p₂ 0 - Calc.temp p₂ 1 = 3 / 2 := by
  obtain ⟨p₁, h1, -, -, h2⟩ := C85_constant (vLib_clean vFile) vStored vProper vHeatFile vCase (tl := Calc.exTools num) Calc.exLin_solves (by norm_num) (by norm_num)
    (fun _ _ => rfl) p
  obtain ⟨p₂, h3, -, -, h4⟩ := C85_constant (vLib_clean xFile) xStored xProper xHeatFile xCase (tl := Calc.exTools num) Calc.exLin_solves (by norm_num) (by norm_num)
    (fun _ _ => rfl) p
  refine ⟨p₁, p₂, h1, h3, ?_, ?_⟩
  · rw [steady_drop (a := 3) (by norm_num) (by rfl) (by rfl) h2]
    norm_num
  · rw [steady_drop (a := 1 / 2) (by norm_num) (by rfl) (by rfl) h4]
    norm_num

/-- A kinetics calculation whose first line is the header of the block of settings. -/
def yFile : List Text :=
  ["solver kinetics".toList, "solvers kinetics".toList, "accuracy 0.01".toList, "max_iteration_number 20".toList, "generation_time 0.5".toList,
    "initial_power 3.0".toList, "delayed_constants 0.5 1.0".toList, "delayed_fractions 0.01 0.01".toList, "times 1.0 3.0 20.0".toList,
    "reactivities 0.01 0.5 0.01".toList]

/-- **C81.** An empty line at the beginning can make the difference: the block of the first line of a file reaches to the end of the file, that of another line to the last
line with the name of such blocks. -/
theorem C81_false (p : Calc.Plant) : (∃ r, readData vLib (some yFile) p = ok r) ∧ readData vLib (some ([] :: yFile)) p = exit ∧
    ∃ c, Content yFile c ∧ Content ([] :: yFile) c := by
  refine ⟨⟨_, rfl⟩, by rfl, contentOf yFile, content_eval rfl, content_eval (by decide +kernel)⟩

end

end Verif.Input
