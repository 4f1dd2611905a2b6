import Verif.Input.MeshProps
import Mathlib.Data.Nat.Find

/-!
# Properties of the blocks of the input
-/

namespace Verif.Input

open Verif Outcome

noncomputable section

variable {lib : Lib} {ls : List Text}

theorem last_exists {key : Text} (h : ∃ i m, Speaks ls key i m) : ∃ q, Last ls key q := by
  classical
  obtain ⟨i, m, hi⟩ := h
  have hlt : ∀ j m', Speaks ls key j m' → j ≤ (active ls).length := fun j m' hj => by
    have := (List.getElem?_eq_some_iff.1 hj.1).1
    omega
  refine ⟨Nat.findGreatest (fun j => ∃ m', Speaks ls key j m') (active ls).length, ?_, fun j m' hj => ?_⟩
  · exact Nat.findGreatest_spec (P := fun j => ∃ m', Speaks ls key j m') (hlt i m hi) ⟨m, hi⟩
  · exact Nat.le_findGreatest (P := fun j => ∃ m', Speaks ls key j m') (hlt j m' hj) ⟨m', hj⟩

/-! ### C35 -/

/-- **C35.** The lines searched for the data of a block are exactly those of `Block`, whatever the file. -/
theorem C35_range (hc : Clean lib ls) (one two : Text) (a b : Nat) : findBlock lib ls one two = ok (a, b) ↔ Block ls one two a b :=
  ⟨fun h => findBlock_sound hc.1 h, fun h => findBlock_block hc h⟩

/-- **C35.** What a block says is found, if its header occurs once and not in the first line: with `s` the header and `i` the first line from there on that speaks
about the keyword, and no other section begins up to `i`, that line is taken. -/
theorem C35_partial (hc : Clean lib ls) {one two key h m : Text} {s i : Nat} (hs : Speaks ls (header one two) s h)
    (hu : ∀ j m', Speaks ls (header one two) j m' → j = s) (h0 : 0 < s) (hsi : s ≤ i) (hi : i ≤ 4294967295) (hm : Speaks ls key i m)
    (hf : ∀ j m', s ≤ j → j < i → ¬ Speaks ls key j m') (hn : ∀ j m', s < j → j ≤ i → ¬ Speaks ls one j m') :
    ∃ a b, findBlock lib ls one two = ok (a, b) ∧ findKeyword lib ls key a b = ok (small m) := by
  obtain ⟨q, hq⟩ : ∃ q, Last ls one q := last_exists ⟨s, h, hs.1, header_section hs.2⟩
  refine ⟨s, _, findBlock_block hc (block_once hs hu h0 hq), findKeyword_first hc false ⟨hm, hsi, ?_, hf⟩⟩
  split
  · exact hi
  · rename_i hne
    have hsq : s ≤ q := hq.2 s h ⟨hs.1, header_section hs.2⟩
    obtain ⟨m', hm'⟩ := hq.1
    by_contra hlt
    exact hn q m' (by omega) (by omega) hm'

/-- **C35.** What is said nowhere from the header `s` of a block to the last header of the file is missed, and the program ends; from the last header itself the whole
rest of the file counts. For the last two blocks of the file these are their own lines, for the others also those of the blocks between. -/
theorem C35_missing (hc : Clean lib ls) {one two key h : Text} {s : Nat} (hs : Speaks ls (header one two) s h)
    (hu : ∀ j m', Speaks ls (header one two) j m' → j = s) (h0 : 0 < s) {q : Nat} (hq : Last ls one q)
    (hf : ∀ j m', s ≤ j → (s < q → j ≤ q) → ¬ Speaks ls key j m') :
    ∃ a b, findBlock lib ls one two = ok (a, b) ∧ findKeyword lib ls key a b = exit := by
  refine ⟨s, _, findBlock_block hc (block_once hs hu h0 hq), findKeyword_silent hc false (fun i m h1 h2 hS => hf i m h1 (fun hlt => ?_) hS)⟩
  rw [if_neg (by omega)] at h2
  exact h2

/-- A library for the examples: `7.0` and `9.0` are what they say, every other word is one. -/
def wLib : Lib := ⟨fun w => ok (if w = "7.0".toList then 7 else if w = "9.0".toList then 9 else 1), ok 'x'⟩

theorem wLib_sane : Sane wLib := fun c e => by cases e; decide

theorem wLib_clean (ls : List Text) : Clean wLib ls := ⟨wLib_sane, fun _ => ⟨'x', rfl⟩⟩

/-- The part of the examples before the materials; `m` is what the mesh card says. -/
def wHead (m : Text) : List Text :=
  ["solvers heat".toList, "geometry sphere".toList, "mesh ".toList ++ m, "heat_sources 1.0 1.0 1.0".toList, "temperatures 1.0 1.0 1.0".toList,
    "solver heat".toList, "accuracy 1.0".toList, "max_iteration_number 10".toList, "heat_boundary_conditions 1.0 1.0 1.0".toList]

/-- The first material says nothing about its conductivity. -/
def wFile1 : List Text := wHead "1 1.0 m1 1 1.0 m2 1 1.0 m3".toList ++
  ["material m1".toList, "material m2".toList, "thermal_conductivity 7.0".toList, "material m3".toList, "thermal_conductivity 9.0".toList]

/-- The name of the first material begins the name of the second. -/
def wFile2 : List Text := wHead "1 1.0 m1 1 1.0 m10 1 1.0 m2".toList ++
  ["material m1".toList, "thermal_conductivity 1.0".toList, "material m10".toList, "thermal_conductivity 7.0".toList, "material m2".toList,
    "thermal_conductivity 9.0".toList]

theorem wNamed (c : Char) (t : Text) (h : c.isAlpha = true) : Named (c :: t) := ⟨c, t, rfl, h⟩

theorem wOne : Numeral "1".toList 1 := .digit (i := 1) (by decide)

theorem wStart (a b c : Text) (tail : List Text) (hg : readOne wLib tail "geometry".toList = ok "sphere".toList)
    (hm : readMany wLib tail "mesh".toList = ok ["1".toList, "1.0".toList, a, "1".toList, "1.0".toList, b, "1".toList, "1.0".toList, c])
    (ha : Named a) (hb : Named b) (hc : Named c) :
    ∃ bounds v, (v 0).name = String.ofList a ∧ setShape wLib ⟨tail, [newSolver .heat], p, [], [], []⟩ = ok ⟨tail, [newSolver .heat], { p with grid := { p.grid with
      geom := .sphere
      bounds := bounds
      cells := 3
      mats := ⟨3, v⟩ } }, [a, b, c], uniqueText (sortText [a, b, c]), []⟩ := by
  obtain ⟨g, h1, h2, h3, -⟩ := setMesh_ok (lib := wLib) (r := ⟨tail, [newSolver .heat], { p with grid := { p.grid with geom := .sphere } }, [], [], []⟩) hm
    (rs := [⟨1, 1, a⟩, ⟨1, 1, b⟩, ⟨1, 1, c⟩]) (.cons wOne rfl (.cons wOne rfl (.cons wOne rfl .nil))) (by simp) (by simp) (by simp)
    (by simp [ha, hb, hc]) rfl
  refine ⟨g.bounds, g.mats.v, h2.names 0 (by simp [cellNames]), ?_⟩
  have hc3 : g.cells = 3 := h2.cells
  have hm3 : (⟨3, g.mats.v⟩ : Vec Mesh.Material) = g.mats := by
    have := h2.mats
    rw [hc3] at this
    rw [← this]
  rw [hm3, ← hc3]
  show (setGeometry wLib _ >>= _) = _
  rw [show setGeometry wLib ⟨tail, [newSolver .heat], p, [], [], []⟩ = ok ⟨tail, [newSolver .heat], { p with grid := { p.grid with geom := .sphere } }, [], [], []⟩ by
    unfold setGeometry
    rw [hg]
    rfl, ok_bind, h1]
  rw [h3]
  rfl

theorem wRest (tail : List Text) (a b c : Text) (h1 : storeInput (some tail) = ok tail)
    (hh : ∀ p, setSolvers wLib ⟨tail, [], p, [], [], []⟩ = ok ⟨tail, [newSolver .heat], p, [], [], []⟩)
    (hg : readOne wLib tail "geometry".toList = ok "sphere".toList)
    (hm : readMany wLib tail "mesh".toList = ok ["1".toList, "1.0".toList, a, "1".toList, "1.0".toList, b, "1".toList, "1.0".toList, c])
    (ha : Named a) (hb : Named b) (hc : Named c) (Q : Reader → Prop) (p : Calc.Plant)
    (hQ : ∀ bounds v, (v 0).name = String.ofList a → ∃ r, (do
        let r ← setSettings wLib ⟨tail, [newSolver .heat], { p with grid := { p.grid with
          geom := .sphere
          bounds := bounds
          cells := 3
          mats := ⟨3, v⟩ } }, [a, b, c], uniqueText (sortText [a, b, c]), []⟩
        let r ← setAll wLib r.solvers r
        setPlots wLib r) = ok r ∧ Q r) : ∃ r, readData wLib (some tail) p = ok r ∧ Q r := by
  obtain ⟨bounds, v, hv, h⟩ := wStart (p := p) a b c tail hg hm ha hb hc
  obtain ⟨r, hr, hq⟩ := hQ bounds v hv
  refine ⟨r, ?_, hq⟩
  unfold readData
  rw [h1, ok_bind, hh, ok_bind, h, ok_bind]
  exact hr

/-- **C35.** For other blocks both fail. With three materials the first one, which says nothing, gets the conductivity of the second; and a material whose name begins
the name of another one gets the conductivity of that one, in spite of what it says. -/
theorem C35_false (p : Calc.Plant) :
    (∃ r, readData wLib (some wFile1) p = ok r ∧ (r.plant.grid.mats.v 0).name = "m1" ∧ (r.plant.grid.mats.v 0).kLaw = some (Vec.ofList [7]) ∧
      Speaks wFile1 (header "material".toList "m1".toList) 9 "material m1".toList ∧
      Speaks wFile1 (header "material".toList "m2".toList) 10 "material m2".toList) ∧
    (∃ r, readData wLib (some wFile2) p = ok r ∧ (r.plant.grid.mats.v 0).name = "m1" ∧ (r.plant.grid.mats.v 0).kLaw = some (Vec.ofList [7]) ∧
      Speaks wFile2 (header "material".toList "m1".toList) 9 "material m1".toList ∧
      Speaks wFile2 "thermal_conductivity".toList 10 "thermal_conductivity 1.0".toList ∧
      Speaks wFile2 (header "material".toList "m10".toList) 11 "material m10".toList) := by
  constructor
  · exact wRest wFile1 "m1".toList "m2".toList "m3".toList (by rfl) (fun _ => by rfl) (by rfl) (by rfl) (wNamed _ _ rfl) (wNamed _ _ rfl) (wNamed _ _ rfl) _ p
      (fun bounds v hv => ⟨_, rfl, hv, rfl, ⟨rfl, has_iff.1 (by decide)⟩, ⟨rfl, has_iff.1 (by decide)⟩⟩)
  · exact wRest wFile2 "m1".toList "m10".toList "m2".toList (by rfl) (fun _ => by rfl) (by rfl) (by rfl) (wNamed _ _ rfl) (wNamed _ _ rfl) (wNamed _ _ rfl) _ p
      (fun bounds v hv => ⟨_, rfl, hv, rfl, ⟨rfl, has_iff.1 (by decide)⟩, ⟨rfl, has_iff.1 (by decide)⟩, ⟨rfl, has_iff.1 (by decide)⟩⟩)

/-- Speaking about a keyword in a concrete file. -/
theorem speaks_eval {key : Text} {n : Nat} (h : ∀ i, i < n → ((active ls)[i]?.any (fun m => has (small key) (small m))) = false) {j : Nat} {m : Text}
    (hS : Speaks ls key j m) : n ≤ j := by
  by_contra hlt
  have := h j (by omega)
  rw [hS.1] at this
  simp only [Option.any_some] at this
  rw [has_iff.2 hS.2] at this
  cases this

example : findBlock wLib wFile1 "material".toList "m3".toList = ok (12, 4294967295) ∧ Block wFile1 "material".toList "m1".toList 9 12 :=
  ⟨by rfl, findBlock_sound wLib_sane (b := (9, 12)) (by rfl)⟩

example : ∃ a b, findBlock wLib wFile1 "material".toList "m2".toList = ok (a, b) ∧
    findKeyword wLib wFile1 "thermal_conductivity".toList a b = ok "thermal_conductivity 7.0".toList :=
  C35_partial (m := "thermal_conductivity 7.0".toList) (s := 10) (i := 11) (h := "material m2".toList) (wLib_clean _) ⟨rfl, has_iff.1 (by decide)⟩
    (fun j m' hS => by
      have h1 := speaks_eval (n := 10) (by decide) hS
      by_contra hne
      obtain ⟨e, hS⟩ := hS
      have hlt := (List.getElem?_eq_some_iff.1 e).1
      have hlt : j < 14 := hlt
      have : 11 ≤ j := by omega
      interval_cases j <;> cases e <;> exact absurd (has_iff.2 hS) (by decide)) (by decide) (by decide) (by decide) ⟨rfl, has_iff.1 (by decide)⟩
    (fun j m' h1 h2 hS => by
      obtain rfl : j = 10 := by omega
      obtain ⟨e, hS⟩ := hS
      cases e
      exact absurd (has_iff.2 hS) (by decide))
    (fun j m' h1 h2 hS => by
      obtain rfl : j = 11 := by omega
      obtain ⟨e, hS⟩ := hS
      cases e
      exact absurd (has_iff.2 hS) (by decide))

example : ∃ a b, findBlock wLib wFile1 "material".toList "m2".toList = ok (a, b) ∧ findKeyword wLib wFile1 "density".toList a b = exit :=
  C35_missing (s := 10) (h := "material m2".toList) (q := 12) (wLib_clean _) ⟨rfl, has_iff.1 (by decide)⟩
    (fun j m' hS => by
      have h1 := speaks_eval (n := 10) (by decide) hS
      by_contra hne
      obtain ⟨e, hS⟩ := hS
      have hlt := (List.getElem?_eq_some_iff.1 e).1
      have hlt : j < 14 := hlt
      have : 11 ≤ j := by omega
      interval_cases j <;> cases e <;> exact absurd (has_iff.2 hS) (by decide)) (by decide)
    ⟨⟨"material m3".toList, rfl, has_iff.1 (by decide)⟩, fun j m' hS => by
      by_contra hne
      obtain ⟨e, hS⟩ := hS
      have hlt := (List.getElem?_eq_some_iff.1 e).1
      have hlt : j < 14 := hlt
      obtain rfl : j = 13 := by omega
      cases e
      exact absurd (has_iff.2 hS) (by decide)⟩
    (fun j m' h1 h2 hS => by
      have := h2 (by decide)
      obtain ⟨e, hS⟩ := hS
      interval_cases j <;> cases e <;> exact absurd (has_iff.2 hS) (by decide))

end

end Verif.Input
