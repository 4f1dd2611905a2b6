import Verif.Input.PlantRead
import Verif.Input.ListProps
import Verif.Input.SettingProps

/-!
# Lemmas on complete files: every step of the reader succeeds
-/

namespace Verif.Input

open Verif Outcome

noncomputable section

variable {lib : Lib} {ls : List Text}

/-! ### lines -/

theorem cardIn_small {key key' : Text} (h : small key = small key') {a b : Nat} {ws : List Text} (hc : CardIn ls key a b ws) : CardIn ls key' a b ws := by
  obtain ⟨i, m, ⟨h1, h2, h3, h4⟩, hw⟩ := hc
  exact ⟨i, m, ⟨(speaks_small h).1 h1, h2, h3, fun j m' ha hj hS => h4 j m' ha hj ((speaks_small h).2 hS)⟩, hw⟩

theorem small_append (a b : Text) : small (a ++ b) = small a ++ small b := List.map_append

theorem findKeyword_cardIn (hc : Clean lib ls) {key : Text} {a b : Nat} {ws : List Text} (opt : Bool) (h : CardIn ls key a b ws) :
    ∃ l, findKeyword lib ls key a b opt = ok l ∧ splitLine l = ws := by
  obtain ⟨i, m, hf, hw⟩ := h
  exact ⟨_, findKeyword_first hc opt hf, says_iff.1 hw⟩

/-! ### lists of values -/

theorem values_valued {ws : List Text} {t : Vec ℝ} (h : Valued lib ws t) : ∃ x, values lib ws = ok x ∧ x.n = t.n := by
  cases h with
  | plain h h0 hd =>
    obtain ⟨x, h1, h2⟩ := C33_partial h hd
    have := congrArg List.length h2
    exact ⟨x, h1, by simpa [Vec.toList] using this⟩
  | copies h h0 hd hs ht =>
    obtain ⟨x, h1, h2⟩ := C33_repeated h h0 hd hs
    exact ⟨x, h1, h2.1.trans ht.1.symm⟩
  | spread h h0 hp hs ht =>
    obtain ⟨x, h1, h2⟩ := C33_spread h h0 hp hs
    exact ⟨x, h1, h2.1.trans ht.1.symm⟩

theorem valued_ne {ws : List Text} {t : Vec ℝ} (h : Valued lib ws t) : ws ≠ [] := by
  cases h with
  | plain h h0 hd => exact h0
  | copies h h0 hd hs ht =>
    rintro rfl
    cases h
    exact h0 rfl
  | spread h h0 hp hs ht =>
    rintro rfl
    cases h
    exact h0 rfl

theorem readValues_list (hc : Clean lib ls) {key : String} {t : Vec ℝ} (h : ListFile lib ls key t) : ∃ x, readValues lib ls key.toList = ok x ∧ x.n = t.n := by
  obtain ⟨c, ws, h1, h2⟩ := h
  unfold readValues
  rw [readMany_card hc h1 (valued_ne h2), ok_bind]
  exact values_valued h2

theorem readOne_number (hc : Clean lib ls) {key : String} {x : ℝ} (h : NumberFile lib ls key x) : ∃ w, readOne lib ls key.toList = ok w ∧ lib.stod w = ok x := by
  obtain ⟨c, w, h1, h2⟩ := h
  exact ⟨w, readOne_card hc h1, h2⟩

/-! ### settings -/

theorem setGroups_ok {n : Nat} {g : Mesh.Grid} (h : g.cells ≤ g.mats.n) : ∃ g', Mesh.setGroups n g = ok g' := by
  obtain ⟨t, ht, -⟩ := loop_inv (body := fun i => Mesh.change (fun m => { m with energies := n }) i) (n := g.cells) (s := { g with energies := n })
    (fun _ u => u.mats.n = g.mats.n) rfl (fun i u hi hu => ⟨_, change_ok (by omega), hu⟩)
  exact ⟨t, ht⟩

theorem reads_three {ws : List Text} (h : ws.length = 3) : ∃ a b c, ws = [a, b, c] := by
  match ws, h with
  | [a, b, c], _ => exact ⟨a, b, c, rfl⟩

theorem reads_six {ws : List Text} (h : ws.length = 6) : ∃ a b c d e f, ws = [a, b, c, d, e, f] := by
  match ws, h with
  | [a, b, c, d, e, f], _ => exact ⟨a, b, c, d, e, f, rfl⟩

/-- The passes of the reader, with the last one. -/
def allPasses : List (String × Calc.Kind) := passes ++ [("relaxation_parameter", .coupled)]

/-- What a pass for `input` needs of the reactor. -/
def Ready (input : Calc.Kind) (g : Diffusion.Geom) (p : Calc.Plant) : Prop :=
  input = .undefined ∨ input = .coupled ∨ (p.grid.geom = g ∧ p.grid.cells ≤ p.grid.mats.n)

theorem assign_ok {g : Diffusion.Geom} {E : Nat} {key : String} {input : Calc.Kind} {ws : List Text} {s : Calc.Settings} {p : Calc.Plant}
    (hf : Fits lib g E s.kind key ws) (hm : (key, input) ∈ allPasses) (hi : input = .undefined ∨ s.kind = input) (hr : Ready input g p) :
    ∃ x, assign lib (key.toList :: ws) input s p = ok x ∧ (key = "energies" → x.2.grid.energies = E) := by
  simp only [allPasses, passes, List.cons_append, List.nil_append, List.mem_cons, Prod.mk.injEq, List.not_mem_nil, or_false] at hm
  cases hf with
  | @accuracy v x h =>
    refine ⟨({ s with acc := x }, p), ?_, fun e => absurd e (by decide)⟩
    show oneValue lib _ v input s p = _
    unfold oneValue
    rw [if_pos rfl, h, ok_bind]
  | @limit v n h hn =>
    refine ⟨({ s with maxIter := n }, p), ?_, fun e => absurd e (by decide)⟩
    show oneValue lib _ v input s p = _
    unfold oneValue
    rw [if_neg (by decide), if_pos rfl, stoi_numeral h hn, ok_bind]
  | @relaxation v x h =>
    refine ⟨({ s with relax := x }, p), ?_, fun e => absurd e (by decide)⟩
    show oneValue lib _ v input s p = _
    unfold oneValue
    rw [if_neg (by decide), if_neg (by decide), if_pos rfl, h, ok_bind]
  | @groups v h hE =>
    have hr : p.grid.geom = g ∧ p.grid.cells ≤ p.grid.mats.n := by
      rcases hr with rfl | rfl | hr
      · simp at hm
      · simp at hm
      · exact hr
    obtain ⟨g', hg⟩ := setGroups_ok (n := E) hr.2
    refine ⟨({ s with energies := E }, { p with grid := g' }), ?_, fun _ => (setGroups_kept hg).2⟩
    show oneValue lib _ v input s p = _
    unfold oneValue
    rw [if_neg (by decide), if_neg (by decide), if_neg (by decide), if_pos rfl, stoi_numeral h hE, ok_bind, toUns_nat hE, hg, ok_bind]
  | @oneAlbedo v x hk h =>
    refine ⟨({ s with albedo := Vec.ofList [x] }, p), ?_, fun e => absurd e (by decide)⟩
    show oneValue lib _ v input s p = _
    unfold oneValue
    rw [if_neg (by decide), if_neg (by decide), if_neg (by decide), if_neg (by decide), if_pos rfl]
    have hgood : input = .transport ∨ ((input = .diffusion ∨ input = .ads) ∧ p.grid.geom ≠ .slab) := by
      simp at hm
      rcases hm with rfl | rfl | rfl
      · exact Or.inl rfl
      all_goals
        rcases hr with hr | hr | hr
        · cases hr
        · cases hr
        · rcases hi with hi | hi
          · cases hi
          · rw [hi] at hk
            rcases hk with hk | hk
            · cases hk
            · rw [hr.1]
              exact Or.inr ⟨by simp, hk⟩
    rw [if_pos hgood, h, ok_bind]
  | @twoAlbedos v w x y hk hg h h' =>
    refine ⟨({ s with albedo := Vec.ofList [x, y] }, p), ?_, fun e => absurd e (by decide)⟩
    show twoValues lib _ v w input s p = _
    unfold twoValues
    have hgood : (input = .diffusion ∨ input = .ads) ∧ p.grid.geom = .slab := by
      simp at hm
      rcases hm with rfl | rfl | rfl
      · rcases hi with hi | hi
        · cases hi
        · exact absurd hi hk
      all_goals
        rcases hr with hr | hr | hr
        · cases hr
        · cases hr
        · exact ⟨by simp, hr.1.trans hg⟩
    rw [if_pos rfl, if_pos hgood, h, ok_bind, h', ok_bind]
  | @direction v h =>
    simp at hm
    subst hm
    rcases h with rfl | rfl
    · exact ⟨({ s with direction := .forward }, p), rfl, fun e => absurd e (by decide)⟩
    · exact ⟨({ s with direction := .adjoint }, p), rfl, fun e => absurd e (by decide)⟩
  | @modes v h =>
    simp at hm
    rcases hm with rfl | rfl <;> rcases h with rfl | rfl
    · exact ⟨({ s with modes := .fundamental }, p), rfl, fun e => absurd e (by decide)⟩
    · exact ⟨({ s with modes := .all }, p), rfl, fun e => absurd e (by decide)⟩
    · exact ⟨({ s with modes := .fundamental }, p), rfl, fun e => absurd e (by decide)⟩
    · exact ⟨({ s with modes := .all }, p), rfl, fun e => absurd e (by decide)⟩
  | @three _ xs hg hl h =>
    simp at hm
    subst hm
    obtain ⟨a, b, c, rfl⟩ := reads_three hl
    refine ⟨({ s with bc := Vec.ofList xs }, p), ?_, fun e => absurd e (by decide)⟩
    show threeValues lib _ a b c .heat s p = _
    unfold threeValues setBoundary
    rcases hr with hr | hr | hr
    · cases hr
    · cases hr
    · rw [if_pos rfl, if_pos ⟨rfl, by rw [hr.1]; exact hg⟩, stods_ok h, ok_bind]
  | @six _ xs hg hl h =>
    simp at hm
    subst hm
    obtain ⟨a, b, c, d, e, f, rfl⟩ := reads_six hl
    refine ⟨({ s with bc := Vec.ofList xs }, p), ?_, fun e => absurd e (by decide)⟩
    show sixValues lib _ [a, b, c, d, e, f] .heat s p = _
    unfold sixValues setBoundary
    rcases hr with hr | hr | hr
    · cases hr
    · cases hr
    · rw [if_pos rfl, if_pos ⟨rfl, by rw [hr.1]; exact hg⟩, stods_ok h, ok_bind]
  | @source u v w x m n hu hv hm' hw hn =>
    simp at hm
    subst hm
    refine ⟨(s, { p with source := (x, m, n) }), ?_, fun e => absurd e (by decide)⟩
    show threeValues lib _ u v w .ads s p = _
    unfold threeValues
    rw [if_neg (by decide), if_pos rfl, if_pos rfl, hu, ok_bind, stoi_numeral hv hm', ok_bind, stoi_numeral hw hn, ok_bind, toUns_nat hm', toUns_nat hn]

/-- What the file says about a pass for one kind of solver. -/
def Served (lib : Lib) (ls : List Text) (g : Diffusion.Geom) (E : Nat) (key : String) (k : Calc.Kind) : Prop :=
  (∃ c w, CardIn ls ("solver ".toList ++ blockName k) 0 4294967295 [c, w]) ∧ ∃ ws, Setting ls k key ws ∧ Fits lib g E k key ws

theorem property_ok (hc : Clean lib ls) {g : Diffusion.Geom} {E : Nat} {key : String} {input : Calc.Kind} {s : Calc.Settings} {p : Calc.Plant}
    (hs : Served lib ls g E key s.kind) (hm : (key, input) ∈ allPasses) (hi : input = .undefined ∨ s.kind = input) (hr : Ready input g p) :
    ∃ x, property lib ls key.toList input s p = ok x ∧ (key = "energies" → x.2.grid.energies = E) ∧ (key ≠ "energies" → x.2.grid.energies = p.grid.energies) := by
  obtain ⟨⟨c, w, h1⟩, ws, ⟨a, b, h2, h3⟩, h4⟩ := hs
  obtain ⟨x, hx, he⟩ := assign_ok h4 hm hi hr
  refine ⟨x, ?_, he, fun h => ((assign_keeps hx).energies (fun e => h (String.toList_inj.1 e))).2⟩
  unfold property
  rw [if_neg (by tauto)]
  have h1' : CardIn ls ("solver ".toList ++ solverName s.kind) 0 4294967295 [c, w] :=
    cardIn_small (by rw [small_append, small_append, solverName_small]) h1
  rw [readOne_card hc h1', ok_bind, findBlock_block hc ((block_small (solverName_small s.kind)).2 h2), ok_bind]
  obtain ⟨l, hl, hw⟩ := findKeyword_cardIn hc false h3
  rw [hl, ok_bind, hw, hx]

theorem ready_kept {input : Calc.Kind} {g : Diffusion.Geom} {p p' : Calc.Plant} (h : Ready input g p) (hk : Kept p.grid p'.grid) : Ready input g p' := by
  rcases h with h | h | h
  · exact Or.inl h
  · exact Or.inr (Or.inl h)
  · exact Or.inr (Or.inr ⟨hk.geom.trans h.1, by rw [hk.cells, hk.size]; exact h.2⟩)

theorem properties_ok (hc : Clean lib ls) {g : Diffusion.Geom} {E : Nat} {key : String} {input : Calc.Kind} (hm : (key, input) ∈ allPasses)
    {ss : List Calc.Settings} {p : Calc.Plant} (hs : ∀ s ∈ ss, input = .undefined ∨ s.kind = input → Served lib ls g E key s.kind ∧ Ready input g p) :
    ∃ x, properties lib ls key.toList input ss p = ok x ∧
      (p.grid.energies = E ∨ (key = "energies" ∧ input ∈ ss.map Calc.Settings.kind) → x.2.grid.energies = E) := by
  induction ss generalizing p with
  | nil => exact ⟨([], p), rfl, by simp⟩
  | cons s ss ih =>
    have hx : ∃ x, property lib ls key.toList input s p = ok x ∧ (p.grid.energies = E ∨ (key = "energies" ∧ s.kind = input) → x.2.grid.energies = E) := by
      by_cases hi : input = .undefined ∨ s.kind = input
      · obtain ⟨h1, h2⟩ := hs s (by simp) hi
        obtain ⟨x, hx, h3, h4⟩ := property_ok hc h1 hm hi h2
        refine ⟨x, hx, fun h => ?_⟩
        by_cases hk : key = "energies"
        · exact h3 hk
        · rcases h with h | h
          · exact (h4 hk).trans h
          · exact absurd h.1 hk
      · refine ⟨(s, p), ?_, fun h => ?_⟩
        · unfold property
          rw [if_pos (by tauto)]
        · rcases h with h | h
          · exact h
          · exact absurd (Or.inr h.2) hi
    obtain ⟨x, hx, hx'⟩ := hx
    obtain ⟨y, hy, hy'⟩ := ih (p := x.2) (fun t ht hi => by
      obtain ⟨h1, h2⟩ := hs t (by simp [ht]) hi
      exact ⟨h1, ready_kept h2 (property_same hx).grid⟩)
    refine ⟨(x.1 :: y.1, y.2), ?_, fun h => hy' ?_⟩
    · unfold properties
      rw [hx, ok_bind, hy, ok_bind]
    · rcases h with h | ⟨h, h'⟩
      · exact Or.inl (hx' (Or.inl h))
      · rw [List.map_cons, List.mem_cons] at h'
        rcases h' with h' | h'
        · exact Or.inl (hx' (Or.inr ⟨h, h'.symm⟩))
        · exact Or.inr ⟨h, h'⟩

theorem setProperty_ok {g : Diffusion.Geom} {E : Nat} {key : String} {input : Calc.Kind} (hm : (key, input) ∈ allPasses) {r : Reader} (hc : Clean lib r.lines)
    (hs : ∀ k ∈ r.solvers.map Calc.Settings.kind, input = .undefined ∨ k = input → Served lib r.lines g E key k ∧ Ready input g r.plant) :
    ∃ r', setProperty lib key input r = ok r' ∧
      (r.plant.grid.energies = E ∨ (key = "energies" ∧ input ∈ r.solvers.map Calc.Settings.kind) → r'.plant.grid.energies = E) := by
  obtain ⟨x, hx, he⟩ := properties_ok hc hm (fun s hs' hi => hs s.kind (List.mem_map_of_mem hs') hi)
  refine ⟨{ r with
    solvers := x.1
    plant := x.2 }, ?_, he⟩
  unfold setProperty
  rw [hx, ok_bind]

/-- Several passes. -/
def runPasses (lib : Lib) : List (String × Calc.Kind) → Reader → Outcome Reader
  | [], r => ok r
  | x :: l, r => setProperty lib x.1 x.2 r >>= runPasses lib l

theorem setSettings_passes (r : Reader) : setSettings lib r = (runPasses lib passes r >>= setRelaxation lib) := by
  simp only [setSettings, passes, runPasses, bind_assoc]
  rfl

theorem runPasses_ok {g : Diffusion.Geom} {E : Nat} {l : List (String × Calc.Kind)} (hm : ∀ x ∈ l, x ∈ allPasses) {r : Reader} (hc : Clean lib r.lines)
    (hs : ∀ x ∈ l, ∀ k ∈ r.solvers.map Calc.Settings.kind, x.2 = .undefined ∨ k = x.2 → Served lib r.lines g E x.1 k ∧ Ready x.2 g r.plant) :
    ∃ r', runPasses lib l r = ok r' ∧ Frame r r' ∧
      (r.plant.grid.energies = E ∨ (∃ x ∈ l, x.1 = "energies" ∧ x.2 ∈ r.solvers.map Calc.Settings.kind) → r'.plant.grid.energies = E) := by
  induction l generalizing r with
  | nil => exact ⟨r, rfl, Frame.refl r, by simp⟩
  | cons x l ih =>
    obtain ⟨r1, h1, e1⟩ := setProperty_ok (hm x (by simp)) hc (hs x (by simp))
    have f1 := setProperty_frame h1
    obtain ⟨r2, h2, f2, e2⟩ := ih (fun y hy => hm y (by simp [hy])) (r := r1) (by rw [f1.lines]; exact hc) (fun y hy k hk hi => by
      rw [f1.kinds] at hk
      obtain ⟨a, b⟩ := hs y (by simp [hy]) k hk hi
      rw [f1.lines]
      exact ⟨a, ready_kept b f1.grid⟩)
    refine ⟨r2, ?_, f1.trans f2, fun h => e2 ?_⟩
    · unfold runPasses
      rw [h1, ok_bind, h2]
    · rw [f1.kinds]
      rcases h with h | ⟨y, hy, h, h'⟩
      · exact Or.inl (e1 (Or.inl h))
      · rcases List.mem_cons.1 hy with rfl | hy
        · exact Or.inl (e1 (Or.inr ⟨h, h'⟩))
        · exact Or.inr ⟨y, hy, h, h'⟩

theorem setRelaxation_ok {g : Diffusion.Geom} {E : Nat} {r : Reader} (hc : Clean lib r.lines)
    (hs : (.transport ∈ r.solvers.map Calc.Settings.kind ∨ .diffusion ∈ r.solvers.map Calc.Settings.kind) → .heat ∈ r.solvers.map Calc.Settings.kind →
      .coupled ∈ r.solvers.map Calc.Settings.kind → Served lib r.lines g E "relaxation_parameter" .coupled) :
    ∃ r', setRelaxation lib r = ok r' ∧ (r.plant.grid.energies = E → r'.plant.grid.energies = E) := by
  unfold setRelaxation
  split
  · rename_i h
    simp only [Bool.and_eq_true, Bool.or_eq_true, isHere_iff] at h
    obtain ⟨r', h1, h2⟩ := setProperty_ok (key := "relaxation_parameter") (input := .coupled) (g := g) (E := E) (by simp [allPasses]) hc (fun k hk hi => by
      rcases hi with hi | rfl
      · cases hi
      · exact ⟨hs h.1.1 h.1.2 h.2, Or.inr (Or.inl rfl)⟩)
    exact ⟨r', h1, fun e => h2 (Or.inl e)⟩
  · exact ⟨r, rfl, id⟩

/-! ### materials -/

theorem eachMaterial_ok (hc : Clean lib ls) {map : List Text} {body : Nat × Nat → Nat → Mesh.Grid → Outcome Mesh.Grid} {ws : List Text} {g : Mesh.Grid}
    (hh : ∀ w ∈ ws, ∃ c v, CardIn ls ("material ".toList ++ w) 0 4294967295 [c, v])
    (hb : ∀ w ∈ ws, ∀ b, Block ls "material".toList w b.1 b.2 → ∀ m u, map[m]? = some w → m < u.mats.n → ∃ u', body b m u = ok u' ∧ Kept u u')
    (h1 : g.cells ≤ map.length) (h2 : g.cells ≤ g.mats.n) : ∃ g', eachMaterial lib ls map body ws g = ok g' := by
  induction ws generalizing g with
  | nil => exact ⟨g, rfl⟩
  | cons w ws ih =>
    obtain ⟨c, v, hcard⟩ := hh w (by simp)
    have hblock := block_fold ls "material".toList w
    have hfind := findBlock_block hc hblock
    obtain ⟨g1, hl, hk⟩ := loop_inv (n := g.cells) (s := g) (body := fun m g => do
        let v ← (Vec.ofList map).get m
        if v = w then body _ m g else ok g) (fun _ u => Kept g u) (Kept.refl g) (fun i u hi hu => by
      have hget : (Vec.ofList map).get i = ok map[i] := by
        rw [Vec.get_ok (by show i < map.length; omega)]
        congr 1
        show map.getD i default = _
        exact getD_get _ (by omega)
      show ∃ t', ((Vec.ofList map).get i >>= fun v => _) = ok t' ∧ _
      rw [hget, ok_bind]
      by_cases hw : map[i] = w
      · rw [if_pos hw]
        obtain ⟨u', h3, h4⟩ := hb w (by simp) _ hblock i u (by rw [List.getElem?_eq_getElem (by omega), hw]) (by rw [hu.size]; omega)
        exact ⟨u', h3, hu.trans h4⟩
      · rw [if_neg hw]
        exact ⟨u, rfl, hu⟩)
    obtain ⟨g2, h3⟩ := ih (g := g1) (fun w' h' => hh w' (by simp [h'])) (fun w' h' => hb w' (by simp [h'])) (by rw [hk.cells]; exact h1)
      (by rw [hk.cells, hk.size]; exact h2)
    refine ⟨g2, ?_⟩
    unfold eachMaterial
    rw [readOne_card hc hcard, ok_bind, hfind, ok_bind, hl, ok_bind, h3]

theorem readLaw_ok (hc : Clean lib ls) {w key : Text} {b : Nat × Nat} {n : Nat} {v : Vec ℝ} (hl : Law lib ls w key n v) (hb : Block ls "material".toList w b.1 b.2)
    {put : Mesh.Material → Vec ℝ → Mesh.Material} {m : Nat} {g : Mesh.Grid} (hm : m < g.mats.n) : ∃ g', readLaw lib ls b key n put m g = ok g' := by
  obtain ⟨a, a', ws, h1, h2, h3, h4⟩ := hl
  obtain ⟨rfl, rfl⟩ := block_unique h1 hb
  obtain ⟨l, hl, hw⟩ := findKeyword_cardIn hc false h2
  unfold readLaw skip addLaw
  rw [hl, ok_bind, hw, if_pos h3, ok_bind, if_pos hm, stods_ok h4, ok_bind, change_ok hm]
  exact ⟨_, rfl⟩

/-- The materials of the reader and the file. -/
structure Stocked (ls : List Text) (rs : List Region) (r : Reader) : Prop where
  lines : r.lines = ls
  nodup : r.mats.Nodup
  mats : ∀ w ∈ r.mats, ∃ q ∈ rs, q.mat = w
  names : (cellNames rs).length ≤ r.plant.grid.mats.n
  map : r.plant.grid.cells ≤ r.map.length
  size : r.plant.grid.cells ≤ r.plant.grid.mats.n
  headers : ∀ q ∈ rs, ∃ c w, CardIn ls ("material ".toList ++ q.mat) 0 4294967295 [c, w]

theorem Stocked.frame {rs : List Region} {r r' : Reader} (h : Stocked ls rs r) (f : Frame r r') : Stocked ls rs r' :=
  ⟨f.lines.trans h.lines, by rw [f.mats]; exact h.nodup, by rw [f.mats]; exact h.mats, by rw [f.grid.size]; exact h.names, by rw [f.map, f.grid.cells]; exact h.map, by rw [f.grid.cells, f.grid.size]; exact h.size, h.headers⟩

theorem stocked_each (hc : Clean lib ls) {rs : List Region} {r : Reader} (h : Stocked ls rs r) {body : Nat × Nat → Nat → Mesh.Grid → Outcome Mesh.Grid}
    (hb : ∀ q ∈ rs, ∀ b, Block ls "material".toList q.mat b.1 b.2 → ∀ m u, m < u.mats.n → ∃ u', body b m u = ok u' ∧ Kept u u') :
    ∃ g', eachMaterial lib r.lines r.map body r.mats r.plant.grid = ok g' := by
  rw [h.lines]
  refine eachMaterial_ok hc (fun w hw => ?_) (fun w hw b hB m u _ hm => ?_) h.map h.size
  · obtain ⟨q, hq, rfl⟩ := h.mats w hw
    exact h.headers q hq
  · obtain ⟨q, hq, rfl⟩ := h.mats w hw
    exact hb q hq b hB m u hm

theorem setXS_ok (hc : Clean lib ls) {rs : List Region} {r : Reader} (h : Stocked ls rs r) {name : String} {put : Mesh.Material → Vec ℝ → Mesh.Material}
    (hp : ∀ m v, label (put m v) = label m) (hl : ∀ q ∈ rs, ∀ e, e < r.plant.grid.energies → ∃ v, Law lib ls q.mat (groupKey name e) 1 v) :
    ∃ r', setXS lib name put r = ok r' := by
  obtain ⟨g', hg⟩ := stocked_each hc h (body := fun b m g =>
      loop (fun i g => readLaw lib r.lines b (name.toList ++ "(".toList ++ number (i + 1) ++ ")".toList) 1 put m g) r.plant.grid.energies g) (fun q hq b hB m u hm =>
    loop_inv (fun _ t => Kept u t) (Kept.refl u) (fun i t hi ht => by
      obtain ⟨v, hv⟩ := hl q hq i hi
      rw [groupKey_eq, h.lines]
      obtain ⟨t', h1⟩ := readLaw_ok hc hv hB (put := put) (m := m) (g := t) (by rw [ht.size]; exact hm)
      exact ⟨t', h1, ht.trans (readLaw_kept hp h1)⟩))
  exact ⟨_, bind_eq_ok.2 ⟨g', hg, rfl⟩⟩

theorem setScattering_ok (hc : Clean lib ls) {rs : List Region} {r : Reader} (h : Stocked ls rs r)
    (hl : ∀ q ∈ rs, ∀ e f, e < r.plant.grid.energies → f < r.plant.grid.energies → ∃ v, Law lib ls q.mat (scattKey e f) 2 v) :
    ∃ r', setScattering lib r = ok r' := by
  obtain ⟨g', hg⟩ := stocked_each hc h (body := fun b m g =>
      loop (fun i g => loop (fun j g =>
        readLaw lib r.lines b ("scattMatrix(".toList ++ number (i + 1) ++ ", ".toList ++ number (j + 1) ++ ")".toList) 2
          (fun x v => { x with scatt := x.scatt ++ [v] }) m g) r.plant.grid.energies g) r.plant.grid.energies g) (fun q hq b hB m u hm =>
    loop_inv (fun _ t => Kept u t) (Kept.refl u) (fun i t hi ht =>
      loop_inv (fun _ t' => Kept u t') ht (fun j t' hj ht' => by
        obtain ⟨v, hv⟩ := hl q hq i j hi hj
        rw [scattKey_eq, h.lines]
        obtain ⟨t'', h1⟩ := readLaw_ok hc hv hB (put := fun x v => { x with scatt := x.scatt ++ [v] }) (m := m) (g := t') (by rw [ht'.size]; exact hm)
        exact ⟨t'', h1, ht'.trans (readLaw_kept (put := fun x v => { x with scatt := x.scatt ++ [v] }) (fun _ _ => rfl) h1)⟩)))
  exact ⟨_, bind_eq_ok.2 ⟨g', hg, rfl⟩⟩

theorem setConductivity_ok (hc : Clean lib ls) {rs : List Region} {r : Reader} (h : Stocked ls rs r)
    (hl : ∀ q ∈ rs, ∃ v, Law lib ls q.mat "thermal_conductivity".toList 1 v ∧ 1 ≤ v.n ∧ v.n ≤ 3) : ∃ r', setConductivity lib r = ok r' := by
  obtain ⟨g', hg⟩ := stocked_each hc h (body := fun b m g => do
      let l ← findKeyword lib r.lines "thermal_conductivity".toList b.1 b.2
      conductivityLaw lib (splitLine l) m g) (fun q hq b hB m u hm => by
    obtain ⟨v, ⟨a, a', ws, h1, h2, h3, h4⟩, h5, h6⟩ := hl q hq
    obtain ⟨e1, e2⟩ := block_unique h1 hB
    rw [e1, e2] at h2
    obtain ⟨l, hl, hw⟩ := findKeyword_cardIn hc false h2
    have hlen : (ws.drop 1).length = v.n := by
      rw [h4.length_eq]
      simp [Vec.toList]
    rw [h.lines]
    show ∃ u', (findKeyword _ _ _ _ _ >>= fun l => _) = ok u' ∧ _
    rw [hl, ok_bind, hw]
    match ws, h3 with
    | [x], _ =>
      simp at hlen
      omega
    | x :: y :: t, _ =>
      simp only [List.drop_one, List.tail_cons] at h4 hlen
      show ∃ u', (if (y :: t).length ≤ 3 then _ else _) = ok u' ∧ _
      rw [if_pos (by omega), stods_ok h4, ok_bind, change_ok hm]
      exact ⟨_, rfl, change_kept (f := fun m => { m with kLaw := some (Vec.ofList v.toList) }) (change_ok hm) (fun _ => rfl)⟩)
  exact ⟨_, bind_eq_ok.2 ⟨g', hg, rfl⟩⟩

/-! ### fields and kinetics -/

theorem setHeatSources_ok {t : Vec ℝ} {g : Mesh.Grid} (h : t.n ≤ g.mats.n) : ∃ g', Mesh.setHeatSources t g = ok g' := by
  obtain ⟨u, hu, -⟩ := loop_inv (n := t.n) (s := g) (body := fun i M => do
      let y ← t.get i
      Mesh.change (fun m => { m with q := y }) i M) (fun _ u => u.mats.n = g.mats.n) rfl (fun i u hi hu =>
    ⟨_, bind_eq_ok.2 ⟨_, Vec.get_ok hi, change_ok (by omega)⟩, hu⟩)
  exact ⟨u, hu⟩

theorem setTemperatures_ok {t : Vec ℝ} {g : Mesh.Grid} (h : t.n ≤ g.mats.n) : ∃ g', Mesh.setTemperatures t g = ok g' := by
  obtain ⟨u, hu, -⟩ := loop_inv (n := t.n) (s := g) (body := fun i M => do
      let y ← t.get i
      Mesh.change (fun m => { m with T := y }) i M) (fun _ u => u.mats.n = g.mats.n) rfl (fun i u hi hu =>
    ⟨_, bind_eq_ok.2 ⟨_, Vec.get_ok hi, change_ok (by omega)⟩, hu⟩)
  exact ⟨u, hu⟩

theorem setKinetics_ok {r : Reader} (hc : Clean lib r.lines) (h1 : ∃ x, NumberFile lib r.lines "generation_time" x) (h2 : ∃ x, NumberFile lib r.lines "initial_power" x)
    (h3 : ∃ t, ListFile lib r.lines "delayed_constants" t) (h4 : ∃ t, ListFile lib r.lines "delayed_fractions" t)
    (h5 : ∃ t t', ListFile lib r.lines "times" t ∧ ListFile lib r.lines "reactivities" t' ∧ t.n = t'.n) : ∃ r', setKinetics lib r = ok r' := by
  obtain ⟨x1, h1⟩ := h1
  obtain ⟨x2, h2⟩ := h2
  obtain ⟨t3, h3⟩ := h3
  obtain ⟨t4, h4⟩ := h4
  obtain ⟨t5, t6, h5, h6, he⟩ := h5
  obtain ⟨w1, a1, b1⟩ := readOne_number hc h1
  obtain ⟨w2, a2, b2⟩ := readOne_number hc h2
  obtain ⟨y3, a3, b3⟩ := readValues_list hc h3
  obtain ⟨y4, a4, b4⟩ := readValues_list hc h4
  obtain ⟨y5, a5, b5⟩ := readValues_list hc h5
  obtain ⟨y6, a6, b6⟩ := readValues_list hc h6
  unfold setKinetics
  rw [a1, ok_bind, b1, ok_bind, a2, ok_bind, b2, ok_bind, a3, ok_bind, a4, ok_bind, a5, ok_bind, a6, ok_bind, if_pos (by omega)]
  exact ⟨_, rfl⟩

/-! ### the data of the solvers -/

theorem setNuclear_ok (hc : Clean lib ls) {rs : List Region} {E : Nat} {r : Reader} (h : Stocked ls rs r) (he : r.plant.grid.energies = E) {k : Calc.Kind} {d : Bool}
    (hd : d = true → k = .diffusion ∨ k = .ads)
    (ht : ∀ q ∈ rs, ∀ name ∈ tables k, ∀ e, e < E → ∃ v, Law lib ls q.mat (groupKey name e) 1 v)
    (hS : ∀ q ∈ rs, ∀ e f, e < E → f < E → ∃ v, Law lib ls q.mat (scattKey e f) 2 v) :
    ∃ r', setNuclear lib d r = ok r' ∧ r'.plant.grid.energies = E := by
  subst he
  have step : ∀ {name : String} {put : Mesh.Material → Vec ℝ → Mesh.Material} {r1 : Reader}, name ∈ tables k → (∀ m v, label (put m v) = label m) → Stocked ls rs r1 →
      r1.plant.grid.energies = r.plant.grid.energies → ∃ r2, setXS lib name put r1 = ok r2 ∧ Stocked ls rs r2 ∧ r2.plant.grid.energies = r.plant.grid.energies := by
    intro name put r1 hname hp h1 e1
    obtain ⟨r2, h2⟩ := setXS_ok hc h1 hp (name := name) (fun q hq e he => ht q hq name hname e (by omega))
    exact ⟨r2, h2, h1.frame (setXS_frame h2 hp).1, (setXS_effect hc.1 h1.nodup h2).mats.energies.trans e1⟩
  obtain ⟨r1, a1, b1, c1⟩ := step (name := "ni") (put := fun x v => { x with nu := x.nu ++ [v] }) (by simp [tables]) (fun _ _ => rfl) h rfl
  obtain ⟨r2, a2, b2, c2⟩ := step (name := "chi") (put := fun x v => { x with chi := x.chi ++ [v] }) (by simp [tables]) (fun _ _ => rfl) b1 c1
  obtain ⟨r3, a3, b3, c3⟩ := step (name := "fission") (put := fun x v => { x with fiss := x.fiss ++ [v] }) (by simp [tables]) (fun _ _ => rfl) b2 c2
  obtain ⟨r4, a4, b4, c4⟩ := step (name := "total") (put := fun x v => { x with tot := x.tot ++ [v] }) (by simp [tables]) (fun _ _ => rfl) b3 c3
  have h5 : ∃ r5, setDiffusion lib d r4 = ok r5 ∧ Stocked ls rs r5 ∧ r5.plant.grid.energies = r.plant.grid.energies := by
    cases d with
    | false => exact ⟨r4, rfl, b4, c4⟩
    | true =>
      exact step (name := "diffCoeff") (put := fun x v => { x with diff := x.diff ++ [v] }) (by simp [tables, hd rfl]) (fun _ _ => rfl) b4 c4
  obtain ⟨r5, a5, b5, c5⟩ := h5
  obtain ⟨r6, a6⟩ := setScattering_ok hc b5 (fun q hq e f he hf => hS q hq e f (by omega) (by omega))
  refine ⟨r6, ?_, (setScattering_effect hc.1 b5.nodup a6).mats.energies.trans c5⟩
  unfold setNuclear
  rw [a1, ok_bind, a2, ok_bind, a3, ok_bind, a4, ok_bind, a5, ok_bind, a6]

theorem setHeat_ok (hc : Clean lib ls) {rs : List Region} {r : Reader} (h : Stocked ls rs r)
    (hl : ∀ q ∈ rs, ∃ v, Law lib ls q.mat "thermal_conductivity".toList 1 v ∧ 1 ≤ v.n ∧ v.n ≤ 3)
    (ht : ∃ t, ListFile lib ls "temperatures" t ∧ t.n ≤ (cellNames rs).length)
    (hq : (isHere r.solvers .transport || isHere r.solvers .diffusion) = false → ∃ t, ListFile lib ls "heat_sources" t ∧ t.n ≤ (cellNames rs).length)
    (hp : (isHere r.solvers .transport || isHere r.solvers .diffusion) = true → ∃ x, NumberFile lib ls "thermal_power" x) :
    ∃ r', setHeat lib r = ok r' ∧ r'.plant.grid.energies = r.plant.grid.energies := by
  have h1 : ∃ r1, setLoad lib r = ok r1 ∧ r1.plant.grid.energies = r.plant.grid.energies := by
    unfold setLoad
    cases hf : (isHere r.solvers .transport || isHere r.solvers .diffusion) with
    | true =>
      obtain ⟨x, hx⟩ := hp hf
      obtain ⟨w, h1, h2⟩ := readOne_number hc hx
      refine ⟨{ r with plant := { r.plant with power := x } }, ?_, rfl⟩
      rw [if_pos rfl]
      unfold setPower
      rw [h.lines, h1, ok_bind, h2, ok_bind]
    | false =>
      obtain ⟨t, h1, h2⟩ := hq hf
      obtain ⟨x, h3, h4⟩ := readValues_list hc h1
      have := h.names
      obtain ⟨g', hg⟩ := setHeatSources_ok (t := x) (g := r.plant.grid) (by omega)
      have hset : setSources lib r = ok { r with plant := { r.plant with grid := g' } } := by
        unfold setSources
        rw [h.lines, h3, ok_bind, hg, ok_bind]
      refine ⟨_, by rw [if_neg (by simp)]; exact hset, ?_⟩
      obtain ⟨y, -, -, hcw⟩ := setSources_effect hset
      exact hcw.mats.energies
  obtain ⟨r1, a1, c1⟩ := h1
  have s1 := h.frame (setLoad_frame a1).1
  obtain ⟨r2, a2⟩ := setConductivity_ok hc s1 hl
  have c2 := (setConductivity_effect hc.1 s1.nodup a2).mats.energies
  have s2 := s1.frame (setConductivity_frame a2).1
  obtain ⟨t, h1, h2⟩ := ht
  obtain ⟨x, h3, h4⟩ := readValues_list hc h1
  have := s2.names
  obtain ⟨g', hg⟩ := setTemperatures_ok (t := x) (g := r2.plant.grid) (by omega)
  have hset : setTemps lib r2 = ok { r2 with plant := { r2.plant with grid := g' } } := by
    unfold setTemps
    rw [s2.lines, h3, ok_bind, hg, ok_bind]
  obtain ⟨y, -, -, hcw⟩ := setTemps_effect hset
  refine ⟨_, ?_, hcw.mats.energies.trans (c2.trans c1)⟩
  unfold setHeat
  rw [a1, ok_bind, a2, ok_bind, hset]

/-- What the reader must have before the data of the solvers `ks` are read. -/
structure Prepared (ls : List Text) (ks : List Calc.Kind) (rs : List Region) (E : Nat) (r : Reader) : Prop where
  lines : r.lines = ls
  kinds : r.solvers.map Calc.Settings.kind = everyone ks
  stocked : (∃ k ∈ ks, k ≠ .kinetics) → Stocked ls rs r
  energies : (∃ k ∈ ks, k ∈ neutronics) → r.plant.grid.energies = E

theorem Prepared.frame {ks : List Calc.Kind} {rs : List Region} {E : Nat} {r r' : Reader} (h : Prepared ls ks rs E r) (f : Frame r r')
    (he : (∃ k ∈ ks, k ∈ neutronics) → r'.plant.grid.energies = E) : Prepared ls ks rs E r' :=
  ⟨f.lines.trans h.lines, f.kinds.trans h.kinds, fun hk => (h.stocked hk).frame f, he⟩

theorem mem_everyone {ks : List Calc.Kind} {k : Calc.Kind} (hk : k ≠ .coupled) : k ∈ everyone ks ↔ k ∈ ks := by
  unfold everyone
  rw [List.mem_append]
  refine ⟨fun h => h.elim id (fun h => ?_), Or.inl⟩
  split at h
  · exact absurd (List.mem_singleton.1 h) hk
  · cases h

theorem names_kinds {ws : List Text} {ks : List Calc.Kind} (h : Names ws ks) : ∀ k ∈ ks, k ≠ .coupled ∧ k ≠ .undefined := by
  induction h with
  | nil => simp
  | cons h1 h2 ih =>
    intro k hk
    rcases List.mem_cons.1 hk with rfl | hk
    · simp [solverNames] at h1
      rcases h1 with ⟨-, rfl⟩ | ⟨-, rfl⟩ | ⟨-, rfl⟩ | ⟨-, rfl⟩ | ⟨-, rfl⟩ <;> simp
    · exact ih k hk

theorem setData_ok (hc : Clean lib ls) {ks : List Calc.Kind} {g : Diffusion.Geom} {rs : List Region} {E : Nat} (h : Full lib ls ks g rs E) {r : Reader}
    (hr : Prepared ls ks rs E r) {k : Calc.Kind} (hk : k ∈ everyone ks) : ∃ r', setData lib k r = ok r' ∧ Prepared ls ks rs E r' := by
  have hfed : (isHere r.solvers .transport || isHere r.solvers .diffusion) = true ↔ .transport ∈ ks ∨ .diffusion ∈ ks := by
    simp only [Bool.or_eq_true, isHere_iff, hr.kinds]
    rw [mem_everyone (by simp), mem_everyone (by simp)]
  have nuc : ∀ k d, k ∈ ks → k ∈ neutronics → (d = true → k = .diffusion ∨ k = .ads) → ∃ r', setNuclear lib d r = ok r' ∧ Prepared ls ks rs E r' := by
    intro k d hk hn hd
    obtain ⟨r', h1, h2⟩ := setNuclear_ok hc (hr.stocked ⟨k, hk, by rintro rfl; simp [neutronics] at hn⟩) (hr.energies ⟨k, hk, hn⟩) hd (h.tables k hk hn) (h.scattering k hk hn)
    exact ⟨r', h1, hr.frame (setNuclear_frame h1).1 (fun _ => h2)⟩
  cases k with
  | undefined => exact ⟨r, rfl, hr⟩
  | coupled => exact ⟨r, rfl, hr⟩
  | transport => exact nuc .transport false ((mem_everyone (by simp)).1 hk) (by simp [neutronics]) (by simp)
  | diffusion => exact nuc .diffusion true ((mem_everyone (by simp)).1 hk) (by simp [neutronics]) (by simp)
  | ads => exact nuc .ads true ((mem_everyone (by simp)).1 hk) (by simp [neutronics]) (by simp)
  | heat =>
    have hk := (mem_everyone (by simp)).1 hk
    obtain ⟨r', h1, h2⟩ := setHeat_ok hc (hr.stocked ⟨_, hk, by simp⟩) (h.conductivity hk) (h.temperatures hk) (fun e => by
      rw [← Bool.not_eq_true, hfed] at e
      exact h.sources hk (fun h => e (Or.inl h)) (fun h => e (Or.inr h))) (fun e => h.power hk (hfed.1 e))
    exact ⟨r', h1, hr.frame (setHeat_frame h1).1 (fun hn => h2.trans (hr.energies hn))⟩
  | kinetics =>
    obtain ⟨h1, h2, h3, h4, h5⟩ := h.kinetics ((mem_everyone (by simp)).1 hk)
    rw [← hr.lines] at h1 h2 h3 h4 h5
    obtain ⟨r', h6⟩ := setKinetics_ok (by rw [hr.lines]; exact hc) h1 h2 h3 h4 h5
    refine ⟨r', h6, hr.frame (setData_frame (k := .kinetics) h6).1 (fun hn => ?_)⟩
    obtain ⟨x, rfl⟩ := setKinetics_eq h6
    exact hr.energies hn

theorem setAll_ok (hc : Clean lib ls) {ks : List Calc.Kind} {g : Diffusion.Geom} {rs : List Region} {E : Nat} (h : Full lib ls ks g rs E) {ss : List Calc.Settings}
    {r : Reader} (hr : Prepared ls ks rs E r) (hs : ∀ s ∈ ss, s.kind ∈ everyone ks) : ∃ r', setAll lib ss r = ok r' ∧ Prepared ls ks rs E r' := by
  induction ss generalizing r with
  | nil => exact ⟨r, rfl, hr⟩
  | cons s ss ih =>
    obtain ⟨r1, h1, h2⟩ := setData_ok hc h hr (hs s (by simp))
    obtain ⟨r2, h3, h4⟩ := ih h2 (fun t ht => hs t (by simp [ht]))
    refine ⟨r2, ?_, h4⟩
    unfold setAll
    rw [h1, ok_bind, h3]

/-! ### all stages -/

theorem solverList_ok {ws : List Text} {ks : List Calc.Kind} (h : Names ws ks) : solverList ws = ok (ks.map newSolver) := by
  induction h with
  | nil => rfl
  | cons h1 h2 ih =>
    unfold solverList
    rw [kindOf_name h1, ok_bind, ih, ok_bind, List.map_cons]

theorem setSolvers_ok (hc : Clean lib ls) {c : Text} {ws : List Text} {ks : List Calc.Kind} (h : Card ls "solvers" (c :: ws)) (hn : Names ws ks) (h0 : ks ≠ []) (p : Calc.Plant) :
    setSolvers lib ⟨ls, [], p, [], [], []⟩ = ok ⟨ls, (everyone ks).map newSolver, p, [], [], []⟩ := by
  have hw : ws ≠ [] := by
    rintro rfl
    cases hn
    exact h0 rfl
  unfold setSolvers
  rw [readMany_card hc h hw, ok_bind, solverList_ok hn, ok_bind]
  unfold everyone
  rw [List.length_map]
  split <;> simp

theorem setGeometry_ok {r : Reader} (hc : Clean lib r.lines) {c w : Text} {g : Diffusion.Geom} (h : Card r.lines "geometry" [c, w]) (hg : (w, g) ∈ geometries) :
    setGeometry lib r = ok { r with plant := { r.plant with grid := { r.plant.grid with geom := g } } } := by
  unfold setGeometry
  rw [readOne_card hc h, ok_bind]
  simp only [geometries, List.mem_cons, Prod.mk.injEq, List.not_mem_nil, or_false] at hg
  rcases hg with ⟨rfl, rfl⟩ | ⟨rfl, rfl⟩ | ⟨rfl, rfl⟩ <;> rfl

theorem kinds_new (ks : List Calc.Kind) : (ks.map newSolver).map Calc.Settings.kind = ks := by
  rw [List.map_map]
  exact List.map_id _

/-- The reader after geometry and mesh. -/
theorem setShape_ok (hc : Clean lib ls) {ks : List Calc.Kind} {g : Diffusion.Geom} {rs : List Region} {E : Nat} (h : Full lib ls ks g rs E) (p : Calc.Plant) :
    ∃ r, setShape lib ⟨ls, (everyone ks).map newSolver, p, [], [], []⟩ = ok r ∧ r.lines = ls ∧ r.solvers = (everyone ks).map newSolver ∧
      ((∃ k ∈ ks, k ≠ .kinetics) → Stocked ls rs r ∧ r.plant.grid.geom = g ∧ Meshed rs r.plant.grid) ∧ r.plant = { p with grid := r.plant.grid } := by
  obtain ⟨c0, ws0, -, hn⟩ := h.solvers
  have hnk := names_kinds hn
  have hcond : (isHere ((everyone ks).map newSolver) .transport || isHere ((everyone ks).map newSolver) .diffusion || isHere ((everyone ks).map newSolver) .ads ||
      isHere ((everyone ks).map newSolver) .heat) = true ↔ ∃ k ∈ ks, k ≠ .kinetics := by
    simp only [Bool.or_eq_true, isHere_iff, kinds_new]
    rw [mem_everyone (by simp), mem_everyone (by simp), mem_everyone (by simp), mem_everyone (by simp)]
    constructor
    · rintro (((h | h) | h) | h) <;> exact ⟨_, h, by simp⟩
    · rintro ⟨k, hk, hne⟩
      obtain ⟨h1, h2⟩ := hnk k hk
      cases k <;> simp_all
  unfold setShape
  by_cases hk : ∃ k ∈ ks, k ≠ .kinetics
  · rw [if_pos (hcond.2 hk)]
    have hB := h.body hk
    obtain ⟨c, w, hgeo, hgeo'⟩ := hB.geometry
    obtain ⟨c', ws, hmesh, hreg⟩ := hB.mesh
    rw [setGeometry_ok (r := ⟨ls, (everyone ks).map newSolver, p, [], [], []⟩) hc hgeo hgeo', ok_bind]
    have hws : ws ≠ [] := by
      rintro rfl
      cases hreg
      exact hB.some rfl
    obtain ⟨g', h1, h2, h3, -⟩ := setMesh_ok (r := ⟨ls, (everyone ks).map newSolver, { p with grid := { p.grid with geom := g } }, [], [], []⟩) (readMany_card hc hmesh hws)
      hreg hB.some hB.cells hB.few hB.named rfl
    have hm := mats_spec rs
    refine ⟨_, h1, rfl, rfl, fun _ => ⟨⟨rfl, hm.1, fun w hw => (hm.2 w).1 hw, ?_, ?_, ?_, hB.headers⟩, ?_, h2⟩, rfl⟩
    · show _ ≤ g'.mats.n
      rw [h2.mats, h2.cells]
    · show g'.cells ≤ (cellNames rs).length
      rw [h2.cells]
    · show g'.cells ≤ g'.mats.n
      rw [h2.mats]
    · show g'.geom = g
      rw [h3]
  · rw [if_neg (fun e => hk (hcond.1 e))]
    exact ⟨_, rfl, rfl, rfl, fun e => absurd e hk, rfl⟩

theorem pass_setting {x : String × Calc.Kind} (hx : x ∈ passes) {k : Calc.Kind} (hk : x.2 = .undefined ∨ k = x.2) : x.1 ∈ settingsOf k := by
  simp only [passes, List.mem_cons, List.not_mem_nil, or_false] at hx
  rcases hx with rfl | rfl | rfl | rfl | rfl | rfl | rfl | rfl | rfl | rfl | rfl | rfl | rfl
  · simp [settingsOf]
  · simp [settingsOf]
  all_goals
    rcases hk with hk | rfl
    · cases hk
    · simp [settingsOf]

theorem setSettings_ok (hc : Clean lib ls) {ks : List Calc.Kind} {g : Diffusion.Geom} {rs : List Region} {E : Nat} (h : Full lib ls ks g rs E) {r : Reader}
    (hl : r.lines = ls) (hs : r.solvers.map Calc.Settings.kind = everyone ks) (hb : (∃ k ∈ ks, k ≠ .kinetics) → Stocked ls rs r ∧ r.plant.grid.geom = g) :
    ∃ r', setSettings lib r = ok r' ∧ Prepared ls ks rs E r' := by
  subst hl
  obtain ⟨r1, h1, f1, e1⟩ := runPasses_ok (lib := lib) (g := g) (E := E) (l := passes) (fun x hx => by simp [allPasses, hx]) hc (fun x hx k hk hi => by
    rw [hs] at hk
    refine ⟨⟨h.headers k hk, h.settings k hk _ (pass_setting hx hi)⟩, ?_⟩
    simp only [passes, List.mem_cons, List.not_mem_nil, or_false] at hx
    have body : k ≠ .coupled → k ≠ .kinetics → r.plant.grid.geom = g ∧ r.plant.grid.cells ≤ r.plant.grid.mats.n := fun h1 h2 => by
      obtain ⟨a, b⟩ := hb ⟨k, (mem_everyone h1).1 hk, h2⟩
      exact ⟨b, a.size⟩
    rcases hx with rfl | rfl | rfl | rfl | rfl | rfl | rfl | rfl | rfl | rfl | rfl | rfl | rfl
    · exact Or.inl rfl
    · exact Or.inl rfl
    all_goals
      rcases hi with hi | rfl
      · cases hi
      · exact Or.inr (Or.inr (body (by simp) (by simp))))
  have k1 : r1.solvers.map Calc.Settings.kind = everyone ks := f1.kinds.trans hs
  obtain ⟨r2, h2, e2⟩ := setRelaxation_ok (lib := lib) (g := g) (E := E) (r := r1) (by rw [f1.lines]; exact hc) (fun ha hb' hc' => by
    rw [k1] at ha hb' hc'
    rw [mem_everyone (by simp), mem_everyone (by simp)] at ha
    rw [mem_everyone (by simp)] at hb'
    rw [f1.lines]
    exact ⟨h.headers _ hc', h.relaxation ha hb'⟩)
  have f2 := setRelaxation_frame h2
  refine ⟨r2, ?_, f2.lines.trans f1.lines, f2.kinds.trans k1, fun hk => (((hb hk).1).frame f1).frame f2, fun hk => e2 (e1 (Or.inr ?_))⟩
  · rw [setSettings_passes, h1, ok_bind, h2]
  · obtain ⟨k, hk, hn⟩ := hk
    refine ⟨("energies", k), ?_, rfl, ?_⟩
    · simp [neutronics] at hn
      rcases hn with rfl | rfl | rfl <;> simp [passes]
    · rw [hs]
      exact List.mem_append.2 (Or.inl hk)

theorem setPlots_ok {r : Reader} (hc : Clean lib r.lines) (h : Silent r.lines "plots".toList 0 4294967295 ∨ ∃ c ws, ws ≠ [] ∧ Card r.lines "plots" (c :: ws)) :
    ∃ r', setPlots lib r = ok r' := by
  unfold setPlots readMany
  rw [show maxU = 4294967295 from rfl]
  rcases h with h | ⟨c, ws, h0, h⟩
  · rw [findKeyword_silent hc true h]
    exact ⟨_, rfl⟩
  · obtain ⟨l, h1, h2⟩ := findKeyword_cardIn hc true h
    rw [h1, ok_bind, h2]
    match ws, h0 with
    | w :: ws, _ => exact ⟨_, rfl⟩

end

end Verif.Input
