import Verif.Input.SettingProps

/-!
# Lemmas on the data of the materials
-/

namespace Verif.Input

open Verif Outcome

noncomputable section

variable {lib : Lib} {ls map : List Text}

/-! ### changes of single cells -/

/-- Nothing but the materials is different. -/
structure Mats (g g' : Mesh.Grid) : Prop where
  grid : g' = { g with mats := g'.mats }
  size : g'.mats.n = g.mats.n

theorem Mats.refl (g : Mesh.Grid) : Mats g g := ⟨rfl, rfl⟩

theorem Mats.trans {g g' g'' : Mesh.Grid} (h : Mats g g') (h' : Mats g' g'') : Mats g g'' :=
  ⟨by rw [h'.grid, h.grid], h'.size.trans h.size⟩

theorem Mats.cells {g g' : Mesh.Grid} (h : Mats g g') : g'.cells = g.cells := by rw [h.grid]

theorem Mats.energies {g g' : Mesh.Grid} (h : Mats g g') : g'.energies = g.energies := by rw [h.grid]

/-- Nothing but the material of cell `m` is different, and it changes as `R` says. -/
structure AtCell (m : Nat) (R : Mesh.Material → Mesh.Material → Prop) (g g' : Mesh.Grid) : Prop extends Mats g g' where
  other : ∀ j, j ≠ m → g'.mats.v j = g.mats.v j
  changed : R (g.mats.v m) (g'.mats.v m)

theorem change_at {f : Mesh.Material → Mesh.Material} {i : Nat} {g g' : Mesh.Grid} (h : Mesh.change f i g = ok g') : AtCell i (fun x x' => x' = f x) g g' := by
  obtain ⟨-, rfl⟩ := change_eq h
  exact ⟨⟨rfl, rfl⟩, fun j hj => Function.update_of_ne hj _ _, Function.update_self _ _ _⟩

/-- The loop over the cells with material `w`. -/
theorem cells_effect {w : Text} {R : Nat → Mesh.Material → Mesh.Material → Prop} {body : Nat → Mesh.Grid → Outcome Mesh.Grid}
    (hb : ∀ m g g', body m g = ok g' → AtCell m (R m) g g') {n : Nat} {g g' : Mesh.Grid}
    (h : loop (fun m g => do
      let v ← (Vec.ofList map).get m
      if v = w then body m g else ok g) n g = ok g') :
    n ≤ map.length ∧ Mats g g' ∧ (∀ i, i < n → map[i]? = some w → R i (g.mats.v i) (g'.mats.v i)) ∧ (∀ i, ¬(i < n ∧ map[i]? = some w) → g'.mats.v i = g.mats.v i) := by
  refine loop_inv_of_ok (fun k u => k ≤ map.length ∧ Mats g u ∧ (∀ i, i < k → map[i]? = some w → R i (g.mats.v i) (u.mats.v i)) ∧
    (∀ i, ¬(i < k ∧ map[i]? = some w) → u.mats.v i = g.mats.v i)) ⟨Nat.zero_le _, Mats.refl g, fun i hi => absurd hi (Nat.not_lt_zero i), fun _ _ => rfl⟩ ?_ h
  rintro k u u' - ⟨h0, h1, h2, h3⟩ he
  obtain ⟨v, hv, he⟩ := bind_eq_ok.1 he
  have hk : k < map.length := by
    by_contra hk
    rw [Vec.get_ub (by exact hk)] at hv
    cases hv
  have hv' : map[k]? = some v := by
    rw [Vec.get_ok (by exact hk)] at hv
    cases hv
    show map[k]? = some (map.getD k default)
    simp [List.getD, hk]
  split at he
  · rename_i hvw
    rw [hvw] at hv'
    have ha := hb k u u' he
    refine ⟨hk, h1.trans ha.toMats, fun i hi hw => ?_, fun i hi => ?_⟩
    · by_cases hik : i = k
      · subst hik
        have := ha.changed
        rw [h3 i (fun hh => absurd hh.1 (Nat.lt_irrefl i))] at this
        exact this
      · rw [ha.other i hik]
        exact h2 i (by omega) hw
    · by_cases hik : i = k
      · subst hik
        exact absurd ⟨Nat.lt_succ_self _, hv'⟩ hi
      · rw [ha.other i hik]
        exact h3 i (fun hh => hi ⟨by omega, hh.2⟩)
  · rename_i hvw
    cases he
    refine ⟨hk, h1, fun i hi hw => ?_, fun i hi => ?_⟩
    · by_cases hik : i = k
      · subst hik
        rw [hv'] at hw
        exact absurd (Option.some.inj hw) hvw
      · exact h2 i (by omega) hw
    · exact h3 i (fun hh => hi ⟨by omega, hh.2⟩)

/-- The loop over the materials. -/
theorem eachMaterial_effect (hs : Sane lib) {R : Text → Nat → Mesh.Material → Mesh.Material → Prop} {body : Nat × Nat → Nat → Mesh.Grid → Outcome Mesh.Grid}
    (hb : ∀ w b m g g', Block ls "material".toList w b.1 b.2 → body b m g = ok g' → AtCell m (R w m) g g') {ws : List Text} (hn : ws.Nodup) {g g' : Mesh.Grid}
    (h : eachMaterial lib ls map body ws g = ok g') :
    Mats g g' ∧ (∀ i w, i < g.cells → map[i]? = some w → w ∈ ws → R w i (g.mats.v i) (g'.mats.v i)) ∧
    (∀ i, (∀ w, i < g.cells → map[i]? = some w → w ∉ ws) → g'.mats.v i = g.mats.v i) := by
  induction ws generalizing g with
  | nil =>
    cases h
    exact ⟨Mats.refl _, ⟨fun i w _ _ hw => absurd hw (by simp), fun _ _ => rfl⟩⟩
  | cons w ws ih =>
    obtain ⟨x, -, h⟩ := bind_eq_ok.1 h
    obtain ⟨b, hbl, h⟩ := bind_eq_ok.1 h
    obtain ⟨g1, h1, h⟩ := bind_eq_ok.1 h
    obtain ⟨hw, hn⟩ := List.nodup_cons.1 hn
    obtain ⟨-, m1, c1, o1⟩ := cells_effect (R := R w) (fun m g g' he => hb w b m g g' (findBlock_sound hs hbl) he) h1
    obtain ⟨m2, c2, o2⟩ := ih hn h
    rw [m1.cells] at c2 o2
    refine ⟨m1.trans m2, fun i v hi hv hmem => ?_, fun i hi => ?_⟩
    · rcases List.mem_cons.1 hmem with rfl | hmem
      · rw [o2 i (fun u _ hu hmem => by rw [hv] at hu; cases hu; exact hw hmem)]
        exact c1 i hi hv
      · have := c2 i v hi hv hmem
        rw [o1 i (fun hh => by rw [hv] at hh; cases hh.2; exact hw hmem)] at this
        exact this
    · rw [o2 i (fun u h1 h2 h3 => hi u h1 h2 (List.mem_cons_of_mem _ h3)), o1 i (fun hh => hi w hh.1 hh.2 (by simp))]

/-! ### laws -/

theorem findKeyword_card (hs : Sane lib) {key l : Text} {a b : Nat} (h : findKeyword lib ls key a b = ok l) :
    CardIn ls key a b (splitLine l) := by
  rcases findKeyword_sound hs h with ⟨i, m, hf, rfl⟩ | ⟨h0, -⟩
  · exact ⟨i, m, hf, says_iff.2 rfl⟩
  · cases h0

theorem readLaw_at (hs : Sane lib) {w key : Text} {b : Nat × Nat} {n : Nat} {put : Mesh.Material → Vec ℝ → Mesh.Material} {m : Nat} {g g' : Mesh.Grid}
    (hb : Block ls "material".toList w b.1 b.2) (h : readLaw lib ls b key n put m g = ok g') :
    AtCell m (fun x x' => ∃ v, Law lib ls w key n v ∧ x' = put x v) g g' := by
  obtain ⟨l, hl, h⟩ := bind_eq_ok.1 h
  obtain ⟨ws, hws, h⟩ := bind_eq_ok.1 h
  unfold skip at hws
  split at hws
  · rename_i hlen
    cases hws
    unfold addLaw at h
    split at h
    · obtain ⟨xs, hx, h⟩ := bind_eq_ok.1 h
      have ha := change_at h
      refine ⟨ha.toMats, ha.other, Vec.ofList xs, ⟨b.1, b.2, splitLine l, hb, findKeyword_card hs hl, hlen, ?_⟩, ha.changed⟩
      rw [ofList_toList]
      exact stods_reads hx
    · cases h
  · cases hws

/-- A loop that reads `n` laws for one cell. -/
theorem laws_at {m : Nat} {P : Nat → Vec ℝ → Prop} {put : Mesh.Material → Vec ℝ → Mesh.Material} {body : Nat → Mesh.Grid → Outcome Mesh.Grid} {g g' : Mesh.Grid}
    (hb : ∀ i g g', body i g = ok g' → AtCell m (fun x x' => ∃ v, P i v ∧ x' = put x v) g g') {n : Nat} (h : loop body n g = ok g') :
    Mats g g' ∧ (∀ j, j ≠ m → g'.mats.v j = g.mats.v j) ∧ ∃ vs : List (Vec ℝ), vs.length = n ∧ (∀ e v, vs[e]? = some v → P e v) ∧ g'.mats.v m = vs.foldl put (g.mats.v m) := by
  refine loop_inv_of_ok (fun k u => Mats g u ∧ (∀ j, j ≠ m → u.mats.v j = g.mats.v j) ∧ ∃ vs : List (Vec ℝ), vs.length = k ∧ (∀ e v, vs[e]? = some v → P e v) ∧
    u.mats.v m = vs.foldl put (g.mats.v m)) ⟨Mats.refl g, fun _ _ => rfl, [], rfl, fun e v h => by simp at h, rfl⟩ ?_ h
  rintro k u u' - ⟨h1, h2, vs, h3, h4, h5⟩ he
  have ha := hb k u u' he
  obtain ⟨v, hv, hx⟩ := ha.changed
  refine ⟨h1.trans ha.toMats, fun j hj => (ha.other j hj).trans (h2 j hj), vs ++ [v], by simp [h3], fun e v' hv' => ?_, ?_⟩
  · rcases Nat.lt_or_ge e vs.length with hlt | hge
    · rw [List.getElem?_append_left hlt] at hv'
      exact h4 e v' hv'
    · rw [List.getElem?_append_right hge] at hv'
      obtain ⟨he, hv'⟩ := List.getElem?_eq_some_iff.1 hv'
      have : e = k := by
        simp at he
        omega
      subst this
      simp at hv'
      rw [← hv']
      exact hv
  · rw [hx, h5, List.foldl_append]
    rfl

/-- A double loop that reads `n * E` laws for one cell. -/
theorem laws2_at {m E : Nat} {P : Nat → Nat → Vec ℝ → Prop} {put : Mesh.Material → Vec ℝ → Mesh.Material} {body : Nat → Nat → Mesh.Grid → Outcome Mesh.Grid}
    {g g' : Mesh.Grid} (hb : ∀ i j g g', body i j g = ok g' → AtCell m (fun x x' => ∃ v, P i j v ∧ x' = put x v) g g') {n : Nat}
    (h : loop (fun i g => loop (body i) E g) n g = ok g') :
    Mats g g' ∧ (∀ j, j ≠ m → g'.mats.v j = g.mats.v j) ∧ ∃ vs : List (Vec ℝ), vs.length = n * E ∧ (∀ i j, i < n → j < E → ∃ v, vs[i * E + j]? = some v ∧ P i j v) ∧
      g'.mats.v m = vs.foldl put (g.mats.v m) := by
  refine loop_inv_of_ok (fun k u => Mats g u ∧ (∀ j, j ≠ m → u.mats.v j = g.mats.v j) ∧ ∃ vs : List (Vec ℝ), vs.length = k * E ∧
    (∀ i j, i < k → j < E → ∃ v, vs[i * E + j]? = some v ∧ P i j v) ∧ u.mats.v m = vs.foldl put (g.mats.v m))
    ⟨Mats.refl g, fun _ _ => rfl, [], by simp, fun i j h => absurd h (Nat.not_lt_zero i), rfl⟩ ?_ h
  rintro k u u' - ⟨h1, h2, vs, h3, h4, h5⟩ he
  obtain ⟨a1, a2, us, a3, a4, a5⟩ := laws_at (P := P k) (put := put) (hb k) he
  refine ⟨h1.trans a1, fun j hj => (a2 j hj).trans (h2 j hj), vs ++ us, ?_, fun i j hi hj => ?_, ?_⟩
  · rw [List.length_append, h3, a3]
    ring
  · rcases Nat.lt_or_ge i k with hlt | hge
    · obtain ⟨v, hv, hP⟩ := h4 i j hlt hj
      have := (List.getElem?_eq_some_iff.1 hv).1
      exact ⟨v, by rw [List.getElem?_append_left this]; exact hv, hP⟩
    · obtain rfl : i = k := by omega
      have hlt : j < us.length := by omega
      refine ⟨us[j], ?_, a4 j _ (List.getElem?_eq_getElem hlt)⟩
      rw [List.getElem?_append_right (by omega), h3, Nat.add_sub_cancel_left]
      exact List.getElem?_eq_getElem hlt
  · rw [a5, h5, List.foldl_append]

/-! ### steps of the reader -/

/-- Nothing but the materials is different, and the material of each cell changes as `R` says. -/
structure Cellwise (R : Text → Nat → Mesh.Material → Mesh.Material → Prop) (r r' : Reader) : Prop where
  rest : r' = { r with plant := { r.plant with grid := r'.plant.grid } }
  mats : Mats r.plant.grid r'.plant.grid
  changed : ∀ i w, i < r.plant.grid.cells → r.map[i]? = some w → w ∈ r.mats → R w i (r.plant.grid.mats.v i) (r'.plant.grid.mats.v i)

theorem Cellwise.trans {R R' : Text → Nat → Mesh.Material → Mesh.Material → Prop} {r r' r'' : Reader} (h : Cellwise R r r') (h' : Cellwise R' r' r'') :
    Cellwise (fun w i x x'' => ∃ x', R w i x x' ∧ R' w i x' x'') r r'' := by
  refine ⟨?_, h.mats.trans h'.mats, fun i w hi hm hw => ⟨_, h.changed i w hi hm hw, ?_⟩⟩
  · rw [h'.rest, h.rest]
  · refine h'.changed i w ?_ ?_ ?_
    · rw [h.mats.cells]
      exact hi
    · rw [h.rest]
      exact hm
    · rw [h.rest]
      exact hw

theorem Cellwise.imp {R R' : Text → Nat → Mesh.Material → Mesh.Material → Prop} {r r' : Reader} (h : Cellwise R r r') (hR : ∀ w i x x', R w i x x' → R' w i x x') :
    Cellwise R' r r' :=
  ⟨h.rest, h.mats, fun i w hi hm hw => hR w i _ _ (h.changed i w hi hm hw)⟩

theorem Cellwise.refl (r : Reader) : Cellwise (fun _ _ x x' => x' = x) r r := ⟨rfl, Mats.refl _, fun _ _ _ _ _ => rfl⟩

theorem Cellwise.lines {R : Text → Nat → Mesh.Material → Mesh.Material → Prop} {r r' : Reader} (h : Cellwise R r r') :
    r'.lines = r.lines ∧ r'.map = r.map ∧ r'.mats = r.mats ∧ r'.solvers = r.solvers ∧ r'.plant.grid.energies = r.plant.grid.energies := by
  refine ⟨?_, ?_, ?_, ?_, h.mats.energies⟩ <;> rw [h.rest]

theorem groupKey_eq (name : String) (e : Nat) : name.toList ++ "(".toList ++ number (e + 1) ++ ")".toList = groupKey name e := by
  unfold groupKey number
  rw [show toString (e + 1) = String.ofList (Nat.toDigits 10 (e + 1)) from rfl, String.toList_ofList]
  simp

theorem scattKey_eq (e f : Nat) : "scattMatrix(".toList ++ number (e + 1) ++ ", ".toList ++ number (f + 1) ++ ")".toList = scattKey e f := by
  unfold scattKey number
  rw [show toString (e + 1) = String.ofList (Nat.toDigits 10 (e + 1)) from rfl, show toString (f + 1) = String.ofList (Nat.toDigits 10 (f + 1)) from rfl,
    String.toList_ofList, String.toList_ofList]
  simp

theorem setXS_effect (hs : Sane lib) {name : String} {put : Mesh.Material → Vec ℝ → Mesh.Material} {r r' : Reader} (hn : r.mats.Nodup)
    (h : setXS lib name put r = ok r') :
    Cellwise (fun w _ x x' => ∃ vs : List (Vec ℝ), Has lib r.lines w r.plant.grid.energies (groupKey name) 1 vs ∧ x' = vs.foldl put x) r r' := by
  obtain ⟨g, hg, h⟩ := bind_eq_ok.1 h
  cases h
  obtain ⟨h1, h2, -⟩ := eachMaterial_effect hs (R := fun w _ x x' => ∃ vs : List (Vec ℝ), Has lib r.lines w r.plant.grid.energies (groupKey name) 1 vs ∧
    x' = vs.foldl put x) (fun w b m g g' hb he => by
      obtain ⟨a1, a2, vs, a3, a4, a5⟩ := laws_at (m := m) (P := fun e v => Law lib r.lines w (groupKey name e) 1 v) (put := put) (fun i g g' he => by
        rw [groupKey_eq] at he
        exact readLaw_at hs hb he) he
      refine ⟨a1, a2, vs, fun e he => ?_, a5⟩
      have he' : e < vs.length := by omega
      exact ⟨vs[e], List.getElem?_eq_getElem he', a4 e _ (List.getElem?_eq_getElem he')⟩) hn hg
  exact ⟨rfl, h1, h2⟩

theorem setScattering_effect (hs : Sane lib) {r r' : Reader} (hn : r.mats.Nodup) (h : setScattering lib r = ok r') :
    Cellwise (fun w _ x x' => ∃ vs : List (Vec ℝ), (∀ e f, e < r.plant.grid.energies → f < r.plant.grid.energies → ∃ v, vs[e * r.plant.grid.energies + f]? = some v ∧
      Law lib r.lines w (scattKey e f) 2 v) ∧ x' = { x with scatt := x.scatt ++ vs }) r r' := by
  obtain ⟨g, hg, h⟩ := bind_eq_ok.1 h
  cases h
  have hf : ∀ (vs : List (Vec ℝ)) (x : Mesh.Material), vs.foldl (fun x v => { x with scatt := x.scatt ++ [v] }) x = { x with scatt := x.scatt ++ vs } := by
    intro vs
    induction vs with
    | nil => simp
    | cons v vs ih => simp [ih]
  obtain ⟨h1, h2, -⟩ := eachMaterial_effect hs (R := fun w _ x x' => ∃ vs : List (Vec ℝ), (∀ e f, e < r.plant.grid.energies → f < r.plant.grid.energies →
    ∃ v, vs[e * r.plant.grid.energies + f]? = some v ∧ Law lib r.lines w (scattKey e f) 2 v) ∧
    x' = { x with scatt := x.scatt ++ vs }) (fun w b m g g' hb he => by
      obtain ⟨a1, a2, vs, a3, a4, a5⟩ := laws2_at (m := m) (P := fun e f v => Law lib r.lines w (scattKey e f) 2 v)
        (put := fun x v => { x with scatt := x.scatt ++ [v] }) (fun i j g g' he => by
        rw [scattKey_eq] at he
        exact readLaw_at hs hb he) he
      exact ⟨a1, a2, vs, a4, by rw [a5, hf]⟩) hn hg
  exact ⟨rfl, h1, h2⟩

theorem setConductivity_effect (hs : Sane lib) {r r' : Reader} (hn : r.mats.Nodup) (h : setConductivity lib r = ok r') :
    Cellwise (fun w _ x x' => ∃ v, Law lib r.lines w "thermal_conductivity".toList 1 v ∧ 1 ≤ v.n ∧ v.n ≤ 3 ∧ x' = { x with kLaw := some v }) r r' := by
  obtain ⟨g, hg, h⟩ := bind_eq_ok.1 h
  cases h
  obtain ⟨h1, h2, -⟩ := eachMaterial_effect hs (R := fun w _ x x' => ∃ v, Law lib r.lines w "thermal_conductivity".toList 1 v ∧ 1 ≤ v.n ∧ v.n ≤ 3 ∧
    x' = { x with kLaw := some v }) (fun w b m g g' hb he => by
      obtain ⟨l, hl, he⟩ := bind_eq_ok.1 he
      have hc := findKeyword_card hs hl
      unfold conductivityLaw at he
      split at he
      · cases he
      · cases he
      · rename_i k vs hne e
        split at he
        · rename_i hlen
          obtain ⟨xs, hx, he⟩ := bind_eq_ok.1 he
          have ha := change_at he
          rw [e] at hc
          have hr := stods_reads hx
          have hl : xs.length = vs.length := hr.length_eq.symm
          refine ⟨ha.toMats, ha.other, Vec.ofList xs, ⟨b.1, b.2, _, hb, hc, by simp, ?_⟩, ?_, ?_, ha.changed⟩
          · rw [ofList_toList]
            exact hr
          · show 1 ≤ xs.length
            rw [hl]
            match vs, hne with
            | [], hne => exact (hne rfl).elim
            | _ :: _, _ => simp
          · show xs.length ≤ 3
            omega
        · cases he) hn hg
  exact ⟨rfl, h1, h2⟩

theorem append_fold {α : Type} (put : α → Vec ℝ → α) (get : α → List (Vec ℝ)) (upd : α → List (Vec ℝ) → α) (hp : ∀ x v, put x v = upd x (get x ++ [v]))
    (h1 : ∀ x, upd x (get x) = x) (h2 : ∀ x l, get (upd x l) = l) (h3 : ∀ x l l', upd (upd x l) l' = upd x l') (vs : List (Vec ℝ)) (x : α) :
    vs.foldl put x = upd x (get x ++ vs) := by
  induction vs generalizing x with
  | nil => simp [h1]
  | cons v vs ih => simp [ih, hp, h2, h3]

/-- What reading the nuclear data does to the material `w` of a cell. -/
def Nuclear (lib : Lib) (lines : List Text) (w : Text) (E : Nat) (diffusion : Bool) (x x' : Mesh.Material) : Prop :=
  ∃ n c f t d s, Has lib lines w E (groupKey "ni") 1 n ∧ Has lib lines w E (groupKey "chi") 1 c ∧ Has lib lines w E (groupKey "fission") 1 f ∧
    Has lib lines w E (groupKey "total") 1 t ∧ (diffusion = true → Has lib lines w E (groupKey "diffCoeff") 1 d) ∧ (diffusion = false → d = []) ∧
    (∀ e f, e < E → f < E → ∃ v, s[e * E + f]? = some v ∧ Law lib lines w (scattKey e f) 2 v) ∧
    x' = { x with
      nu := x.nu ++ n
      chi := x.chi ++ c
      fiss := x.fiss ++ f
      tot := x.tot ++ t
      diff := x.diff ++ d
      scatt := x.scatt ++ s }

theorem setDiffusion_effect (hs : Sane lib) {d : Bool} {r r' : Reader} (hn : r.mats.Nodup) (h : setDiffusion lib d r = ok r') :
    Cellwise (fun w _ x x' => ∃ vs : List (Vec ℝ), (d = true → Has lib r.lines w r.plant.grid.energies (groupKey "diffCoeff") 1 vs) ∧ (d = false → vs = []) ∧
      x' = { x with diff := x.diff ++ vs }) r r' := by
  cases d with
  | false =>
    cases h
    refine (Cellwise.refl r).imp (fun w i x x' h => ⟨[], by simp, fun _ => rfl, ?_⟩)
    rw [h]
    simp
  | true =>
    refine (setXS_effect hs hn h).imp (fun w i x x' h => ?_)
    obtain ⟨vs, h1, h2⟩ := h
    refine ⟨vs, fun _ => h1, by simp, ?_⟩
    rw [h2]
    exact append_fold (fun x v => { x with diff := x.diff ++ [v] }) (fun x => x.diff) (fun x l => { x with diff := l }) (fun _ _ => rfl) (fun _ => rfl) (fun _ _ => rfl)
      (fun _ _ _ => rfl) vs x

theorem setNuclear_effect (hs : Sane lib) {d : Bool} {r r' : Reader} (hn : r.mats.Nodup) (h : setNuclear lib d r = ok r') :
    Cellwise (fun w _ x x' => Nuclear lib r.lines w r.plant.grid.energies d x x') r r' := by
  obtain ⟨r1, h1, h⟩ := bind_eq_ok.1 h
  obtain ⟨r2, h2, h⟩ := bind_eq_ok.1 h
  obtain ⟨r3, h3, h⟩ := bind_eq_ok.1 h
  obtain ⟨r4, h4, h⟩ := bind_eq_ok.1 h
  obtain ⟨r5, h5, h⟩ := bind_eq_ok.1 h
  have c1 := setXS_effect hs hn h1
  obtain ⟨l1, -, m1, -, e1⟩ := c1.lines
  have c2 := setXS_effect hs (by rw [m1]; exact hn) h2
  obtain ⟨l2, -, m2, -, e2⟩ := c2.lines
  have c3 := setXS_effect hs (by rw [m2, m1]; exact hn) h3
  obtain ⟨l3, -, m3, -, e3⟩ := c3.lines
  have c4 := setXS_effect hs (by rw [m3, m2, m1]; exact hn) h4
  obtain ⟨l4, -, m4, -, e4⟩ := c4.lines
  have c5 := setDiffusion_effect hs (by rw [m4, m3, m2, m1]; exact hn) h5
  obtain ⟨l5, -, m5, -, e5⟩ := c5.lines
  have c6 := setScattering_effect hs (by rw [m5, m4, m3, m2, m1]; exact hn) h
  refine (c1.trans (c2.trans (c3.trans (c4.trans (c5.trans c6))))).imp (fun w i x x' hh => ?_)
  rw [l5, l4, l3, l2, l1, e5, e4, e3, e2, e1] at hh
  obtain ⟨x1, ⟨n, hn, e1⟩, x2, ⟨c, hc, e2⟩, x3, ⟨f, hf, e3⟩, x4, ⟨t, ht, e4⟩, x5, ⟨D, hD, hD', e5⟩, s, hsc, e6⟩ := hh
  refine ⟨n, c, f, t, D, s, hn, hc, hf, ht, hD, hD', hsc, ?_⟩
  rw [append_fold (fun x v => { x with nu := x.nu ++ [v] }) (fun x => x.nu) (fun x l => { x with nu := l }) (fun _ _ => rfl) (fun _ => rfl) (fun _ _ => rfl)
      (fun _ _ _ => rfl) n x] at e1
  rw [append_fold (fun x v => { x with chi := x.chi ++ [v] }) (fun x => x.chi) (fun x l => { x with chi := l }) (fun _ _ => rfl) (fun _ => rfl) (fun _ _ => rfl)
      (fun _ _ _ => rfl) c x1] at e2
  rw [append_fold (fun x v => { x with fiss := x.fiss ++ [v] }) (fun x => x.fiss) (fun x l => { x with fiss := l }) (fun _ _ => rfl) (fun _ => rfl) (fun _ _ => rfl)
      (fun _ _ _ => rfl) f x2] at e3
  rw [append_fold (fun x v => { x with tot := x.tot ++ [v] }) (fun x => x.tot) (fun x l => { x with tot := l }) (fun _ _ => rfl) (fun _ => rfl) (fun _ _ => rfl)
      (fun _ _ _ => rfl) t x3] at e4
  subst e1 e2 e3 e4 e5 e6
  rfl

/-! ### fields -/

theorem fieldLoop_eq {put : ℝ → Mesh.Material → Mesh.Material} {t : Vec ℝ} {n : Nat} {g g' : Mesh.Grid}
    (h : loop (fun i M => do
      let y ← t.get i
      Mesh.change (put y) i M) n g = ok g') :
    Mats g g' ∧ n ≤ g.mats.n ∧ (∀ i, i < n → g'.mats.v i = put (t.v i) (g.mats.v i)) ∧ ∀ i, n ≤ i → g'.mats.v i = g.mats.v i := by
  refine loop_inv_of_ok (fun k u => Mats g u ∧ k ≤ g.mats.n ∧ (∀ i, i < k → u.mats.v i = put (t.v i) (g.mats.v i)) ∧ ∀ i, k ≤ i → u.mats.v i = g.mats.v i)
    ⟨Mats.refl g, Nat.zero_le _, fun i hi => absurd hi (Nat.not_lt_zero i), fun _ _ => rfl⟩ ?_ h
  rintro k u u' - ⟨h1, h2, h3, h4⟩ he
  obtain ⟨y, hy, he⟩ := bind_eq_ok.1 he
  have hy : y = t.v k := by
    by_cases hk : k < t.n
    · rw [Vec.get_ok hk] at hy
      cases hy
      rfl
    · rw [Vec.get_ub hk] at hy
      cases hy
  subst hy
  have ha := change_at he
  have hk := (change_eq he).1
  rw [h1.size] at hk
  refine ⟨h1.trans ha.toMats, hk, fun i hi => ?_, fun i hi => ?_⟩
  · by_cases hik : i = k
    · subst hik
      rw [ha.changed, h4 i (Nat.le_refl i)]
    · rw [ha.other i hik]
      exact h3 i (by omega)
  · rw [ha.other i (by omega)]
    exact h4 i (by omega)

/-- The words behind the keyword of a list, and their values. -/
theorem readValues_lists (hs : Sane lib) {key : String} {t : Vec ℝ} (h : readValues lib ls key.toList = ok t) : ∃ k ws, Card ls key (k :: ws) ∧ Lists lib ws t := by
  obtain ⟨ws, hw, h⟩ := bind_eq_ok.1 h
  rcases readMany_sound hs hw with ⟨k, -, hc⟩ | ⟨rfl, -⟩
  · refine ⟨k, ws, hc, fun xs hx hf => ?_, fun l hl h0 hf hsum => ?_, fun l hl h0 hp hsum => ?_⟩
    · obtain ⟨x, e, hx⟩ := C33_partial hx hf
      rw [h] at e
      cases e
      exact hx
    · obtain ⟨x, e, hx⟩ := C33_repeated hl h0 hf hsum
      rw [h] at e
      cases e
      exact hx
    · obtain ⟨x, e, hx⟩ := C33_spread hl h0 hp hsum
      rw [h] at e
      cases e
      exact hx
  · cases h

theorem setTemps_effect {r r' : Reader} (h : setTemps lib r = ok r') : ∃ t, readValues lib r.lines "temperatures".toList = ok t ∧ t.n ≤ r.plant.grid.mats.n ∧
    Cellwise (fun _ i x x' => x' = { x with T := if i < t.n then t.v i else x.T }) r r' := by
  obtain ⟨t, ht, h⟩ := bind_eq_ok.1 h
  obtain ⟨g, hg, h⟩ := bind_eq_ok.1 h
  cases h
  obtain ⟨h1, h2, h3, h4⟩ := fieldLoop_eq (put := fun y m => { m with T := y }) hg
  refine ⟨t, ht, h2, rfl, h1, fun i w _ _ _ => ?_⟩
  split
  · rename_i hi
    exact h3 i hi
  · rename_i hi
    exact h4 i (by omega)

theorem setSources_effect {r r' : Reader} (h : setSources lib r = ok r') : ∃ t, readValues lib r.lines "heat_sources".toList = ok t ∧ t.n ≤ r.plant.grid.mats.n ∧
    Cellwise (fun _ i x x' => x' = { x with q := if i < t.n then t.v i else x.q }) r r' := by
  obtain ⟨t, ht, h⟩ := bind_eq_ok.1 h
  obtain ⟨g, hg, h⟩ := bind_eq_ok.1 h
  cases h
  obtain ⟨h1, h2, h3, h4⟩ := fieldLoop_eq (put := fun y m => { m with q := y }) hg
  refine ⟨t, ht, h2, rfl, h1, fun i w _ _ _ => ?_⟩
  split
  · rename_i hi
    exact h3 i hi
  · rename_i hi
    exact h4 i (by omega)

end

end Verif.Input
