import Verif.Input.Frame

/-!
# Properties of the mesh card
-/

namespace Verif.Input

open Verif Outcome

noncomputable section

variable {lib : Lib}

/-! ### lemmas -/

theorem locate {rs : List (Nat × ℝ)} {i : Nat} (h : i < (rs.map Prod.fst).sum) :
    ∃ k, ∃ hk : k < rs.length, ∃ j, j < rs[k].1 ∧ i = before Prod.fst rs k + j := by
  induction rs generalizing i with
  | nil => simp at h
  | cons r rs ih =>
    by_cases hi : i < r.1
    · exact ⟨0, by simp, i, hi, by simp [before]⟩
    · rw [List.map_cons, List.sum_cons] at h
      obtain ⟨k, hk, j, hj, e⟩ := ih (i := i - r.1) (by omega)
      refine ⟨k + 1, by simpa using hk, j, hj, ?_⟩
      have : before Prod.fst (r :: rs) (k + 1) = r.1 + before Prod.fst rs k := by simp [before]
      omega

theorem before_succ {α M : Type} [AddCommMonoid M] (f : α → M) {l : List α} {k : Nat} (hk : k < l.length) : before f l (k + 1) = before f l k + f l[k] := by
  unfold before
  rw [List.take_succ_eq_append_getElem hk, List.map_append, List.sum_append]
  simp

theorem card_eval (hs : Sane lib) {ls : List Text} {key : Text} {a b : Nat} {l : Text} {ws : List Text} (h : findKeyword lib ls key a b = ok l)
    (hw : splitLine l = ws) : CardIn ls key a b ws := by
  rcases findKeyword_sound hs h with ⟨i, m, hf, rfl⟩ | ⟨h0, -⟩
  · exact ⟨i, m, hf, says_iff.2 hw⟩
  · cases h0

theorem meshed_kept {rs : List Region} {g g' : Mesh.Grid} (h : Meshed rs g) (hk : Kept g g') : Meshed rs g' :=
  ⟨by rw [hk.bounds]; exact h.bounds, by rw [hk.cells]; exact h.cells, by rw [hk.size, hk.cells]; exact h.mats,
    fun i hi => by rw [hk.names]; exact h.names i hi⟩

theorem mats_spec (rs : List Region) : (uniqueText (sortText (rs.map Region.mat))).Nodup ∧
    ∀ w, w ∈ uniqueText (sortText (rs.map Region.mat)) ↔ ∃ q ∈ rs, q.mat = w :=
  ⟨uniqueText_nodup (sortText_sorted _), fun w => by rw [mem_uniqueText, mem_sortText, List.mem_map]⟩

/-! ### C32 -/

/-- **C32.** A mesh card of complete regions with at least one cell each gives every region its cells, equally wide, one region after the other from zero, and
every cell the material of its region; the geometry stays. The list of materials has every material once. -/
theorem C32 {r : Reader} (hc : Clean lib r.lines) {k : Text} {ws : List Text} (hk : Card r.lines "mesh" (k :: ws)) {rs : List Region} (h : Regions lib ws rs)
    (h0 : rs ≠ []) (hp : ∀ q ∈ rs, 1 ≤ q.cells) (hs : (rs.map Region.cells).sum < 2147483647) (hn : ∀ q ∈ rs, Named q.mat) (hm : r.map = []) :
    ∃ r', setMesh lib r = ok r' ∧ Meshed rs r'.plant.grid ∧ r'.plant.grid.geom = r.plant.grid.geom ∧ r'.map = cellNames rs ∧ r'.mats.Nodup ∧
      ∀ w, w ∈ r'.mats ↔ ∃ q ∈ rs, q.mat = w := by
  have hws : ws ≠ [] := by
    rintro rfl
    cases h
    exact h0 rfl
  obtain ⟨g, hg, hM, he, -⟩ := setMesh_ok (readMany_card hc hk hws) h h0 hp hs hn hm
  exact ⟨_, hg, hM, by rw [he], rfl, mats_spec rs⟩

/-- **C32.** The boundaries of such a mesh start at zero, every region ends after the widths up to its own, and they increase if the widths are positive. -/
theorem C32_bounds {rs : List (Nat × ℝ)} {b : Vec ℝ} (h : Spread rs b) (h0 : rs ≠ []) (hp : ∀ q ∈ rs, 1 ≤ q.1) :
    b.v 0 = 0 ∧ (∀ k, k < rs.length → b.v (before Prod.fst rs (k + 1)) = before Prod.snd rs (k + 1)) ∧
    ((∀ q ∈ rs, 0 < q.2) → ∀ i, i + 1 < b.n → b.v i < b.v (i + 1)) := by
  have hlen : 0 < rs.length := List.length_pos_iff.2 h0
  have hpos : ∀ k (hk : k < rs.length), (0 : ℝ) < rs[k].1 := fun k hk => by exact_mod_cast hp _ (List.getElem_mem hk)
  refine ⟨?_, fun k hk => ?_, fun hw i hi => ?_⟩
  · have := h.2 0 hlen 0 (Nat.zero_le _)
    simpa [before] using this
  · have e1 : before Prod.fst rs (k + 1) = before Prod.fst rs k + rs[k].1 := before_succ Prod.fst hk
    have e2 : before Prod.snd rs (k + 1) = before Prod.snd rs k + rs[k].2 := before_succ Prod.snd hk
    rw [e1, e2, h.2 k hk _ (Nat.le_refl _), mul_comm, mul_div_assoc, div_self (hpos k hk).ne', mul_one]
  · obtain ⟨k, hk, j, hj, rfl⟩ := locate (rs := rs) (i := i) (by have := h.1; omega)
    rw [Nat.add_assoc, h.2 k hk j (by omega), h.2 k hk (j + 1) (by omega)]
    have := hw _ (List.getElem_mem hk)
    have hd := div_lt_div_of_pos_right (a := (j : ℝ) * rs[k].2) (b := ((j + 1 : Nat) : ℝ) * rs[k].2) (by push_cast; nlinarith) (hpos k hk)
    linarith

/-- **C32.** The whole reader: the mesh of the reactor is the one of the card, if a solver needs a mesh. -/
theorem C32_read (hs : Sane lib) {file : Option (List Text)} {p : Calc.Plant} {r : Reader} (hr : readData lib file p = ok r)
    (hk : ∃ s ∈ r.solvers, s.kind = .transport ∨ s.kind = .diffusion ∨ s.kind = .ads ∨ s.kind = .heat)
    {k : Text} {ws : List Text} (hcard : Card r.lines "mesh" (k :: ws)) {rs : List Region} (h : Regions lib ws rs)
    (h0 : rs ≠ []) (hp : ∀ q ∈ rs, 1 ≤ q.cells) (hsum : (rs.map Region.cells).sum < 2147483647) (hn : ∀ q ∈ rs, Named q.mat) :
    Meshed rs r.plant.grid ∧ r.map = cellNames rs ∧ r.mats.Nodup ∧ ∀ w, w ∈ r.mats ↔ ∃ q ∈ rs, q.mat = w := by
  obtain ⟨ls, r1, r2, r3, r4, e0, e1, e2, e3, e4, e5⟩ := readData_stages hr
  have f3 := setSettings_frame e3
  have f4 := (setAll_frame e4).1
  have f5 := (setPlots_frame e5).1
  have f := f3.trans (f4.trans f5)
  obtain ⟨hl1, hs1, -⟩ := setShape_solvers e2
  have hkinds : r.solvers.map Calc.Settings.kind = r1.solvers.map Calc.Settings.kind := by rw [f.kinds, hs1]
  have hcond : (isHere r1.solvers .transport || isHere r1.solvers .diffusion || isHere r1.solvers .ads || isHere r1.solvers .heat) = true := by
    obtain ⟨s, hs, hk⟩ := hk
    have hm : s.kind ∈ r1.solvers.map Calc.Settings.kind := by
      rw [← hkinds]
      exact List.mem_map_of_mem hs
    obtain ⟨s', hs', e⟩ := List.mem_map.1 hm
    simp only [isHere, Bool.or_eq_true, List.any_eq_true, decide_eq_true_eq]
    rcases hk with hk | hk | hk | hk
    · exact Or.inl (Or.inl (Or.inl ⟨s', hs', e.trans hk⟩))
    · exact Or.inl (Or.inl (Or.inr ⟨s', hs', e.trans hk⟩))
    · exact Or.inl (Or.inr ⟨s', hs', e.trans hk⟩)
    · exact Or.inr ⟨s', hs', e.trans hk⟩
  unfold setShape at e2
  rw [if_pos hcond] at e2
  obtain ⟨r1', eg, em⟩ := bind_eq_ok.1 e2
  obtain ⟨gg, -, rfl⟩ := setGeometry_eq eg
  have hmap : r1.map = [] := by
    obtain ⟨x, -, e1⟩ := bind_eq_ok.1 e1
    obtain ⟨y, -, e1⟩ := bind_eq_ok.1 e1
    cases e1
    rfl
  obtain ⟨rm, hrm, -⟩ := bind_eq_ok.1 em
  have hlines : r.lines = r1.lines := by rw [f.lines, hl1]
  rw [hlines] at hcard
  have hrm' : readMany lib r1.lines "mesh".toList = ok rm := hrm
  have heq : rm = ws := by
    obtain ⟨i, m, hf, hw⟩ := hcard
    rcases readMany_sound hs hrm' with ⟨k', -, ⟨i', m', hf', hw'⟩⟩ | ⟨-, ⟨i', m', hf', hw'⟩⟩
    · obtain ⟨rfl, rfl⟩ := first_unique hf hf'
      have := says_iff.1 hw
      rw [says_iff.1 hw'] at this
      injection this
    · obtain ⟨rfl, rfl⟩ := first_unique hf hf'
      have := says_iff.1 hw
      rw [says_iff.1 hw'] at this
      cases this
  subst heq
  obtain ⟨g, hg, hM, -, -⟩ := setMesh_ok hrm h h0 hp hsum hn hmap
  rw [em] at hg
  cases hg
  refine ⟨meshed_kept hM f.grid, f.map, ?_⟩
  rw [f.mats]
  exact mats_spec rs

/-- **C32.** A card whose last region lacks the material is not refused but undefined behaviour. -/
theorem C32_lacking {r : Reader} (hc : Clean lib r.lines) {k : Text} {ws : List Text} {rs : List Region} (h : Regions lib ws rs) {w v : Text} {n : Nat} {x : ℝ}
    (hw : Numeral w n) (hv : lib.stod v = ok x) (hk : Card r.lines "mesh" (k :: (ws ++ [w, v]))) (hp : ∀ q ∈ rs, 1 ≤ q.cells) (hn : 1 ≤ n)
    (hs : (rs.map Region.cells).sum + n < 2147483647) : setMesh lib r = ub := by
  have hreg : regions lib (ws ++ [w, v]) = ok (rs.map Region.cells ++ [n], rs.map Region.width ++ [x], rs.map Region.mat) := by
    clear hk
    induction h with
    | nil =>
      show (stoi w >>= _) = _
      rw [stoi_numeral hw (by omega), ok_bind, hv, ok_bind, toUns_nat (by omega)]
      rfl
    | @cons w' v' m' n' x' ws l hw' hv' h ih =>
      simp only [List.map_cons, List.sum_cons] at hs
      show (stoi w' >>= _) = _
      rw [stoi_numeral hw' (by omega), ok_bind, hv', ok_bind]
      show (regions lib (ws ++ [w, v]) >>= _) = _
      rw [ih (fun q hq => hp q (List.mem_cons_of_mem _ hq)) (by omega), ok_bind, toUns_nat (by omega)]
      rfl
  obtain ⟨b, hb, hS⟩ := meshBounds_ok (rs := rs ++ [⟨n, x, []⟩]) (by simp) (by
    intro q hq
    rcases List.mem_append.1 hq with hq | hq
    · exact hp q hq
    · rw [List.mem_singleton] at hq
      subst hq
      exact hn) (by simpa using hs)
  have hbn := hS.1
  rw [(map_pair _).1] at hbn
  simp only [List.map_append, List.map_cons, List.map_nil, List.sum_append, List.sum_cons, List.sum_nil, Nat.add_zero] at hb hbn
  set g1 := Mesh.setBounds b r.plant.grid with hg1
  have hcells : g1.cells = (rs.map Region.cells).sum + n := by
    rw [hg1]
    show (if b.n = 0 then 2 ^ 32 - 1 else b.n - 1) = _
    rw [if_neg (by omega)]
    omega
  obtain ⟨vols, hvols⟩ := volumes_isok (g := g1) (by
    rw [hcells]
    exact hbn)
  have hmap : ∀ (suf : List Region) (i : Nat) (l : List Text) (names : Vec Text), names.n = i + suf.length → mapLoop names i (suf.map Region.cells ++ [n]) l = ub := by
    intro suf
    induction suf with
    | nil =>
      intro i l names hnn
      obtain ⟨n', rfl⟩ : ∃ n', n = n' + 1 := ⟨n - 1, by omega⟩
      show (loop _ (n' + 1) l >>= _) = ub
      rw [show loop (fun _ l => do
        let m ← names.get i
        ok (l ++ [m])) (n' + 1) l = ub from loop_fail_at (k := 0) (fun f => rfl) (by omega) rfl (by
          rw [Vec.get_ub (by rw [hnn]; simp)]
          rfl)]
      rfl
    | cons q suf ih =>
      intro i l names hnn
      show (loop _ q.cells l >>= _) = ub
      rw [pushLoop (by rw [hnn]; simp), ok_bind]
      exact ih (i + 1) _ names (by rw [hnn, List.length_cons]; omega)
  unfold setMesh
  rw [readMany_card hc hk (by simp), ok_bind, hreg, ok_bind]
  rw [hb, ok_bind]
  show (Mesh.volumes g1 "m" >>= _) = _
  rw [hvols, ok_bind]
  show (mapLoop (Vec.ofList (rs.map Region.mat)) 0 (rs.map Region.cells ++ [n]) [] >>= _) = _
  rw [hmap rs 0 [] _ (by simp [Vec.ofList])]
  rfl

/-! ### examples -/

/-- Two regions for the examples: two cells of `m1` and one of `m2`. -/
def exRegions : List Region := [⟨2, 1 / 2, "m1".toList⟩, ⟨1, 1 / 2, "m2".toList⟩]

/-- A file for the examples. -/
def exMesh : List Text := ["% a slab".toList, "Geometry slab".toList, "".toList, "Mesh 2 1.0 M1 1 0.5 M2 % two regions".toList]

theorem exRegions_ok : Regions exLib ["2".toList, "1.0".toList, "m1".toList, "1".toList, "0.5".toList, "m2".toList] exRegions :=
  .cons (.digit (i := 2) (by decide)) rfl (.cons (.digit (i := 1) (by decide)) rfl .nil)

theorem exMesh_card : Card exMesh "mesh" ("mesh".toList :: ["2".toList, "1.0".toList, "m1".toList, "1".toList, "0.5".toList, "m2".toList]) :=
  card_eval exLib_sane (l := "mesh 2 1.0 m1 1 0.5 m2 % two regions".toList) (by rfl) (by rfl)

example (p : Calc.Plant) : ∃ r', setMesh exLib ⟨exMesh, [], p, [], [], []⟩ = ok r' ∧ r'.plant.grid.cells = 3 ∧ r'.plant.grid.bounds.v 1 = 1 / 4 ∧
    (r'.plant.grid.mats.v 2).name = "m2" := by
  obtain ⟨r', h1, h2, -⟩ := C32 (r := ⟨exMesh, [], p, [], [], []⟩) (exLib_clean _) exMesh_card exRegions_ok (by simp [exRegions]) (by simp [exRegions]) (by simp [exRegions])
    (by
      intro q hq
      simp only [exRegions, List.mem_cons, List.not_mem_nil, or_false] at hq
      rcases hq with rfl | rfl
      · exact ⟨'m', ['1'], rfl, rfl⟩
      · exact ⟨'m', ['2'], rfl, rfl⟩) rfl
  refine ⟨r', h1, h2.cells, ?_, ?_⟩
  · have := h2.bounds.2 0 (by simp [exRegions]) 1 (by simp [exRegions])
    simp only [exRegions, before, List.map_cons, List.map_nil, List.take_zero, List.sum_nil, List.getElem_cons_zero] at this
    rw [show (0 : Nat) + 1 = 1 from rfl] at this
    rw [this]
    norm_num
  · exact h2.names 2 (by decide)

example : Spread [((2 : Nat), (1 / 2 : ℝ)), (1, 1 / 2)] ⟨4, fun i => if i = 3 then 1 else i / 4⟩ := by
  refine ⟨rfl, fun k hk j hj => ?_⟩
  simp only [List.length_cons, List.length_nil] at hk
  interval_cases k
  · simp only [List.getElem_cons_zero] at hj ⊢
    interval_cases j <;> norm_num [before]
  · simp only [List.getElem_cons_succ, List.getElem_cons_zero] at hj ⊢
    interval_cases j <;> norm_num [before]

example (p : Calc.Plant) : setMesh exLib ⟨["mesh 2 1.0".toList], [], p, [], [], []⟩ = ub :=
  C32_lacking (r := ⟨["mesh 2 1.0".toList], [], p, [], [], []⟩) (exLib_clean _) .nil (.digit (i := 2) (by decide)) rfl
    (card_eval exLib_sane (l := "mesh 2 1.0".toList) (by rfl) (by rfl)) (by simp) (by decide) (by simp)

end

end Verif.Input
