import Verif.Echo.Said

/-! # What the reader prints of the data of the solvers -/

namespace Verif.Echo

open Verif Outcome Input Tell

noncomputable section

variable {v : Voice} {lib : Lib} {lines mats : List Text} {g : Mesh.Grid}

/-- What the tables rest on: the reader has the lines and materials of the file and a mesh with the cells and groups of `g`. -/
structure Seen (ls mats : List Text) (g : Mesh.Grid) (u : Reader) : Prop where
  lines : u.lines = ls
  mats : u.mats = mats
  nodup : u.mats.Nodup
  cells : ∀ w, (List.range u.plant.grid.cells).filter (fun i => decide (u.map[i]? = some w)) = cellsOf g w
  energies : u.plant.grid.energies = g.energies

theorem Seen.frame {u u' : Reader} (h : Seen lines mats g u) (f : Frame u u') (he : u'.plant.grid.energies = u.plant.grid.energies) : Seen lines mats g u' :=
  ⟨f.lines.trans h.lines, f.mats.trans h.mats, f.mats ▸ h.nodup, fun w => by rw [f.map, f.grid.cells]; exact h.cells w, he.trans h.energies⟩

theorem law_said (hs : Sane lib) {w key : Text} {b : Nat × Nat} (hb : Block lines "material".toList w b.1 b.2) {n : Nat} {put : Mesh.Material → Vec ℝ → Mesh.Material} {m : Nat} {x x' : Mesh.Grid}
    {t : List Text} (h : readLaw v lib lines b key n put m x = ⟨t, ok x'⟩) : LawText v lib lines w key n t := by
  obtain ⟨t1, l, t2, h1, h2, rfl⟩ := bind_said.1 h
  obtain ⟨rfl, hl⟩ := find_said h1
  obtain ⟨t3, ws, t4, h3, h4, rfl⟩ := bind_said.1 h2
  obtain ⟨rfl, hw⟩ := lift_said h3
  obtain ⟨t5, _, t6, h5, h6, rfl⟩ := bind_said.1 h4
  obtain ⟨rfl, -⟩ := lift_said h5
  obtain ⟨t7, s, t8, h7, h8, rfl⟩ := bind_said.1 h6
  obtain ⟨rfl, hr⟩ := lift_said h7
  obtain ⟨t9, _, t10, h9, h10, rfl⟩ := bind_said.1 h8
  have := say_said h9
  subst this
  obtain ⟨rfl, -⟩ := pure_said h10
  unfold skip at hw
  split at hw
  · rename_i hn
    cases hw
    exact ⟨b.1, b.2, splitLine l, s, hb, findKeyword_card hs hl, hn, formatLine_row hr, rfl⟩
  · cases hw

theorem each_said (hs : Sane lib) {map : List Text} {body : Nat × Nat → Nat → Mesh.Grid → Tell Mesh.Grid} {R : Text → List Text → Prop} {N : Nat}
    (hbody : ∀ (w : Text) (b : Nat × Nat), Block lines "material".toList w b.1 b.2 → ∀ m x t x', x.cells = N → body b m x = ⟨t, ok x'⟩ → x'.cells = N ∧ R w t) :
    ∀ {ws : List Text} {x x' : Mesh.Grid} {t : List Text}, x.cells = N → eachMaterial lib lines map body ws x = ⟨t, ok x'⟩ →
      Parts (fun w => Parts (fun _ => R w) ((List.range N).filter fun i => decide (map[i]? = some w))) ws t
  | [], _, _, _, _, h => by
    obtain ⟨rfl, -⟩ := pure_said h
    exact Parts.nil
  | w :: ws, x, x', t, hx, h => by
    obtain ⟨t1, _, t2, h1, h2, rfl⟩ := bind_said.1 h
    obtain ⟨rfl, -⟩ := one_said h1
    obtain ⟨t3, b, t4, h3, h4, rfl⟩ := bind_said.1 h2
    obtain ⟨rfl, hb⟩ := lift_said h3
    obtain ⟨t5, y, t6, h5, h6, rfl⟩ := bind_said.1 h4
    rw [hx] at h5
    have hblock := findBlock_sound hs hb
    obtain ⟨hy, hp⟩ := loop_said (I := fun x => x.cells = N) (R := fun m t => (decide (map[m]? = some w) = true → R w t) ∧ (decide (map[m]? = some w) = false → t = []))
      (fun m a t b' _ ha hm => by
        obtain ⟨u1, z, u2, g1, g2, rfl⟩ := bind_said.1 hm
        obtain ⟨rfl, hz⟩ := lift_said g1
        have hmz : map[m]? = some z := by
          by_cases hl : m < map.length
          · rw [Vec.get_ok (by simpa [Vec.ofList] using hl)] at hz
            cases hz
            simp [Vec.ofList, List.getD, hl]
          · rw [Vec.get_ub (by simpa [Vec.ofList] using hl)] at hz
            cases hz
        rw [List.nil_append, hmz]
        split at g2
        · rename_i e
          subst e
          obtain ⟨a1, a2⟩ := hbody z b hblock m a u2 b' ha g2
          exact ⟨a1, fun _ => a2, fun h => by simp at h⟩
        · rename_i e
          obtain ⟨rfl, rfl⟩ := pure_said g2
          exact ⟨ha, fun h => by simp at h; exact absurd h e, fun _ => rfl⟩) hx h5
    rw [List.nil_append, List.nil_append]
    exact Parts.cons (Parts.filter hp) (each_said hs hbody hy h6)

theorem kept_cells {x x' : Mesh.Grid} {N : Nat} (h : Kept x x') (hx : x.cells = N) : x'.cells = N := h.cells.trans hx

theorem groups_body (hs : Sane lib) {name : String} {put : Mesh.Material → Vec ℝ → Mesh.Material} (hp : ∀ m v, label (put m v) = label m) {E N : Nat} (w : Text) (b : Nat × Nat)
    (hb : Block lines "material".toList w b.1 b.2) (m : Nat) (x : Mesh.Grid) (t : List Text) (x' : Mesh.Grid) (hx : x.cells = N)
    (h : (do
      let g ← Tell.loop (fun i g => readLaw v lib lines b (name.toList ++ "(".toList ++ number (i + 1) ++ ")".toList) 1 put m g) E x
      say [" ".toList]
      pure g) = (⟨t, ok x'⟩ : Tell Mesh.Grid)) : x'.cells = N ∧ GroupsText v lib lines E name w t := by
  obtain ⟨t1, y, t2, h1, h2, rfl⟩ := bind_said.1 h
  obtain ⟨t3, _, t4, h3, h4, rfl⟩ := bind_said.1 h2
  have := say_said h3
  subst this
  obtain ⟨rfl, rfl⟩ := pure_said h4
  obtain ⟨a1, a2⟩ := loop_said (I := fun x => x.cells = N) (R := fun e t => LawText v lib lines w (groupKey name e) 1 t) (fun i a t b' _ ha hm => by
    refine ⟨kept_cells (readLaw_kept hp (by rw [← readLaw_res, hm])) ha, ?_⟩
    rw [groupKey_eq] at hm
    exact law_said hs hb hm) hx h1
  exact ⟨a1, t1, a2, rfl⟩

theorem setXS_said (hs : Sane lib) {name title : String} {put : Mesh.Material → Vec ℝ → Mesh.Material} (hp : ∀ m v, label (put m v) = label m) {u u' : Reader} (hu : Seen lines mats g u) {t : List Text}
    (h : setXS v lib name title put u = ⟨t, ok u'⟩) : CellsText g mats (GroupsText v lib lines g.energies name) title.toList t ∧ Seen lines mats g u' := by
  have hr : Input.setXS lib name put u = ok u' := by rw [← setXS_res (v := v) (title := title), h]
  refine ⟨?_, hu.frame (setXS_frame hr hp).1 (setXS_effect hs hu.nodup hr).mats.energies⟩
  obtain ⟨t1, _, t2, h1, h2, rfl⟩ := bind_said.1 h
  have := say_said h1
  subst this
  obtain ⟨t3, x, t4, h3, h4, rfl⟩ := bind_said.1 h2
  obtain ⟨rfl, -⟩ := pure_said h4
  rw [hu.lines, hu.mats, hu.energies] at h3
  have := each_said hs (R := GroupsText v lib lines g.energies name) (fun w b hb m x t x' hx h => groups_body hs hp w b hb m x t x' hx h) rfl h3
  refine ⟨t3, ?_, by rw [List.append_nil]; rfl⟩
  exact this.imp fun w _ t ht => by rw [hu.cells] at ht; exact ht

theorem setScattering_said (hs : Sane lib) {u u' : Reader} (hu : Seen lines mats g u) {t : List Text}
    (h : setScattering v lib u = ⟨t, ok u'⟩) : CellsText g mats (MatrixText v lib lines g.energies) "\nInput scattering matrix [1/cm]:".toList t ∧ Seen lines mats g u' := by
  have hr : Input.setScattering lib u = ok u' := by rw [← setScattering_res (v := v), h]
  refine ⟨?_, hu.frame (setScattering_frame hr).1 (setScattering_effect hs hu.nodup hr).mats.energies⟩
  obtain ⟨t1, _, t2, h1, h2, rfl⟩ := bind_said.1 h
  have := say_said h1
  subst this
  obtain ⟨t3, x, t4, h3, h4, rfl⟩ := bind_said.1 h2
  obtain ⟨rfl, -⟩ := pure_said h4
  rw [hu.lines, hu.mats, hu.energies] at h3
  have := each_said hs (R := MatrixText v lib lines g.energies) (fun w b hb m x t x' hx h => by
    refine loop_said (I := fun y => y.cells = x.cells) (fun i a t b' _ ha hm => ?_) rfl h |>.imp (fun e => e.trans hx) id
    obtain ⟨u1, y, u2, g1, g2, rfl⟩ := bind_said.1 hm
    obtain ⟨u3, _, u4, g3, g4, rfl⟩ := bind_said.1 g2
    have := say_said g3
    subst this
    obtain ⟨rfl, rfl⟩ := pure_said g4
    obtain ⟨a1, a2⟩ := loop_said (I := fun y => y.cells = x.cells) (R := fun f t => LawText v lib lines w (scattKey i f) 2 t) (fun j a t b' _ ha hm => by
      refine ⟨kept_cells (readLaw_kept (put := fun x v => { x with scatt := x.scatt ++ [v] }) (fun _ _ => rfl) (by rw [← readLaw_res, hm])) ha, ?_⟩
      rw [scattKey_eq] at hm
      exact law_said hs hb hm) ha g1
    exact ⟨a1, u1, a2, rfl⟩) rfl h3
  refine ⟨t3, ?_, by rw [List.append_nil]; rfl⟩
  exact this.imp fun w _ t ht => by rw [hu.cells] at ht; exact ht

theorem setConductivity_said (hs : Sane lib) {u u' : Reader} (hu : Seen lines mats g u) {t : List Text} (h : setConductivity v lib u = ⟨t, ok u'⟩) :
    CellsText g mats (fun w => LawText v lib lines w "thermal_conductivity".toList 1) "Input thermal conductivity [W/(m*K)]:".toList t ∧ Seen lines mats g u' := by
  have hr : Input.setConductivity lib u = ok u' := by rw [← setConductivity_res (v := v), h]
  refine ⟨?_, hu.frame (setConductivity_frame hr).1 (setConductivity_effect hs hu.nodup hr).mats.energies⟩
  obtain ⟨t1, _, t2, h1, h2, rfl⟩ := bind_said.1 h
  have := say_said h1
  subst this
  obtain ⟨t3, x, t4, h3, h4, rfl⟩ := bind_said.1 h2
  obtain ⟨rfl, -⟩ := pure_said h4
  rw [hu.lines, hu.mats] at h3
  have := each_said hs (R := fun w => LawText v lib lines w "thermal_conductivity".toList 1) (fun w b hb m x t x' hx h => by
    obtain ⟨u1, l, u2, g1, g2, rfl⟩ := bind_said.1 h
    obtain ⟨rfl, hl⟩ := find_said g1
    refine ⟨kept_cells (conductivityLaw_kept (lib := lib) (ws := splitLine l) (m := m) (by rw [← conductivityLaw_res (v := v), g2])) hx, ?_⟩
    have hcard := findKeyword_card hs hl
    unfold conductivityLaw at g2
    split at g2
    · cases (congrArg Tell.res g2 : _)
    · cases (congrArg Tell.res g2 : _)
    · rename_i k vs _ e
      rw [e] at hcard
      split at g2
      · obtain ⟨u3, xs, u4, g3, g4, rfl⟩ := bind_said.1 g2
        obtain ⟨rfl, -⟩ := lift_said g3
        obtain ⟨u5, y, u6, g5, g6, rfl⟩ := bind_said.1 g4
        obtain ⟨rfl, -⟩ := lift_said g5
        obtain ⟨u7, s, u8, g7, g8, rfl⟩ := bind_said.1 g6
        obtain ⟨rfl, hs⟩ := lift_said g7
        obtain ⟨u9, _, u10, g9, g10, rfl⟩ := bind_said.1 g8
        have := say_said g9
        subst this
        obtain ⟨rfl, -⟩ := pure_said g10
        exact ⟨b.1, b.2, _, s, hb, hcard, by simp, formatLine_row hs, rfl⟩
      · cases (congrArg Tell.res g2 : _)) rfl h3
  refine ⟨t3, ?_, by rw [List.append_nil]; rfl⟩
  exact this.imp fun w _ t ht => by rw [hu.cells] at ht; exact ht

theorem setNuclear_said (hs : Sane lib) {d : Bool} {u u' : Reader} (hu : Seen lines mats g u) {t : List Text} (h : setNuclear v lib d u = ⟨t, ok u'⟩) :
    NuclearText v lib lines g mats (d = true) t ∧ Seen lines mats g u' := by
  obtain ⟨t1, r1, s1, g1, q1, rfl⟩ := bind_said.1 h
  obtain ⟨t2, r2, s2, g2, q2, rfl⟩ := bind_said.1 q1
  obtain ⟨t3, r3, s3, g3, q3, rfl⟩ := bind_said.1 q2
  obtain ⟨t4, r4, s4, g4, q4, rfl⟩ := bind_said.1 q3
  obtain ⟨t5, r5, s5, g5, q5, rfl⟩ := bind_said.1 q4
  obtain ⟨a1, b1⟩ := setXS_said hs (by intros; rfl) hu g1
  obtain ⟨a2, b2⟩ := setXS_said hs (by intros; rfl) b1 g2
  obtain ⟨a3, b3⟩ := setXS_said hs (by intros; rfl) b2 g3
  obtain ⟨a4, b4⟩ := setXS_said hs (by intros; rfl) b3 g4
  have h5 : ((d = true → CellsText g mats (GroupsText v lib lines g.energies "diffCoeff") "\nInput diffusion coefficients [cm]:".toList t5) ∧ (¬ d = true → t5 = [])) ∧ Seen lines mats g r5 := by
    unfold setDiffusion at g5
    split at g5
    · rename_i hd
      obtain ⟨a5, b5⟩ := setXS_said hs (by intros; rfl) b4 g5
      exact ⟨⟨fun _ => a5, fun h => absurd hd h⟩, b5⟩
    · rename_i hd
      obtain ⟨rfl, rfl⟩ := pure_said g5
      exact ⟨⟨fun h => absurd h hd, fun _ => rfl⟩, b4⟩
  obtain ⟨a6, b6⟩ := setScattering_said hs h5.2 q5
  exact ⟨⟨t1, t2, t3, t4, t5, s5, a1, a2, a3, a4, h5.1.1, h5.1.2, a6, by simp only [List.append_assoc]⟩, b6⟩

theorem setTemps_said (hs : Sane lib) {u u' : Reader} (hu : Seen lines mats g u) {t : List Text} (h : setTemps v lib u = ⟨t, ok u'⟩) :
    ValuesText v lib lines "temperatures" "Input temperatures [C]".toList t ∧ Seen lines mats g u' := by
  have hr : Input.setTemps lib u = ok u' := by rw [← setTemps_res (v := v), h]
  obtain ⟨_, -, -, hc⟩ := setTemps_effect hr
  refine ⟨?_, hu.frame (setTemps_frame hr).1 hc.mats.energies⟩
  obtain ⟨t1, x, t2, h1, h2, rfl⟩ := bind_said.1 h
  obtain ⟨t3, _, t4, h3, h4, rfl⟩ := bind_said.1 h2
  obtain ⟨rfl, -⟩ := lift_said h3
  obtain ⟨rfl, -⟩ := pure_said h4
  rw [hu.lines] at h1
  obtain ⟨⟨c, ws, a1, a2⟩, rfl⟩ := values_said hs h1
  exact ⟨c, ws, x, a1, a2, by simp⟩

theorem setSources_said (hs : Sane lib) {u u' : Reader} (hu : Seen lines mats g u) {t : List Text} (h : setSources v lib u = ⟨t, ok u'⟩) :
    ValuesText v lib lines "heat_sources" "Input heat_source densities [W/m3]".toList t ∧ Seen lines mats g u' := by
  have hr : Input.setSources lib u = ok u' := by rw [← setSources_res (v := v), h]
  obtain ⟨_, -, -, hc⟩ := setSources_effect hr
  refine ⟨?_, hu.frame (setSources_frame hr).1 hc.mats.energies⟩
  obtain ⟨t1, x, t2, h1, h2, rfl⟩ := bind_said.1 h
  obtain ⟨t3, _, t4, h3, h4, rfl⟩ := bind_said.1 h2
  obtain ⟨rfl, -⟩ := lift_said h3
  obtain ⟨rfl, -⟩ := pure_said h4
  rw [hu.lines] at h1
  obtain ⟨⟨c, ws, a1, a2⟩, rfl⟩ := values_said hs h1
  exact ⟨c, ws, x, a1, a2, by simp⟩

theorem setPower_said (hs : Sane lib) {u u' : Reader} (hu : Seen lines mats g u) {t : List Text} (h : setPower v lib u = ⟨t, ok u'⟩) :
    (∃ c w s, Card lines "thermal_power" [c, w] ∧ Shown v lib w s ∧ t = ["\nInput thermal power [W]: ".toList ++ s ++ " \n".toList]) ∧ Seen lines mats g u' := by
  have hr : Input.setPower lib u = ok u' := by rw [← setPower_res (v := v), h]
  refine ⟨?_, ?_⟩
  · obtain ⟨t1, w, t2, h1, h2, rfl⟩ := bind_said.1 h
    obtain ⟨rfl, hw⟩ := one_said h1
    obtain ⟨t3, _, t4, h3, h4, rfl⟩ := bind_said.1 h2
    obtain ⟨rfl, -⟩ := lift_said h3
    obtain ⟨t5, s, t6, h5, h6, rfl⟩ := bind_said.1 h4
    obtain ⟨rfl, hsay⟩ := lift_said h5
    obtain ⟨t7, _, t8, h7, h8, rfl⟩ := bind_said.1 h6
    have := say_said h7
    subst this
    obtain ⟨rfl, -⟩ := pure_said h8
    obtain ⟨c, hc⟩ := readOne_sound hs hw
    rw [hu.lines] at hc
    exact ⟨c, w, s, hc, formatWord_shown hsay, rfl⟩
  · obtain ⟨x, rfl⟩ := setPower_eq hr
    exact ⟨hu.lines, hu.mats, hu.nodup, hu.cells, hu.energies⟩

theorem setHeat_said (hs : Sane lib) {ks : List Calc.Kind} {u u' : Reader} (hk : u.solvers.map Calc.Settings.kind = everyone ks) (hu : Seen lines mats g u) {t : List Text}
    (h : setHeat v lib u = ⟨t, ok u'⟩) : HeatText v lib lines g mats ks t ∧ Seen lines mats g u' := by
  obtain ⟨t1, r1, s1, g1, q1, rfl⟩ := bind_said.1 h
  obtain ⟨t2, r2, s2, g2, q2, rfl⟩ := bind_said.1 q1
  have h1 : LoadText v lib lines ks t1 ∧ Seen lines mats g r1 := by
    have hh : (isHere u.solvers .transport || isHere u.solvers .diffusion) = true ↔ (Calc.Kind.transport ∈ ks ∨ Calc.Kind.diffusion ∈ ks) := by
      rw [Bool.or_eq_true, isHere_iff, isHere_iff, hk, mem_everyone (by decide), mem_everyone (by decide)]
    unfold setLoad at g1
    split at g1
    · rename_i hc
      obtain ⟨a, b⟩ := setPower_said hs hu g1
      exact ⟨⟨fun _ => a, fun hn => absurd (hh.1 hc) hn⟩, b⟩
    · rename_i hc
      obtain ⟨a, b⟩ := setSources_said hs hu g1
      exact ⟨⟨fun hp => absurd (hh.2 hp) hc, fun _ => a⟩, b⟩
  obtain ⟨a2, b2⟩ := setConductivity_said hs h1.2 g2
  obtain ⟨a3, b3⟩ := setTemps_said hs b2 q2
  exact ⟨⟨t1, t2, s2, h1.1, a2, a3, by rw [List.append_assoc]⟩, b3⟩

theorem setKinetics_said (hs : Sane lib) {u u' : Reader} {t : List Text} (h : setKinetics v lib u = ⟨t, ok u'⟩) : t = kineticsText v u'.plant.kinetics := by
  obtain ⟨t1, a, s1, g1, q1, rfl⟩ := bind_said.1 h
  obtain ⟨rfl, -⟩ := one_said g1
  obtain ⟨t2, alpha, s2, g2, q2, rfl⟩ := bind_said.1 q1
  obtain ⟨rfl, -⟩ := lift_said g2
  obtain ⟨t3, _, s3, g3, q3, rfl⟩ := bind_said.1 q2
  have e3 := say_said g3
  obtain ⟨t4, w, s4, g4, q4, rfl⟩ := bind_said.1 q3
  obtain ⟨rfl, -⟩ := one_said g4
  obtain ⟨t5, power, s5, g5, q5, rfl⟩ := bind_said.1 q4
  obtain ⟨rfl, -⟩ := lift_said g5
  obtain ⟨t6, _, s6, g6, q6, rfl⟩ := bind_said.1 q5
  have e6 := say_said g6
  obtain ⟨t7, lam, s7, g7, q7, rfl⟩ := bind_said.1 q6
  obtain ⟨-, e7⟩ := values_said hs g7
  obtain ⟨t8, beta, s8, g8, q8, rfl⟩ := bind_said.1 q7
  obtain ⟨-, e8⟩ := values_said hs g8
  obtain ⟨t9, times, s9, g9, q9, rfl⟩ := bind_said.1 q8
  obtain ⟨-, e9⟩ := values_said hs g9
  obtain ⟨t10, rhos, s10, g10, q10, rfl⟩ := bind_said.1 q9
  obtain ⟨-, e10⟩ := values_said hs g10
  split at q10
  · obtain ⟨rfl, rfl⟩ := pure_said q10
    subst e3 e6 e7 e8 e9 e10
    unfold kineticsText
    simp only [List.append_nil, List.nil_append, List.append_assoc]
    rfl
  · obtain ⟨_, _, _, _, q11, -⟩ := bind_said.1 q10
    cases (congrArg Tell.res q11 : _)

/-! ### the whole input -/

theorem setKinetics_one {u u' w w' : Reader} (h : Input.setKinetics lib u = ok u') (h' : Input.setKinetics lib w = ok w') (hl : w.lines = u.lines) : w'.plant.kinetics = u'.plant.kinetics := by
  obtain ⟨x1, e1, q1⟩ := bind_eq_ok.1 h
  obtain ⟨x2, e2, q2⟩ := bind_eq_ok.1 q1
  obtain ⟨x3, e3, q3⟩ := bind_eq_ok.1 q2
  obtain ⟨x4, e4, q4⟩ := bind_eq_ok.1 q3
  obtain ⟨x5, e5, q5⟩ := bind_eq_ok.1 q4
  obtain ⟨x6, e6, q6⟩ := bind_eq_ok.1 q5
  obtain ⟨x7, e7, q7⟩ := bind_eq_ok.1 q6
  obtain ⟨x8, e8, q8⟩ := bind_eq_ok.1 q7
  unfold Input.setKinetics at h'
  rw [hl, e1, ok_bind, e2, ok_bind, e3, ok_bind, e4, ok_bind, e5, ok_bind, e6, ok_bind, e7, ok_bind, e8, ok_bind] at h'
  split at q8
  · rename_i hn
    rw [if_pos hn] at h'
    cases q8
    cases h'
    rfl
  · cases q8

theorem setAll_kinetics {ss : List Calc.Settings} {u u' r' : Reader} (h : Input.setKinetics lib u = ok u') (ha : Input.setAll lib ss u' = ok r') : r'.plant.kinetics = u'.plant.kinetics := by
  have hl : u'.lines = u.lines := by
    obtain ⟨k, rfl⟩ := setKinetics_eq h
    rfl
  refine setAll_inv (P := fun _ w => w.plant.kinetics = u'.plant.kinetics) ha (K := []) rfl fun K k w w' f _ hw hd => ?_
  by_cases hk : k = .kinetics
  · subst hk
    exact setKinetics_one h hd (f.lines.trans hl)
  · exact ((setData_rest hd).2 hk).trans hw

theorem setAll_said (hs : Sane lib) {ks : List Calc.Kind} {p : Calc.Plant} {r' : Reader} (hp : p.kinetics = r'.plant.kinetics) (hpg : p.grid = g) :
    ∀ {ss : List Calc.Settings}, (∀ s ∈ ss, s.kind ∈ everyone ks ∧ s.kind ≠ .undefined) → ∀ {r : Reader} {t : List Text}, r.solvers.map Calc.Settings.kind = everyone ks →
      ((∃ k ∈ ks, k ≠ .kinetics) → Seen lines mats g r) → setAll v lib ss r = ⟨t, ok r'⟩ →
      Parts (DataText v lib lines p mats ks) ((ss.map Calc.Settings.kind).filter (· ≠ .coupled)) t ∧ ((∃ k ∈ ks, k ≠ .kinetics) → Seen lines mats g r')
  | [], _, r, t, _, hu, h => by
    obtain ⟨rfl, rfl⟩ := pure_said h
    exact ⟨Parts.nil, hu⟩
  | s :: ss, hin, r, t, hk, hu, h => by
    obtain ⟨t1, r1, t2, h1, h2, rfl⟩ := bind_said.1 h
    have e1 : Input.setData lib s.kind r = ok r1 := by rw [← setData_res (v := v), h1]
    have e2 : Input.setAll lib ss r1 = ok r' := by rw [← setAll_res (v := v), h2]
    obtain ⟨f1, -⟩ := setData_frame e1
    obtain ⟨hs1, hs2⟩ := hin s (by simp)
    have hin' : ∀ s ∈ ss, s.kind ∈ everyone ks ∧ s.kind ≠ .undefined := fun s hs => hin s (by simp [hs])
    have step : ((s.kind ≠ .coupled → DataText v lib lines p mats ks s.kind t1) ∧ (s.kind = .coupled → t1 = [])) ∧ ((∃ k ∈ ks, k ≠ .kinetics) → Seen lines mats g r1) := by
      have inks : s.kind ≠ .coupled → s.kind ∈ ks := fun hc => (mem_everyone hc).1 hs1
      generalize s.kind = k at *
      cases k with
      | undefined => exact absurd rfl hs2
      | coupled =>
        obtain ⟨rfl, rfl⟩ := pure_said h1
        exact ⟨⟨fun h => absurd rfl h, fun _ => rfl⟩, hu⟩
      | transport =>
        obtain ⟨a, b⟩ := setNuclear_said hs (hu ⟨_, inks (by simp), by simp⟩) h1
        refine ⟨⟨fun _ => ?_, fun h => by cases h⟩, fun _ => b⟩
        show NuclearText v lib lines p.grid mats False t1
        rw [hpg]
        simpa using a
      | diffusion =>
        obtain ⟨a, b⟩ := setNuclear_said hs (hu ⟨_, inks (by simp), by simp⟩) h1
        refine ⟨⟨fun _ => ?_, fun h => by cases h⟩, fun _ => b⟩
        show NuclearText v lib lines p.grid mats True t1
        rw [hpg]
        simpa using a
      | ads =>
        obtain ⟨a, b⟩ := setNuclear_said hs (hu ⟨_, inks (by simp), by simp⟩) h1
        refine ⟨⟨fun _ => ?_, fun h => by cases h⟩, fun _ => b⟩
        show NuclearText v lib lines p.grid mats True t1
        rw [hpg]
        simpa using a
      | heat =>
        obtain ⟨a, b⟩ := setHeat_said hs hk (hu ⟨_, inks (by simp), by simp⟩) h1
        refine ⟨⟨fun _ => ?_, fun h => by cases h⟩, fun _ => b⟩
        show HeatText v lib lines p.grid mats ks t1
        rw [hpg]
        exact a
      | kinetics =>
        refine ⟨⟨fun _ => ?_, fun h => by cases h⟩, fun hh => (hu hh).frame f1 ?_⟩
        · show t1 = kineticsText v p.kinetics
          rw [hp, setAll_kinetics e1 e2]
          exact setKinetics_said hs h1
        · obtain ⟨x, rfl⟩ := setKinetics_eq e1
          rfl
    obtain ⟨a1, a2⟩ := setAll_said hs hp hpg hin' (f1.kinds.trans hk) step.2 h2
    refine ⟨?_, a2⟩
    rw [List.map_cons]
    by_cases hc : s.kind = .coupled
    · rw [List.filter_cons_of_neg (by simp [hc]), step.1.2 hc, List.nil_append]
      exact a1
    · rw [List.filter_cons_of_pos (by simp [hc])]
      exact Parts.cons (step.1.1 hc) a1

/-- The cells of a placed reader by its list of materials. -/
theorem placed_cells {u : Reader} (h : Placed u) (w : Text) : (List.range u.plant.grid.cells).filter (fun i => decide (u.map[i]? = some w)) = cellsOf u.plant.grid w := by
  refine List.filter_congr fun i hi => ?_
  obtain ⟨x, h1, -, h3⟩ := h.cell i (List.mem_range.1 hi)
  rw [h1, h3, String.toList_ofList]
  simp

theorem cellsOf_kept {x x' : Mesh.Grid} (h : Kept x x') (w : Text) : cellsOf x' w = cellsOf x w := by
  unfold cellsOf
  rw [h.cells]
  refine List.filter_congr fun i _ => ?_
  rw [h.names]

theorem everyone_filter {ks : List Calc.Kind} (h : ∀ k ∈ ks, k ≠ .coupled) : (everyone ks).filter (· ≠ .coupled) = ks := by
  unfold everyone
  rw [List.filter_append, List.filter_eq_self.2 (by simpa using h)]
  split <;> simp

theorem ShapeText.kept {x x' : Mesh.Grid} (h : Kept x x') {t : List Text} (ht : ShapeText v lib lines x t) : ShapeText v lib lines x' t := by
  obtain ⟨c, w, vol, mid, row, a1, a2, a3, a4, a5, a6, a7, a8, a9⟩ := ht
  refine ⟨c, w, vol, mid, row, a1, h.geom ▸ a2, ?_, h.cells ▸ a4, ?_, h.cells ▸ a6, ?_, ?_, ?_⟩
  · rw [h.bounds, h.cells, a3]
  · rw [h.geom, h.bounds, h.cells]
    exact a5
  · rw [h.bounds, h.cells]
    exact a7
  · rw [h.cells]
    simpa only [h.names] using a8
  · rw [h.geom, h.bounds]
    exact a9

/-- The shape of the body, and what follows from it for the materials. -/
theorem setShape_said (hs : Sane lib) {ks : List Calc.Kind} {r r' : Reader} (hk : r.solvers.map Calc.Settings.kind = everyone ks) (hn : ∀ k ∈ ks, k ≠ .coupled ∧ k ≠ .undefined)
    (hm : r.map = []) (hmats : r.mats = []) {t : List Text} (h : setShape v lib r = ⟨t, ok r'⟩) :
    ((∃ k ∈ ks, k ≠ .kinetics) → ShapeText v lib r.lines r'.plant.grid t ∧ Placed r') ∧ ((∀ k ∈ ks, k = .kinetics) → t = []) ∧ r'.mats.Pairwise (· < ·) := by
  have hcond := bodily_here hk
  have hB : (∃ k ∈ ks, Bodily k) ↔ ∃ k ∈ ks, k ≠ .kinetics := by
    refine ⟨fun ⟨k, h1, h2⟩ => ⟨k, h1, bodily_kinetics h2⟩, fun ⟨k, h1, h2⟩ => ⟨k, h1, ?_⟩⟩
    obtain ⟨n1, n2⟩ := hn k h1
    cases k <;> simp_all [Bodily, neutronics]
  unfold setShape at h
  split at h
  · rename_i hc
    obtain ⟨t1, r1, t2, h1, h2, rfl⟩ := bind_said.1 h
    obtain ⟨c, w, g, a1, a2, rfl, rfl⟩ := geometry_said hs h1
    have hg : g ≠ .undefined := by
      simp only [geometries, List.mem_cons, Prod.mk.injEq, List.not_mem_nil, or_false] at a2
      rcases a2 with ⟨-, rfl⟩ | ⟨-, rfl⟩ | ⟨-, rfl⟩ <;> simp
    have e2 : Input.setMesh lib { r with plant := { r.plant with grid := { r.plant.grid with geom := g } } } = ok r' := by rw [← setMesh_res (v := v), h2]
    obtain ⟨vol, mid, row, b1, b2, b3, b4, b5, b6, rfl, b8⟩ := mesh_said (r := { r with plant := { r.plant with grid := { r.plant.grid with geom := g } } }) hs hg hm h2
    obtain ⟨-, -, -, -, hgeom⟩ := setMesh_solvers e2
    refine ⟨fun _ => ⟨⟨c, w, vol, mid, row, a1, ?_, b1, b2, b3, b4, b5, b6, ?_⟩, (setMesh_placed (r := { r with plant := { r.plant with grid := { r.plant.grid with geom := g } } }) hm e2).1⟩, fun hk' => ?_, b8⟩
    · rw [hgeom]
      exact a2
    · rw [hgeom]
      simp only [List.append_assoc]
    · obtain ⟨k, m1, m2⟩ := hB.1 (hcond.1 hc)
      exact absurd (hk' k m1) m2
  · rename_i hc
    obtain ⟨rfl, rfl⟩ := pure_said h
    refine ⟨fun hh => absurd (hcond.2 (hB.2 hh)) hc, fun _ => rfl, ?_⟩
    rw [hmats]
    exact List.Pairwise.nil

theorem plots_said {r r' : Reader} {t : List Text} (h : setPlots lib r = ⟨t, ok r'⟩) : t = [] := by
  obtain ⟨t1, ws, t2, h1, h2, rfl⟩ := bind_said.1 h
  obtain ⟨rfl, -⟩ := many_said h1
  obtain ⟨rfl, -⟩ := pure_said h2
  rfl

theorem readData_said (hs : Sane lib) {file : Option (List Text)} {p : Calc.Plant} {r : Reader} {t : List Text} (h : readData v lib file p = ⟨t, ok r⟩) : FileText v lib r.lines r.plant t := by
  obtain ⟨t0, ls, s0, g0, q0, rfl⟩ := bind_said.1 h
  obtain ⟨rfl, hls⟩ := orSay_said g0
  obtain ⟨t1, r1, s1, g1, q1, rfl⟩ := bind_said.1 q0
  obtain ⟨t2, r2, s2, g2, q2, rfl⟩ := bind_said.1 q1
  obtain ⟨t3, r3, s3, g3, q3, rfl⟩ := bind_said.1 q2
  obtain ⟨t4, r4, s4, g4, q4, rfl⟩ := bind_said.1 q3
  have := plots_said q4
  subst this
  have e2 : Input.setShape lib r1 = ok r2 := by rw [← setShape_res (v := v), g2]
  have e3 : Input.setSettings lib r2 = ok r3 := by rw [← setSettings_res, g3]
  have e4 : Input.setAll lib r3.solvers r3 = ok r4 := by rw [← setAll_res (v := v), g4]
  have e5 : Input.setPlots lib r4 = ok r := by rw [← setPlots_res, q4]
  obtain ⟨pl, rfl⟩ := setPlots_eq e5
  obtain ⟨c, ws, ks, a1, a2, rfl, rfl⟩ := solvers_said hs g1
  have hn := names_kinds a2
  have hk1 : ((everyone ks).map newSolver).map Calc.Settings.kind = everyone ks := kinds_new _
  obtain ⟨b1, b2, b3⟩ := setShape_said (r := ⟨ls, (everyone ks).map newSolver, p, [], [], []⟩) hs hk1 hn rfl rfl g2
  have hold := holds_setShape (r := ⟨ls, (everyone ks).map newSolver, p, [], [], []⟩) hs rfl hk1 rfl e2
  have f3 := setSettings_frame e3
  obtain ⟨f4, -⟩ := setAll_frame e4
  have hset := settings_said hs (fun h => (hn _ h).1 rfl) hold.kinds hold.lines g3
  have hk3 : r3.solvers.map Calc.Settings.kind = everyone ks := f3.kinds.trans hold.kinds
  have hin : ∀ s ∈ r3.solvers, s.kind ∈ everyone ks ∧ s.kind ≠ .undefined := fun s hs => by
    have hm : s.kind ∈ everyone ks := by
      rw [← hk3]
      exact List.mem_map_of_mem hs
    refine ⟨hm, fun e => ?_⟩
    exact (hn _ ((mem_everyone (by rw [e]; simp)).1 hm)).2 e
  have see : ∀ g : Mesh.Grid, Kept g r3.plant.grid → r3.plant.grid.energies = g.energies → (∃ k ∈ ks, k ≠ .kinetics) → Seen ls r2.mats g r3 := fun g hg he hh => by
    obtain ⟨-, pl⟩ := b1 hh
    refine ⟨f3.lines.trans hold.lines, f3.mats, f3.mats ▸ pl.nodup, fun w => ?_, he⟩
    rw [f3.map, f3.grid.cells, placed_cells pl, ← cellsOf_kept hg, cellsOf_kept f3.grid]
  have first := (setAll_said hs (p := { r4.plant with grid := r3.plant.grid }) rfl rfl hin hk3 (see _ (Kept.refl _) rfl) g4).2
  have back : Kept r4.plant.grid r3.plant.grid := ⟨f4.grid.geom.symm, f4.grid.bounds.symm, f4.grid.cells.symm, f4.grid.size.symm, fun i => (f4.grid.labels i).symm, f4.grid.forward.symm, f4.grid.adjoint.symm⟩
  have second := (setAll_said hs (p := r4.plant) rfl rfl hin hk3 (fun hh => see _ back (first hh).energies.symm hh) g4).1
  rw [hk3, everyone_filter fun k hk => (hn k hk).1] at second
  have hl : r4.lines = ls := f4.lines.trans (f3.lines.trans hold.lines)
  have f24 := f3.trans f4
  show FileText v lib r4.lines r4.plant _
  rw [hl]
  refine ⟨c, ws, ks, r2.mats, t2, t3, t4, a1, a2, b3, hold.mats, fun hh i hi => ?_, fun hh => (b1 hh).1.kept f24.grid, b2, hset, second, ?_⟩
  · obtain ⟨-, pl⟩ := b1 hh
    rw [f24.grid.cells] at hi
    obtain ⟨w, -, m2, m3⟩ := pl.cell i hi
    rw [f24.grid.names, m3, String.toList_ofList]
    exact m2
  · simp only [List.append_nil, List.nil_append, List.append_assoc]

end

end Verif.Echo
