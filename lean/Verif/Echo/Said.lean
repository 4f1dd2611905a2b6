import Verif.Echo.Loud
import Verif.Echo.TextSpec
import Verif.Mesh.Props

/-! # What the parts of the reader print if they end normally -/

namespace Verif.Echo

open Verif Outcome Input Tell

noncomputable section

variable {α β : Type} {v : Voice} {lib : Lib} {lines : List Text}

theorem bind_said {m : Tell α} {f : α → Tell β} {t : List Text} {b : β} : (m >>= f) = ⟨t, ok b⟩ ↔ ∃ t1 a t2, m = ⟨t1, ok a⟩ ∧ f a = ⟨t2, ok b⟩ ∧ t = t1 ++ t2 := by
  constructor
  · intro h
    have hr : (m >>= f).res = ok b := by rw [h]
    rw [bind_res] at hr
    obtain ⟨a, ha, hb⟩ := bind_eq_ok.1 hr
    refine ⟨m.said, a, (f a).said, ?_, ?_, ?_⟩
    · rw [← ha]
    · rw [← hb]
    · rw [bind_ok ha] at h
      exact (congrArg Tell.said h).symm
  · rintro ⟨t1, a, t2, h1, h2, rfl⟩
    rw [bind_ok (a := a) (by rw [h1]), h1, h2]

theorem lift_said {x : Outcome α} {t : List Text} {a : α} (h : lift x = ⟨t, ok a⟩) : t = [] ∧ x = ok a := ⟨(congrArg Tell.said h).symm, congrArg Tell.res h⟩

theorem pure_said {x a : α} {t : List Text} (h : (pure x : Tell α) = ⟨t, ok a⟩) : t = [] ∧ x = a := by
  have := congrArg Tell.res h
  cases this
  exact ⟨(congrArg Tell.said h).symm, rfl⟩

theorem say_said {l t : List Text} {a : Unit} (h : say l = ⟨t, ok a⟩) : t = l := (congrArg Tell.said h).symm

theorem orSay_said {x : Outcome α} {m : Text} {t : List Text} {a : α} (h : orSay x m = ⟨t, ok a⟩) : t = [] ∧ x = ok a := by
  have hr : x = ok a := by rw [← orSay_res x m, h]
  subst hr
  exact ⟨(congrArg Tell.said h).symm, rfl⟩

theorem find_said {key : Text} {a b : Nat} {opt : Bool} {t : List Text} {l : Text} (h : findKeyword lib lines key a b opt = ⟨t, ok l⟩) : t = [] ∧ Input.findKeyword lib lines key a b opt = ok l :=
  orSay_said h

theorem one_said {key : Text} {t : List Text} {w : Text} (h : readOne lib lines key = ⟨t, ok w⟩) : t = [] ∧ Input.readOne lib lines key = ok w := by
  refine ⟨?_, by rw [← readOne_res, h]⟩
  obtain ⟨t1, l, t2, h1, h2, rfl⟩ := bind_said.1 h
  obtain ⟨rfl, -⟩ := find_said h1
  split at h2
  · cases (congrArg Tell.res h2 : _)
  · cases (congrArg Tell.res h2 : _)
  · exact (pure_said h2).1
  · cases (congrArg Tell.res h2 : _)

theorem many_said {key : Text} {opt : Bool} {t ws : List Text} (h : readMany lib lines key opt = ⟨t, ok ws⟩) : t = [] ∧ Input.readMany lib lines key opt = ok ws := by
  refine ⟨?_, by rw [← readMany_res, h]⟩
  obtain ⟨t1, l, t2, h1, h2, rfl⟩ := bind_said.1 h
  obtain ⟨rfl, -⟩ := find_said h1
  split at h2
  · exact (pure_said h2).1
  · cases (congrArg Tell.res h2 : _)
  · exact (pure_said h2).1

theorem numbers_column (v : Voice) (title : Text) (x : Vec ℝ) : title :: numbers v x = column v title x := by
  unfold numbers column Vec.toList
  rw [List.map_map]
  rfl

theorem values_said (hs : Sane lib) {key title : String} {t : List Text} {x : Vec ℝ} (h : readValues v lib lines key.toList title = ⟨t, ok x⟩) :
    (∃ c ws, Card lines key (c :: ws) ∧ Lists lib ws x) ∧ t = column v ("\n".toList ++ title.toList ++ ":".toList) x := by
  refine ⟨readValues_lists hs (by rw [← readValues_res (v := v) (title := title), h]), ?_⟩
  obtain ⟨t1, ws, t2, h1, h2, rfl⟩ := bind_said.1 h
  obtain ⟨rfl, -⟩ := many_said h1
  obtain ⟨t3, y, t4, h3, h4, rfl⟩ := bind_said.1 h2
  obtain ⟨rfl, -⟩ := lift_said h3
  obtain ⟨t5, _, t6, h5, h6, rfl⟩ := bind_said.1 h4
  have := say_said h5
  subst this
  obtain ⟨rfl, rfl⟩ := pure_said h6
  rw [List.nil_append, List.nil_append, List.append_nil, numbers_column]

/-! ### formats -/

theorem formatWord_shown {w t : Text} (h : formatWord v lib w = ok t) : Shown v lib w t := by
  unfold formatWord at h
  split at h
  · rename_i hw
    cases h
    cases w with
    | nil => cases hw
    | cons c w => exact .word hw
  · rename_i hw
    obtain ⟨x, hx, h⟩ := bind_eq_ok.1 h
    cases h
    refine .number (fun c u e => ?_) hx
    subst e
    simpa [isString] using hw

theorem formatLine_row {ws : List Text} {t : Text} (h : formatLine v lib ws = ok t) : Row v lib ws t := by
  induction ws generalizing t with
  | nil =>
    cases h
    exact ⟨[], .nil, rfl⟩
  | cons w ws ih =>
    obtain ⟨x, hx, h⟩ := bind_eq_ok.1 h
    obtain ⟨y, hy, h⟩ := bind_eq_ok.1 h
    cases h
    obtain ⟨ts, h1, rfl⟩ := ih hy
    exact ⟨x :: ts, .cons (formatWord_shown hx) h1, by rw [List.flatMap_cons]⟩

/-! ### parts -/

theorem Parts.nil {R : α → List Text → Prop} : Parts R [] [] := ⟨[], .nil, rfl⟩

theorem Parts.cons {R : α → List Text → Prop} {x : α} {xs : List α} {s t : List Text} (h : R x s) (h' : Parts R xs t) : Parts R (x :: xs) (s ++ t) := by
  obtain ⟨ts, h1, rfl⟩ := h'
  exact ⟨s :: ts, .cons h h1, by rw [List.flatten_cons]⟩

theorem Parts.append {R : α → List Text → Prop} {xs ys : List α} {s t : List Text} (h : Parts R xs s) (h' : Parts R ys t) : Parts R (xs ++ ys) (s ++ t) := by
  obtain ⟨ss, h1, rfl⟩ := h
  obtain ⟨ts, h2, rfl⟩ := h'
  refine ⟨ss ++ ts, ?_, by rw [List.flatten_append]⟩
  induction h1 with
  | nil => exact h2
  | cons a _ ih => exact .cons a ih

theorem Parts.one {R : α → List Text → Prop} {x : α} {s : List Text} (h : R x s) : Parts R [x] s := by
  have := Parts.cons h (Parts.nil (R := R))
  rwa [List.append_nil] at this

theorem Parts.imp {R R' : α → List Text → Prop} {xs : List α} {t : List Text} (h : Parts R xs t) (hi : ∀ x ∈ xs, ∀ t, R x t → R' x t) : Parts R' xs t := by
  obtain ⟨ts, h1, rfl⟩ := h
  refine ⟨ts, ?_, rfl⟩
  induction h1 with
  | nil => exact .nil
  | cons a _ ih => exact .cons (hi _ (by simp) _ a) (ih fun x hx => hi x (by simp [hx]))

theorem Parts.map {f : β → α} {R : α → List Text → Prop} {xs : List β} {t : List Text} (h : Parts (fun x => R (f x)) xs t) : Parts R (xs.map f) t := by
  obtain ⟨ts, h1, rfl⟩ := h
  exact ⟨ts, List.forall₂_map_left_iff.2 h1, rfl⟩

theorem Parts.filter {R : α → List Text → Prop} {p : α → Bool} {xs : List α} {t : List Text} (h : Parts (fun x t => (p x = true → R x t) ∧ (p x = false → t = [])) xs t) :
    Parts R (xs.filter p) t := by
  obtain ⟨ts, h1, rfl⟩ := h
  induction h1 with
  | nil => exact Parts.nil
  | @cons x s xs ts a _ ih =>
    rw [List.flatten_cons]
    cases hp : p x with
    | true =>
      rw [List.filter_cons_of_pos hp]
      exact Parts.cons (a.1 hp) ih
    | false =>
      rw [List.filter_cons_of_neg (by simp [hp]), a.2 hp, List.nil_append]
      exact ih

theorem loop_said {body : Nat → α → Tell α} {I : α → Prop} {R : Nat → List Text → Prop} {n : Nat} (h : ∀ i a t b, i < n → I a → body i a = ⟨t, ok b⟩ → I b ∧ R i t) {a b : α} {t : List Text}
    (ha : I a) (hl : Tell.loop body n a = ⟨t, ok b⟩) : I b ∧ Parts R (List.range n) t := by
  induction n generalizing b t with
  | zero =>
    obtain ⟨rfl, rfl⟩ := pure_said hl
    exact ⟨ha, Parts.nil⟩
  | succ n ih =>
    obtain ⟨t1, c, t2, h1, h2, rfl⟩ := bind_said.1 hl
    obtain ⟨hc, hp⟩ := ih (fun i a t b hi => h i a t b (by omega)) h1
    obtain ⟨hb, hr⟩ := h n c t2 b (by omega) hc h2
    rw [List.range_succ]
    exact ⟨hb, hp.append (Parts.one hr)⟩

/-! ### solvers and geometry -/

theorem quiet_solverList : ∀ {ws t : List Text} {x : List Calc.Settings × Text}, solverList ws = ⟨t, ok x⟩ → t = []
  | [], _, _, h => (pure_said h).1
  | w :: ws, t, x, h => by
    obtain ⟨u1, k, u2, g1, g2, rfl⟩ := bind_said.1 h
    obtain ⟨rfl, -⟩ := orSay_said g1
    obtain ⟨u3, y, u4, g3, g4, rfl⟩ := bind_said.1 g2
    rw [quiet_solverList g3, (pure_said g4).1]
    rfl

theorem solvers_said (hs : Sane lib) {r r' : Reader} {t : List Text} (h : setSolvers lib r = ⟨t, ok r'⟩) : ∃ c ws ks, Card r.lines "solvers" (c :: ws) ∧ Names ws ks ∧
    r' = { r with solvers := (everyone ks).map newSolver } ∧ t = ["Solvers: ".toList ++ ws.flatMap (· ++ " ".toList) ++ "\n".toList] := by
  obtain ⟨t1, ws, t2, h1, h2, rfl⟩ := bind_said.1 h
  obtain ⟨rfl, hw⟩ := many_said h1
  obtain ⟨t3, x, t4, h3, h4, rfl⟩ := bind_said.1 h2
  have hx : (solverList ws).res = ok x := by rw [h3]
  have h3' : t3 = [] := quiet_solverList h3
  subst h3'
  rw [solverList_res] at hx
  obtain ⟨ss, hss, hx⟩ := bind_eq_ok.1 hx
  cases hx
  obtain ⟨t5, _, t6, h5, h6, rfl⟩ := bind_said.1 h4
  have := say_said h5
  subst this
  obtain ⟨rfl, rfl⟩ := pure_said h6
  obtain ⟨ks, hk, rfl⟩ := solverList_sound hss
  rcases readMany_sound hs hw with ⟨k, -, hc⟩ | ⟨rfl, -⟩
  · refine ⟨k, ws, ks, hc, hk, ?_, rfl⟩
    show Reader.mk _ _ _ _ _ _ = _
    unfold everyone
    simp only [List.length_map]
    split <;> simp
  · cases hss

theorem geometry_said (hs : Sane lib) {r r' : Reader} {t : List Text} (h : setGeometry lib r = ⟨t, ok r'⟩) : ∃ c w g, Card r.lines "geometry" [c, w] ∧ (w, g) ∈ geometries ∧
    r' = { r with plant := { r.plant with grid := { r.plant.grid with geom := g } } } ∧ t = ["Geometry: ".toList ++ shapeName g ++ " \n".toList] := by
  obtain ⟨t1, w, t2, h1, h2, rfl⟩ := bind_said.1 h
  obtain ⟨rfl, hw⟩ := one_said h1
  obtain ⟨t3, g, t4, h3, h4, rfl⟩ := bind_said.1 h2
  obtain ⟨rfl, hg⟩ := orSay_said h3
  obtain ⟨t5, _, t6, h5, h6, rfl⟩ := bind_said.1 h4
  have := say_said h5
  subst this
  obtain ⟨rfl, rfl⟩ := pure_said h6
  obtain ⟨c, hc⟩ := readOne_sound hs hw
  refine ⟨c, w, g, hc, geomOf_sound hg, rfl, ?_⟩
  have hg := geomOf_sound hg
  cases g with
  | undefined => simp [geometries] at hg
  | slab => rfl
  | cylinder => rfl
  | sphere => rfl

/-! ### mesh -/

theorem set_inv {K : Type} {x y : Vec K} {i : Nat} {a : K} (h : x.set i a = ok y) : i < x.n ∧ y.n = x.n := by
  by_cases hi : i < x.n
  · rw [Vec.set_ok hi] at h
    cases h
    exact ⟨hi, rfl⟩
  · unfold Vec.set at h
    rw [if_neg hi] at h
    cases h

theorem ramp_size {c : Vec Nat} {e x y : Vec ℝ} (h : ramp c e x = ok y) : y.n = x.n ∧ (0 < c.n - 1 → ((List.range (c.n - 1)).map fun i => c.v (i + 1)).sum + 1 ≤ x.n) := by
  obtain ⟨s, hl, h⟩ := bind_eq_ok.1 h
  cases h
  have := loop_inv_of_ok (fun k (s : Vec ℝ × Nat × ℝ) => s.1.n = x.n ∧ s.2.1 ≤ x.n ∧
    s.2.1 = ((List.range k).map fun i => c.v (i + 1)).sum + if 0 < k ∧ k = c.n - 1 then 1 else 0) ⟨rfl, Nat.zero_le _, by simp⟩ (fun k u u' hk hu he => by
      obtain ⟨n, hn, he⟩ := bind_eq_ok.1 he
      have hkn : k + 1 < c.n := by omega
      rw [Vec.get_ok hkn] at hn
      cases hn
      obtain ⟨w, hw, he⟩ := bind_eq_ok.1 he
      obtain ⟨d, -, he⟩ := bind_eq_ok.1 he
      cases he
      obtain ⟨h1, h2, h3⟩ := hu
      rw [if_neg (by omega), Nat.add_zero] at h3
      have := loop_inv_of_ok (fun j (s : Vec ℝ × Nat × ℝ) => s.1.n = x.n ∧ s.2.1 ≤ x.n ∧ s.2.1 = u.2.1 + j) ⟨h1, h2, rfl⟩ (fun j q q' _ hq he => by
        obtain ⟨d, -, he⟩ := bind_eq_ok.1 he
        obtain ⟨z, -, he⟩ := bind_eq_ok.1 he
        obtain ⟨y, hy, he⟩ := bind_eq_ok.1 he
        cases he
        obtain ⟨a1, a2⟩ := set_inv hy
        obtain ⟨b1, b2, b3⟩ := hq
        exact ⟨a2.trans b1, by show q.2.1 + 1 ≤ x.n; omega, by show q.2.1 + 1 = _; omega⟩) hw
      obtain ⟨b1, b2, b3⟩ := this
      refine ⟨b1, b2, ?_⟩
      show w.2.1 = _
      rw [b3, h3, List.range_succ, List.map_append, List.sum_append]
      simp only [List.map_cons, List.map_nil, List.sum_cons, List.sum_nil, Nat.add_zero]
      by_cases hl : k + 1 = c.n - 1
      · rw [if_pos hl, if_pos ⟨by omega, hl⟩]
        omega
      · rw [if_neg hl, if_neg (by omega)]
        omega) hl
  refine ⟨this.1, fun h0 => ?_⟩
  obtain ⟨-, h2, h3⟩ := this
  rw [if_pos ⟨h0, rfl⟩] at h3
  omega

theorem tail_sum (c : List Nat) : ((List.range c.length).map fun i => (Vec.ofList (0 :: c)).v (i + 1)) = c := by
  refine List.ext_getElem (by simp) fun i h1 h2 => ?_
  simp [Vec.ofList, List.getD, h2]

theorem mapLoop_length {names : Vec Text} : ∀ {ns : List Nat} {i : Nat} {a m : List Text}, mapLoop names i ns a = ok m → m.length = a.length + ns.sum
  | [], i, a, m, h => by
    cases h
    simp
  | n :: ns, i, a, m, h => by
    obtain ⟨l, hl, h⟩ := bind_eq_ok.1 h
    have := loop_inv_of_ok (fun k (u : List Text) => u.length = a.length + k) rfl (fun k u u' _ hu he => by
      obtain ⟨w, -, he⟩ := bind_eq_ok.1 he
      cases he
      show (u ++ [w]).length = _
      rw [List.length_append, hu]
      rfl) hl
    rw [mapLoop_length h, this, List.sum_cons, Nat.add_assoc]

theorem uniqueText_sorted : ∀ {l : List Text}, l.Pairwise (· ≤ ·) → (uniqueText l).Pairwise (· < ·)
  | [], _ => .nil
  | [w], _ => by simp [uniqueText]
  | w :: u :: l, h => by
    unfold uniqueText
    have h' := (List.pairwise_cons.1 h).2
    split
    · exact uniqueText_sorted h'
    · rename_i hne
      refine List.pairwise_cons.2 ⟨fun x hx => ?_, uniqueText_sorted h'⟩
      have hx : x ∈ u :: l := Input.mem_uniqueText.1 hx
      refine List.not_le.1 fun hle => ?_
      have e := List.le_antisymm hle ((List.pairwise_cons.1 h).1 x hx)
      subst e
      rcases List.mem_cons.1 hx with e | hx
      · exact hne e
      · exact hne (List.le_antisymm ((List.pairwise_cons.1 h).1 u (by simp)) ((List.pairwise_cons.1 h').1 _ hx))

theorem middle_ok {M : Mesh.Grid} (h : M.bounds.n = M.cells + 1) :
    ∃ X, Mesh.middlePoints M = ok X ∧ X.n = M.cells ∧ ∀ i, i < M.cells → X.v i = (M.bounds.v i + M.bounds.v (i + 1)) / 2 := by
  obtain ⟨X, e2, n2, v2⟩ := loop_fill (fun i => (M.bounds.v i + M.bounds.v (i + 1)) / 2) M.cells 0 (fun i x => do
    let y ← M.bounds.get i
    let z ← M.bounds.get (i + 1)
    x.set i ((y + z) / 2)) (fun i t hi _ => by rw [Vec.get_ok (by omega), ok_bind, Vec.get_ok (by omega), ok_bind])
  exact ⟨X, by unfold Mesh.middlePoints; rw [h, predIdx_ok (by omega), ok_bind, Nat.add_sub_cancel]; exact e2, n2, v2⟩

theorem mesh_said (hs : Sane lib) {r r' : Reader} {t : List Text} (hg : r.plant.grid.geom ≠ .undefined) (hm : r.map = []) (h : setMesh v lib r = ⟨t, ok r'⟩) :
    ∃ vol mid row, r'.plant.grid.bounds.n = r'.plant.grid.cells + 1 ∧
      vol.n = r'.plant.grid.cells ∧ (∀ i, i < r'.plant.grid.cells → vol.v i = layer r'.plant.grid.geom (r'.plant.grid.bounds.v i) (r'.plant.grid.bounds.v (i + 1))) ∧
      mid.n = r'.plant.grid.cells ∧ (∀ i, i < r'.plant.grid.cells → mid.v i = (r'.plant.grid.bounds.v i + r'.plant.grid.bounds.v (i + 1)) / 2) ∧
      Row v lib ((List.range r'.plant.grid.cells).map fun i => (r'.plant.grid.mats.v i).name.toList) row ∧
      t = column v "Input boundaries [m]:".toList r'.plant.grid.bounds ++ column v "Input volumes [m3]:".toList vol ++
        ["Input meshes:".toList, row] ++ column v "\nMesh middle points [m]:".toList mid ∧ r'.mats.Pairwise (· < ·) := by
  have hr : Input.setMesh lib r = ok r' := by rw [← setMesh_res (v := v), h]
  have hpl := (setMesh_placed hm hr).1
  obtain ⟨t1, ws, t2, h1, h2, rfl⟩ := bind_said.1 h
  obtain ⟨rfl, hw⟩ := many_said h1
  obtain ⟨t3, c, t4, h3, h4, rfl⟩ := bind_said.1 h2
  obtain ⟨rfl, hc⟩ := lift_said h3
  obtain ⟨t5, b, t6, h5, h6, rfl⟩ := bind_said.1 h4
  obtain ⟨rfl, hb⟩ := lift_said h5
  obtain ⟨t7, _, t8, h7, h8, rfl⟩ := bind_said.1 h6
  have := say_said h7
  subst this
  obtain ⟨t9, vol, t10, h9, h10, rfl⟩ := bind_said.1 h8
  obtain ⟨rfl, hvol⟩ := lift_said h9
  obtain ⟨t11, _, t12, h11, h12, rfl⟩ := bind_said.1 h10
  have := say_said h11
  subst this
  obtain ⟨t13, m, t14, h13, h14, rfl⟩ := bind_said.1 h12
  obtain ⟨rfl, hmap⟩ := lift_said h13
  obtain ⟨t15, g, t16, h15, h16, rfl⟩ := bind_said.1 h14
  obtain ⟨rfl, hgrid⟩ := lift_said h15
  obtain ⟨t17, _, t18, h17, h18, rfl⟩ := bind_said.1 h16
  have := say_said h17
  subst this
  obtain ⟨t19, row, t20, h19, h20, rfl⟩ := bind_said.1 h18
  obtain ⟨rfl, hrow⟩ := lift_said h19
  obtain ⟨t21, _, t22, h21, h22, rfl⟩ := bind_said.1 h20
  have := say_said h21
  subst this
  obtain ⟨t23, mid, t24, h23, h24, rfl⟩ := bind_said.1 h22
  obtain ⟨rfl, hmid⟩ := lift_said h23
  obtain ⟨t25, _, t26, h25, h26, rfl⟩ := bind_said.1 h24
  have := say_said h25
  subst this
  obtain ⟨rfl, rfl⟩ := pure_said h26
  obtain ⟨e1, -, e3⟩ := createMaterials_eq hgrid
  have hbounds : g.bounds = b := by rw [e1]; rfl
  have hgeom : g.geom = r.plant.grid.geom := by rw [e1]; rfl
  have hcell : g.cells = if b.n = 0 then 2 ^ 32 - 1 else b.n - 1 := by rw [e1]; rfl
  have hb0 : b.n ≠ 0 := fun e0 => by
    unfold Mesh.middlePoints at hmid
    rw [hbounds, e0] at hmid
    cases hmid
  rw [if_neg hb0] at hcell
  have hn : g.bounds.n = g.cells + 1 := by rw [hbounds, hcell]; omega
  have hn' : (Mesh.setBounds b r.plant.grid).bounds.n = (Mesh.setBounds b r.plant.grid).cells + 1 := by
    show b.n = (if b.n = 0 then 2 ^ 32 - 1 else b.n - 1) + 1
    rw [if_neg hb0]
    omega
  have hcell' : (Mesh.setBounds b r.plant.grid).cells = g.cells := by rw [e1]
  refine ⟨vol, mid, row, hn, ?_⟩
  obtain ⟨V, eV, nV, vV⟩ := (Mesh.volumes_ok hn' hg).1
  rw [hvol] at eV
  cases eV
  have hlen : m.length = g.cells := by
    refine le_antisymm ?_ ?_
    · rw [mapLoop_length hmap]
      unfold meshBounds at hb
      split at hb
      · cases hb
      · have := ramp_size hb
        cases hc1 : c.1 with
        | nil => simp
        | cons n ns =>
          have h2 := this.2 (by rw [hc1]; simp [Vec.ofList])
          have h1 := this.1
          rw [show (Vec.ofList (0 :: c.1)).n - 1 = c.1.length by simp [Vec.ofList], tail_sum] at h2
          rw [← h1] at h2
          rw [← hc1, hcell]
          simp only [List.length_nil, Nat.zero_add]
          omega
    · by_contra hlt
      have := (e3 m.length (by rw [hcell']; omega)).1
      simp [Vec.ofList] at this
  refine ⟨nV.trans hcell', fun i hi => ?_, ?_⟩
  · rw [vV i (by rw [hcell']; exact hi)]
    show Mesh.shell r.plant.grid.geom (b.v (i + 1)) (b.v i) = layer g.geom (g.bounds.v i) (g.bounds.v (i + 1))
    rw [hgeom, hbounds]
    cases r.plant.grid.geom <;> rfl
  obtain ⟨X, eX, nX, vX⟩ := middle_ok hn
  rw [hmid] at eX
  cases eX
  refine ⟨nX, vX, ?_, ?_, uniqueText_sorted (sortText_sorted _)⟩
  · have : ((List.range g.cells).map fun i => (g.mats.v i).name.toList) = m := by
      refine List.ext_getElem (by simp [hlen]) fun i h1 h2 => ?_
      simp only [List.getElem_map, List.getElem_range]
      rw [(e3 i (by rw [hcell', ← hlen]; exact h2)).2]
      show ((Vec.ofList (m.map String.ofList)).v i).toList = _
      simp [Vec.ofList, List.getD, h2]
    show Row v lib ((List.range g.cells).map fun i => (g.mats.v i).name.toList) row
    rw [this]
    exact formatLine_row hrow
  · show _ = column v _ g.bounds ++ _ ++ _ ++ _
    rw [hbounds, ← numbers_column, ← numbers_column, ← numbers_column]
    simp

/-! ### settings -/

theorem spaced_eq : ∀ ws : List Text, spaced ws = ws.flatMap (" ".toList ++ ·)
  | [] => rfl
  | w :: ws => by rw [spaced, List.flatMap_cons, spaced_eq ws]

theorem assign_said {ws : List Text} {input : Calc.Kind} {s : Calc.Settings} {p : Calc.Plant} {t : List Text} {x : Calc.Settings × Calc.Plant} (h : assign lib ws input s p = ⟨t, ok x⟩) :
    ∃ w us, ws = w :: us ∧ t = [kindName s.kind ++ " solver ".toList ++ w ++ ":".toList ++ us.flatMap (" ".toList ++ ·)] := by
  unfold assign at h
  split at h
  · cases (congrArg Tell.res h : _)
  · rename_i w us
    split at h
    · obtain ⟨t1, _, t2, h1, h2, rfl⟩ := bind_said.1 h
      have := say_said h1
      subst this
      obtain ⟨rfl, -⟩ := orSay_said h2
      exact ⟨w, us, rfl, by rw [spaced_eq, name_kind]; rfl⟩
    · cases (congrArg Tell.res h : _)

/-- The solvers a pass for `input` is about. -/
def picks (input k : Calc.Kind) : Bool := decide (input = .undefined) || decide (k = input)

theorem property_said (hs : Sane lib) {key : String} {input : Calc.Kind} {s : Calc.Settings} {p : Calc.Plant} {t : List Text} {x : Calc.Settings × Calc.Plant}
    (h : property lib lines key.toList input s p = ⟨t, ok x⟩) : (picks input s.kind = true → SettingText lines (s.kind, key) t) ∧ (picks input s.kind = false → t = []) := by
  unfold property at h
  split at h
  · rename_i hc
    refine ⟨fun hp => ?_, fun _ => (pure_said h).1⟩
    simp [picks] at hp
    tauto
  · rename_i hc
    refine ⟨fun _ => ?_, fun hp => ?_⟩
    · obtain ⟨t1, a, t2, h1, h2, rfl⟩ := bind_said.1 h
      obtain ⟨rfl, -⟩ := one_said h1
      obtain ⟨t3, b, t4, h3, h4, rfl⟩ := bind_said.1 h2
      obtain ⟨rfl, hb⟩ := lift_said h3
      obtain ⟨t5, l, t6, h5, h6, rfl⟩ := bind_said.1 h4
      obtain ⟨rfl, hl⟩ := find_said h5
      obtain ⟨w, us, e, rfl⟩ := assign_said h6
      have hcard := findKeyword_card hs hl
      rw [e] at hcard
      exact ⟨b.1, b.2, w, us, (block_small (solverName_small s.kind)).1 (findBlock_sound hs hb), hcard, rfl⟩
    · simp [picks] at hp
      tauto

theorem properties_said (hs : Sane lib) {key : String} {input : Calc.Kind} : ∀ {ss : List Calc.Settings} {p : Calc.Plant} {t : List Text} {x : List Calc.Settings × Calc.Plant},
    properties lib lines key.toList input ss p = ⟨t, ok x⟩ → Parts (fun k t => (picks input k = true → SettingText lines (k, key) t) ∧ (picks input k = false → t = [])) (ss.map Calc.Settings.kind) t
  | [], _, _, _, h => by
    obtain ⟨rfl, -⟩ := pure_said h
    exact Parts.nil
  | s :: ss, p, t, x, h => by
    obtain ⟨t1, a, t2, h1, h2, rfl⟩ := bind_said.1 h
    obtain ⟨t3, b, t4, h3, h4, rfl⟩ := bind_said.1 h2
    obtain ⟨rfl, -⟩ := pure_said h4
    rw [List.append_nil]
    exact Parts.cons (property_said hs h1) (properties_said hs h3)

theorem setProperty_said (hs : Sane lib) {key : String} {input : Calc.Kind} {r r' : Reader} {ks : List Calc.Kind} (hk : r.solvers.map Calc.Settings.kind = ks) (hl : r.lines = lines) {t : List Text}
    (h : setProperty lib key input r = ⟨t, ok r'⟩) :
    Parts (SettingText lines) ((ks.filter (picks input)).map fun k => (k, key)) t ∧ r'.solvers.map Calc.Settings.kind = ks ∧ r'.lines = lines := by
  have f := setProperty_frame (by rw [← setProperty_res, h] : Input.setProperty lib key input r = ok r')
  refine ⟨?_, f.kinds.trans hk, f.lines.trans hl⟩
  obtain ⟨t1, a, t2, h1, h2, rfl⟩ := bind_said.1 h
  obtain ⟨rfl, -⟩ := pure_said h2
  rw [hl] at h1
  have := properties_said hs h1
  rw [hk] at this
  rw [List.append_nil]
  exact Parts.map (f := fun k => (k, key)) (Parts.filter this)

theorem picks_all (ks : List Calc.Kind) : ks.filter (picks .undefined) = ks := List.filter_eq_self.2 fun k _ => by simp [picks]

theorem picks_one {ks : List Calc.Kind} {k : Calc.Kind} (h : k ≠ .undefined) (h' : k ≠ .coupled) (key : String) :
    ((everyone ks).filter (picks k)).map (fun k => (k, key)) = (ks.filter (· = k)).map fun _ => (k, key) := by
  have h1 : (everyone ks).filter (picks k) = ks.filter (· = k) := by
    unfold everyone
    rw [List.filter_append]
    have : (if 2 ≤ ks.length then [Calc.Kind.coupled] else []).filter (picks k) = [] := by
      split
      · simp [picks, h, Ne.symm h']
      · rfl
    rw [this, List.append_nil]
    congr 1
    funext j
    simp [picks, h]
  rw [h1]
  refine List.map_congr_left fun j hj => ?_
  rw [of_decide_eq_true (List.mem_filter.1 hj).2]

theorem picks_coupled {ks : List Calc.Kind} (h : Calc.Kind.coupled ∉ ks) (h2 : 2 ≤ ks.length) (key : String) :
    ((everyone ks).filter (picks .coupled)).map (fun k => (k, key)) = [(.coupled, key)] := by
  unfold everyone
  rw [List.filter_append, if_pos h2, List.filter_eq_nil_iff.2 fun k hk => by simp [picks]; rintro rfl; exact h hk]
  simp [picks]

theorem two_mem {ks : List Calc.Kind} {a b : Calc.Kind} (ha : a ∈ ks) (hb : b ∈ ks) (h : a ≠ b) : 2 ≤ ks.length := by
  match ks, ha, hb with
  | [], ha, _ => cases ha
  | [c], ha, hb =>
    rw [List.mem_singleton] at ha hb
    exact absurd (ha.trans hb.symm) h
  | _ :: _ :: _, _, _ => simp

theorem names_coupled {ws : List Text} {ks : List Calc.Kind} (h : Names ws ks) : Calc.Kind.coupled ∉ ks := fun hk => (names_kinds h _ hk).1 rfl

theorem settings_said (hs : Sane lib) {r r' : Reader} {ks : List Calc.Kind} (hc : Calc.Kind.coupled ∉ ks) (hk : r.solvers.map Calc.Settings.kind = everyone ks) (hl : r.lines = lines) {t : List Text}
    (h : setSettings lib r = ⟨t, ok r'⟩) : Parts (SettingText lines) (settingOrder ks) t := by
  obtain ⟨t1, r1, s1, g1, q1, rfl⟩ := bind_said.1 h
  obtain ⟨t2, r2, s2, g2, q2, rfl⟩ := bind_said.1 q1
  obtain ⟨t3, r3, s3, g3, q3, rfl⟩ := bind_said.1 q2
  obtain ⟨t4, r4, s4, g4, q4, rfl⟩ := bind_said.1 q3
  obtain ⟨t5, r5, s5, g5, q5, rfl⟩ := bind_said.1 q4
  obtain ⟨t6, r6, s6, g6, q6, rfl⟩ := bind_said.1 q5
  obtain ⟨t7, r7, s7, g7, q7, rfl⟩ := bind_said.1 q6
  obtain ⟨t8, r8, s8, g8, q8, rfl⟩ := bind_said.1 q7
  obtain ⟨t9, r9, s9, g9, q9, rfl⟩ := bind_said.1 q8
  obtain ⟨t10, r10, s10, g10, q10, rfl⟩ := bind_said.1 q9
  obtain ⟨t11, r11, s11, g11, q11, rfl⟩ := bind_said.1 q10
  obtain ⟨t12, r12, s12, g12, q12, rfl⟩ := bind_said.1 q11
  obtain ⟨t13, r13, s13, g13, q13, rfl⟩ := bind_said.1 q12
  obtain ⟨p1, k1, l1⟩ := setProperty_said hs hk hl g1
  obtain ⟨p2, k2, l2⟩ := setProperty_said hs k1 l1 g2
  obtain ⟨p3, k3, l3⟩ := setProperty_said hs k2 l2 g3
  obtain ⟨p4, k4, l4⟩ := setProperty_said hs k3 l3 g4
  obtain ⟨p5, k5, l5⟩ := setProperty_said hs k4 l4 g5
  obtain ⟨p6, k6, l6⟩ := setProperty_said hs k5 l5 g6
  obtain ⟨p7, k7, l7⟩ := setProperty_said hs k6 l6 g7
  obtain ⟨p8, k8, l8⟩ := setProperty_said hs k7 l7 g8
  obtain ⟨p9, k9, l9⟩ := setProperty_said hs k8 l8 g9
  obtain ⟨p10, k10, l10⟩ := setProperty_said hs k9 l9 g10
  obtain ⟨p11, k11, l11⟩ := setProperty_said hs k10 l10 g11
  obtain ⟨p12, k12, l12⟩ := setProperty_said hs k11 l11 g12
  obtain ⟨p13, k13, l13⟩ := setProperty_said hs k12 l12 g13
  rw [picks_all] at p1 p2
  rw [picks_one (by decide) (by decide)] at p3 p4 p5 p6 p7 p8 p9 p10 p11 p12 p13
  have last : Parts (SettingText lines) (if (Calc.Kind.transport ∈ ks ∨ Calc.Kind.diffusion ∈ ks) ∧ Calc.Kind.heat ∈ ks then [(Calc.Kind.coupled, "relaxation_parameter")] else []) s13 := by
    unfold setRelaxation at q13
    have hh : ∀ k, k ≠ .coupled → (isHere r13.solvers k = true ↔ k ∈ ks) := fun k hk => by
      rw [isHere_iff, k13, mem_everyone hk]
    split at q13
    · rename_i hi
      simp only [Bool.and_eq_true, Bool.or_eq_true] at hi
      rw [hh _ (by decide), hh _ (by decide), hh _ (by decide)] at hi
      rw [if_pos ⟨hi.1.1, hi.1.2⟩]
      obtain ⟨p14, -, -⟩ := setProperty_said hs k13 l13 q13
      rwa [picks_coupled hc ?_] at p14
      have hi2 := hi.2
      rw [isHere_iff, k13] at hi2
      unfold everyone at hi2
      by_contra hlt
      rw [if_neg hlt, List.append_nil] at hi2
      exact hc hi2
    · rename_i hi
      obtain ⟨rfl, -⟩ := pure_said q13
      rw [if_neg]
      · exact Parts.nil
      · rintro ⟨a1, a2⟩
        refine hi ?_
        simp only [Bool.and_eq_true, Bool.or_eq_true]
        rw [hh _ (by decide), hh _ (by decide), hh _ (by decide)]
        refine ⟨⟨a1, a2⟩, ?_⟩
        rw [isHere_iff, k13]
        unfold everyone
        rw [if_pos]
        · simp
        · rcases a1 with a1 | a1
          · exact two_mem a1 a2 (by decide)
          · exact two_mem a1 a2 (by decide)
  have := p1.append (p2.append (p3.append (p4.append (p5.append (p6.append (p7.append (p8.append (p9.append (p10.append (p11.append (p12.append (p13.append last))))))))))))
  unfold settingOrder
  simp only [List.flatMap_cons, List.flatMap_nil, List.append_nil, List.append_assoc]
  exact this

end

end Verif.Echo
