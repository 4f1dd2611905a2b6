import Verif.Input.ListProps
import Verif.Mesh.Props

/-!
# Lemmas on the mesh card
-/

namespace Verif.Input

open Verif Outcome

noncomputable section

variable {lib : Lib}

/-! ### the list of materials -/

theorem mem_insertText {w v : Text} {l : List Text} : v ∈ insertText w l ↔ v = w ∨ v ∈ l := by
  induction l with
  | nil => simp [insertText]
  | cons u l ih =>
    unfold insertText
    split
    · rw [List.mem_cons, ih, List.mem_cons]
      tauto
    · simp

theorem mem_sortText {v : Text} {l : List Text} : v ∈ sortText l ↔ v ∈ l := by
  induction l with
  | nil => rfl
  | cons u l ih => rw [sortText, mem_insertText, ih, List.mem_cons]

theorem insertText_sorted {w : Text} {l : List Text} (h : l.Pairwise (· ≤ ·)) : (insertText w l).Pairwise (· ≤ ·) := by
  induction l with
  | nil => simp [insertText]
  | cons u l ih =>
    obtain ⟨h1, h2⟩ := List.pairwise_cons.1 h
    unfold insertText
    split
    · rename_i hlt
      refine List.pairwise_cons.2 ⟨fun v hv => ?_, ih h2⟩
      rcases mem_insertText.1 hv with rfl | hv
      · exact List.le_of_lt hlt
      · exact h1 v hv
    · rename_i hlt
      have hle : w ≤ u := List.not_lt.1 hlt
      refine List.pairwise_cons.2 ⟨fun v hv => ?_, h⟩
      rcases List.mem_cons.1 hv with rfl | hv
      · exact hle
      · exact List.le_trans hle (h1 v hv)

theorem sortText_sorted (l : List Text) : (sortText l).Pairwise (· ≤ ·) := by
  induction l with
  | nil => exact List.Pairwise.nil
  | cons u l ih => exact insertText_sorted ih

theorem mem_uniqueText {v : Text} {l : List Text} : v ∈ uniqueText l ↔ v ∈ l := by
  induction l using uniqueText.induct with
  | case1 => rfl
  | case2 w => rfl
  | case3 w l ih =>
    rw [uniqueText, if_pos rfl, ih]
    simp
  | case4 w u l hne ih =>
    rw [uniqueText, if_neg hne, List.mem_cons, ih]
    simp

theorem uniqueText_nodup {l : List Text} (h : l.Pairwise (· ≤ ·)) : (uniqueText l).Nodup := by
  induction l using uniqueText.induct with
  | case1 => exact List.nodup_nil
  | case2 w => exact List.nodup_singleton w
  | case3 w l ih =>
    rw [uniqueText, if_pos rfl]
    exact ih (List.pairwise_cons.1 h).2
  | case4 w u l hne ih =>
    obtain ⟨h1, h2⟩ := List.pairwise_cons.1 h
    rw [uniqueText, if_neg hne]
    refine List.nodup_cons.2 ⟨fun hm => ?_, ih h2⟩
    rw [mem_uniqueText] at hm
    rcases List.mem_cons.1 hm with e | hm
    · exact hne e
    · exact hne (List.le_antisymm (h1 u (by simp)) ((List.pairwise_cons.1 h2).1 w hm))

/-! ### the material of each cell -/

theorem pushLoop {names : Vec Text} {i : Nat} (hi : i < names.n) (n : Nat) (l : List Text) :
    loop (fun _ l => do
      let m ← names.get i
      ok (l ++ [m])) n l = ok (l ++ List.replicate n (names.v i)) := by
  refine loop_ok (fun k => l ++ List.replicate k (names.v i)) (by simp) (fun k _ => ?_)
  rw [Vec.get_ok hi, ok_bind, List.replicate_succ', List.append_assoc]

theorem mapLoop_ok {names : Vec Text} (suf : List Region) : ∀ (i : Nat) (l : List Text), names.n = i + suf.length →
    (∀ k (h : k < suf.length), names.v (i + k) = suf[k].mat) →
    mapLoop names i (suf.map Region.cells) l = ok (l ++ cellNames suf) := by
  induction suf with
  | nil =>
    intro i l _ _
    simp [mapLoop, cellNames]
  | cons r suf ih =>
    intro i l hn hv
    rw [List.map_cons, mapLoop, pushLoop (by rw [hn]; simp), ok_bind]
    rw [ih (i + 1) _ (by rw [hn, List.length_cons]; omega) (fun k hk => by
      have := hv (k + 1) (by simpa using hk)
      rw [show i + 1 + k = i + (k + 1) by omega, this]
      rfl)]
    have := hv 0 (by simp)
    simp only [Nat.add_zero, List.getElem_cons_zero] at this
    rw [this, List.append_assoc]
    rfl

theorem cellNames_length (rs : List Region) : (cellNames rs).length = (rs.map Region.cells).sum := by
  unfold cellNames
  rw [List.length_flatMap]
  simp

theorem regions_ok {ws : List Text} {rs : List Region} (h : Regions lib ws rs) (hs : (rs.map Region.cells).sum ≤ 2147483647) :
    regions lib ws = ok (rs.map Region.cells, rs.map Region.width, rs.map Region.mat) := by
  induction h with
  | nil => rfl
  | @cons w v m n x ws l hw hv h ih =>
    simp only [List.map_cons, List.sum_cons] at hs ⊢
    unfold regions
    rw [stoi_numeral hw (by omega), ok_bind, hv, ok_bind, ih (by omega), ok_bind, toUns_nat (by omega)]

theorem echo_ok {ws : List Text} (h : ∀ w ∈ ws, Named w) : echo lib ws = ok () := by
  induction ws with
  | nil => rfl
  | cons w ws ih =>
    obtain ⟨c, t, rfl, hc⟩ := h w (by simp)
    unfold echo
    rw [show isString (c :: t) = true from hc, if_pos rfl, ok_bind]
    exact ih (fun v hv => h v (by simp [hv]))

theorem volumes_isok {g : Mesh.Grid} (h : g.bounds.n = g.cells + 1) : ∃ x, Mesh.volumes g "m" = ok x := by
  by_cases hg : g.geom = .undefined
  · unfold Mesh.volumes
    rw [hg]
    exact ⟨_, rfl⟩
  · obtain ⟨x, hx, -⟩ := (Mesh.volumes_ok h hg).1
    exact ⟨x, hx⟩

theorem middlePoints_isok {g : Mesh.Grid} (h : g.bounds.n = g.cells + 1) : ∃ x, Mesh.middlePoints g = ok x := by
  unfold Mesh.middlePoints
  rw [h, predIdx_ok (by omega), ok_bind, Nat.add_sub_cancel]
  obtain ⟨x, hx, -⟩ := loop_fill (fun i => (g.bounds.v i + g.bounds.v (i + 1)) / 2) g.cells 0 (fun i x => do
    let y ← g.bounds.get i
    let z ← g.bounds.get (i + 1)
    x.set i ((y + z) / 2)) (fun i t hi _ => by
      rw [Vec.get_ok (by omega), ok_bind, Vec.get_ok (by omega), ok_bind])
  exact ⟨x, hx⟩

theorem map_pair (rs : List Region) : (rs.map (fun r => (r.cells, r.width))).map Prod.fst = rs.map Region.cells ∧
    (rs.map (fun r => (r.cells, r.width))).map Prod.snd = rs.map Region.width := by
  simp [List.map_map, Function.comp_def]

theorem meshBounds_ok {rs : List Region} (h0 : rs ≠ []) (hp : ∀ r ∈ rs, 1 ≤ r.cells) (hs : (rs.map Region.cells).sum < 2147483647) :
    ∃ b, meshBounds (rs.map Region.cells) (rs.map Region.width) = ok b ∧ Spread (rs.map (fun r => (r.cells, r.width))) b := by
  have ht : total (0 :: rs.map Region.cells) = ((rs.map Region.cells).sum : Int) := by
    rw [total_small (by rw [List.sum_cons]; omega), List.sum_cons, Nat.zero_add]
  unfold meshBounds
  rw [ht, if_neg (by omega), show (((rs.map Region.cells).sum : Int) + 1).toNat = (rs.map Region.cells).sum + 1 by omega]
  have := ramp_list (rs := rs.map (fun r => (r.cells, r.width))) (by simpa using h0) (by simpa using hp)
    (x := Vec.const ((rs.map Region.cells).sum + 1) 0) (by rw [(map_pair rs).1]; rfl)
  rwa [(map_pair rs).1, (map_pair rs).2] at this

/-- The mesh card is read as it says. -/
theorem setMesh_ok {r : Reader} {ws : List Text} {rs : List Region} (hr : readMany lib r.lines "mesh".toList = ok ws)
    (h : Regions lib ws rs) (h0 : rs ≠ []) (hp : ∀ r ∈ rs, 1 ≤ r.cells) (hs : (rs.map Region.cells).sum < 2147483647) (hn : ∀ r ∈ rs, Named r.mat)
    (hm : r.map = []) :
    ∃ g, setMesh lib r = ok { r with
        plant := { r.plant with grid := g }
        map := cellNames rs
        mats := uniqueText (sortText (rs.map Region.mat)) } ∧ Meshed rs g ∧
      g = { r.plant.grid with
        bounds := g.bounds
        cells := g.cells
        mats := g.mats } ∧ ∀ i, i < g.cells → g.mats.v i = Mesh.newMaterial (g.mats.v i).name := by
  obtain ⟨b, hb, hS⟩ := meshBounds_ok h0 hp hs
  have hbn : b.n = (rs.map Region.cells).sum + 1 := by
    have := hS.1
    rwa [(map_pair rs).1] at this
  set g1 := Mesh.setBounds b r.plant.grid with hg1
  have hcells : g1.cells = (rs.map Region.cells).sum := by
    rw [hg1]
    show (if b.n = 0 then 2 ^ 32 - 1 else b.n - 1) = _
    rw [if_neg (by omega)]
    omega
  have hbounds : g1.bounds = b := rfl
  obtain ⟨vols, hvols⟩ := volumes_isok (g := g1) (by rw [hbounds, hcells, hbn])
  have hnames : (Vec.ofList ((cellNames rs).map String.ofList)).n = g1.cells := by
    rw [hcells, ← cellNames_length]
    simp [Vec.ofList]
  have hcm : ∃ x : Vec Mesh.Material, Mesh.createMaterials (Vec.ofList ((cellNames rs).map String.ofList)) g1 = ok { g1 with mats := x } ∧ x.n = g1.cells ∧
      ∀ i, i < g1.cells → x.v i = Mesh.newMaterial ((Vec.ofList ((cellNames rs).map String.ofList)).v i) := by
    obtain ⟨x, hx, h1, h2⟩ := loop_fill (fun i => Mesh.newMaterial ((Vec.ofList ((cellNames rs).map String.ofList)).v i)) g1.cells (Mesh.newMaterial "")
      (fun i x => do
        let s ← (Vec.ofList ((cellNames rs).map String.ofList)).get i
        x.set i (Mesh.newMaterial s)) (fun i t hi _ => by
          rw [Vec.get_ok (by omega), ok_bind])
    refine ⟨x, ?_, h1, h2⟩
    unfold Mesh.createMaterials
    rw [hx, ok_bind]
  obtain ⟨x, hx, hxn, hxv⟩ := hcm
  obtain ⟨mid, hmid⟩ := middlePoints_isok (g := { g1 with mats := x }) (by
    show g1.bounds.n = g1.cells + 1
    rw [hbounds, hcells, hbn])
  have hecho : echo lib (cellNames rs) = ok () := echo_ok (fun w hw => by
    unfold cellNames at hw
    rw [List.mem_flatMap] at hw
    obtain ⟨q, hq, hw⟩ := hw
    rw [(List.mem_replicate.1 hw).2]
    exact hn q hq)
  have hmap : mapLoop (Vec.ofList (rs.map Region.mat)) 0 (rs.map Region.cells) [] = ok (cellNames rs) := by
    have := mapLoop_ok (names := Vec.ofList (rs.map Region.mat)) rs 0 [] (by simp [Vec.ofList]) (fun k hk => by simp [Vec.ofList, hk])
    rwa [List.nil_append] at this
  refine ⟨{ g1 with mats := x }, ?_, ⟨hS, ?_, hxn, ?_⟩, rfl, ?_⟩
  · unfold setMesh
    rw [hr, ok_bind, regions_ok h hs.le, ok_bind]
    rw [hb, ok_bind]
    show (Mesh.volumes g1 "m" >>= _) = _
    rw [hvols, ok_bind]
    show (mapLoop (Vec.ofList (rs.map Region.mat)) 0 (rs.map Region.cells) [] >>= _) = _
    rw [hmap, ok_bind, hx, ok_bind, hecho, ok_bind, hmid, ok_bind, hm, List.nil_append]
  · show g1.cells = _
    rw [hcells, cellNames_length]
  · intro i hi
    show (x.v i).name = _
    rw [hxv i (by rw [hcells, ← cellNames_length]; exact hi)]
    show (Vec.ofList ((cellNames rs).map String.ofList)).v i = _
    simp [Vec.ofList, List.getD, hi]
  · intro i hi
    have hi' : i < g1.cells := hi
    show x.v i = Mesh.newMaterial (x.v i).name
    rw [hxv i hi']
    rfl

end

end Verif.Input
