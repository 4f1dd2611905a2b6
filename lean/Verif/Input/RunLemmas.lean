import Verif.Input.CompleteProps
import Verif.Input.RunSpec
import Verif.Calc.HeatProps

/-!
# From the words of a heat file to the hypotheses of the heat calculation
-/

namespace Verif.Input

open Verif Outcome

noncomputable section

variable {lib : Lib} {lines : List Text}

/-! ### what a file says is unique -/

theorem cardIn_unique {key : Text} {a b : Nat} {ws ws' : List Text} (h : CardIn lines key a b ws) (h' : CardIn lines key a b ws') : ws = ws' := by
  obtain ⟨i, m, hf, hw⟩ := h
  obtain ⟨i', m', hf', hw'⟩ := h'
  obtain ⟨rfl, rfl⟩ := first_unique hf hf'
  exact (says_iff.1 hw).symm.trans (says_iff.1 hw')

theorem reads_unique {ws : List Text} {xs ys : List ℝ} (h : Reads lib ws xs) (h' : Reads lib ws ys) : xs = ys := by
  induction h generalizing ys with
  | nil =>
    cases h'
    rfl
  | cons hw _ ih =>
    cases h' with
    | cons hw' h' =>
      rw [hw] at hw'
      cases hw'
      rw [ih h']

theorem toList_same {u v : Vec ℝ} (h : u.toList = v.toList) : u.n = v.n ∧ ∀ i, i < v.n → u.v i = v.v i := by
  have hn : u.n = v.n := by
    have := congrArg List.length h
    simpa [Vec.toList] using this
  refine ⟨hn, fun i hi => ?_⟩
  have := congrArg (fun l => l[i]?) h
  simpa [Vec.toList, hn, hi] using this

theorem law_unique {w key : Text} {n : Nat} {u v : Vec ℝ} (h : Law lib lines w key n u) (h' : Law lib lines w key n v) : u.toList = v.toList := by
  obtain ⟨a, b, ws, hb, hc, -, hr⟩ := h
  obtain ⟨a', b', ws', hb', hc', -, hr'⟩ := h'
  obtain ⟨rfl, rfl⟩ := block_unique hb hb'
  obtain rfl := cardIn_unique hc hc'
  exact reads_unique hr hr'

theorem polyValue_same {u v : Vec ℝ} (h : u.toList = v.toList) (x : ℝ) : Numeric.polyValue u.n u.v x = Numeric.polyValue v.n v.v x := by
  obtain ⟨hn, hv⟩ := toList_same h
  unfold Numeric.polyValue
  rw [hn]
  exact Finset.sum_congr rfl (fun i hi => by rw [hv i (Finset.mem_range.1 hi)])

theorem spread_unique {l : List (Nat × ℝ)} (h0 : l ≠ []) (hp : ∀ r ∈ l, 1 ≤ r.1) {u v : Vec ℝ} (h : Spread l u) (h' : Spread l v) : u.n = v.n ∧ ∀ i, i < v.n → u.v i = v.v i := by
  refine ⟨h.1.trans h'.1.symm, fun i hi => ?_⟩
  rw [h'.1] at hi
  cases i with
  | zero => rw [(C32_bounds h h0 hp).1, (C32_bounds h' h0 hp).1]
  | succ i =>
    obtain ⟨k, hk, j, hj, rfl⟩ := locate (rs := l) (i := i) (by omega)
    rw [Nat.add_assoc, h.2 k hk (j + 1) hj, h'.2 k hk (j + 1) hj]

theorem copies_unique {l : List (ℝ × Nat)} {u v : Vec ℝ} (h : Copies l u) (h' : Copies l v) : u.n = v.n ∧ ∀ i, i < v.n → u.v i = v.v i := by
  refine ⟨h.1.trans h'.1.symm, fun i hi => ?_⟩
  rw [h'.1] at hi
  obtain ⟨k, hk, j, hj, e⟩ := locate (rs := l.map Prod.swap) (i := i) (by rw [List.map_map]; exact hi)
  have hk' : k < l.length := by simpa using hk
  have hj : j < l[k].2 := by simpa using hj
  have e : i = before Prod.snd l k + j := by
    rw [e]
    unfold before
    rw [← List.map_take, List.map_map]
    rfl
  rw [e, h.2 k hk' j hj, h'.2 k hk' j hj]

theorem lists_unique {ws : List Text} {u v : Vec ℝ} (h : Lists lib ws u) (h' : Valued lib ws v) : u.n = v.n ∧ ∀ i, i < v.n → u.v i = v.v i := by
  cases h' with
  | plain hr h0 hd => exact toList_same (h.1 _ hr hd)
  | copies hr h0 hd hs ht => exact copies_unique (h.2.1 _ hr h0 hd hs) ht
  | spread hr h0 hp hs ht => exact spread_unique h0 hp (h.2.2 _ hr h0 hp hs) ht

/-! ### a heat file is complete -/

theorem heatFile_full {g : Diffusion.Geom} {rs : List Region} {law : Text → Vec ℝ} {t q bc : Vec ℝ} {acc : ℝ} {n : Nat}
    (h : HeatFile lib lines g rs law t q bc acc n) : Full lib lines [.heat] g rs 0 where
  solvers := by
    obtain ⟨c, h⟩ := h.solvers
    exact ⟨c, _, h, .cons (by simp [solverNames]) .nil⟩
  some := by simp
  headers := by
    intro k hk
    simp only [everyone, List.length_singleton, Nat.not_succ_le_self, if_false, List.append_nil, List.mem_singleton] at hk
    rw [hk]
    exact h.header
  settings := by
    intro k hk key hkey
    simp only [everyone, List.length_singleton, Nat.not_succ_le_self, if_false, List.append_nil, List.mem_singleton] at hk
    subst hk
    simp only [settingsOf, List.cons_append, List.nil_append, List.mem_cons, List.not_mem_nil, or_false] at hkey
    rcases hkey with rfl | rfl | rfl
    · obtain ⟨v, h1, h2⟩ := h.accuracy
      exact ⟨_, h1, .accuracy h2⟩
    · obtain ⟨v, h1, h2, h3⟩ := h.limit
      exact ⟨_, h1, .limit h2 h3⟩
    · obtain ⟨ws, h1, h2, h3⟩ := h.boundary
      split at h3
      · exact ⟨_, h1, .six (by assumption) h3 h2⟩
      · exact ⟨_, h1, .three (by assumption) h3 h2⟩
  relaxation := by simp
  body := fun _ => h.body
  tables := by simp [neutronics]
  scattering := by simp [neutronics]
  conductivity := fun _ r hr => ⟨_, h.laws r hr⟩
  temperatures := fun _ => ⟨t, h.temperatures.1, h.temperatures.2.le⟩
  sources := fun _ _ _ => ⟨q, h.sources.1, h.sources.2.le⟩
  power := by simp
  kinetics := by simp
  plots := h.plots

/-! ### the mesh -/

theorem even_sum {l : List (Nat × ℝ)} {h : ℝ} (he : ∀ r ∈ l, r.2 = r.1 * h) : (l.map Prod.snd).sum = ((l.map Prod.fst).sum : ℕ) * h := by
  induction l with
  | nil => simp
  | cons r l ih =>
    rw [List.map_cons, List.map_cons, List.sum_cons, List.sum_cons, ih (fun x hx => he x (List.mem_cons_of_mem _ hx)), he r List.mem_cons_self]
    push_cast
    ring

theorem even_bounds {l : List (Nat × ℝ)} {h : ℝ} (he : ∀ r ∈ l, r.2 = r.1 * h) (h0 : l ≠ []) (hp : ∀ r ∈ l, 1 ≤ r.1) {b : Vec ℝ} (hb : Spread l b) {i : Nat}
    (hi : i < b.n) : b.v i = i * h := by
  have hbef : ∀ k, before Prod.snd l k = (before Prod.fst l k : ℕ) * h := fun k => even_sum (fun r hr => he r (List.mem_of_mem_take hr))
  cases i with
  | zero => rw [(C32_bounds hb h0 hp).1]; simp
  | succ i =>
    obtain ⟨k, hk, j, hj, rfl⟩ := locate (rs := l) (i := i) (by have := hb.1; omega)
    have hpos : ((l[k].1 : ℕ) : ℝ) ≠ 0 := by
      have := hp _ (List.getElem_mem hk)
      exact_mod_cast (by omega : l[k].1 ≠ 0)
    rw [Nat.add_assoc, hb.2 k hk (j + 1) hj, hbef, he _ (List.getElem_mem hk)]
    push_cast
    field_simp

theorem getD_here {l : List Text} {i : Nat} (hi : i < l.length) : l.getD i [] = l[i] := by
  rw [List.getD_eq_getElem?_getD, List.getElem?_eq_getElem hi]
  rfl

theorem cellNames_mem {rs : List Region} {i : Nat} (hi : i < (cellNames rs).length) : ∃ r ∈ rs, r.mat = (cellNames rs)[i] := by
  have := List.getElem_mem hi
  unfold cellNames at this
  obtain ⟨r, hr, hm⟩ := List.mem_flatMap.1 this
  exact ⟨r, hr, (List.eq_of_mem_replicate hm).symm⟩

/-- all that is used of the reader -/
structure HeatRead (g : Diffusion.Geom) (rs : List Region) (law : Text → Vec ℝ) (t q bc : Vec ℝ) (acc : ℝ) (n : Nat) (r : Reader) (o : Calc.Settings) : Prop where
  solvers : r.solvers = [o]
  kind : o.kind = .heat
  acc : o.acc = acc
  limit : o.maxIter = n
  bc : o.bc.toList = bc.toList
  geom : r.plant.grid.geom = g
  mesh : Meshed rs r.plant.grid
  law : ∀ i (hi : i < (cellNames rs).length), ∃ v, (r.plant.grid.mats.v i).kLaw = some v ∧ v.toList = (law (cellNames rs)[i]).toList
  temp : ∀ i, i < (cellNames rs).length → (r.plant.grid.mats.v i).T = t.v i
  heat : ∀ i, i < (cellNames rs).length → (r.plant.grid.mats.v i).q = q.v i

theorem heatFile_read (hc : Clean lib lines) {raw : List Text} (hraw : Stored raw lines) (hp : Proper lines) {g : Diffusion.Geom} {rs : List Region} {law : Text → Vec ℝ}
    {t q bc : Vec ℝ} {acc : ℝ} {n : Nat} (h : HeatFile lib lines g rs law t q bc acc n) (p : Calc.Plant) :
    ∃ r o, readData lib (some raw) p = ok r ∧ HeatRead g rs law t q bc acc n r o := by
  obtain ⟨r, hr, hl, hk, hb, -⟩ := C87 hc hraw (heatFile_full h) p
  obtain ⟨hg, hM⟩ := hb ⟨.heat, by simp⟩
  have hk : r.solvers.map Calc.Settings.kind = [.heat] := by simpa [everyone] using hk
  obtain ⟨o, ho, hok⟩ : ∃ o, r.solvers = [o] ∧ o.kind = .heat := by
    cases hs : r.solvers with
    | nil => simp [hs] at hk
    | cons o l =>
      cases l with
      | nil => exact ⟨o, rfl, by simpa [hs] using hk⟩
      | cons o' l => simp [hs] at hk
  have hm : o ∈ r.solvers := by simp [ho]
  have hp : Proper r.lines := by rw [hl]; exact hp
  obtain ⟨⟨ws1, a1, a2⟩, ⟨ws2, b1, b2⟩⟩ := C79_partial hc.1 hr hp hm
  obtain ⟨ws3, c1, c2⟩ := C79_boundary hc.1 hr hp hm hok
  obtain ⟨hlaw, ⟨c4, ws4, t4, d1, d2, -, d3⟩, -, hq⟩ := C83_heat hc.1 hr (by simp [hk])
  obtain ⟨-, c5, ws5, t5, e1, e2, -, e3⟩ := hq (by simp [hk]) (by simp [hk])
  rw [hok, hl] at a1 b1
  rw [hl] at c1 d1 e1
  have hcells : r.plant.grid.cells = (cellNames rs).length := hM.cells
  refine ⟨r, o, hr, ho, hok, ?_, ?_, ?_, hg, hM, fun i hi => ?_, fun i hi => ?_, fun i hi => ?_⟩
  · obtain ⟨v, h1, h2⟩ := h.accuracy
    obtain rfl := setting_unique a1 h1
    rcases a2 with ⟨v', e, a2⟩ | ⟨e, -⟩
    · cases e
      rw [h2] at a2
      cases a2
      rfl
    · simp at e
  · obtain ⟨v, h1, h2, -⟩ := h.limit
    obtain rfl := setting_unique b1 h1
    rcases b2 with ⟨v', e, b2⟩ | ⟨e, -⟩
    · cases e
      exact b2 n h2
    · simp at e
  · obtain ⟨ws, h1, h2, h3⟩ := h.boundary
    obtain rfl := setting_unique c1 h1
    rcases c2 with ⟨-, -, c2⟩ | ⟨-, -, c2⟩ | ⟨e, -⟩
    · exact reads_unique c2 h2
    · exact reads_unique c2 h2
    · split at h3 <;> omega
  · obtain ⟨v, h1, -, -, h2⟩ := hlaw i (by rw [hcells]; exact hi)
    obtain ⟨x, hx, ex⟩ := cellNames_mem hi
    refine ⟨v, h1, ?_⟩
    rw [hM.names i hi, String.toList_ofList, hl] at h2
    rw [← ex] at h2 ⊢
    exact law_unique h2 (h.laws x hx).1
  · obtain ⟨⟨c, ws, h1, h2⟩, h3⟩ := h.temperatures
    have := card_unique d1 h1
    injection this with _ this
    subst this
    obtain ⟨h4, h5⟩ := lists_unique d2 h2
    rw [d3 i (by rw [hcells]; exact hi), if_pos (by rw [h4, h3]; exact hi), h5 i (by rw [h3]; exact hi)]
  · obtain ⟨⟨c, ws, h1, h2⟩, h3⟩ := h.sources
    have := card_unique e1 h1
    injection this with _ this
    subst this
    obtain ⟨h4, h5⟩ := lists_unique e2 h2
    rw [e3 i (by rw [hcells]; exact hi), if_pos (by rw [h4, h3]; exact hi), h5 i (by rw [h3]; exact hi)]

/-! ### the calculation -/

theorem heatRead_cell {g : Diffusion.Geom} {rs : List Region} {law : Text → Vec ℝ} {t q bc : Vec ℝ} {acc : ℝ} {n : Nat} {r : Reader} {o : Calc.Settings}
    (hr : HeatRead g rs law t q bc acc n r o) : ∃ c : Nat → Vec ℝ, (∀ i, i < r.plant.grid.cells → (r.plant.grid.mats.v i).kLaw = some (c i)) ∧
      ∀ i, i < r.plant.grid.cells → ∀ x, Numeric.polyValue (c i).n (c i).v x = conductivityAt rs law i x := by
  have h : ∀ i, ∃ v, i < (cellNames rs).length → (r.plant.grid.mats.v i).kLaw = some v ∧ ∀ x, Numeric.polyValue v.n v.v x = conductivityAt rs law i x := by
    intro i
    by_cases hi : i < (cellNames rs).length
    · obtain ⟨v, h1, h2⟩ := hr.law i hi
      refine ⟨v, fun _ => ⟨h1, fun x => ?_⟩⟩
      unfold conductivityAt
      rw [getD_here hi]
      exact polyValue_same h2 x
    · exact ⟨Vec.ofList [], fun h => absurd h hi⟩
  choose c hc using h
  have hcells := hr.mesh.cells
  exact ⟨c, fun i hi => (hc i (by rw [← hcells]; exact hi)).1, fun i hi => (hc i (by rw [← hcells]; exact hi)).2⟩

theorem heatRead_bounds (hb : BodyFile lib lines g rs) {law : Text → Vec ℝ} {t q bc : Vec ℝ} {m AL BL CL AR BR CR : ℝ} {f : Nat → ℝ}
    (hcase : HeatCase g rs law t q bc f m AL BL CL AR BR CR) {M : Mesh.Grid} (hM : Meshed rs M) {i : Nat} (hi : i ≤ M.cells) : M.bounds.v i = f i := by
  refine (spread_unique (l := rs.map (fun r => (r.cells, r.width))) ?_ ?_ hM.bounds hcase.faces).2 i ?_
  · simpa using hb.some
  · intro x hx
    obtain ⟨r, hr, rfl⟩ := List.mem_map.1 hx
    exact hb.cells r hr
  · have := hM.cells
    show i < (cellNames rs).length + 1
    omega

theorem heatRead_conducting {g : Diffusion.Geom} {rs : List Region} {law : Text → Vec ℝ} {t q bc : Vec ℝ} {acc : ℝ} {n : Nat} {r : Reader} {o : Calc.Settings}
    (hr : HeatRead g rs law t q bc acc n r o) (hb : BodyFile lib lines g rs) {m AL BL CL AR BR CR : ℝ} {f : Nat → ℝ} (hcase : HeatCase g rs law t q bc f m AL BL CL AR BR CR)
    {c : Nat → Vec ℝ} (h1 : ∀ i, i < r.plant.grid.cells → (r.plant.grid.mats.v i).kLaw = some (c i))
    (h2 : ∀ i, i < r.plant.grid.cells → ∀ x, Numeric.polyValue (c i).n (c i).v x = conductivityAt rs law i x) :
    Calc.Conducting r.plant.grid c o.bc AL BL CL AR BR CR m where
  shaped := by
    have hn : r.plant.grid.bounds.n = r.plant.grid.cells + 1 := by
      rw [hr.mesh.bounds.1, hr.mesh.cells, cellNames_length, List.map_map]
      rfl
    have hpos : ∀ x ∈ rs.map (fun r => (r.cells, r.width)), 1 ≤ x.1 := fun x hx => by
      obtain ⟨y, hy, rfl⟩ := List.mem_map.1 hx
      exact hb.cells y hy
    refine ⟨?_, hn, fun _ => ?_, fun i hi => ?_⟩
    · rw [hr.geom]
      obtain ⟨c, w, -, hg⟩ := hb.geometry
      rintro rfl
      simp [geometries] at hg
    · exact (C32_bounds hr.mesh.bounds (by simpa using hb.some) hpos).1.ge
    · exact (C32_bounds hr.mesh.bounds (by simpa using hb.some) hpos).2.2 (fun x hx => by
        obtain ⟨y, hy, rfl⟩ := List.mem_map.1 hx
        exact hcase.wide y hy) i (by rw [hn]; omega)
  mats_n := hr.mesh.mats
  two := by
    rw [hr.mesh.cells]
    exact hcase.two
  laws := h1
  pos := by
    intro i hi x hx
    rw [h2 i hi x]
    have hi : i < (cellNames rs).length := by rw [← hr.mesh.cells]; exact hi
    obtain ⟨y, hy, e⟩ := cellNames_mem hi
    have := hcase.positive y hy x hx
    rw [e] at this
    unfold conductivityAt
    rw [getD_here hi]
    exact this
  boundaries := by
    have := hcase.boundaries
    unfold Heat.Boundaries at this ⊢
    rw [hr.bc]
    exact this
  AL_nonneg := hcase.AL_nonneg
  BL_nonneg := hcase.BL_nonneg
  AR_nonneg := hcase.AR_nonneg
  BR_nonneg := hcase.BR_nonneg
  left := by
    rw [hr.geom]
    exact hcase.left
  right := hcase.right
  tied := by
    rw [hr.geom]
    exact hcase.tied
  lowLeft := by
    rw [hr.geom]
    exact hcase.lowLeft
  lowRight := hcase.lowRight

theorem conducted_heat {g : Diffusion.Geom} {rs : List Region} {law : Text → Vec ℝ} {t q bc : Vec ℝ} {acc : ℝ} {n : Nat} {r : Reader} {o : Calc.Settings}
    (hr : HeatRead g rs law t q bc acc n r o) (hb : BodyFile lib lines g rs) {m AL BL CL AR BR CR : ℝ} {f : Nat → ℝ} (hcase : HeatCase g rs law t q bc f m AL BL CL AR BR CR)
    {c : Nat → Vec ℝ} (h2 : ∀ i, i < r.plant.grid.cells → ∀ x, Numeric.polyValue (c i).n (c i).v x = conductivityAt rs law i x) {s : Nat → ℝ} {d : Heat.Data}
    (on : Calc.HeatOn r.plant.grid c o.bc s d) {T : Nat → ℝ} (hS : Calc.Conducted d AL BL CL AR BR CR T) :
    ConductedHeat g (cellNames rs).length f (fun i => conductivityAt rs law i (s i)) q.v AL BL CL AR BR CR T := by
  have hcells := hr.mesh.cells
  have hdc : d.cells = (cellNames rs).length := on.cells.trans hcells
  have hbd : ∀ i, i ≤ (cellNames rs).length → r.plant.grid.bounds.v i = f i := fun i hi => heatRead_bounds hb hcase hr.mesh (by rw [hcells]; exact hi)
  unfold Calc.Conducted at hS
  rw [on.geom, hr.geom, hdc] at hS
  refine hS.congr hcase.two (fun i hi => ?_) (fun i hi => ?_) (fun i hi => ?_) (fun i hi => ?_) (fun _ _ => rfl)
  · rw [on.physical.size_eq i (by rw [hdc]; exact hi), on.radii, hbd i hi.le, hbd (i + 1) hi]
  · rw [on.k i (by rw [hcells]; exact hi), h2 i (by rw [hcells]; exact hi)]
  · rw [on.surf i (by rw [hcells]; exact hi), hr.geom, hbd i hi]
  · rw [on.q i (by rw [hcells]; exact hi), hr.heat i hi, on.vol i (by rw [hcells]; exact hi)]
    unfold Calc.volume
    rw [hr.geom, hbd i hi.le, hbd (i + 1) hi]

theorem meshed_heated {rs : List Region} {g g' : Mesh.Grid} {t : Nat → ℝ} (hM : Meshed rs g) (h : Calc.Heated g t g') : Meshed rs g' where
  bounds := by rw [h.bounds]; exact hM.bounds
  cells := by rw [h.cells]; exact hM.cells
  mats := by rw [h.mats_n, h.cells]; exact hM.mats
  names := fun i hi => by
    rw [h.mats i (by rw [hM.cells]; exact hi)]
    exact hM.names i hi

end

end Verif.Input
