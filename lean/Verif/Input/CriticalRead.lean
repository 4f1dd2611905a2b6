import Verif.Input.CriticalSpec
import Verif.Input.RunLemmas
import Verif.Calc.NeutronRun

/-!
# From the words of a criticality file to the hypotheses of the calculation
-/

namespace Verif.Input

open Verif Outcome Finset

noncomputable section

variable {lib : Lib} {lines raw : List Text} {k : Calc.Kind} {g : Diffusion.Geom} {rs : List Region} {E : Nat} {T : Tables} {alb : Vec ℝ} {acc : ℝ} {n : Nat} {dir : String}

/-- The list of laws `L` of cell `i` has the coefficients `f e` for group `e`. -/
def Holds (E : Nat) (L : List (Vec ℝ)) (f : Nat → Vec ℝ) : Prop := ∀ e, e < E → ∃ v, L[e]? = some v ∧ v.toList = (f e).toList

/-- what is used of the mesh and the data of the reader when there is the neutronic solver `k` -/
structure NuclearRead (k : Calc.Kind) (g : Diffusion.Geom) (rs : List Region) (E : Nat) (T : Tables) (r : Reader) : Prop where
  geom : r.plant.grid.geom = g
  geom_ok : g ≠ .undefined
  mesh : Meshed rs r.plant.grid
  energies : r.plant.grid.energies = E
  each : ∀ i, i < r.plant.grid.cells → (r.plant.grid.mats.v i).energies = E
  nu : ∀ i, i < r.plant.grid.cells → Holds E (r.plant.grid.mats.v i).nu (fun e => T.nu e (matAt rs i))
  chi : ∀ i, i < r.plant.grid.cells → Holds E (r.plant.grid.mats.v i).chi (fun e => T.chi e (matAt rs i))
  fiss : ∀ i, i < r.plant.grid.cells → Holds E (r.plant.grid.mats.v i).fiss (fun e => T.fiss e (matAt rs i))
  tot : ∀ i, i < r.plant.grid.cells → Holds E (r.plant.grid.mats.v i).tot (fun e => T.tot e (matAt rs i))
  scatt : ∀ i, i < r.plant.grid.cells → ∀ e f, e < E → f < E →
    ∃ v, (r.plant.grid.mats.v i).scatt[f + e * E]? = some v ∧ v.toList = (T.scatt e f (matAt rs i)).toList
  diff : k = .diffusion ∨ k = .ads → ∀ i, i < r.plant.grid.cells → Holds E (r.plant.grid.mats.v i).diff (fun e => T.diff e (matAt rs i))

/-- all that is used of the reader when there is one neutronic solver -/
structure NeutronRead (k : Calc.Kind) (g : Diffusion.Geom) (rs : List Region) (E : Nat) (T : Tables) (p : Calc.Plant) (r : Reader) (o : Calc.Settings) : Prop
    extends NuclearRead k g rs E T r where
  solvers : r.solvers = [o]
  kind : o.kind = k
  groups : o.energies = E
  cold : ∀ i, i < r.plant.grid.cells → (r.plant.grid.mats.v i).T = 0
  idle : ∀ i, i < r.plant.grid.cells → (r.plant.grid.mats.v i).q = 0
  power : r.plant.power = p.power

theorem matAt_mem {i : Nat} (hi : i < (cellNames rs).length) : ∃ q ∈ rs, q.mat = matAt rs i := by
  unfold matAt
  rw [getD_here hi]
  exact cellNames_mem hi

theorem nuclear_read (hc : Clean lib lines) (hp : Proper lines) (hk : k ∈ neutronics) {ks : List Calc.Kind} (hin : k ∈ ks) (hF : Full lib lines ks g rs E)
    (hT : TableFile lib lines rs E T) (hD : k = .diffusion ∨ k = .ads → DiffFile lib lines rs E T) {p : Calc.Plant} {r : Reader} (hr : readData lib (some raw) p = ok r)
    (hl : r.lines = lines) (hks : r.solvers.map Calc.Settings.kind = everyone ks) (hg : r.plant.grid.geom = g) (hM : Meshed rs r.plant.grid) (hE : r.plant.grid.energies = E) :
    NuclearRead k g rs E T r ∧ ∀ o ∈ r.solvers, o.kind ∈ neutronics → o.energies = E := by
  have hne : k ≠ .kinetics := by
    rintro rfl
    simp [neutronics] at hk
  have hpl : Proper r.lines := by rw [hl]; exact hp
  have hin' : k ∈ r.solvers.map Calc.Settings.kind := by
    rw [hks]
    exact List.mem_append_left _ hin
  have hcells : r.plant.grid.cells = (cellNames rs).length := hM.cells
  have groups : ∀ k' ∈ r.solvers.map Calc.Settings.kind, k' ∈ neutronics → ∃ v, Setting lines k' "energies" [v] ∧ Numeral v E := by
    intro k' h1 h2
    rw [hks] at h1
    obtain ⟨ws, a, b⟩ := hF.settings k' h1 "energies" (by
      simp only [neutronics, List.mem_cons, List.not_mem_nil, or_false] at h2
      rcases h2 with rfl | rfl | rfl <;> simp [settingsOf])
    generalize hkey : "energies" = key at a b
    cases b with
    | groups h _ =>
      exact ⟨_, a, h⟩
    | _ => exact absurd hkey (by decide)
  obtain ⟨-, m2⟩ := C79_mesh hc.1 hr hpl (n := E) (fun k' h1 h2 => by
    rw [hl]
    exact groups k' h1 h2) hin' hk
  have law1 : ∀ (key : Nat → Text) (m : Nat) (L : Mesh.Material → List (Vec ℝ)) (F : Nat → Text → Vec ℝ), (∀ q ∈ rs, ∀ e, e < E → Law lib lines q.mat (key e) m (F e q.mat)) →
      ∀ i, i < r.plant.grid.cells → Has lib r.lines (r.plant.grid.mats.v i).name.toList r.plant.grid.energies key m (L (r.plant.grid.mats.v i)) →
      Holds E (L (r.plant.grid.mats.v i)) (fun e => F e (matAt rs i)) := by
    intro key m L F hF i hi has e he
    have hi' : i < (cellNames rs).length := by rw [← hcells]; exact hi
    obtain ⟨v, h1, h2⟩ := has e (by rw [hE]; exact he)
    refine ⟨v, h1, ?_⟩
    rw [hM.names i hi', String.toList_ofList, hl] at h2
    obtain ⟨q, hq, eq⟩ := cellNames_mem hi'
    have := law_unique h2 (by rw [← eq]; exact hF q hq e he)
    unfold matAt
    rw [getD_here hi', ← eq]
    exact this
  have cell := fun i (hi : i < r.plant.grid.cells) => C83 hc.1 hr hin' hk hi
  refine ⟨⟨hg, ?_, hM, hE, m2, fun i hi => law1 _ _ _ T.nu hT.nu i hi (cell i hi).1.nu,
    fun i hi => law1 _ _ _ T.chi hT.chi i hi (cell i hi).1.chi, fun i hi => law1 _ _ _ T.fiss hT.fiss i hi (cell i hi).1.fiss,
    fun i hi => law1 _ _ _ T.tot hT.tot i hi (cell i hi).1.tot, fun i hi e f he hf => ?_, fun hd i hi => law1 _ _ _ T.diff (hD hd) i hi ((cell i hi).2 ?_)⟩, fun o hm hn => ?_⟩
  · obtain ⟨c, w, -, hg⟩ := (hF.body ⟨k, hin, hne⟩).geometry
    rintro rfl
    simp [geometries] at hg
  · have hi' : i < (cellNames rs).length := by rw [← hcells]; exact hi
    obtain ⟨v, h1, h2⟩ := (cell i hi).1.scatt e f (by rw [hE]; exact he) (by rw [hE]; exact hf)
    rw [hE, add_comm] at h1
    refine ⟨v, h1, ?_⟩
    rw [hM.names i hi', String.toList_ofList, hl] at h2
    obtain ⟨q, hq, eq⟩ := cellNames_mem hi'
    have := law_unique h2 (by rw [← eq]; exact hT.scatt q hq e f he hf)
    unfold matAt
    rw [getD_here hi', ← eq]
    exact this
  · rcases hd with rfl | rfl
    · exact Or.inl hin'
    · exact Or.inr hin'
  · obtain ⟨v, hset, hnum⟩ := groups o.kind (List.mem_map_of_mem hm) hn
    obtain ⟨ws, a, b⟩ := C79_groups hc.1 hr hpl hm (by simpa [neutronics] using hn)
    rw [hl] at a
    obtain rfl := setting_unique a hset
    rcases b with ⟨v', e, b⟩ | ⟨e, -⟩
    · cases e
      exact b E hnum
    · simp at e

theorem neutron_read (hc : Clean lib lines) (hraw : Stored raw lines) (hp : Proper lines) (hk : k ∈ neutronics) (hF : Full lib lines [k] g rs E)
    (hT : TableFile lib lines rs E T) (hD : k = .diffusion ∨ k = .ads → DiffFile lib lines rs E T) (p : Calc.Plant) :
    ∃ r o, readData lib (some raw) p = ok r ∧ r.lines = lines ∧ NeutronRead k g rs E T p r o := by
  have hne : k ≠ .kinetics := by
    rintro rfl
    simp [neutronics] at hk
  have hnh : k ≠ .heat := by
    rintro rfl
    simp [neutronics] at hk
  obtain ⟨r, hr, hl, hks, hb, he⟩ := C87 hc hraw hF p
  obtain ⟨hg, hM⟩ := hb ⟨k, by simp, hne⟩
  obtain ⟨hN, ho⟩ := nuclear_read hc hp hk (List.mem_singleton_self k) hF hT hD hr hl hks hg hM (he ⟨k, by simp, hk⟩)
  have hks : r.solvers.map Calc.Settings.kind = [k] := by simpa [everyone] using hks
  obtain ⟨o, hs, hok⟩ : ∃ o, r.solvers = [o] ∧ o.kind = k := by
    cases hs : r.solvers with
    | nil => simp [hs] at hks
    | cons o l =>
      cases l with
      | nil => exact ⟨o, rfl, by simpa [hs] using hks⟩
      | cons o' l => simp [hs] at hks
  have hin : k ∈ r.solvers.map Calc.Settings.kind := by simp [hks]
  obtain ⟨-, u, hu, -, -, hpow⟩ := read_state hc.1 hr ⟨k, hin, Or.inl hk⟩
  refine ⟨r, o, hr, hl, hN, hs, hok, ho o (by simp [hs]) (by rw [hok]; exact hk), fun i hi => ?_, fun i hi => ?_, ?_⟩
  · exact ((C83_unused hc.1 hr ⟨k, hin, Or.inl hk⟩ hi).2.2 (by rw [hks, List.mem_singleton]; exact fun e => hnh e.symm)).2.1
  · exact ((C83_unused hc.1 hr ⟨k, hin, Or.inl hk⟩ hi).2.2 (by rw [hks, List.mem_singleton]; exact fun e => hnh e.symm)).2.2
  · rw [hu.nopower (Or.inl (by rw [hks]; simpa using fun e => hnh e.symm)), hpow]

/-! ### the reactor that was read -/

theorem holds_law {L : List (Vec ℝ)} {f : Nat → Vec ℝ} (h : Holds E L f) {e : Nat} (he : e < E) (x : ℝ) : Mesh.law L x e = valueAt (f e) x := by
  obtain ⟨v, h1, h2⟩ := h e he
  unfold Mesh.law valueAt
  rw [h1]
  exact polyValue_same h2 x

theorem holds_length {L : List (Vec ℝ)} {f : Nat → Vec ℝ} (h : Holds E L f) : E ≤ L.length := by
  by_contra hcon
  obtain ⟨v, h1, -⟩ := h L.length (by omega)
  simp at h1

theorem NuclearRead.shaped {r : Reader} (h : NuclearRead k g rs E T r) (hb : BodyFile lib lines g rs)
    (hw : ∀ q ∈ rs, 0 < q.width) : Mesh.Shaped r.plant.grid := by
  have hn : r.plant.grid.bounds.n = r.plant.grid.cells + 1 := by
    rw [h.mesh.bounds.1, h.mesh.cells, cellNames_length, List.map_map]
    rfl
  obtain ⟨h0, -, hinc⟩ := C32_bounds h.mesh.bounds (by simpa using hb.some) (by
    intro q hq
    obtain ⟨q', hq', rfl⟩ := List.mem_map.1 hq
    exact hb.cells q' hq')
  refine ⟨by rw [h.geom]; exact h.geom_ok, hn, fun _ => by rw [h0], fun i hi => hinc (fun q hq => ?_) i (by omega)⟩
  obtain ⟨q', hq', rfl⟩ := List.mem_map.1 hq
  exact hw q' hq'

theorem NuclearRead.furnished {r : Reader} (h : NuclearRead k g rs E T r) : Mesh.Furnished r.plant.grid :=
  ⟨h.mesh.mats, fun i hi => by rw [h.each i hi, h.energies]⟩

theorem NuclearRead.complete {r : Reader} (h : NuclearRead k g rs E T r) {i : Nat} (hi : i < r.plant.grid.cells) :
    Mesh.Complete (r.plant.grid.mats.v i) r.plant.grid.energies := by
  rw [h.energies]
  refine ⟨holds_length (h.tot i hi), holds_length (h.fiss i hi), ?_, Or.inr (holds_length (h.nu i hi)), Or.inr (holds_length (h.chi i hi))⟩
  by_contra hcon
  have hE : 0 < E := by
    rcases Nat.eq_zero_or_pos E with rfl | h
    · simp at hcon
    · exact h
  have hq : (r.plant.grid.mats.v i).scatt.length / E < E := Nat.div_lt_of_lt_mul (by omega)
  obtain ⟨v, h1, -⟩ := h.scatt i hi _ _ hq (Nat.mod_lt (r.plant.grid.mats.v i).scatt.length hE)
  rw [show (r.plant.grid.mats.v i).scatt.length % E + (r.plant.grid.mats.v i).scatt.length / E * E = (r.plant.grid.mats.v i).scatt.length by
    rw [Nat.mod_add_div']] at h1
  simp at h1

theorem NuclearRead.scatt_law {r : Reader} (h : NuclearRead k g rs E T r) {i e f : Nat} (hi : i < r.plant.grid.cells)
    (he : e < E) (hf : f < E) (x : ℝ) : Mesh.law (r.plant.grid.mats.v i).scatt x (f + e * E) = valueAt (T.scatt e f (matAt rs i)) x := by
  obtain ⟨v, h1, h2⟩ := h.scatt i hi e f he hf
  unfold Mesh.law valueAt
  rw [h1]
  exact polyValue_same h2 x

theorem NuclearRead.diffusion {r : Reader} {o : Calc.Settings} (h : NuclearRead k g rs E T r) (hk : k = .diffusion ∨ k = .ads)
    (ha : o.albedo.toList = alb.toList) {x : Nat → ℝ} {d : Diffusion.Data} (on : Calc.DiffusionOn r.plant.grid o.albedo x d) :
    DiffusionOf g rs E T alb x r.plant.grid.bounds d := by
  have hcell : ∀ {i}, i < d.cells → i < r.plant.grid.cells := fun hi => by rw [← on.cells]; exact hi
  have hE : ∀ {e}, e < E → e < r.plant.grid.energies := fun he => by rw [h.energies]; exact he
  refine ⟨h.mesh.bounds, on.wf, by rw [on.cells, h.mesh.cells], by rw [on.energies, h.energies], by rw [on.geom, h.geom], by rw [on.albedo, ha],
    fun i hi => on.size i (hcell hi), fun i hi => by rw [on.vol i (hcell hi), h.geom], fun i hi => by rw [on.surf i (by rw [← on.cells]; exact hi), h.geom],
    fun e i he hi => ?_, fun e i he hi => ?_, fun e i he hi => ?_, fun e i he hi => ?_, fun e i he hi => ?_, fun e f i he hf hi => ?_⟩
  · rw [on.D e i (hE he) (hcell hi), holds_law (h.diff hk i (hcell hi)) he]
  · rw [on.tot e i (hE he) (hcell hi), holds_law (h.tot i (hcell hi)) he]
  · rw [on.fiss e i (hE he) (hcell hi), holds_law (h.fiss i (hcell hi)) he]
  · rw [on.nu e i (hE he) (hcell hi), holds_law (h.nu i (hcell hi)) he]
  · rw [on.chi e i (hE he) (hcell hi), holds_law (h.chi i (hcell hi)) he]
  · rw [on.scatt e f i (hE he) (hE hf) (hcell hi), h.energies, h.scatt_law (hcell hi) he hf]

theorem NuclearRead.transport {r : Reader} {o : Calc.Settings} (h : NuclearRead k g rs E T r)
    (ha : o.albedo.toList = alb.toList) {x : Nat → ℝ} {d : CPM.Data} (on : Calc.TransportOn r.plant.grid o.albedo x d) :
    TransportOf g rs E T alb x r.plant.grid.bounds d := by
  have hcell : ∀ {i}, i < d.cells → i < r.plant.grid.cells := fun hi => by rw [← on.cells]; exact hi
  have hE : ∀ {e}, e < E → e < r.plant.grid.energies := fun he => by rw [h.energies]; exact he
  refine ⟨h.mesh.bounds, on.wf, by rw [on.cells, h.mesh.cells], by rw [on.energies, h.energies], by rw [on.albedo, ha],
    fun i _ => on.radii i, fun i hi => by rw [on.vol i (hcell hi), h.geom, on.radii, on.radii], on.surface_pos,
    fun hg => by rw [on.surface (by rw [h.geom]; exact hg), h.geom, on.radii],
    fun e i he hi => ?_, fun e i he hi => ?_, fun e i he hi => ?_, fun e i he hi => ?_, fun e f i he hf hi => ?_⟩
  · rw [on.tot e i (hE he) (hcell hi), holds_law (h.tot i (hcell hi)) he]
  · rw [on.fiss e i (hE he) (hcell hi), holds_law (h.fiss i (hcell hi)) he]
  · rw [on.nu e i (hE he) (hcell hi), holds_law (h.nu i (hcell hi)) he]
  · rw [on.chi e i (hE he) (hcell hi), holds_law (h.chi i (hcell hi)) he]
  · rw [on.scatt e f i (hE he) (hE hf) (hcell hi), h.energies, h.scatt_law (hcell hi) he hf]

/-! ### the problem makes sense -/

theorem mat_somewhere {q : Region} (hq : q ∈ rs) (hn : 1 ≤ q.cells) : ∃ i, i < (cellNames rs).length ∧ matAt rs i = q.mat := by
  have hm : q.mat ∈ cellNames rs := by
    unfold cellNames
    exact List.mem_flatMap.2 ⟨q, hq, List.mem_replicate.2 ⟨by omega, rfl⟩⟩
  obtain ⟨i, hi, h⟩ := List.getElem_of_mem hm
  refine ⟨i, hi, ?_⟩
  unfold matAt
  rw [getD_here hi, h]

/-- the mesh of the file -/
structure OnBody (g : Diffusion.Geom) (rs : List Region) (b : Vec ℝ) (G : Mesh.Grid) : Prop where
  shaped : Mesh.Shaped G
  geom : G.geom = g
  bounds : G.bounds = b
  cells : G.cells = (cellNames rs).length
  some : ∀ q ∈ rs, 1 ≤ q.cells

theorem OnBody.incr {b : Vec ℝ} {G : Mesh.Grid} (h : OnBody g rs b G) {i : Nat} (hi : i < (cellNames rs).length) : b.v i < b.v (i + 1) := by
  have := h.shaped.incr i (by rw [h.cells]; exact hi)
  rwa [h.bounds] at this

theorem OnBody.nonneg {b : Vec ℝ} {G : Mesh.Grid} (h : OnBody g rs b G) (hg : g ≠ .slab) : ∀ i, i ≤ (cellNames rs).length → 0 ≤ b.v i ∧ (0 < i → 0 < b.v i) := by
  have h0 := h.shaped.first (by rw [h.geom]; exact hg)
  rw [h.bounds] at h0
  intro i
  induction i with
  | zero => exact fun _ => ⟨h0, fun h => absurd h (by omega)⟩
  | succ i ih =>
    intro hi
    have := h.incr (i := i) (by omega)
    have := (ih (by omega)).1
    exact ⟨by linarith, fun _ => by linarith⟩

theorem OnBody.area_nonneg {b : Vec ℝ} {G : Mesh.Grid} (h : OnBody g rs b G) {i : Nat} (hi : i ≤ (cellNames rs).length) : 0 ≤ Mesh.area g (100 * b.v i) := by
  have hp := Real.pi_pos
  cases g with
  | undefined => simp [Mesh.area]
  | slab => simp [Mesh.area]
  | cylinder =>
    have := (h.nonneg (by decide) i hi).1
    simp only [Mesh.area]
    positivity
  | sphere =>
    simp only [Mesh.area]
    positivity

theorem OnBody.area_pos {b : Vec ℝ} {G : Mesh.Grid} (h : OnBody g rs b G) {i : Nat} (h0 : 0 < i) (hi : i ≤ (cellNames rs).length) : 0 < Mesh.area g (100 * b.v i) := by
  have hp := Real.pi_pos
  cases g with
  | undefined => exact absurd h.geom h.shaped.geom
  | slab => simp [Mesh.area]
  | cylinder =>
    have := (h.nonneg (by decide) i hi).2 h0
    simp only [Mesh.area]
    positivity
  | sphere =>
    have := (h.nonneg (by decide) i hi).2 h0
    simp only [Mesh.area]
    positivity

theorem OnBody.volume_pos {b : Vec ℝ} {G : Mesh.Grid} (h : OnBody g rs b G) {i : Nat} (hi : i < (cellNames rs).length) :
    0 < ∫ r in (100 * b.v i)..(100 * b.v (i + 1)), Mesh.area g r := by
  have := Calc.volume_pos_cm h.shaped (i := i) (by rw [h.cells]; exact hi)
  rwa [h.bounds, h.geom] at this

theorem walk {d : Diffusion.Data} (hs : ∀ i, 0 < i → i < d.cells → 0 < d.surf.v i) {e : Nat} (he : e < d.energies) :
    ∀ a b, a < d.cells → b < d.cells → Relation.ReflTransGen (Solve.Step d) (a, e) (b, e) := by
  have up : ∀ n a, a + n < d.cells → Relation.ReflTransGen (Solve.Step d) (a, e) (a + n, e) := by
    intro n
    induction n with
    | zero => exact fun a _ => .refl
    | succ n ih =>
      intro a ha
      exact (ih a (by omega)).tail ⟨by simp; omega, by simpa using ha, he, he, Or.inl ⟨rfl, by simp; omega, hs _ (by simp) (by simpa using ha)⟩⟩
  have down : ∀ n a, a + n < d.cells → Relation.ReflTransGen (Solve.Step d) (a + n, e) (a, e) := by
    intro n
    induction n with
    | zero => exact fun a _ => .refl
    | succ n ih =>
      intro a ha
      exact .head (b := (a + n, e)) ⟨by simpa using ha, by simp; omega, he, he, Or.inr (Or.inl ⟨rfl, by simp; omega, hs _ (by simp) (by simpa using ha)⟩)⟩ (ih a (by omega))
  intro a b ha hb
  rcases le_total a b with h | h
  · have := up (b - a) a (by omega)
    rwa [Nat.add_sub_cancel' h] at this
  · have := down (a - b) b (by omega)
    rwa [Nat.add_sub_cancel' h] at this

theorem DiffusionOf.regular {x : Nat → ℝ} {X : Set ℝ} {b : Vec ℝ} {d : Diffusion.Data} {G : Mesh.Grid} (h : DiffusionOf g rs E T alb x b d) (hB : OnBody g rs b G)
    (hx : ∀ i, i < (cellNames rs).length → x i ∈ X) (hC : CriticalCase rs E T X) (h2 : 2 ≤ (cellNames rs).length) (hD : ∀ q ∈ rs, ∀ e, e < E → ∀ x ∈ X, 0 < valueAt (T.diff e q.mat) x) (ha : Calc.GoodAlbedos g alb) :
    Solve.Regular d (if g = .slab then alb.v 0 else 1) (if g = .slab then alb.v 1 else alb.v 0) ∧ Solve.NonnegFission d := by
  have hc := h.cells
  have hE := h.energies
  have hm : ∀ {i}, i < d.cells → ∃ q ∈ rs, q.mat = matAt rs i := fun hi => matAt_mem (by rw [← hc]; exact hi)
  have hx : ∀ {i}, i < d.cells → x i ∈ X := fun hi => hx _ (by rw [← hc]; exact hi)
  obtain ⟨an, av⟩ := toList_same h.albedo
  have prod : ∀ {i e}, i < d.cells → e < E → d.nu.m e i * d.fiss.m e i = valueAt (T.nu e (matAt rs i)) (x i) * valueAt (T.fiss e (matAt rs i)) (x i) := fun hi he => by
    rw [h.nu _ _ he hi, h.fiss _ _ he hi]
  have fis : ∀ {i}, i < d.cells → (∃ e, e < d.energies ∧ 0 < d.nu.m e i * d.fiss.m e i) → Fissile E T X (matAt rs i) := by
    rintro i hi ⟨e, he, hp⟩
    rw [hE] at he
    rw [prod hi he] at hp
    exact ⟨e, he, x i, hx hi, hp⟩
  refine ⟨⟨h.wf, ⟨fun e he i hi => ?_, fun i hi => ?_⟩, by rw [hc]; exact h2, ?_, ?_, ?_,
    ⟨fun i hi => ?_, fun i hi => ?_, fun e f i he hf hi => ?_, fun e i he hi => ?_⟩,
    ⟨fun e i he hi => ?_, fun e i he hi => ?_, fun i e hi he hp => ?_, ?_⟩, ?_⟩, ⟨fun e i he hi => ?_, fun e i he hi => ?_, fun e i he hi => ?_⟩⟩
  · obtain ⟨q, hq, eq⟩ := hm hi
    rw [hE] at he
    rw [h.D e i he hi, ← eq]
    exact hD q hq e he _ (hx hi)
  · rw [h.size i hi]
    have := hB.incr (i := i) (by rw [← hc]; exact hi)
    linarith
  · unfold Diffusion.HasAlbedos
    rw [h.geom, an]
    by_cases hg : g = .slab
    · have := (ha.1 hg).1
      exact Or.inl ⟨hg, this, by rw [if_pos hg, av 0 (by omega)], by rw [if_pos hg, av 1 (by omega)]⟩
    · exact Or.inr ⟨hg, ha.2.1, if_neg hg, by rw [if_neg hg, av 0 ha.2.1]⟩
  · split_ifs
    · exact ha.2.2
    · norm_num
  · split_ifs with hg
    · exact (ha.1 hg).2
    · exact ha.2.2
  · rw [h.vol i hi]
    exact hB.volume_pos (by rw [← hc]; exact hi)
  · rw [h.surf i hi]
    exact hB.area_nonneg (by rw [← hc]; exact hi)
  · obtain ⟨q, hq, eq⟩ := hm hi
    rw [hE] at he hf
    rw [h.scatt e f i he hf hi, ← eq]
    exact hC.scatt q hq e f he hf _ (hx hi)
  · obtain ⟨q, hq, eq⟩ := hm hi
    rw [hE] at he ⊢
    rw [sum_congr rfl (fun f hf => h.scatt e f i he (mem_range.1 hf) hi), h.tot e i he hi, ← eq]
    exact hC.absorbs q hq e he _ (hx hi)
  · obtain ⟨q, hq, eq⟩ := hm hi
    rw [hE] at he
    rw [h.chi e i he hi, ← eq]
    exact hC.chi q hq e he _ (hx hi)
  · obtain ⟨q, hq, eq⟩ := hm hi
    rw [hE] at he
    rw [prod hi he, ← eq]
    exact mul_nonneg (hC.nu q hq e he _ (hx hi)) (hC.fiss q hq e he _ (hx hi))
  · have hF := fis hi ⟨e, he, hp⟩
    obtain ⟨q, hq, eq⟩ := hm hi
    rw [← eq] at hF
    obtain ⟨f, hf, hchi⟩ := hC.emitted q hq hF
    exact ⟨f, by rw [hE]; exact hf, by rw [h.chi f i hf hi, ← eq]; exact hchi _ (hx hi)⟩
  · obtain ⟨q, hq, e, he, hp⟩ := hC.somewhere
    obtain ⟨i, hi, eq⟩ := mat_somewhere hq (hB.some q hq)
    rw [← hc] at hi
    exact ⟨i, e, hi, by rw [hE]; exact he, by rw [prod hi he, eq]; exact hp _ (hx hi)⟩
  · intro a c ha' hc' fa fc
    obtain ⟨qa, hqa, ea⟩ := hm ha'
    obtain ⟨qc, hqc, ec⟩ := hm hc'
    obtain ⟨e, f, he, hf, hchi, hp, path⟩ := hC.linked qa hqa qc hqc (by rw [ea]; exact fis ha' fa) (by rw [ec]; exact fis hc' fc)
    refine ⟨e, f, by rw [hE]; exact he, by rw [hE]; exact hf, by rw [h.chi e a he ha', ← ea]; exact hchi _ (hx ha'), by rw [prod hc' hf, ← ec]; exact hp _ (hx hc'), ?_⟩
    have hsurf : ∀ i, 0 < i → i < d.cells → 0 < d.surf.v i := fun i h0 hi => by
      rw [h.surf i hi.le]
      exact hB.area_pos h0 (by rw [← hc]; exact hi.le)
    have go : ∀ {e f}, Reaches rs E T X e f → f < E → ∀ a, a < d.cells → Relation.ReflTransGen (Solve.Step d) (a, e) (c, f) := by
      intro e f path hf
      induction path using Relation.ReflTransGen.head_induction_on with
      | refl => exact fun a ha => walk hsurf (by rw [hE]; exact hf) a c ha hc'
      | @head u v hst _ ih =>
        obtain ⟨h1, h2, q, hq, hp⟩ := hst
        obtain ⟨j, hj, ej⟩ := mat_somewhere hq (hB.some q hq)
        rw [← hc] at hj
        intro a ha
        refine (walk hsurf (by rw [hE]; exact h1) a j ha hj).trans (.head (b := (j, v)) ⟨hj, hj, by rw [hE]; exact h1, by rw [hE]; exact h2, Or.inr (Or.inr ⟨rfl, ?_⟩)⟩ (ih j hj))
        show 0 < d.scatt u v j
        rw [h.scatt u v j h1 h2 hj, ej]
        exact hp _ (hx hj)
    exact go path hf a ha'
  · obtain ⟨q, hq, eq⟩ := hm hi
    rw [hE] at he
    rw [h.chi e i he hi, ← eq]
    exact hC.chi q hq e he _ (hx hi)
  · obtain ⟨q, hq, eq⟩ := hm hi
    rw [hE] at he
    rw [prod hi he, ← eq]
    exact mul_nonneg (hC.nu q hq e he _ (hx hi)) (hC.fiss q hq e he _ (hx hi))
  · obtain ⟨q, hq, eq⟩ := hm hi
    rw [hE] at he
    rw [h.fiss e i he hi, ← eq]
    exact hC.fiss q hq e he _ (hx hi)

theorem TransportOf.body {x : Nat → ℝ} {X : Set ℝ} {b : Vec ℝ} {d : CPM.Data} {G : Mesh.Grid} (h : TransportOf g rs E T alb x b d) (hB : OnBody g rs b G)
    (hx : ∀ i, i < (cellNames rs).length → x i ∈ X) (hC : CriticalCase rs E T X) (h1 : 1 ≤ (cellNames rs).length) (hn : 1 ≤ alb.n) (ha : 0 ≤ alb.v 0 ∧ alb.v 0 ≤ 1) :
    Solve.Body d g ∧ Solve.Multiplying (Solve.reactions d) ∧ Solve.GroupsLinked d ∧ Solve.NonnegFission (Solve.reactions d) := by
  have hc := h.cells
  have hE := h.energies
  have hm : ∀ {i}, i < d.cells → ∃ q ∈ rs, q.mat = matAt rs i := fun hi => matAt_mem (by rw [← hc]; exact hi)
  have hx : ∀ {i}, i < d.cells → x i ∈ X := fun hi => hx _ (by rw [← hc]; exact hi)
  obtain ⟨an, av⟩ := toList_same h.albedo
  have prod : ∀ {i e}, i < d.cells → e < E → d.nu.m e i * d.fiss.m e i = valueAt (T.nu e (matAt rs i)) (x i) * valueAt (T.fiss e (matAt rs i)) (x i) := fun hi he => by
    rw [h.nu _ _ he hi, h.fiss _ _ he hi]
  have fis : ∀ {i}, i < d.cells → (∃ e, e < d.energies ∧ 0 < d.nu.m e i * d.fiss.m e i) → Fissile E T X (matAt rs i) := by
    rintro i hi ⟨e, he, hp⟩
    rw [hE] at he
    rw [prod hi he] at hp
    exact ⟨e, he, x i, hx hi, hp⟩
  have hsc : ∀ e f i, e < d.energies → f < d.energies → i < d.cells → 0 ≤ d.scatt e f i := fun e f i he hf hi => by
    obtain ⟨q, hq, eq⟩ := hm hi
    rw [hE] at he hf
    rw [h.scatt e f i he hf hi, ← eq]
    exact hC.scatt q hq e f he hf _ (hx hi)
  have hab : ∀ e i, e < d.energies → i < d.cells → ∑ f ∈ range d.energies, d.scatt e f i < d.tot.m e i := fun e i he hi => by
    obtain ⟨q, hq, eq⟩ := hm hi
    rw [hE] at he ⊢
    rw [sum_congr rfl (fun f hf => h.scatt e f i he (mem_range.1 hf) hi), h.tot e i he hi, ← eq]
    exact hC.absorbs q hq e he _ (hx hi)
  have hinc : ∀ i, i < d.cells → d.radii.v i < d.radii.v (i + 1) := by
    intro i hi
    rw [h.radii i hi.le, h.radii (i + 1) hi]
    have := hB.incr (i := i) (by rw [← hc]; exact hi)
    linarith
  have hvol : ∀ i, i < d.cells → 0 < d.vol.v i := fun i hi => by
    rw [h.vol i hi]
    exact hB.volume_pos (by rw [← hc]; exact hi)
  have hchi : ∀ e i, e < d.energies → i < d.cells → 0 ≤ d.chi.m e i := fun e i he hi => by
    obtain ⟨q, hq, eq⟩ := hm hi
    rw [hE] at he
    rw [h.chi e i he hi, ← eq]
    exact hC.chi q hq e he _ (hx hi)
  have hprod : ∀ e i, e < d.energies → i < d.cells → 0 ≤ d.nu.m e i * d.fiss.m e i := fun e i he hi => by
    obtain ⟨q, hq, eq⟩ := hm hi
    rw [hE] at he
    rw [prod hi he, ← eq]
    exact mul_nonneg (hC.nu q hq e he _ (hx hi)) (hC.fiss q hq e he _ (hx hi))
  refine ⟨⟨h.wf, ⟨fun e he i hi => ?_, hvol, h.surface_pos⟩, ?_, by rw [hc]; exact h1, by rw [av 0 hn]; exact ha, ⟨hsc, hab⟩⟩,
    ⟨hchi, hprod, fun i e hi he hp => ?_, ?_⟩, ?_, ⟨hchi, hprod, fun e i he hi => ?_⟩⟩
  · exact (sum_nonneg (fun f hf => hsc e f i he (mem_range.1 hf) hi)).trans_lt (hab e i he hi)
  · have h0 : g ≠ .slab → 0 ≤ d.radii.v 0 := fun hg => by
      rw [h.radii 0 (by omega)]
      have := (hB.nonneg hg 0 (by omega)).1
      positivity
    cases g with
    | undefined => exact absurd hB.geom hB.shaped.geom
    | slab =>
      refine ⟨hinc, fun i hi => ?_⟩
      rw [h.vol i hi, h.radii i hi.le, h.radii (i + 1) hi]
      simp [Mesh.area]
    | cylinder => exact ⟨h0 (by decide), hinc⟩
    | sphere => exact ⟨h0 (by decide), hinc⟩
  · change i < d.cells at hi
    change e < d.energies at he
    have hF := fis hi ⟨e, he, hp⟩
    obtain ⟨q, hq, eq⟩ := hm hi
    rw [← eq] at hF
    obtain ⟨f, hf, hchi⟩ := hC.emitted q hq hF
    exact ⟨f, by show f < d.energies; rw [hE]; exact hf, by show 0 < d.chi.m f i; rw [h.chi f i hf hi, ← eq]; exact hchi _ (hx hi)⟩
  · obtain ⟨q, hq, e, he, hp⟩ := hC.somewhere
    obtain ⟨i, hi, eq⟩ := mat_somewhere hq (hB.some q hq)
    rw [← hc] at hi
    exact ⟨i, e, hi, by show e < d.energies; rw [hE]; exact he, by show 0 < d.nu.m e i * d.fiss.m e i; rw [prod hi he, eq]; exact hp _ (hx hi)⟩
  · intro a c ha' hc' fa fc
    obtain ⟨qa, hqa, ea⟩ := hm ha'
    obtain ⟨qc, hqc, ec⟩ := hm hc'
    obtain ⟨e, f, he, hf, hchi, hp, path⟩ := hC.linked qa hqa qc hqc (by rw [ea]; exact fis ha' fa) (by rw [ec]; exact fis hc' fc)
    refine ⟨e, f, by rw [hE]; exact he, by rw [hE]; exact hf, by rw [h.chi e a he ha', ← ea]; exact hchi _ (hx ha'), by rw [prod hc' hf, ← ec]; exact hp _ (hx hc'), ?_⟩
    refine Relation.ReflTransGen.mono (fun u v hst => ?_) e f path
    obtain ⟨h1, h2, q, hq, hp⟩ := hst
    obtain ⟨j, hj, ej⟩ := mat_somewhere hq (hB.some q hq)
    rw [← hc] at hj
    exact ⟨by rw [hE]; exact h1, by rw [hE]; exact h2, j, hj, by rw [h.scatt u v j h1 h2 hj, ej]; exact hp _ (hx hj)⟩
  · change i < d.cells at hi
    change e < d.energies at he
    obtain ⟨q, hq, eq⟩ := hm hi
    rw [hE] at he
    show 0 ≤ d.fiss.m e i
    rw [h.fiss e i he hi, ← eq]
    exact hC.fiss q hq e he _ (hx hi)

/-- all temperatures are zero -/
theorem NeutronRead.still {p : Calc.Plant} {r : Reader} {o : Calc.Settings} (h : NeutronRead k g rs E T p r o) {d : Diffusion.Data}
    (on : Calc.DiffusionOn r.plant.grid o.albedo (Calc.temp r.plant) d) : Calc.DiffusionOn r.plant.grid o.albedo 0 d := by
  have hT : ∀ i, i < r.plant.grid.cells → Calc.temp r.plant i = (0 : Nat → ℝ) i := fun i hi => h.cold i hi
  exact ⟨on.wf, on.cells, on.energies, on.geom, on.albedo, on.size, on.vol, on.surf, fun e i he hi => by rw [on.D e i he hi, hT i hi],
    fun e i he hi => by rw [on.tot e i he hi, hT i hi], fun e i he hi => by rw [on.fiss e i he hi, hT i hi], fun e i he hi => by rw [on.nu e i he hi, hT i hi],
    fun e i he hi => by rw [on.chi e i he hi, hT i hi], fun e f i he hf hi => by rw [on.scatt e f i he hf hi, hT i hi]⟩

/-- all temperatures are zero -/
theorem NeutronRead.stillT {p : Calc.Plant} {r : Reader} {o : Calc.Settings} (h : NeutronRead k g rs E T p r o) {d : CPM.Data}
    (on : Calc.TransportOn r.plant.grid o.albedo (Calc.temp r.plant) d) : Calc.TransportOn r.plant.grid o.albedo 0 d := by
  have hT : ∀ i, i < r.plant.grid.cells → Calc.temp r.plant i = (0 : Nat → ℝ) i := fun i hi => h.cold i hi
  exact ⟨on.wf, on.cells, on.energies, on.albedo, on.radii, on.vol, on.surface_pos, on.surface,
    fun e i he hi => by rw [on.tot e i he hi, hT i hi], fun e i he hi => by rw [on.fiss e i he hi, hT i hi], fun e i he hi => by rw [on.nu e i he hi, hT i hi],
    fun e i he hi => by rw [on.chi e i he hi, hT i hi], fun e f i he hf hi => by rw [on.scatt e f i he hf hi, hT i hi]⟩

/-! ### the settings -/

structure CriticalSet (k : Calc.Kind) (dir : String) (alb : Vec ℝ) (acc : ℝ) (n : Nat) (o : Calc.Settings) : Prop where
  acc : o.acc = acc
  limit : o.maxIter = n
  max : n ≤ 2147483647
  albedo : o.albedo.toList = alb.toList
  forward : k = .diffusion → dir = "forward" → o.direction = .forward
  adjoint : k = .diffusion → dir = "adjoint" → o.direction = .adjoint
  modes : o.modes = .fundamental

theorem criticalSet_read (hc : Clean lib lines) (hp : Proper lines) (hk : k = .diffusion ∨ k = .transport) {ks : List Calc.Kind} (hF : Full lib lines ks g rs E)
    (hf : CriticalAsks lib lines k dir alb acc n) {p : Calc.Plant} {r : Reader} {o : Calc.Settings} (hr : readData lib (some raw) p = ok r) (hl : r.lines = lines)
    (hks : r.solvers.map Calc.Settings.kind = everyone ks) (hm : o ∈ r.solvers) (hok : o.kind = k) : CriticalSet k dir alb acc n o := by
  have hpl : Proper r.lines := by rw [hl]; exact hp
  obtain ⟨⟨ws1, a1, a2⟩, ⟨ws2, b1, b2⟩⟩ := C79_partial hc.1 hr hpl hm
  obtain ⟨ws3, c1, c2⟩ := C79_albedo hc.1 hr hpl hm (by rw [hok]; tauto)
  obtain ⟨ws4, m1, m2⟩ := C66_modes hc.1 hr hpl hm (by rw [hok]; tauto)
  rw [hok, hl] at a1 b1 c1 m1
  obtain ⟨v2, g1, g2, g3⟩ := hf.limit
  have len : ∀ {ws : List Text}, Reads lib ws alb.toList → ws.length = alb.n := fun h => by
    have := List.Forall₂.length_eq h
    simpa [Vec.toList] using this
  have hn : alb.n = 1 ∨ alb.n = 2 := by
    obtain ⟨ws, h1, h2⟩ := hf.albedo
    obtain ⟨ws', h3, h4⟩ := hF.settings k (by rw [← hok]; rw [← hks]; exact List.mem_map_of_mem hm) "albedo" (by rcases hk with rfl | rfl <;> simp [settingsOf])
    obtain rfl := setting_unique h1 h3
    rw [← len h2]
    generalize hkey : "albedo" = key at h4
    cases h4 with
    | oneAlbedo => exact Or.inl rfl
    | twoAlbedos => exact Or.inr rfl
    | _ => exact absurd hkey (by decide)
  have hdir : k = .diffusion → ∃ ws, Setting lines k "direction" ws ∧ Given ws
      (fun v => (v = "forward".toList ∧ o.direction = .forward) ∨ (v = "adjoint".toList ∧ o.direction = .adjoint)) (o.direction = .undefined) := by
    rintro rfl
    have := C66_direction hc.1 hr hpl hm hok
    rwa [hl] at this
  refine ⟨?_, ?_, g3, ?_, fun hd e => ?_, fun hd e => ?_, ?_⟩
  · obtain ⟨v, h1, h2⟩ := hf.accuracy
    obtain rfl := setting_unique a1 h1
    rcases a2 with ⟨v', e, a2⟩ | ⟨e, -⟩
    · cases e
      rw [h2] at a2
      cases a2
      rfl
    · simp at e
  · obtain rfl := setting_unique b1 g1
    rcases b2 with ⟨v', e, b2⟩ | ⟨e, -⟩
    · cases e
      exact b2 n g2
    · simp at e
  · obtain ⟨ws, h1, h2⟩ := hf.albedo
    obtain rfl := setting_unique c1 h1
    rcases c2 with ⟨-, -, c2⟩ | ⟨-, -, -, c2⟩ | ⟨e, -⟩
    · exact reads_unique c2 h2
    · exact reads_unique c2 h2
    · rw [len h2] at e
      omega
  · obtain ⟨ws, h1, h2⟩ := hdir hd
    obtain rfl := setting_unique h1 (hf.direction hd)
    subst e
    rcases h2 with ⟨v', e, h2⟩ | ⟨e, -⟩
    · cases e
      rcases h2 with ⟨-, h2⟩ | ⟨e, -⟩
      · exact h2
      · exact absurd e (by decide)
    · simp at e
  · obtain ⟨ws, h1, h2⟩ := hdir hd
    obtain rfl := setting_unique h1 (hf.direction hd)
    subst e
    rcases h2 with ⟨v', e, h2⟩ | ⟨e, -⟩
    · cases e
      rcases h2 with ⟨e, -⟩ | ⟨-, h2⟩
      · exact absurd e (by decide)
      · exact h2
    · simp at e
  · obtain rfl := setting_unique m1 hf.modes
    rcases m2 with ⟨v', e, m2⟩ | ⟨e, -⟩
    · cases e
      rcases m2 with ⟨-, m2⟩ | ⟨e, -⟩
      · exact m2
      · exact absurd e (by decide)
    · simp at e

theorem criticalFile_read (hc : Clean lib lines) (hraw : Stored raw lines) (hp : Proper lines) (hk : k = .diffusion ∨ k = .transport)
    (hf : CriticalFile lib lines k dir g rs E T alb acc n) (p : Calc.Plant) :
    ∃ r o, readData lib (some raw) p = ok r ∧ NeutronRead k g rs E T p r o ∧ CriticalSet k dir alb acc n o := by
  have hk' : k ∈ neutronics := by rcases hk with rfl | rfl <;> simp [neutronics]
  obtain ⟨r, o, hr, hl, hN⟩ := neutron_read hc hraw hp hk' hf.full hf.data (fun h => hf.diff (by rcases hk with rfl | rfl <;> simp_all)) p
  exact ⟨r, o, hr, hN, criticalSet_read hc hp hk hf.full hf.toCriticalAsks hr hl (by simp [hN.solvers, hN.kind, everyone]) (by simp [hN.solvers]) hN.kind⟩

/-! ### the calculation -/

theorem settles_of {S : Int → ℝ → Outcome Solve.State} {pick : Solve.State → Solve.Stored} {N : Nat} {κ : Nat → ℝ} {y : Nat → Nat → ℝ} {W : Solve.State → Outcome Calc.Plant}
    {R : Calc.Plant → ℝ → (Nat → ℝ) → Prop}
    (h1 : ∀ maxIter acc s', S maxIter acc = .ok s' → ∃ n : Nat, (n : Int) + 1 ≤ maxIter ∧ Eigen.change κ n < acc ∧
      (∀ j, j < n → acc ≤ Eigen.change κ j) ∧ Solve.Reports (pick s') N E (κ (n + 1)) (y (n + 1)))
    (h2 : ∀ (maxIter : Int) (acc : ℝ) (n : Nat), (n : Int) + 1 ≤ maxIter → maxIter ≤ 2147483647 → Eigen.change κ n < acc → ∃ s', S maxIter acc = .ok s')
    (h3 : ∀ {maxIter : Int} (_ : maxIter < 2147483647) acc, (∃ s', S maxIter acc = ok s') ∨ S maxIter acc = exit)
    (hmax : n ≤ 2147483647) (hW : ∀ s' k φ, S n acc = ok s' → Solve.Reports (pick s') N E k φ → ∃ p', W s' = ok p' ∧ R p' k φ) :
    Settles (S n acc >>= W) R n acc κ y := by
  refine ⟨fun m hm hb hc => ?_, fun hn hb => ?_⟩
  · obtain ⟨s', e⟩ := h2 n acc m (by exact_mod_cast hm) (by exact_mod_cast hmax) hc
    obtain ⟨m', -, c1, c2, c3⟩ := h1 _ _ _ e
    obtain rfl : m = m' := by
      rcases lt_trichotomy m m' with h | h | h
      · exact absurd hc (not_lt.2 (c2 m h))
      · exact h
      · exact absurd c1 (not_lt.2 (hb m' h))
    obtain ⟨p', e', hR⟩ := hW s' _ _ e c3
    exact ⟨p', by rw [e, ok_bind, e'], hR⟩
  · rcases h3 (maxIter := n) (by exact_mod_cast hn) acc with ⟨s', e⟩ | e
    · obtain ⟨m, m1, c1, -, -⟩ := h1 _ _ _ e
      exact absurd c1 (not_lt.2 (hb m (by exact_mod_cast m1)))
    · rw [e, exit_bind]

theorem meshed_same {G G' : Mesh.Grid} (h : Meshed rs G) (hb : Calc.SameBody G G') : Meshed rs G' where
  bounds := by rw [hb.bounds]; exact h.bounds
  cells := by rw [hb.cells]; exact h.cells
  mats := by rw [hb.mats_n, hb.cells]; exact h.mats
  names i hi := by
    rw [(hb.mats i (by rw [h.cells]; exact hi)).name]
    exact h.names i hi

theorem NuclearRead.onBody {r : Reader} (h : NuclearRead k g rs E T r) (hb : BodyFile lib lines g rs)
    (hw : ∀ q ∈ rs, 0 < q.width) : OnBody g rs r.plant.grid.bounds r.plant.grid :=
  ⟨h.shaped hb hw, h.geom, rfl, h.mesh.cells, hb.cells⟩

theorem fissions_congr {d : Diffusion.Data} {φ ψ : Nat → ℝ} (h : ∀ e i, e < d.energies → i < d.cells → φ (i + e * d.cells) = ψ (i + e * d.cells)) {i : Nat}
    (hi : i < d.cells) : Solve.fissions d φ i = Solve.fissions d ψ i := by
  unfold Solve.fissions
  exact sum_congr rfl (fun e he => by rw [h e i (mem_range.1 he) hi])

theorem burned_critical {p : Calc.Plant} {r : Reader} {o : Calc.Settings} (h : NeutronRead k g rs E T p r o) {d : Diffusion.Data} (hcells : d.cells = (cellNames rs).length)
    (hE : d.energies = E) {k' : ℝ} {φ ψ : Nat → ℝ} {p' : Calc.Plant}
    (hb : Calc.Burned r.plant k' ψ (Solve.fissions d ψ) p') (heq : ∀ e i, e < d.energies → i < d.cells → ψ (i + e * d.cells) = φ (i + e * d.cells))
    (h0 : ∀ x, x < d.cells * d.energies → 0 ≤ ψ x) (h1 : ∑ x ∈ range (d.cells * d.energies), ψ x = 1) (hr0 : ∀ i, i < d.cells → 0 ≤ Solve.fissions d ψ i)
    (hr1 : 0 < ∑ i ∈ range d.cells, Solve.fissions d ψ i) :
    Critical g rs E p.power (Solve.fissions d φ) p' k' φ := by
  have hc := h.mesh.cells
  have hfi : ∀ i, i < (cellNames rs).length → Solve.fissions d ψ i = Solve.fissions d φ i := fun i hi => fissions_congr heq (by rw [hcells]; exact hi)
  have hx : ∀ x, x < (cellNames rs).length * E → ψ x = φ x := fun x hx => by
    rw [← hcells, ← hE] at hx
    obtain ⟨i, e, hi, he, rfl⟩ := flat_surj hx
    exact heq e i he hi
  refine ⟨by rw [hb.kept.body.geom, h.geom], meshed_same h.mesh hb.kept.body, by rw [hb.kept.body.energies, h.energies], fun i hi => ?_, ⟨hb.k, hb.modes, fun e i he hi => ?_⟩,
    fun x h => by rw [← hx x h]; exact h0 x (by rw [hcells, hE]; exact h),
    by rw [← h1, hcells, hE]; exact sum_congr rfl fun x h => (hx x (mem_range.1 h)).symm,
    ⟨fun i hi => by rw [← hfi i hi]; exact hr0 i (by rw [hcells]; exact hi), by rw [← sum_congr rfl fun i h => hfi i (mem_range.1 h), ← hcells]; exact hr1⟩,
    by rw [hb.total, h.power], fun i hi => ?_⟩
  · rw [hb.temps i (by rw [hc]; exact hi)]
    exact h.cold i (by rw [hc]; exact hi)
  · rw [hb.flux e i (by rw [h.energies]; exact he) (by rw [hc]; exact hi), hc]
    have := heq e i (by rw [hE]; exact he) (by rw [hcells]; exact hi)
    rw [hcells] at this
    rw [this]
  · have := hb.share i (by rw [hc]; exact hi)
    rw [h.power, hc, hfi i hi, sum_congr rfl (fun j hj => hfi j (mem_range.1 hj))] at this
    unfold Calc.volume at this ⊢
    rw [hb.kept.body.bounds, hb.kept.body.geom]
    exact this

theorem reports_same {st : Solve.Stored} {N : Nat} {k1 k2 : ℝ} {φ ψ : Nat → ℝ} (h1 : Solve.Reports st N E k1 φ) (h2 : Solve.Reports st N E k2 ψ) :
    k1 = k2 ∧ ∀ e i, e < E → i < N → φ (i + e * N) = ψ (i + e * N) := by
  refine ⟨?_, fun e i he hi => ?_⟩
  · have := h1.1.symm.trans h2.1
    simpa using this
  · have := (h1.2.2 e i he hi).symm.trans (h2.2.2 e i he hi)
    simpa using this

theorem adjoint_critical {p : Calc.Plant} {r : Reader} {o : Calc.Settings} (h : NeutronRead k g rs E T p r o) {s : Solve.State} {k' : ℝ} {φ : Nat → ℝ}
    (hr : Solve.Reports s.adjoint (cellNames rs).length E k' φ) :
    ∃ p', Calc.writeAdjoint s E r.plant = ok p' ∧ CriticalAdjoint g rs E p' k' φ := by
  have hc := h.mesh.cells
  obtain ⟨g1, e1, b1, f1, a1, h1⟩ := Calc.setAdjoints_ok h.furnished (t := ⟨E, r.plant.grid.cells, s.adjoint.modes, s.adjoint.flux⟩) rfl
  have b2 : Calc.SameBody r.plant.grid { g1 with nAdjoint := s.adjoint.modes } := ⟨b1.geom, b1.bounds, b1.cells, b1.energies, b1.mats_n, b1.mats⟩
  refine ⟨{ r.plant with grid := { g1 with nAdjoint := s.adjoint.modes }, kAdjoint := s.adjoint.k }, ?_, ?_, meshed_same h.mesh b2, b1.energies.trans h.energies, fun i hi => ?_, fun i hi => ?_, ⟨hr.1, hr.2.1, fun e i he hi => ?_⟩⟩
  · unfold Calc.writeAdjoint
    rw [e1, ok_bind]
  · exact b1.geom.trans h.geom
  · exact (h1 i (by rw [hc]; exact hi)).1.trans (h.cold i (by rw [hc]; exact hi))
  · exact (h1 i (by rw [hc]; exact hi)).2.1.trans (h.idle i (by rw [hc]; exact hi))
  · obtain ⟨-, -, -, -, -, hv⟩ := h1 i (by rw [hc]; exact hi)
    show (g1.mats.v i).adj.m e 0 = _
    rw [hv e he 0 (by rw [hr.2.1]; exact Nat.one_pos)]
    exact hr.2.2 e i he hi

end

end Verif.Input
