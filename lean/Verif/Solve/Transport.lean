import Verif.Solve.DiffusionRun
import Verif.CPM.Strict
import Verif.CPM.Rays

/-! The matrices of the transport solver as a criticality problem. -/

namespace Verif.Solve

open Verif Outcome Finset Eigen Filter Topology

noncomputable section

open scoped Classical

variable {d : CPM.Data} {P : ℕ × ℕ × ℕ → ℝ} {geom : Diffusion.Geom}

/-- entries of the loss matrix -/
def tloss (d : CPM.Data) (P : ℕ × ℕ × ℕ → ℝ) (x y : Nat) : ℝ :=
  (if x / d.cells = y / d.cells ∧ x % d.cells = y % d.cells then 1 else 0) -
    response d P (x / d.cells) (x % d.cells) (y % d.cells) * d.scatt (y / d.cells) (x / d.cells) (y % d.cells)

/-- entries of the fission matrix -/
def tfission (d : CPM.Data) (P : ℕ × ℕ × ℕ → ℝ) (x y : Nat) : ℝ :=
  response d P (x / d.cells) (x % d.cells) (y % d.cells) *
    (d.chi.m (x / d.cells) (y % d.cells) * (d.nu.m (y / d.cells) (y % d.cells) * d.fiss.m (y / d.cells) (y % d.cells)))

/-- flux in `x` from the fission neutrons of cell `a` -/
def temit (d : CPM.Data) (P : ℕ × ℕ × ℕ → ℝ) (x a : Nat) : ℝ :=
  if a < d.cells then response d P (x / d.cells) (x % d.cells) a * d.chi.m (x / d.cells) a else 0

theorem tloss_flat {g h i j : Nat} (hi : i < d.cells) (hj : j < d.cells) :
    tloss d P (i + g * d.cells) (j + h * d.cells) = (if g = h ∧ i = j then 1 else 0) - response d P g i j * d.scatt h g j := by
  unfold tloss
  rw [flat_mod hi, flat_mod hj, flat_div hi, flat_div hj]

theorem tfission_flat {g h i j : Nat} (hi : i < d.cells) (hj : j < d.cells) :
    tfission d P (i + g * d.cells) (j + h * d.cells) =
      response d P g i j * (d.chi.m g j * (d.nu.m h j * d.fiss.m h j)) := by
  unfold tfission
  rw [flat_mod hi, flat_mod hj, flat_div hi, flat_div hj]

theorem temit_flat {g i a : Nat} (hi : i < d.cells) (ha : a < d.cells) :
    temit d P (i + g * d.cells) a = response d P g i a * d.chi.m g a := by
  unfold temit
  rw [flat_mod hi, flat_div hi, if_pos ha]

theorem tloss_apply (φ : Nat → ℝ) {g i : Nat} (hg : g < d.energies) (hi : i < d.cells) :
    act (d.cells * d.energies) (tloss d P) φ (i + g * d.cells) =
      φ (i + g * d.cells) - ∑ j ∈ range d.cells, response d P g i j * scatterIn (reactions d) φ g j := by
  unfold act
  rw [sum_flat]
  have step : ∀ h ∈ range d.energies, ∑ j ∈ range d.cells, tloss d P (i + g * d.cells) (j + h * d.cells) * φ (j + h * d.cells) =
      (if g = h then φ (i + g * d.cells) else 0) -
        ∑ j ∈ range d.cells, response d P g i j * (d.scatt h g j * φ (j + h * d.cells)) := by
    intro h _
    rw [sum_congr rfl (fun j hj => by rw [tloss_flat hi (mem_range.1 hj), sub_mul]), sum_sub_distrib]
    congr 1
    · by_cases hgh : g = h
      · subst hgh
        rw [if_pos rfl, sum_eq_single i (fun j _ hne => by rw [if_neg (fun c => hne c.2.symm), zero_mul])
          (fun hn => absurd (mem_range.2 hi) hn), if_pos ⟨rfl, rfl⟩, one_mul]
      · rw [if_neg hgh]
        exact sum_eq_zero (fun j _ => by rw [if_neg (fun c => hgh c.1), zero_mul])
    · exact sum_congr rfl (fun j _ => by ring)
  rw [sum_congr rfl step, sum_sub_distrib, sum_ite_eq, if_pos (mem_range.2 hg), sum_comm]
  congr 1
  refine sum_congr rfl (fun j _ => ?_)
  unfold scatterIn
  rw [mul_sum]
  rfl

theorem tfission_apply (φ : Nat → ℝ) {g i : Nat} (hi : i < d.cells) :
    act (d.cells * d.energies) (tfission d P) φ (i + g * d.cells) =
      ∑ j ∈ range d.cells, response d P g i j * (d.chi.m g j * production (reactions d) φ j) := by
  unfold act
  rw [sum_flat, sum_comm]
  refine sum_congr rfl (fun j hj => ?_)
  unfold production
  rw [mul_sum, mul_sum]
  refine sum_congr rfl (fun h _ => ?_)
  rw [tfission_flat hi (mem_range.1 hj)]
  show _ = response d P g i j * (d.chi.m g j * (d.nu.m h j * d.fiss.m h j * φ (j + h * d.cells)))
  ring

theorem transport_iff {k : ℝ} {φ : Nat → ℝ} :
    (∀ x, x < d.cells * d.energies → act (d.cells * d.energies) (tloss d P) φ x =
      act (d.cells * d.energies) (tfission d P) φ x / k) ↔ TransportEq d P k φ := by
  have e : ∀ g i, g < d.energies → i < d.cells → ∑ j ∈ range d.cells, response d P g i j *
      (scatterIn (reactions d) φ g j + d.chi.m g j * production (reactions d) φ j / k) =
      ∑ j ∈ range d.cells, response d P g i j * scatterIn (reactions d) φ g j +
        (∑ j ∈ range d.cells, response d P g i j * (d.chi.m g j * production (reactions d) φ j)) / k := by
    intro g i _ _
    rw [sum_div, ← sum_add_distrib]
    exact sum_congr rfl (fun j _ => by ring)
  constructor
  · intro h g i hg hi
    have := h _ (flat_lt hi hg)
    rw [tloss_apply φ hg hi, tfission_apply φ hi] at this
    rw [e g i hg hi]
    linarith
  · intro h x hx
    obtain ⟨i, g, hi, hg, rfl⟩ := flat_surj hx
    have := h g i hg hi
    rw [e g i hg hi] at this
    rw [tloss_apply φ hg hi, tfission_apply φ hi]
    linarith

theorem transport_source {q : Nat → Nat → ℝ} {φ : Nat → ℝ} :
    (∀ g i, g < d.energies → i < d.cells → act (d.cells * d.energies) (tloss d P) φ (i + g * d.cells) = q g i) ↔
      ∀ g i, g < d.energies → i < d.cells →
        φ (i + g * d.cells) = ∑ j ∈ range d.cells, response d P g i j * scatterIn (reactions d) φ g j + q g i := by
  refine forall_congr' fun g => forall_congr' fun i => forall_congr' fun hg => forall_congr' fun hi => ?_
  rw [tloss_apply φ hg hi]
  constructor <;> intro e <;> linarith

/-! ### from the code -/

theorem reactions_wf (wf : CPM.WellFormed d) : Diffusion.WellFormed (reactions d) :=
  ⟨rfl, rfl, wf.tot_r, wf.tot_c, wf.fiss_r, wf.fiss_c, wf.nu_r, wf.nu_c, wf.chi_r, wf.chi_c, wf.vol_n, wf.radii_n, wf.vol_n⟩

theorem body_den (B : Body d geom) {G : CPM.Ten3} (s : CPM.Sound d G) {h : Nat} (hh : h < d.energies) :
    0 < 1 - CPM.crossing d d.surface (CPM.escape d G.v h) h * d.albedo.v 0 :=
  CPM.den_pos B.pos s hh B.albedo.1 B.albedo.2

theorem body_run (B : Body d geom) {G : CPM.Ten3} (hG : CPM.vacuumCPs d CPM.E3 CPM.Ki3 geom = ok G) (s : CPM.Sound d G) :
    ∃ M F : Mat ℝ, CPM.assemble d G = ok (M, F) ∧ Square (d.cells * d.energies) (lift M) (lift F) ∧
      Entries (d.cells * d.energies) (tloss d G.v) (lift M) ∧ Entries (d.cells * d.energies) (tfission d G.v) (lift F) ∧
      ∀ (lib : Numerics) (o : Options) (power : ℝ) (volM : Vec ℝ) (st : State),
        transport lib o d CPM.E3 CPM.Ki3 geom power volM st = eigenmodes lib o (lift M) (lift F) >>= fun ms =>
          setForward d.cells d.energies (Diffusion.newHeatSource (reactions d) power volM) ms { st with oldHeat := st.heat } := by
  have ht : ∀ h, h < d.energies → ∀ i, i < d.cells → d.tot.m h i ≠ 0 := fun h hh i hi => (B.pos.tot_pos h hh i hi).ne'
  obtain ⟨p, e, dp, v⟩ := CPM.applyBC_ok B.wf ht B.pos.surface_pos.ne' s.dom (fun h hh => (body_den B s hh).ne')
  obtain ⟨M, F, eA, h1, h2, h3, h4, hv⟩ := CPM.assemble_ok B.wf dp e
  refine ⟨M, F, eA, ⟨h1, h2, h3, h4⟩, ?_, ?_, fun lib o power volM st => ?_⟩
  · intro x y hx hy
    obtain ⟨i, g, hi, hg, rfl⟩ := flat_surj hx
    obtain ⟨j, h, hj, hh, rfl⟩ := flat_surj hy
    show Fl.fin _ = Fl.fin _
    rw [(hv g h i j hg hh hi hj).1, v g i j hg hi hj, tloss_flat hi hj]
    rfl
  · intro x y hx hy
    obtain ⟨i, g, hi, hg, rfl⟩ := flat_surj hx
    obtain ⟨j, h, hj, hh, rfl⟩ := flat_surj hy
    show Fl.fin _ = Fl.fin _
    rw [(hv g h i j hg hh hi hj).2, v g i j hg hi hj, tfission_flat hi hj]
    rfl
  · unfold transport
    rw [hG, ok_bind, eA, ok_bind]
    rfl

/-! ### signs -/

theorem response_nonneg (B : Body d geom) {G : CPM.Ten3} (s : CPM.Sound d G)
    (hself : ∀ h i, h < d.energies → i < d.cells → 0 ≤ G.v (i, i, h)) {g i j : Nat} (hg : g < d.energies) (hi : i < d.cells)
    (hj : j < d.cells) : 0 ≤ response d G.v g i j := by
  have h1 : 0 ≤ G.v (i, j, g) := by
    by_cases hij : i = j
    · subst hij; exact hself g i hg hi
    · exact s.off g i j hg hi hj hij
  have h2 := B.pos.tot_pos g hg j hj
  have h3 := s.esc g i hg hi
  have h4 := s.esc g j hg hj
  have h5 := B.pos.vol_pos j hj
  have h6 := B.pos.surface_pos
  have h7 := body_den B s hg
  have h8 := B.albedo.1
  unfold response
  positivity

theorem response_pos (B : Body d geom) {G : CPM.Ten3} (s : CPM.Sound d G) (hpos : ∀ h i j, h < d.energies → i < d.cells → j < d.cells →
    0 < G.v (i, j, h)) {g i j : Nat} (hg : g < d.energies) (hi : i < d.cells) (hj : j < d.cells) : 0 < response d G.v g i j := by
  have h1 := hpos g i j hg hi hj
  have h2 := B.pos.tot_pos g hg j hj
  have h3 := s.esc g i hg hi
  have h4 := s.esc g j hg hj
  have h5 := B.pos.vol_pos j hj
  have h6 := B.pos.surface_pos
  have h7 := body_den B s hg
  have h8 := B.albedo.1
  unfold response
  positivity

theorem response_row (B : Body d geom) {G : CPM.Ten3} (s : CPM.Sound d G) {g i : Nat} (hg : g < d.energies) :
    ∑ j ∈ range d.cells, response d G.v g i j * d.tot.m g j = 1 - CPM.escape d G.v g i * (1 - d.albedo.v 0) /
      (1 - d.albedo.v 0 * CPM.crossing d d.surface (CPM.escape d G.v g) g) :=
  CPM.bc_row (fun h hh i hi => (B.pos.tot_pos h hh i hi).ne') G.v hg B.pos.surface_pos.ne' (body_den B s hg).ne'

theorem response_recip (B : Body d geom) {G : CPM.Ten3} (s : CPM.Sound d G) {g i j : Nat} (hg : g < d.energies) (hi : i < d.cells)
    (hj : j < d.cells) : d.vol.v i * response d G.v g i j = d.vol.v j * response d G.v g j i :=
  CPM.bc_recip (fun i hi => (B.pos.vol_pos i hi).ne') (fun h hh i hi => (B.pos.tot_pos h hh i hi).ne') s.recip hg hi hj

theorem tloss_inverse (B : Body d geom) {G : CPM.Ten3} (s : CPM.Sound d G)
    (hself : ∀ h i, h < d.energies → i < d.cells → 0 ≤ G.v (i, i, h)) :
    InversePositive (d.cells * d.energies) (tloss d G.v) ∧
    ∀ b : Nat → ℝ, ∃ x : Nat → ℝ, ∀ p, p < d.cells * d.energies → act (d.cells * d.energies) (tloss d G.v) x p = b p := by
  obtain ⟨h1, h2, h3⟩ := CPM.loss_positive (M := ⟨d.cells * d.energies, d.cells * d.energies, tloss d G.v⟩) B.wf B.pos B.absorbing
    (p := fun g i j => response d G.v g i j) (fun g h i j _ _ hi hj => tloss_flat hi hj)
    (fun g i j hg hi hj => response_nonneg B s hself hg hi hj) (fun g i j hg hi hj => response_recip B s hg hi hj) (fun g i hg hi => by
      show ∑ j ∈ range d.cells, response d G.v g i j * d.tot.m g j ≤ 1
      rw [response_row B s hg]
      have h1 := body_den B s hg
      rw [mul_comm] at h1
      have := div_nonneg (mul_nonneg (s.esc g i hg hi) (sub_nonneg.2 B.albedo.2)) h1.le
      linarith)
  exact ⟨h3, h1⟩

theorem tloss_off (B : Body d geom) {G : CPM.Ten3} (s : CPM.Sound d G)
    (hself : ∀ h i, h < d.energies → i < d.cells → 0 ≤ G.v (i, i, h)) : OffDiagonal (d.cells * d.energies) (tloss d G.v) := by
  intro x y hx hy hne
  obtain ⟨i, g, hi, hg, rfl⟩ := flat_surj hx
  obtain ⟨j, h, hj, hh, rfl⟩ := flat_surj hy
  rw [tloss_flat hi hj, if_neg (fun c => hne (by rw [c.1, c.2]))]
  have := mul_nonneg (response_nonneg B s hself hg hi hj) (B.absorbing.scatt_nonneg h g j hh hg hj)
  linarith

theorem tfission_nonneg (B : Body d geom) {G : CPM.Ten3} (s : CPM.Sound d G)
    (hself : ∀ h i, h < d.energies → i < d.cells → 0 ≤ G.v (i, i, h)) (hf : NonnegFission (reactions d)) {x y : Nat}
    (hx : x < d.cells * d.energies) (hy : y < d.cells * d.energies) : 0 ≤ tfission d G.v x y := by
  obtain ⟨i, g, hi, hg, rfl⟩ := flat_surj hx
  obtain ⟨j, h, hj, hh, rfl⟩ := flat_surj hy
  rw [tfission_flat hi hj]
  exact mul_nonneg (response_nonneg B s hself hg hi hj) (mul_nonneg (hf.chi g j hg hj) (hf.prod h j hh hj))

theorem site_lt (m : Multiplying (reactions d)) {p : Nat} (hp : p < d.cells) : p < d.cells * d.energies := by
  obtain ⟨i, g, hi, hg, -⟩ := m.somewhere
  exact lt_of_lt_of_le hp (Nat.le_mul_of_pos_right _ (by have : g < d.energies := hg; omega))

theorem tfission_prod (m : Multiplying (reactions d)) {x y : Nat} (hx : x < d.cells * d.energies) (hy : y < d.cells * d.energies) :
    tfission d P x y = ∑ p ∈ range (d.cells * d.energies), temit d P x p * prod (reactions d) p y := by
  obtain ⟨i, g, hi, hg, rfl⟩ := flat_surj hx
  obtain ⟨j, h, hj, hh, rfl⟩ := flat_surj hy
  have hp : ∀ p, prod (reactions d) p (j + h * d.cells) = if j = p ∧ Fissile (reactions d) p then d.nu.m h p * d.fiss.m h p else 0 :=
    fun p => prod_flat (d := reactions d) hj
  rw [sum_eq_single j (fun p _ hne => by rw [hp, if_neg (fun c => hne c.1.symm), mul_zero])
    (fun h => absurd (mem_range.2 (site_lt m hj)) h), tfission_flat hi hj, temit_flat hi hj, hp]
  by_cases hf : Fissile (reactions d) j
  · rw [if_pos ⟨rfl, hf⟩]; ring
  · rw [if_neg (fun c => hf c.2)]
    have : d.nu.m h j * d.fiss.m h j = 0 := le_antisymm (not_lt.1 (fun c => hf ⟨h, hh, c⟩)) (m.prod_nonneg h j hh hj)
    rw [this]; ring

theorem temit_nonneg (B : Body d geom) {G : CPM.Ten3} (s : CPM.Sound d G)
    (hself : ∀ h i, h < d.energies → i < d.cells → 0 ≤ G.v (i, i, h)) (m : Multiplying (reactions d)) {x : Nat}
    (hx : x < d.cells * d.energies) (a : Nat) : 0 ≤ temit d G.v x a := by
  obtain ⟨i, g, hi, hg, rfl⟩ := flat_surj hx
  by_cases ha : a < d.cells
  · rw [temit_flat hi ha]
    exact mul_nonneg (response_nonneg B s hself hg hi ha) (m.chi_nonneg g a hg ha)
  · unfold temit
    rw [if_neg ha]

theorem tfission_factored (B : Body d geom) {G : CPM.Ten3} (s : CPM.Sound d G)
    (hself : ∀ h i, h < d.energies → i < d.cells → 0 ≤ G.v (i, i, h)) (m : Multiplying (reactions d)) :
    Factored (d.cells * d.energies) (tfission d G.v) (temit d G.v) (prod (reactions d)) :=
  ⟨fun _ _ hx hy => tfission_prod m hx hy, fun _ p hx _ => temit_nonneg B s hself m hx p,
    fun p _ _ hx => prod_nonneg (d := reactions d) m hx p⟩

/-- along scattering a neutron can be brought to any cell -/
theorem group_path (B : Body d geom) {G : CPM.Ten3} (s : CPM.Sound d G) (hpos : ∀ h i j, h < d.energies → i < d.cells → j < d.cells →
    0 < G.v (i, j, h)) {g h : Nat} (path : Relation.ReflTransGen (GroupStep d) g h) {b : Nat} (hb : b < d.cells) :
    ∃ i, i < d.cells ∧ Relation.ReflTransGen (fun x y => x < d.cells * d.energies ∧ y < d.cells * d.energies ∧ tloss d G.v y x < 0)
      (i + g * d.cells) (b + h * d.cells) := by
  induction path using Relation.ReflTransGen.head_induction_on with
  | refl => exact ⟨b, hb, .refl⟩
  | @head g1 g2 st _ ih =>
    obtain ⟨i, hi, p⟩ := ih
    obtain ⟨hg, hg', j, hj, hs⟩ := st
    by_cases heq : i + g2 * d.cells = j + g1 * d.cells
    · rw [heq] at p
      exact ⟨j, hj, p⟩
    · refine ⟨j, hj, .head ⟨flat_lt hj hg, flat_lt hi hg', ?_⟩ p⟩
      rw [tloss_flat hi hj, if_neg (fun c => heq (by rw [c.1, c.2]))]
      have := mul_pos (response_pos B s hpos hg' hi hj) hs
      linarith

theorem tconnected (B : Body d geom) {G : CPM.Ten3} (s : CPM.Sound d G) (hpos : ∀ h i j, h < d.energies → i < d.cells → j < d.cells →
    0 < G.v (i, j, h)) (m : Multiplying (reactions d)) (hl : GroupsLinked d) :
    Connected (d.cells * d.energies) (tloss d G.v) (temit d G.v) (prod (reactions d)) := by
  have hself : ∀ h i, h < d.energies → i < d.cells → 0 ≤ G.v (i, i, h) := fun h i hh hi => (hpos h i i hh hi hi).le
  refine connected_of_links (tloss_inverse B s hself).1 (tloss_off B s hself)
    (fun _ p hx _ => temit_nonneg B s hself m hx p) (fun p _ _ hx => prod_nonneg (d := reactions d) m hx p) (fun a b _ _ ha hb => ?_)
  obtain ⟨ha, fa⟩ := emits_prod (d := reactions d) ha
  obtain ⟨hb, fb⟩ := emits_prod (d := reactions d) hb
  obtain ⟨g, h, hg, hh, hchi, hprod, path⟩ := hl a b ha hb fa fb
  obtain ⟨i, hi, p⟩ := group_path B s hpos path hb
  refine ⟨i + g * d.cells, b + h * d.cells, flat_lt hi hg, flat_lt hb hh, ?_, ?_, p⟩
  · rw [temit_flat hi ha]
    exact mul_pos (response_pos B s hpos hg hi ha) hchi
  · have := prod_flat (d := reactions d) (g := h) (p := b) hb
    show 0 < prod (reactions d) b (b + h * (reactions d).cells)
    rw [this, if_pos ⟨rfl, fb⟩]
    exact hprod

theorem tfission_pos (B : Body d geom) {G : CPM.Ten3} (s : CPM.Sound d G) (hpos : ∀ h i j, h < d.energies → i < d.cells → j < d.cells →
    0 < G.v (i, j, h)) (m : Multiplying (reactions d)) :
    ∃ x y, x < d.cells * d.energies ∧ y < d.cells * d.energies ∧ 0 < tfission d G.v x y := by
  obtain ⟨i, g, hi, hg, h⟩ := m.somewhere
  obtain ⟨g', hg', hchi⟩ := m.emitted i g hi hg h
  refine ⟨i + g' * d.cells, i + g * d.cells, flat_lt hi hg', flat_lt hi hg, ?_⟩
  rw [tfission_flat hi hi]
  exact mul_pos (response_pos B s hpos hg' hi hi) (mul_pos hchi h)

theorem tsetting (B : Body d geom) {G : CPM.Ten3} (s : CPM.Sound d G) (hpos : ∀ h i j, h < d.energies → i < d.cells → j < d.cells →
    0 < G.v (i, j, h)) (m : Multiplying (reactions d)) (hl : GroupsLinked d) :
    ∃ sol, Setting (d.cells * d.energies) (tloss d G.v) (tfission d G.v) (temit d G.v) (prod (reactions d)) sol := by
  have hself : ∀ h i, h < d.energies → i < d.cells → 0 ≤ G.v (i, i, h) := fun h i hh hi => (hpos h i i hh hi hi).le
  obtain ⟨h1, h2⟩ := tloss_inverse B s hself
  choose sol hsol using h2
  exact ⟨sol, hsol, h1, tloss_off B s hself, tfission_factored B s hself m, tconnected B s hpos m hl, tfission_pos B s hpos m⟩

/-- all collision probabilities are positive if those in the cell itself are -/
theorem all_pos (B : Body d geom) {G : CPM.Ten3} (hG : CPM.vacuumCPs d CPM.E3 CPM.Ki3 geom = ok G)
    (hself : geom ≠ .slab → ∀ h i, h < d.energies → i < d.cells → 0 < G.v (i, i, h)) :
    ∀ h i j, h < d.energies → i < d.cells → j < d.cells → 0 < G.v (i, j, h) := by
  intro h i j hh hi hj
  obtain ⟨h1, h2⟩ := CPM.vacuum_strict B.wf B.pos B.mesh B.cells hG hh hi hj
  by_cases hij : i = j
  · subst hij
    by_cases hg : geom = .slab
    · exact h2 hg
    · exact hself hg h i hh hi
  · exact h1 hij

theorem thick_self (B : Body d geom) (hthick : Thick d geom) {G : CPM.Ten3} (hG : CPM.vacuumCPs d CPM.E3 CPM.Ki3 geom = ok G) {h i : Nat}
    (hh : h < d.energies) (hi : i < d.cells) : 0 < G.v (i, i, h) := by
  exact CPM.resolved_pos B.wf B.pos B.mesh B.cells hG hh hi (hthick h i hh hi)

/-! ### infinite medium -/

theorem flat_transport (B : Body d geom) {G : CPM.Ten3} (s : CPM.Sound d G) (ha : d.albedo.v 0 = 1) {k : ℝ} {sp : Nat → ℝ}
    (hinf : ∀ i, i < d.cells → InfiniteMedium d.energies (fun g => d.tot.m g i) (fun g h => d.scatt g h i) (fun g => d.chi.m g i)
      (fun g => d.nu.m g i * d.fiss.m g i) k sp) : TransportEq d G.v k (fun p => sp (p / d.cells)) := by
  intro g i hg hi
  have row := response_row B s (i := i) hg
  rw [ha, sub_self, mul_zero, zero_div, sub_zero] at row
  have e : ∀ j ∈ range d.cells, response d G.v g i j * (scatterIn (reactions d) (fun p => sp (p / d.cells)) g j +
      d.chi.m g j * production (reactions d) (fun p => sp (p / d.cells)) j / k) = response d G.v g i j * d.tot.m g j * sp g := by
    intro j hj
    have hj := mem_range.1 hj
    have h := hinf j hj g hg
    dsimp only at h
    rw [mul_assoc, h]
    congr 2
    · exact sum_congr rfl (fun h _ => by
        show d.scatt h g j * sp ((j + h * d.cells) / d.cells) = _
        rw [flat_div hj])
    · congr 2
      exact sum_congr rfl (fun h _ => by
        show d.nu.m h j * d.fiss.m h j * sp ((j + h * d.cells) / d.cells) = _
        rw [flat_div hj])
  rw [sum_congr rfl e, ← sum_mul, row, one_mul]
  dsimp only
  rw [flat_div hi]

/-! ### balance -/

theorem transport_balance (B : Body d geom) {G : CPM.Ten3} (s : CPM.Sound d G) {k : ℝ} {φ : Nat → ℝ}
    (hchi : ∀ i, i < d.cells → (∃ g, g < d.energies ∧ d.nu.m g i * d.fiss.m g i ≠ 0) → ∑ g ∈ range d.energies, d.chi.m g i = 1)
    (h : TransportEq d G.v k φ) :
    (∑ i ∈ range d.cells, d.vol.v i * production (reactions d) φ i) / k =
      ∑ i ∈ range d.cells, d.vol.v i * absorption (reactions d) φ i +
      ∑ g ∈ range d.energies, ∑ j ∈ range d.cells, d.vol.v j *
        (scatterIn (reactions d) φ g j + d.chi.m g j * production (reactions d) φ j / k) *
        (CPM.escape d G.v g j * (1 - d.albedo.v 0) / (1 - d.albedo.v 0 * CPM.crossing d d.surface (CPM.escape d G.v g) g)) := by
  set E : Nat → Nat → ℝ := fun g j => scatterIn (reactions d) φ g j + d.chi.m g j * production (reactions d) φ j / k with hE
  have group : ∀ g, g < d.energies → ∑ i ∈ range d.cells, d.vol.v i * d.tot.m g i * φ (i + g * d.cells) =
      ∑ j ∈ range d.cells, d.vol.v j * E g j * (1 - CPM.escape d G.v g j * (1 - d.albedo.v 0) /
        (1 - d.albedo.v 0 * CPM.crossing d d.surface (CPM.escape d G.v g) g)) := by
    intro g hg
    have e4 : ∀ i ∈ range d.cells, d.vol.v i * d.tot.m g i * φ (i + g * d.cells) =
        ∑ j ∈ range d.cells, d.vol.v j * E g j * (response d G.v g j i * d.tot.m g i) := by
      intro i hi
      have hi := mem_range.1 hi
      rw [h g i hg hi, mul_sum]
      refine sum_congr rfl (fun j hj => ?_)
      have := response_recip B s hg hi (mem_range.1 hj)
      show d.vol.v i * d.tot.m g i * (response d G.v g i j * E g j) = _
      linear_combination (d.tot.m g i * E g j) * this
    rw [sum_congr rfl e4, sum_comm]
    refine sum_congr rfl (fun j _ => ?_)
    rw [← mul_sum, response_row B s hg]
  have hprod : ∀ i, i < d.cells → (∑ g ∈ range d.energies, d.chi.m g i) * production (reactions d) φ i = production (reactions d) φ i := by
    intro i hi
    by_cases h : ∃ g, g < d.energies ∧ d.nu.m g i * d.fiss.m g i ≠ 0
    · rw [hchi i hi h, one_mul]
    · push Not at h
      have : production (reactions d) φ i = 0 := sum_eq_zero (fun g hg => by
        show d.nu.m g i * d.fiss.m g i * _ = 0
        rw [h g (mem_range.1 hg), zero_mul])
      rw [this, mul_zero]
  have habs : ∀ i, absorption (reactions d) φ i =
      ∑ g ∈ range d.energies, (d.tot.m g i * φ (i + g * d.cells) - scatterIn (reactions d) φ g i) := by
    intro i
    unfold absorption scatterIn
    show ∑ g ∈ range d.energies, (d.tot.m g i - ∑ h ∈ range d.energies, d.scatt g h i) * φ (i + g * d.cells) =
      ∑ g ∈ range d.energies, (d.tot.m g i * φ (i + g * d.cells) - ∑ h ∈ range d.energies, d.scatt h g i * φ (i + h * d.cells))
    rw [sum_sub_distrib, sum_comm (f := fun g h => d.scatt h g i * φ (i + h * d.cells)), ← sum_sub_distrib]
    exact sum_congr rfl (fun g _ => by rw [sub_mul, sum_mul])
  have leak : ∀ g ∈ range d.energies, ∑ j ∈ range d.cells, d.vol.v j * E g j *
        (CPM.escape d G.v g j * (1 - d.albedo.v 0) / (1 - d.albedo.v 0 * CPM.crossing d d.surface (CPM.escape d G.v g) g)) =
      ∑ j ∈ range d.cells, (d.vol.v j * E g j - d.vol.v j * d.tot.m g j * φ (j + g * d.cells)) := by
    intro g hg
    rw [sum_sub_distrib, group g (mem_range.1 hg), ← sum_sub_distrib]
    exact sum_congr rfl (fun j _ => by ring)
  rw [sum_congr rfl leak, sum_comm, ← sum_add_distrib, sum_div]
  refine sum_congr rfl (fun i hi => ?_)
  have hi := mem_range.1 hi
  rw [habs, ← hprod i hi, sum_mul, mul_sum, sum_div, mul_sum, ← sum_add_distrib]
  refine sum_congr rfl (fun g _ => ?_)
  rw [hE]
  ring

theorem absorbed_pos (B : Body d geom) {φ : Nat → ℝ} (hφ : Physical d.cells d.energies φ) :
    0 < ∑ i ∈ range d.cells, d.vol.v i * absorption (reactions d) φ i := by
  obtain ⟨h0, p, hp, hne⟩ := hφ
  obtain ⟨i, g, hi, hg, rfl⟩ := flat_surj hp
  have term : ∀ g i, g < d.energies → i < d.cells →
      0 ≤ (d.tot.m g i - ∑ h ∈ range d.energies, d.scatt g h i) * φ (i + g * d.cells) := fun g i hg hi =>
    mul_nonneg (sub_nonneg.2 (B.absorbing.absorbs g i hg hi).le) (h0 _ (flat_lt hi hg))
  refine sum_pos' (fun i hi => mul_nonneg (B.pos.vol_pos i (mem_range.1 hi)).le
    (sum_nonneg (fun g hg => term g i (mem_range.1 hg) (mem_range.1 hi)))) ⟨i, mem_range.2 hi, mul_pos (B.pos.vol_pos i hi) ?_⟩
  refine sum_pos' (fun g hg => term g i (mem_range.1 hg) hi)
    ⟨g, mem_range.2 hg, mul_pos (sub_pos.2 (B.absorbing.absorbs g i hg hi)) ?_⟩
  exact lt_of_le_of_ne (h0 _ hp) (Ne.symm hne)

/-! ### comparison -/

theorem same_vacuum {d' : CPM.Data} (w : LessMultiplying d d') (e3 ki3 : ℝ → ℝ) :
    CPM.vacuumCPs d' e3 ki3 geom = CPM.vacuumCPs d e3 ki3 geom := by
  obtain ⟨h1, h2, h3, h4, h5, h6, -, -, -⟩ := w
  obtain ⟨c, en, al, ra, vo, su, tt, fi, nu, ch, sc⟩ := d
  obtain ⟨c', en', al', ra', vo', su', to', fi', nu', ch', sc'⟩ := d'
  dsimp only at h1 h2 h3 h4 h5 h6
  subst h1 h2 h3 h4 h5 h6
  cases geom <;> rfl

theorem albedo_mono {a a' X : ℝ} (h : a' ≤ a) (h1 : 0 < 1 - X * a) (h2 : 0 < 1 - X * a') : a' / (1 - X * a') ≤ a / (1 - X * a) := by
  rw [div_le_div_iff₀ h2 h1]
  linarith

theorem response_mono {d' : CPM.Data} (w : LessMultiplying d d') (B : Body d geom) (B' : Body d' geom) {G : CPM.Ten3} (s : CPM.Sound d G)
    (s' : CPM.Sound d' G) {g i j : Nat} (hg : g < d.energies) (hi : i < d.cells) (hj : j < d.cells) :
    response d' G.v g i j ≤ response d G.v g i j := by
  have e1 : ∀ i, CPM.escape d' G.v g i = CPM.escape d G.v g i := fun i => by unfold CPM.escape; rw [w.cells]
  have e2 : CPM.crossing d' d'.surface (CPM.escape d' G.v g) g = CPM.crossing d d.surface (CPM.escape d G.v g) g := by
    unfold CPM.crossing
    rw [w.cells, w.vol, w.surface, w.tot]
    simp only [e1]
  have h1 := body_den B s hg
  have h2 := body_den B' s' (h := g) (by rw [w.energies]; exact hg)
  rw [e2] at h2
  unfold response
  rw [e1, e1, e2, w.tot, w.vol, w.surface]
  have h3 := s.esc g i hg hi
  have h4 := s.esc g j hg hj
  have h5 := B.pos.vol_pos j hj
  have h6 := B.pos.surface_pos
  have := mul_le_mul_of_nonneg_left (albedo_mono w.albedo h1 h2)
    (show 0 ≤ CPM.escape d G.v g i * (4 * d.vol.v j / d.surface * CPM.escape d G.v g j) by positivity)
  linarith

end

end Verif.Solve
