import Verif.Solve.Transport
import Verif.Solve.Examples
import Verif.CPM.Props

/-! Concrete transport problems on which the hypotheses of the theorems hold. -/

namespace Verif.Solve

open Verif Outcome Finset Eigen

noncomputable section

/-! ### two cells, two groups -/

theorem exPlate_body : Body CPM.exSlab .slab :=
  ⟨CPM.exSlab_wf, CPM.exSlab_pos, CPM.exSlab_mesh, two_pos, by norm_num [CPM.exSlab], CPM.exSlab_absorbing⟩

theorem exPlate_fission : NonnegFission (reactions CPM.exSlab) where
  chi g i _ _ := by show (0 : ℝ) ≤ if g = 0 then 1 else 0; positivity
  prod g i _ _ := by show (0 : ℝ) ≤ (2 + g) * (g + i); positivity
  fiss g i _ _ := by show (0 : ℝ) ≤ g + i; positivity

theorem exPlate_multiplying : Multiplying (reactions CPM.exSlab) where
  chi_nonneg := exPlate_fission.chi
  prod_nonneg := exPlate_fission.prod
  emitted i g _ _ _ := ⟨0, two_pos, by norm_num [reactions, CPM.exSlab]⟩
  somewhere := ⟨1, 1, one_lt_two, one_lt_two, by norm_num [reactions, CPM.exSlab]⟩

theorem exPlate_linked : GroupsLinked CPM.exSlab := by
  intro a b ha hb _ _
  refine ⟨0, 1, two_pos, one_lt_two, by norm_num [CPM.exSlab], ?_,
    .single ⟨two_pos, one_lt_two, 0, two_pos, by norm_num [CPM.exSlab]⟩⟩
  show (0 : ℝ) < (2 + ((1 : ℕ) : ℝ)) * (((1 : ℕ) : ℝ) + b)
  positivity

/-- the same slab in vacuum and with less scattering -/
def exBare : CPM.Data :=
  { CPM.exSlab with albedo := ⟨1, fun _ => 0⟩, scatt := fun g h _ => if g = 0 ∧ h = 1 then 1 / 4 else 0 }

theorem exBare_body : Body exBare .slab where
  wf := ⟨by norm_num [exBare], rfl, rfl, rfl, rfl, rfl, rfl, rfl, rfl, rfl, rfl⟩
  pos := ⟨CPM.exSlab_pos.tot_pos, CPM.exSlab_pos.vol_pos, CPM.exSlab_pos.surface_pos⟩
  mesh := ⟨exPlate_body.mesh.incr, exPlate_body.mesh.vol_eq⟩
  cells := two_pos
  albedo := by norm_num [exBare]
  absorbing := ⟨fun g h i _ _ _ => by show (0 : ℝ) ≤ if g = 0 ∧ h = 1 then 1 / 4 else 0; positivity, fun g i hg hi => by
    have hg' : g < 2 := hg
    have hi' : i < 2 := hi
    interval_cases g <;> interval_cases i <;> norm_num [exBare, CPM.exSlab, sum_range_succ]⟩

theorem exBare_linked : GroupsLinked exBare := by
  intro a b ha hb _ _
  refine ⟨0, 1, two_pos, one_lt_two, by norm_num [exBare, CPM.exSlab], ?_,
    .single ⟨two_pos, one_lt_two, 0, two_pos, by norm_num [exBare, CPM.exSlab]⟩⟩
  show (0 : ℝ) < (2 + ((1 : ℕ) : ℝ)) * (((1 : ℕ) : ℝ) + b)
  positivity

theorem exBare_multiplying : Multiplying (reactions exBare) :=
  ⟨exPlate_multiplying.chi_nonneg, exPlate_multiplying.prod_nonneg, exPlate_multiplying.emitted, exPlate_multiplying.somewhere⟩

theorem exBare_less : LessMultiplying CPM.exSlab exBare where
  cells := rfl
  energies := rfl
  radii := rfl
  vol := rfl
  surface := rfl
  tot := rfl
  scatt g h i _ _ _ := by
    show (if g = 0 ∧ h = 1 then (1 : ℝ) / 4 else 0) ≤ if g = 0 ∧ h = 1 then 1 / 2 else 0
    split_ifs <;> norm_num
  emission _ _ _ _ _ _ := le_rfl
  albedo := by norm_num [exBare, CPM.exSlab]

/-! ### rods -/

theorem exRod_body : Body CPM.exRound .cylinder :=
  ⟨CPM.exRound_wf, CPM.exRound_pos, CPM.exRound_mesh, two_pos, by norm_num [CPM.exRound],
    ⟨CPM.exSlab_absorbing.scatt_nonneg, CPM.exSlab_absorbing.absorbs⟩⟩

theorem exRod_thick : Thick CPM.exRound .cylinder := by
  intro h i _ _
  refine Or.inl ?_
  show Real.pi * ((i + 1 : ℕ) : ℝ) ≤ Real.pi * (2 * i + 1) * (1 + h + i)
  have hi := (Nat.cast_nonneg i : (0 : ℝ) ≤ i)
  have hh := (Nat.cast_nonneg h : (0 : ℝ) ≤ h)
  push_cast
  rw [mul_assoc]
  refine mul_le_mul_of_nonneg_left ?_ Real.pi_pos.le
  nlinarith [mul_nonneg hi hh, mul_nonneg hi hi]

theorem exRod_multiplying : Multiplying (reactions CPM.exRound) :=
  ⟨exPlate_multiplying.chi_nonneg, exPlate_multiplying.prod_nonneg, exPlate_multiplying.emitted, exPlate_multiplying.somewhere⟩

theorem exRod_linked : GroupsLinked CPM.exRound := by
  intro a b ha hb _ _
  refine ⟨0, 1, two_pos, one_lt_two, by norm_num [CPM.exRound], ?_,
    .single ⟨two_pos, one_lt_two, 0, two_pos, by norm_num [CPM.exRound]⟩⟩
  show (0 : ℝ) < (2 + ((1 : ℕ) : ℝ)) * (((1 : ℕ) : ℝ) + b)
  positivity

/-- closed homogeneous rod of two rings, two groups -/
def exRod : CPM.Data where
  cells := 2
  energies := 2
  albedo := ⟨1, fun _ => 1⟩
  radii := ⟨3, fun i => i⟩
  vol := ⟨2, fun i => Real.pi * (2 * i + 1)⟩
  surface := 4 * Real.pi
  tot := ⟨2, 2, fun _ _ => 1⟩
  fiss := ⟨2, 2, fun e _ => if e = 1 then 1 else 0⟩
  nu := ⟨2, 2, fun _ _ => 1⟩
  chi := ⟨2, 2, fun e _ => if e = 0 then 1 else 0⟩
  scatt := fun g h _ => if g = 0 ∧ h = 1 then 1 / 2 else 0

theorem exClosed_body : Body exRod .cylinder where
  wf := ⟨by norm_num [exRod], rfl, rfl, rfl, rfl, rfl, rfl, rfl, rfl, rfl, rfl⟩
  pos := ⟨fun _ _ _ _ => one_pos, CPM.exRound_pos.vol_pos, CPM.exRound_pos.surface_pos⟩
  mesh := ⟨CPM.exRound_mesh.first, CPM.exRound_mesh.incr⟩
  cells := two_pos
  albedo := by norm_num [exRod]
  absorbing := ⟨fun g h i _ _ _ => by show (0 : ℝ) ≤ if g = 0 ∧ h = 1 then 1 / 2 else 0; positivity, fun g i hg hi => by
    have hg' : g < 2 := hg
    interval_cases g <;> norm_num [exRod, sum_range_succ]⟩

theorem exClosed_thick : Thick exRod .cylinder := by
  intro h i _ _
  refine Or.inl ?_
  show Real.pi * ((i + 1 : ℕ) : ℝ) ≤ Real.pi * (2 * i + 1) * 1
  push_cast
  have := mul_nonneg Real.pi_pos.le (Nat.cast_nonneg i : (0 : ℝ) ≤ i)
  linarith

theorem exClosed_fiss : ∀ g i, g < exRod.energies → i < exRod.cells → 0 ≤ exRod.fiss.m g i := fun g _ _ _ => by
  show (0 : ℝ) ≤ if g = 1 then 1 else 0; positivity

theorem exClosed_multiplying : Multiplying (reactions exRod) where
  chi_nonneg g _ _ _ := by show (0 : ℝ) ≤ if g = 0 then 1 else 0; positivity
  prod_nonneg g _ _ _ := by show (0 : ℝ) ≤ 1 * if g = 1 then 1 else 0; positivity
  emitted i g _ _ _ := ⟨0, two_pos, by norm_num [reactions, exRod]⟩
  somewhere := ⟨0, 1, two_pos, one_lt_two, by norm_num [reactions, exRod]⟩

theorem exClosed_linked : GroupsLinked exRod := by
  intro a b ha hb _ _
  exact ⟨0, 1, two_pos, one_lt_two, by norm_num [exRod], by norm_num [exRod],
    .single ⟨two_pos, one_lt_two, 0, two_pos, by norm_num [exRod]⟩⟩

theorem exClosed_infinite (i : Nat) : InfiniteMedium exRod.energies (fun g => exRod.tot.m g i) (fun g h => exRod.scatt g h i)
    (fun g => exRod.chi.m g i) (fun g => exRod.nu.m g i * exRod.fiss.m g i) (1 / 2) (fun g => if g = 0 then 2 / 3 else 1 / 3) := by
  intro g hg
  have hg' : g < 2 := hg
  interval_cases g <;> norm_num [exRod, sum_range_succ]

/-! ### a closed ball of one cell and one group -/

/-- closed ball of radius 2, one cell, one group, scattering `s`, production `2 f` -/
def exCell (s f : ℝ) : CPM.Data where
  cells := 1
  energies := 1
  albedo := ⟨1, fun _ => 1⟩
  radii := ⟨2, fun i => 2 * i⟩
  vol := ⟨1, fun _ => 32 / 3 * Real.pi⟩
  surface := 16 * Real.pi
  tot := ⟨1, 1, fun _ _ => 1⟩
  fiss := ⟨1, 1, fun _ _ => f⟩
  nu := ⟨1, 1, fun _ _ => 2⟩
  chi := ⟨1, 1, fun _ _ => 1⟩
  scatt := fun _ _ _ => s

variable {s f : ℝ}

theorem exCell_body (h0 : 0 ≤ s) (h1 : s < 1) : Body (exCell s f) .sphere where
  wf := ⟨by norm_num [exCell], rfl, rfl, rfl, rfl, rfl, rfl, rfl, rfl, rfl, rfl⟩
  pos := ⟨fun _ _ _ _ => one_pos, fun _ _ => by show 0 < 32 / 3 * Real.pi; positivity, by show 0 < 16 * Real.pi; positivity⟩
  mesh := ⟨by norm_num [exCell], fun i _ => by show 2 * (i : ℝ) < 2 * ((i + 1 : ℕ) : ℝ); push_cast; linarith⟩
  cells := one_pos
  albedo := by norm_num [exCell]
  absorbing := ⟨fun _ _ _ _ _ _ => h0, fun _ _ _ _ => by simpa [exCell] using h1⟩

theorem exCell_thick : Thick (exCell s f) .sphere := by
  intro h i _ hi
  refine Or.inl ?_
  have hi' : i < 1 := hi
  interval_cases i
  show 2 * Real.pi * (2 * ((0 + 1 : ℕ) : ℝ)) ^ 2 * (1 + 1 / 10 ^ 9) ≤ 32 / 3 * Real.pi * 1
  have := Real.pi_pos
  norm_num
  linarith

theorem exCell_multiplying (hf : 0 < f) : Multiplying (reactions (exCell s f)) where
  chi_nonneg _ _ _ _ := zero_le_one
  prod_nonneg _ _ _ _ := by show 0 ≤ 2 * f; positivity
  emitted _ _ _ _ _ := ⟨0, one_pos, one_pos⟩
  somewhere := ⟨0, 0, one_pos, one_pos, by show 0 < 2 * f; positivity⟩

theorem exCell_linked (hf : 0 < f) : GroupsLinked (exCell s f) := by
  intro a b ha hb _ _
  exact ⟨0, 0, one_pos, one_pos, one_pos, by show 0 < 2 * f; positivity, .refl⟩

/-- the response of the closed cell is one -/
theorem exCell_response (h0 : 0 ≤ s) (h1 : s < 1) {G : CPM.Ten3} (sd : CPM.Sound (exCell s f) G) :
    response (exCell s f) G.v 0 0 0 = 1 := by
  have row := response_row (exCell_body (f := f) h0 h1) sd (g := 0) (i := 0) one_pos
  have ha : (exCell s f).albedo.v 0 = 1 := rfl
  have hc : (exCell s f).cells = 1 := rfl
  have ht : (exCell s f).tot.m 0 0 = 1 := rfl
  rw [ha, sub_self, mul_zero, zero_div, sub_zero, hc, sum_range_one, ht, mul_one] at row
  exact row

theorem exCell_k (h0 : 0 ≤ s) (h1 : s < 1) {G : CPM.Ten3} (sd : CPM.Sound (exCell s f) G) {k : ℝ} {φ : Nat → ℝ}
    (hφ : Physical 1 1 φ) (h : TransportEq (exCell s f) G.v k φ) : k = 2 * f / (1 - s) := by
  obtain ⟨p, hp, hne⟩ := hφ.2
  have hp' : p < 1 := hp
  interval_cases p
  have e := h 0 0 one_pos one_pos
  have hc : (exCell s f).cells = 1 := rfl
  rw [hc, sum_range_one, exCell_response h0 h1 sd] at e
  have e1 : scatterIn (reactions (exCell s f)) φ 0 0 = s * φ 0 := by simp [scatterIn, reactions, exCell]
  have e2 : production (reactions (exCell s f)) φ 0 = 2 * f * φ 0 := by simp [production, reactions, exCell]
  have e3 : (exCell s f).chi.m 0 0 = 1 := rfl
  rw [e1, e2, e3] at e
  have e4 : φ 0 = s * φ 0 + 2 * f * φ 0 / k := by simpa using e
  have h1s : (0 : ℝ) < 1 - s := by linarith
  by_cases hk : k = 0
  · subst hk
    rw [div_zero, add_zero] at e4
    have : (1 - s) * φ 0 = 0 := by linear_combination e4
    rcases mul_eq_zero.1 this with h | h
    · exact absurd h h1s.ne'
    · exact absurd h hne
  · rw [eq_div_iff h1s.ne']
    have : (k * (1 - s) - 2 * f) * φ 0 = 0 := by
      field_simp at e4
      linear_combination φ 0 * e4
    exact sub_eq_zero.1 ((mul_eq_zero.1 this).resolve_right hne)

/-- the library finds the one mode of the closed cell -/
theorem exCell_modes {G : CPM.Ten3} (sd : CPM.Sound (exCell (1 / 4) (1 / 2)) G) {M F : Mat ℝ}
    (hM : M.m 0 0 = tloss (exCell (1 / 4) (1 / 2)) G.v 0 0) (hF : F.m 0 0 = tfission (exCell (1 / 4) (1 / 2)) G.v 0 0) :
    FindsModes exLib 1 M F := by
  have r := exCell_response (f := 1 / 2) (by norm_num : (0 : ℝ) ≤ 1 / 4) (by norm_num) sd
  have m1 : M.m 0 0 = 3 / 4 := by
    have e := tloss_flat (d := exCell (1 / 4) (1 / 2)) (P := G.v) (g := 0) (h := 0) (i := 0) (j := 0) one_pos one_pos
    rw [r] at e
    rw [hM]
    refine e.trans ?_
    norm_num [exCell]
  have n1 : F.m 0 0 = 1 := by
    have e := tfission_flat (d := exCell (1 / 4) (1 / 2)) (P := G.v) (g := 0) (h := 0) (i := 0) (j := 0) one_pos one_pos
    rw [r] at e
    rw [hF]
    refine e.trans ?_
    norm_num [exCell]
  refine ⟨?_, ?_, ?_⟩
  · intro X Y _ _ _ z hz
    simp only [exLib, List.mem_singleton] at hz
    rw [hz]
  · intro X Y _ _ _ i z hz _
    have hi : i = 0 := by
      by_contra hne
      rw [List.getElem?_eq_none (by show 1 ≤ i; omega)] at hz
      cases hz
    subst hi
    have : z = (.fin (4 / 3), .fin 0) := by simpa [exLib] using hz.symm
    subst this
    refine ⟨4 / 3, rfl, ⟨0, by norm_num, by norm_num [exLib]⟩, fun p hp => ?_⟩
    interval_cases p
    simp only [act, sum_range_succ, range_zero, sum_empty, m1, n1, exLib]
    norm_num
  · rintro X Y _ _ _ k ψ ⟨⟨p, hp, hne⟩, he⟩
    refine ⟨_, List.mem_singleton.2 rfl, ?_⟩
    interval_cases p
    have e0 := he 0 one_pos
    simp only [act, sum_range_succ, range_zero, sum_empty, m1, n1, zero_add, one_mul] at e0
    by_cases hk : k = 0
    · subst hk
      rw [div_zero] at e0
      exact absurd (show ψ 0 = 0 by linarith) hne
    · rw [eq_div_iff hk] at e0
      have : (k * (3 / 4) - 1) * ψ 0 = 0 := by linear_combination e0
      have := (mul_eq_zero.1 this).resolve_right hne
      rw [show k = 4 / 3 by linarith]

end

end Verif.Solve
