import Verif.Solve.DiffusionRun

/-! Concrete problems and a library on which the hypotheses of the theorems hold. -/

namespace Verif.Solve

open Verif Outcome Finset Eigen

noncomputable section

open scoped Classical

/-- `x` solves whatever system is stored in `X` and `b`. -/
def Good (X : Mat Fl) (b : List Fl) (x : Nat → ℝ) : Prop :=
  ∀ (n : Nat) (A : Nat → Nat → ℝ) (c : Nat → ℝ), X.r = n → (∀ i j, i < n → j < n → X.m i j = .fin (A i j)) →
    b = (List.range n).map (fun i => Fl.fin (c i)) → ∀ i, i < n → ∑ j ∈ range n, A i j * x j = c i

/-- A library: a solver of linear systems that finds a solution if there is one, sorting by keys, and (for the example with two cells) the one
eigenvalue and its eigenvector. -/
def exLib : Numerics where
  qr X b := if h : ∃ x, Good X b x then fun i => .fin (h.choose i) else fun _ => .nan
  evals _ _ := [(.fin (4 / 3), .fin 0)]
  evecs _ _ p _ := if p = 0 then 1 else 1 / 2
  sort := exSort

theorem exLib_solves : SolvesRegular exLib := by
  intro n X A hr _ hX hs b
  have hg : ∃ x, Good X ((List.range n).map (fun i => Fl.fin (b i))) x := by
    obtain ⟨x, hx⟩ := hs b
    refine ⟨x, fun m B c hm hB hc i hi => ?_⟩
    obtain rfl : m = n := by rw [← hm, hr]
    have hbc : b i = c i := by
      have := congrArg (fun l => l[i]?) hc
      simpa [hi] using this
    rw [← hbc, ← hx i hi]
    refine sum_congr rfl (fun j hj => ?_)
    have := (hB i j hi (mem_range.1 hj)).symm.trans (hX i j hi (mem_range.1 hj))
    rw [Fl.fin.inj this]
  refine ⟨hg.choose, fun i _ => ?_, hg.choose_spec n A b hr hX rfl⟩
  show (dite _ _ _ : Nat → Fl) i = _
  rw [dif_pos hg]

/-! ### three cells, two groups -/

theorem exSlab_absorbing : Diffusion.Absorbing Diffusion.exSlab where
  vol_pos i _ := by show (0 : ℝ) < 1 + i; positivity
  surf_nonneg _ _ := zero_le_one
  scatt_nonneg g h i _ _ _ := by show (0 : ℝ) ≤ if g = 0 ∧ h = 1 then 1 / 2 else 0; positivity
  absorbs g i hg hi := by
    have hg' : g < 2 := hg
    have hi' : i < 3 := hi
    interval_cases g <;> interval_cases i <;> norm_num [Diffusion.exSlab, sum_range_succ]

theorem exSlab_sound : Sound Diffusion.exSlab (1 / 2) 0 :=
  ⟨Diffusion.exSlab_wf, Diffusion.exSlab_pos, by norm_num [Diffusion.exSlab], Diffusion.exSlab_albedos, by norm_num, by norm_num⟩

theorem exSlab_fission : NonnegFission Diffusion.exSlab where
  chi g i _ _ := by show (0 : ℝ) ≤ if g = 0 then 1 else 0; positivity
  prod g i _ _ := by show (0 : ℝ) ≤ (2 + g) * (g + i); positivity
  fiss g i _ _ := by show (0 : ℝ) ≤ g + i; positivity

theorem exSlab_multiplying : Multiplying Diffusion.exSlab where
  chi_nonneg := exSlab_fission.chi
  prod_nonneg := exSlab_fission.prod
  emitted i g _ _ _ := ⟨0, by norm_num [Diffusion.exSlab], by norm_num [Diffusion.exSlab]⟩
  somewhere := ⟨1, 1, by norm_num [Diffusion.exSlab], by norm_num [Diffusion.exSlab], by norm_num [Diffusion.exSlab]⟩

theorem flight {d : Diffusion.Data} (hs : ∀ i, i ≤ d.cells → 0 < d.surf.v i) {g : Nat} (hg : g < d.energies) (a b : Nat)
    (ha : a < d.cells) (hb : b < d.cells) : Relation.ReflTransGen (Step d) (a, g) (b, g) := by
  rcases le_total a b with h | h
  · induction b, h using Nat.le_induction with
    | base => exact .refl
    | succ b hab ih =>
      exact .tail (ih (by omega)) ⟨by dsimp only; omega, hb, hg, hg, .inl ⟨rfl, rfl, hs _ (by dsimp only; omega)⟩⟩
  · induction a, h using Nat.le_induction with
    | base => exact .refl
    | succ a hab ih =>
      exact .head (b := (a, g)) ⟨ha, by dsimp only; omega, hg, hg, .inr (.inl ⟨rfl, rfl, hs _ (by dsimp only; omega)⟩)⟩ (ih (by omega))

theorem exSlab_linked : Linked Diffusion.exSlab := by
  intro a b ha hb _ _
  refine ⟨0, 1, by norm_num [Diffusion.exSlab], by norm_num [Diffusion.exSlab], by norm_num [Diffusion.exSlab], ?_, ?_⟩
  · show (0 : ℝ) < (2 + ((1 : ℕ) : ℝ)) * (((1 : ℕ) : ℝ) + b)
    positivity
  · refine .tail (flight (fun _ _ => one_pos) (by norm_num [Diffusion.exSlab]) a b ha hb) ?_
    exact ⟨hb, hb, by norm_num [Diffusion.exSlab], by norm_num [Diffusion.exSlab], .inr (.inr ⟨rfl, by norm_num [Diffusion.exSlab]⟩)⟩

theorem exSlab_regular : Regular Diffusion.exSlab (1 / 2) 0 :=
  ⟨Diffusion.exSlab_wf, Diffusion.exSlab_pos, by norm_num [Diffusion.exSlab], Diffusion.exSlab_albedos, by norm_num, by norm_num,
    exSlab_absorbing, exSlab_multiplying, exSlab_linked⟩

/-- the same slab with more collisions and vacuum on both sides -/
def exWorse : Diffusion.Data := { Diffusion.exSlab with tot := ⟨2, 3, fun e i => 3 + e + i⟩, albedo := ⟨2, fun _ => 0⟩ }

theorem exWorse_regular : Regular exWorse 0 0 where
  wf := ⟨rfl, rfl, rfl, rfl, rfl, rfl, rfl, rfl, rfl, rfl, rfl, rfl, rfl⟩
  pos := ⟨Diffusion.exSlab_pos.D_pos, Diffusion.exSlab_pos.size_pos⟩
  cells := by norm_num [exWorse, Diffusion.exSlab]
  albedos := Or.inl ⟨rfl, le_rfl, rfl, rfl⟩
  left := by norm_num
  right := by norm_num
  absorbing := ⟨exSlab_absorbing.vol_pos, exSlab_absorbing.surf_nonneg, exSlab_absorbing.scatt_nonneg, fun g i hg hi =>
    (exSlab_absorbing.absorbs g i hg hi).trans (by show (2 : ℝ) + g + i < 3 + g + i; linarith)⟩
  multiplying := ⟨exSlab_multiplying.chi_nonneg, exSlab_multiplying.prod_nonneg, exSlab_multiplying.emitted, exSlab_multiplying.somewhere⟩
  linked := exSlab_linked

theorem exWorse_less : LessReactive Diffusion.exSlab exWorse (1 / 2) 0 0 0 where
  cells := rfl
  energies := rfl
  vol _ _ := rfl
  surf _ _ := rfl
  size _ _ := rfl
  D _ _ _ _ := rfl
  tot g i _ _ := by show (2 : ℝ) + g + i ≤ 3 + g + i; linarith
  scatt _ _ _ _ _ _ := le_rfl
  emission _ _ _ _ _ _ := le_rfl
  left := by norm_num
  right := le_rfl

/-! ### two cells, one group, fission in the first -/

/-- reflecting slab of two cells with fission in the first -/
def exTwo : Diffusion.Data where
  cells := 2
  energies := 1
  geom := .slab
  albedo := ⟨2, fun _ => 1⟩
  D := ⟨1, 2, fun _ _ => 1⟩
  tot := ⟨1, 2, fun _ _ => 1⟩
  fiss := ⟨1, 2, fun _ i => if i = 0 then 1 else 0⟩
  nu := ⟨1, 2, fun _ _ => 2⟩
  chi := ⟨1, 2, fun _ _ => 1⟩
  scatt := fun _ _ _ => 0
  vol := ⟨2, fun _ => 1⟩
  surf := ⟨3, fun _ => 1⟩
  size := ⟨2, fun _ => 1⟩

theorem exTwo_regular : Regular exTwo 1 1 where
  wf := ⟨rfl, rfl, rfl, rfl, rfl, rfl, rfl, rfl, rfl, rfl, rfl, rfl, rfl⟩
  pos := ⟨fun _ _ _ _ => one_pos, fun _ _ => one_pos⟩
  cells := le_rfl
  albedos := Or.inl ⟨rfl, le_rfl, rfl, rfl⟩
  left := by norm_num
  right := by norm_num
  absorbing := ⟨fun _ _ => one_pos, fun _ _ => zero_le_one, fun _ _ _ _ _ _ => le_rfl, fun _ _ _ _ => by simp [exTwo]⟩
  multiplying := ⟨fun _ _ _ _ => zero_le_one, fun g i _ _ => by show (0 : ℝ) ≤ 2 * if i = 0 then 1 else 0; positivity,
    fun i g _ _ _ => ⟨0, one_pos, one_pos⟩, ⟨0, 0, two_pos, one_pos, by norm_num [exTwo]⟩⟩
  linked := by
    rintro a b ha hb ⟨g, -, hga⟩ ⟨h, -, hgb⟩
    have ea : a = 0 := by by_contra hne; simp [exTwo, hne] at hga
    have eb : b = 0 := by by_contra hne; simp [exTwo, hne] at hgb
    subst ea
    subst eb
    exact ⟨0, 0, one_pos, one_pos, one_pos, by norm_num [exTwo], .refl⟩

theorem exTwo_fiss : ∀ g i, g < exTwo.energies → i < exTwo.cells → 0 ≤ exTwo.fiss.m g i := fun _ i _ _ => by
  show (0 : ℝ) ≤ if i = 0 then 1 else 0; positivity

theorem exTwo_loss : loss exTwo 1 1 0 0 = 2 ∧ loss exTwo 1 1 0 1 = -1 ∧ loss exTwo 1 1 1 0 = -1 ∧ loss exTwo 1 1 1 1 = 2 := by
  refine ⟨?_, ?_, ?_, ?_⟩ <;>
    norm_num [loss, exTwo, Diffusion.row, Diffusion.tri, Diffusion.bc, Diffusion.di]

theorem exTwo_fission : fission exTwo 0 0 = 2 ∧ fission exTwo 0 1 = 0 ∧ fission exTwo 1 0 = 0 ∧ fission exTwo 1 1 = 0 := by
  refine ⟨?_, ?_, ?_, ?_⟩ <;> norm_num [fission, exTwo]

/-- the library finds the one mode -/
theorem exTwo_modes {M F : Mat ℝ} (hM : ∀ p q, p < 2 → q < 2 → M.m p q = loss exTwo 1 1 p q)
    (hF : ∀ p q, p < 2 → q < 2 → F.m p q = fission exTwo p q) : FindsModes exLib 2 M F := by
  obtain ⟨l1, l2, l3, l4⟩ := exTwo_loss
  obtain ⟨f1, f2, f3, f4⟩ := exTwo_fission
  have m1 := (hM 0 0 (by norm_num) (by norm_num)).trans l1
  have m2 := (hM 0 1 (by norm_num) (by norm_num)).trans l2
  have m3 := (hM 1 0 (by norm_num) (by norm_num)).trans l3
  have m4 := (hM 1 1 (by norm_num) (by norm_num)).trans l4
  have n1 := (hF 0 0 (by norm_num) (by norm_num)).trans f1
  have n2 := (hF 0 1 (by norm_num) (by norm_num)).trans f2
  have n3 := (hF 1 0 (by norm_num) (by norm_num)).trans f3
  have n4 := (hF 1 1 (by norm_num) (by norm_num)).trans f4
  refine ⟨?_, ?_, ?_⟩
  · intro X Y _ _ _ z hz
    simp only [exLib, List.mem_singleton] at hz
    rw [hz]
  · intro X Y _ _ _ i z hz _
    have hi : i = 0 := by
      by_contra hne
      rw [List.getElem?_eq_none (by show 1 ≤ i; omega)] at hz
      cases hz
    subst hi
    have : z = (.fin (4 / 3), .fin 0) := by simpa [exLib] using hz.symm
    subst this
    refine ⟨4 / 3, rfl, ⟨0, by norm_num, by norm_num [exLib]⟩, fun p hp => ?_⟩
    interval_cases p <;> simp only [act, sum_range_succ, range_zero, sum_empty, m1, m2, m3, m4, n1, n2, n3, n4, exLib] <;> norm_num
  · rintro X Y _ _ _ k ψ ⟨⟨p, hp, hne⟩, he⟩
    refine ⟨_, List.mem_singleton.2 rfl, ?_⟩
    have e0 := he 0 (by norm_num)
    have e1 := he 1 (by norm_num)
    simp only [act, sum_range_succ, range_zero, sum_empty, m1, m2, m3, m4, n1, n2, n3, n4] at e0 e1
    norm_num at e0 e1
    have h1 : ψ 1 = ψ 0 / 2 := by linarith
    have h0 : ψ 0 ≠ 0 := by
      intro h0
      interval_cases p
      · exact hne h0
      · exact hne (by rw [h1, h0, zero_div])
    by_cases hk : k = 0
    · subst hk
      rw [div_zero, h1] at e0
      exact absurd (show ψ 0 = 0 by linarith) h0
    · have : k * (3 / 2) = 2 := by
        rw [eq_div_iff hk, h1] at e0
        have : (k * (3 / 2) - 2) * ψ 0 = 0 := by linear_combination e0
        have := (mul_eq_zero.1 this).resolve_right h0
        linarith
      rw [show k = 4 / 3 by linarith]

theorem exTwo_solve {k : ℝ} {φ : Nat → ℝ} (hφ : Physical 2 1 φ) (heq : DiffusionEq exTwo 1 1 k φ) :
    k = 4 / 3 ∧ φ 0 ≠ 0 ∧ φ 1 = φ 0 / 2 := by
  obtain ⟨l1, l2, l3, l4⟩ := exTwo_loss
  obtain ⟨f1, f2, f3, f4⟩ := exTwo_fission
  obtain ⟨p, hp, hne⟩ := hφ.2
  have he := (equation_iff exTwo_regular.sound).2 heq
  have e0 := he 0 (by norm_num [exTwo])
  have e1 := he 1 (by norm_num [exTwo])
  have N : exTwo.cells * exTwo.energies = 2 := rfl
  simp only [N, act, sum_range_succ, range_zero, sum_empty, l1, l2, l3, l4, f1, f2, f3, f4] at e0 e1
  norm_num at e0 e1
  have h1 : φ 1 = φ 0 / 2 := by linarith
  have h0 : φ 0 ≠ 0 := by
    intro h0
    have hp' : p < 2 := hp
    interval_cases p
    · exact hne h0
    · exact hne (by rw [h1, h0, zero_div])
  refine ⟨?_, h0, h1⟩
  by_cases hk : k = 0
  · subst hk
    rw [div_zero, h1] at e0
    exact absurd (show φ 0 = 0 by linarith) h0
  · have : k * (3 / 2) = 2 := by
      rw [eq_div_iff hk, h1] at e0
      have : (k * (3 / 2) - 2) * φ 0 = 0 := by linear_combination e0
      have := (mul_eq_zero.1 this).resolve_right h0
      linarith
    linarith

theorem exTwo_k {k : ℝ} {φ : Nat → ℝ} (hφ : Physical 2 1 φ) (heq : DiffusionEq exTwo 1 1 k φ) : k = 4 / 3 := (exTwo_solve hφ heq).1

theorem exTwo_solution {k : ℝ} {φ : Nat → ℝ} (hφ : Physical 2 1 φ) (hs : ∑ p ∈ range 2, φ p = 1) (heq : DiffusionEq exTwo 1 1 k φ) :
    k = 4 / 3 ∧ ∀ p, p < 2 → φ p = if p = 0 then 2 / 3 else 1 / 3 := by
  obtain ⟨hk, -, h1⟩ := exTwo_solve hφ heq
  rw [sum_range_succ, sum_range_succ, range_zero, sum_empty, zero_add, h1] at hs
  refine ⟨hk, fun p hp => ?_⟩
  interval_cases p
  · rw [if_pos rfl]; linarith
  · rw [if_neg one_ne_zero, h1]; linarith

/-! ### an infinite medium of two groups -/

/-- reflecting homogeneous slab, two groups -/
def exMedium : Diffusion.Data where
  cells := 3
  energies := 2
  geom := .slab
  albedo := ⟨2, fun _ => 1⟩
  D := ⟨2, 3, fun _ _ => 1⟩
  tot := ⟨2, 3, fun _ _ => 1⟩
  fiss := ⟨2, 3, fun e _ => if e = 1 then 1 else 0⟩
  nu := ⟨2, 3, fun _ _ => 1⟩
  chi := ⟨2, 3, fun e _ => if e = 0 then 1 else 0⟩
  scatt := fun g h _ => if g = 0 ∧ h = 1 then 1 / 2 else 0
  vol := ⟨3, fun _ => 1⟩
  surf := ⟨4, fun _ => 1⟩
  size := ⟨3, fun _ => 1⟩

theorem exMedium_regular : Regular exMedium 1 1 where
  wf := ⟨rfl, rfl, rfl, rfl, rfl, rfl, rfl, rfl, rfl, rfl, rfl, rfl, rfl⟩
  pos := ⟨fun _ _ _ _ => one_pos, fun _ _ => one_pos⟩
  cells := by norm_num [exMedium]
  albedos := Or.inl ⟨rfl, le_rfl, rfl, rfl⟩
  left := by norm_num
  right := by norm_num
  absorbing := ⟨fun _ _ => one_pos, fun _ _ => zero_le_one, fun g h _ _ _ _ => by
      show (0 : ℝ) ≤ if g = 0 ∧ h = 1 then 1 / 2 else 0; positivity, fun g i hg hi => by
      have hg' : g < 2 := hg
      interval_cases g <;> norm_num [exMedium, sum_range_succ]⟩
  multiplying := ⟨fun g _ _ _ => by show (0 : ℝ) ≤ if g = 0 then 1 else 0; positivity, fun g i _ _ => by
      show (0 : ℝ) ≤ 1 * if g = 1 then 1 else 0; positivity,
    fun i g _ _ _ => ⟨0, two_pos, by norm_num [exMedium]⟩, ⟨0, 1, by norm_num [exMedium], by norm_num [exMedium], by norm_num [exMedium]⟩⟩
  linked := by
    intro a b ha hb _ _
    refine ⟨0, 1, two_pos, one_lt_two, by norm_num [exMedium], by norm_num [exMedium], ?_⟩
    refine .tail (flight (fun _ _ => one_pos) two_pos a b ha hb) ?_
    exact ⟨hb, hb, two_pos, one_lt_two, .inr (.inr ⟨rfl, by norm_num [exMedium]⟩)⟩

theorem exMedium_fiss : ∀ g i, g < exMedium.energies → i < exMedium.cells → 0 ≤ exMedium.fiss.m g i := fun g _ _ _ => by
  show (0 : ℝ) ≤ if g = 1 then 1 else 0; positivity

theorem exMedium_infinite (i : Nat) : InfiniteMedium exMedium.energies (fun g => exMedium.tot.m g i) (fun g h => exMedium.scatt g h i)
    (fun g => exMedium.chi.m g i) (fun g => exMedium.nu.m g i * exMedium.fiss.m g i) (1 / 2) (fun g => if g = 0 then 2 / 3 else 1 / 3) := by
  intro g hg
  have hg' : g < 2 := hg
  interval_cases g <;> norm_num [exMedium, sum_range_succ]

end

end Verif.Solve
