import Verif.Heat.Lemmas
import Mathlib.Tactic.IntervalCases
import Mathlib.Tactic.NormNum

/-!
# Property theorems: heat conduction (C24 - C27, C41, C47)

`system d` is the pair (matrix, right-hand side) handed to the linear solver.
-/

namespace Verif.Heat

open Verif Outcome Finset

noncomputable section

/-- Example: a slab of three cells of sizes 1, 2, 3 with different conductivities, 300 degrees on the left face and convection
to a fluid of 200 degrees on the right one. -/
def exHeat : Data where
  cells := 3
  geom := .slab
  radii := ⟨4, fun i => i * (i + 1) / 2⟩
  size := ⟨3, fun i => 1 + i⟩
  vol := ⟨3, fun i => 1 + i⟩
  surf := ⟨4, fun _ => 1⟩
  k := ⟨3, fun i => 2 + i⟩
  q := ⟨3, fun i => i⟩
  bc := Vec.ofList [1, 0, 300, 5, 1, 1000]

theorem exHeat_physical : Physical exHeat where
  two := by decide
  radii_n := rfl
  size_n := rfl
  vol_n := rfl
  surf_n := rfl
  k_n := rfl
  q_n := rfl
  size_eq i _ := by
    show (1 + i : ℝ) = ((i + 1 : ℕ) : ℝ) * (((i + 1 : ℕ) : ℝ) + 1) / 2 - i * (i + 1) / 2
    push_cast; ring
  size_pos i _ := by show (0 : ℝ) < 1 + i; positivity
  surf_pos _ _ := one_pos
  slab _ := rfl
  k_pos i _ := by show (0 : ℝ) < 2 + i; positivity
  vol_pos i _ := by show (0 : ℝ) < 1 + i; positivity

theorem exHeat_boundaries : Boundaries exHeat.bc 1 0 300 5 1 1000 := Or.inr rfl

theorem exHeat_determined : Determined exHeat 1 0 5 1 := ⟨fun _ => by norm_num [exHeat], by norm_num [exHeat]⟩

/-- **C24.** Before boundary conditions every row of the conduction matrix sums to zero: a uniform field carries no heat. -/
theorem C24_rows {d : Data} (ph : Physical d) :
    ∃ T, setup d = ok T ∧ T.r = d.cells ∧ T.c = d.cells ∧ ∀ i < d.cells, ∑ j ∈ range d.cells, T.m i j = 0 := by
  obtain ⟨T, h, hr, hc, hT⟩ := setup_ok ph
  refine ⟨T, h, hr, hc, fun i hi => ?_⟩
  rw [sum_congr rfl (fun j hj => by rw [hT i j hi (mem_range.1 hj), ← mul_one (tm d i j)]), tm_row (fun _ => 1) hi]
  ring

/-- **C24 (partial).** The system is always assembled, and a solution satisfies the global heat balance exactly when the two last
temperatures agree or the last cell is as large as the mean of the two cells before it (as large as the first one if
there are only two cells). Missing: the balance on every mesh, which is false, see `C24_unequal_cells_false`. -/
theorem C24_balance_partial {d : Data} (ph : Physical d) {AL BL CL AR BR CR : ℝ} (hb : Boundaries d.bc AL BL CL AR BR CR)
    (hd : Determined d AL BL AR BR) :
    ∃ T rhs, system d = ok (T, rhs) ∧ T.r = d.cells ∧ T.c = d.cells ∧ rhs.n = d.cells ∧
      ∀ t, Solves T rhs d.cells t → (Balance d AL BL CL AR BR CR t ↔ t (d.cells - 1) = t (d.cells - 2) ∨
        (if d.cells = 2 then d.size.v 0 else (d.size.v (d.cells - 2) + d.size.v (d.cells - 3)) / 2) =
          d.size.v (d.cells - 1)) := by
  obtain ⟨T, rhs, h, hr, hc, hn, hT, hv⟩ := system_ok ph hb hd
  refine ⟨T, rhs, h, hr, hc, hn, fun t ht => ?_⟩
  have h2 := ph.two
  have hsc : 0 < d.surf.v d.cells := by
    have := ph.surf_pos (d.cells - 1) (by omega)
    rwa [show d.cells - 1 + 1 = d.cells from by omega] at this
  have hS : ∑ i ∈ range d.cells, rhs.v i = ∑ i ∈ range d.cells, ∑ j ∈ range d.cells, T.m i j * t j :=
    sum_congr rfl (fun i hi => (ht i (mem_range.1 hi)).symm)
  have e1 := fun i (hi : i ∈ range d.cells) => system_row hT t (mem_range.1 hi)
  have e2 := fun i (hi : i ∈ range d.cells) => hv i (mem_range.1 hi)
  rw [sum_congr rfl e1, sum_congr rfl e2, sum_add_distrib, sum_add_distrib, sum_add_distrib, conduction_sum h2] at hS
  have a1 := sum_left h2 (bl d AL BL CL) (fun _ => 1)
  have a2 := sum_right h2 (br d AR BR CR) (fun _ => 1)
  have a3 := sum_left h2 (bl d AL BL AL) t
  have a4 := sum_right h2 (br d AR BR AR) t
  simp only [mul_one] at a1 a2
  simp only [add_mul, sum_add_distrib] at hS
  rw [a1, a2, a3, a4] at hS
  have hl := lam_pos ph (i := d.cells - 1) (by omega) (by omega)
  have d1 := dx_pos ph (i := d.cells - 1) (by omega)
  have d2 := dx_pos ph (i := d.cells - 2) (by omega)
  have dx1 : dx d (d.cells - 1) = d.size.v (d.cells - 1) := by rw [dx, if_neg (by omega)]
  have dx2 : dx d (d.cells - 2) =
      if d.cells = 2 then d.size.v 0 else (d.size.v (d.cells - 2) + d.size.v (d.cells - 3)) / 2 := by
    unfold dx
    by_cases hc2 : d.cells = 2
    · rw [if_neg (by omega), if_pos hc2, hc2]
    · rw [if_pos (by omega), if_neg hc2, show d.cells - 2 - 1 = d.cells - 3 from by omega]; ring
  rw [← dx1, ← dx2]
  have hJR := fun J => outFlow_iff (C := CR) (t := t (d.cells - 1)) (J := J) (ph.k_pos (d.cells - 1) (by omega))
    (ph.size_pos (d.cells - 1) (by omega)) hsc hd.right
  have hbr : (AR * t (d.cells - 1) - CR) * d.surf.v d.cells /
      (d.size.v (d.cells - 1) / (2 * d.k.v (d.cells - 1)) * AR + BR) = br d AR BR AR * t (d.cells - 1) - br d AR BR CR := by
    unfold br; ring
  have hJL : ∀ J, (if d.geom = .slab then OutFlow AL BL CL (d.k.v 0) (d.size.v 0) 1 (t 0) J else J = 0) ↔
      J = (if d.geom = .slab then bl d AL BL AL else 0) * t 0 - (if d.geom = .slab then bl d AL BL CL else 0) := by
    intro J
    by_cases hg : d.geom = .slab
    · rw [if_pos hg, if_pos hg, if_pos hg, outFlow_iff (ph.k_pos 0 (by omega)) (ph.size_pos 0 (by omega)) one_pos (hd.left hg)]
      have : (AL * t 0 - CL) * 1 / (d.size.v 0 / (2 * d.k.v 0) * AL + BL) = bl d AL BL AL * t 0 - bl d AL BL CL := by
        unfold bl; ring
      rw [this]
    · rw [if_neg hg, if_neg hg, if_neg hg]; simp
  have key : Balance d AL BL CL AR BR CR t ↔
      lam d (d.cells - 1) * (1 / dx d (d.cells - 1) - 1 / dx d (d.cells - 2)) * (t (d.cells - 2) - t (d.cells - 1)) = 0 := by
    unfold Balance
    constructor
    · rintro ⟨JL, JR, h1, h3, h4⟩
      rw [hJL] at h1
      rw [hJR, hbr] at h3
      rw [h4, h1, h3] at hS
      linarith
    · intro h0
      refine ⟨_, _, (hJL _).2 rfl, (hJR _).2 rfl, ?_⟩
      rw [hbr]
      linarith
  rw [key]
  constructor
  · intro h0
    rcases mul_eq_zero.1 h0 with h0 | h0
    · rcases mul_eq_zero.1 h0 with h0 | h0
      · exact absurd h0 (ne_of_gt hl)
      · right
        have : 1 / dx d (d.cells - 1) = 1 / dx d (d.cells - 2) := by linarith
        rw [one_div, one_div] at this
        exact (inv_injective this).symm
    · left; linarith
  · rintro (h0 | h0)
    · rw [h0]; ring
    · rw [h0]; ring

example : Physical exHeat ∧ Boundaries exHeat.bc 1 0 300 5 1 1000 ∧ Determined exHeat 1 0 5 1 :=
  ⟨exHeat_physical, exHeat_boundaries, exHeat_determined⟩

/-- Example: two cells, the right one twice as large, both faces at temperature zero, heat produced in the left cell. -/
def exTwo : Data where
  cells := 2
  geom := .slab
  radii := ⟨3, fun i => i * (i + 1) / 2⟩
  size := ⟨2, fun i => 1 + i⟩
  vol := ⟨2, fun i => 1 + i⟩
  surf := ⟨3, fun _ => 1⟩
  k := ⟨2, fun _ => 1⟩
  q := ⟨2, fun i => if i = 0 then 9 / 2 else 0⟩
  bc := Vec.ofList [1, 0, 0, 1, 0, 0]

theorem exTwo_physical : Physical exTwo where
  two := by decide
  radii_n := rfl
  size_n := rfl
  vol_n := rfl
  surf_n := rfl
  k_n := rfl
  q_n := rfl
  size_eq i _ := by
    show (1 + i : ℝ) = ((i + 1 : ℕ) : ℝ) * (((i + 1 : ℕ) : ℝ) + 1) / 2 - i * (i + 1) / 2
    push_cast; ring
  size_pos i _ := by show (0 : ℝ) < 1 + i; positivity
  surf_pos _ _ := one_pos
  slab _ := rfl
  k_pos _ _ := one_pos
  vol_pos i _ := by show (0 : ℝ) < 1 + i; positivity

/-- **C24 is false for unequal cells.** In `exTwo` 4.5 W are produced, but the solution lets 5 W out. -/
theorem C24_unequal_cells_false : ∃ d T rhs t, Physical d ∧ Boundaries d.bc 1 0 0 1 0 0 ∧ Determined d 1 0 1 0 ∧
    system d = ok (T, rhs) ∧ Solves T rhs d.cells t ∧ ¬ Balance d 1 0 0 1 0 0 t ∧
    ∑ i ∈ range d.cells, d.q.v i * d.vol.v i = 9 / 2 ∧
    ∃ JL JR, OutFlow 1 0 0 (d.k.v 0) (d.size.v 0) 1 (t 0) JL ∧ OutFlow 1 0 0 (d.k.v 1) (d.size.v 1) 1 (t 1) JR ∧
      JL + JR = 5 := by
  have hb : Boundaries exTwo.bc 1 0 0 1 0 0 := Or.inr rfl
  have hd : Determined exTwo 1 0 1 0 := ⟨fun _ => by norm_num [exTwo], by norm_num [exTwo]⟩
  obtain ⟨T, rhs, h, hr, hc, hn, hT, hv⟩ := system_ok exTwo_physical hb hd
  obtain ⟨T', rhs', h', -, -, -, hbal⟩ := C24_balance_partial exTwo_physical hb hd
  rw [h] at h'
  cases h'
  have hs : Solves T rhs exTwo.cells (fun i => 2 - i) := by
    intro i hi
    have hi' : i < 2 := hi
    rw [system_row hT _ hi, hv i hi]
    interval_cases i <;> norm_num [exTwo, gl, gr, lam, dx, bl, br]
  refine ⟨exTwo, T, rhs, fun i => 2 - i, exTwo_physical, hb, hd, h, hs, ?_, ?_, 4, 1, ⟨0, ?_, ?_⟩, ⟨0, ?_, ?_⟩, by norm_num⟩
  · rw [hbal _ hs]
    norm_num [exTwo]
  · norm_num [exTwo, sum_range_succ]
  all_goals norm_num [exTwo]

/-- **C24, cell by cell (partial).** The temperatures that solve the system are, on every mesh, those of `Conducted`: the heat balance of every cell with
the laws for the heat through its faces the program uses. Where the errors of these laws do no harm, this is steady heat conduction. Missing:
steady heat conduction in general, which is false, see `C26_weights_false`, `C26_last_false`, `C24_unequal_cells_false`. -/
theorem C24_cells_partial {d : Data} (ph : Physical d) {AL BL CL AR BR CR : ℝ} (hb : Boundaries d.bc AL BL CL AR BR CR)
    (hd : Determined d AL BL AR BR) :
    ∃ T rhs, system d = ok (T, rhs) ∧ ∀ t : Nat → ℝ,
      (Solves T rhs d.cells t ↔ Conducted d.geom d.cells d.size.v d.k.v d.surf.v (fun i => d.q.v i * d.vol.v i) AL BL CL AR BR CR t) ∧
      (Harmless d.cells d.size.v d.k.v →
        (Solves T rhs d.cells t ↔ Steady d.geom d.cells d.size.v d.k.v d.surf.v (fun i => d.q.v i * d.vol.v i) AL BL CL AR BR CR t)) := by
  obtain ⟨T, rhs, hs, hr, hc, hn, hT, hv⟩ := system_ok ph hb hd
  have h2 := ph.two
  have key : ∀ t, Solves T rhs d.cells t ↔
      Conducted d.geom d.cells d.size.v d.k.v d.surf.v (fun i => d.q.v i * d.vol.v i) AL BL CL AR BR CR t := fun t => by
    rw [conducted_iff ph hd]
    refine forall₂_congr (fun i hi => ?_)
    rw [system_row hT t hi, hv i hi]
  exact ⟨T, rhs, hs, fun t => ⟨key t, fun hm => (key t).trans (conducted_steady h2 hm t)⟩⟩

example : Physical exHeat ∧ Boundaries exHeat.bc 1 0 300 5 1 1000 ∧ Determined exHeat 1 0 5 1 :=
  ⟨exHeat_physical, exHeat_boundaries, exHeat_determined⟩

/-- harmless though the cells are unequal -/
example : Harmless 4 (fun i => if i = 0 then 3 else 1) (fun i => if i ≤ 1 then 2 else 5) where
  inner i h1 h2 := by
    have : i = 1 ∨ i = 2 := by omega
    rcases this with rfl | rfl <;> norm_num
  last := by norm_num
  third _ := by norm_num

/-- **C24, one cell.** With a single cell the assembly reads past the end of the conductivities. -/
theorem C24_one_cell {d : Data} (hc : d.cells = 1) (hk : d.k.n = 1) (hs : 1 ≤ d.surf.n) : setup d = ub := by
  rw [setup, interLambda, Vec.get_ok (by omega), ok_bind, Vec.get_ok (by omega), ok_bind, Vec.set_ok (by omega), ok_bind, hc]
  simp only [Nat.reduceSub, loopFrom, loop_zero, ok_bind]
  rw [predIdx_ok (by omega), ok_bind, Vec.get_ok (by simp only; omega), ok_bind, Vec.get_ok (by omega), ok_bind,
    Vec.set_ok (by simp only; omega), ok_bind, interSizes, hc]
  simp only [Nat.reduceSub, loopFrom, loop_zero, ok_bind]
  rw [loop_succ, loop_zero, ok_bind, setupRow, if_pos rfl, Vec.get_ub (by simp only; omega)]
  rfl

example : ∃ d : Data, d.cells = 1 ∧ d.k.n = 1 ∧ 1 ≤ d.surf.n :=
  ⟨⟨1, .slab, ⟨2, fun i => i⟩, ⟨1, fun _ => 1⟩, ⟨1, fun _ => 1⟩, ⟨2, fun _ => 1⟩, ⟨1, fun _ => 1⟩, ⟨1, fun _ => 1⟩,
    ⟨0, fun _ => 0⟩⟩, rfl, rfl, by decide⟩

/-- **C25.** Without sources, and with boundary conditions satisfied by the uniform temperature `T0` (in particular when `T0` is
prescribed), the uniform field solves the system, on every mesh; if moreover the boundary numbers are physical it is
the only solution. -/
theorem C25_uniform {d : Data} (ph : Physical d) {AL BL CL AR BR CR T0 : ℝ} (hb : Boundaries d.bc AL BL CL AR BR CR)
    (hd : Determined d AL BL AR BR) (hq : ∀ i < d.cells, d.q.v i = 0) (hL : d.geom = .slab → AL * T0 = CL)
    (hR : AR * T0 = CR) :
    ∃ T rhs, system d = ok (T, rhs) ∧ Solves T rhs d.cells (fun _ => T0) ∧
      (Admissible d AL BL AR BR → ∀ t, Solves T rhs d.cells t → ∀ i < d.cells, t i = T0) := by
  obtain ⟨T, rhs, h, hr, hc, hn, hT, hv⟩ := system_ok ph hb hd
  have hs : Solves T rhs d.cells (fun _ => T0) := by
    intro i hi
    rw [system_const hT T0 hi, hv i hi, hq i hi, zero_mul, zero_add]
    congr 1
    · by_cases hc : i = 0 ∧ d.geom = .slab
      · rw [if_pos hc, if_pos hc, bl, bl, ← hL hc.2]; ring
      · rw [if_neg hc, if_neg hc]
    · by_cases hc : i = d.cells - 1
      · rw [if_pos hc, if_pos hc, br, br, ← hR]; ring
      · rw [if_neg hc, if_neg hc]
  refine ⟨T, rhs, h, hs, fun ha t ht i hi => ?_⟩
  have h1 := system_min ph ha hT (x := fun i => t i - T0) (fun i hi => by
    simp only [mul_sub, sum_sub_distrib, ht i hi]; rw [hs i hi, sub_self]) i hi
  have h2 := system_min ph ha hT (x := fun i => T0 - t i) (fun i hi => by
    simp only [mul_sub, sum_sub_distrib, ht i hi]; rw [hs i hi, sub_self]) i hi
  linarith

example : ∃ d : Data, Physical d ∧ Boundaries d.bc 1 0 300 5 1 1500 ∧ Determined d 1 0 5 1 ∧ Admissible d 1 0 5 1 ∧
    (∀ i < d.cells, d.q.v i = 0) ∧ (1 : ℝ) * 300 = 300 ∧ (5 : ℝ) * 300 = 1500 :=
  ⟨{ exHeat with q := ⟨3, fun _ => 0⟩, bc := Vec.ofList [1, 0, 300, 5, 1, 1500] },
    ⟨exHeat_physical.two, rfl, rfl, rfl, rfl, rfl, rfl, exHeat_physical.size_eq, exHeat_physical.size_pos,
      exHeat_physical.surf_pos, exHeat_physical.slab, exHeat_physical.k_pos, exHeat_physical.vol_pos⟩, Or.inr rfl,
    ⟨fun _ => by norm_num [exHeat], by norm_num [exHeat]⟩,
    ⟨by norm_num, by norm_num, by norm_num, by norm_num, fun _ => by norm_num, by norm_num, Or.inl (by norm_num)⟩,
    fun _ _ => rfl, by norm_num, by norm_num⟩

/-- **C26 (partial).** The conductivity used at every inner interface lies between the conductivities of the two cells (so it is
their common value when they agree). At the interfaces before the last one it is the series mean if the two cells are equally
large. Missing: the series mean for unequal cells and at the last interface, which is false, see below. -/
theorem C26_between_partial {d : Data} (ph : Physical d) :
    ∃ L, interLambda d = ok L ∧ L.n = d.cells ∧ ∀ i, 1 ≤ i → i < d.cells →
      ∃ l, L.v i = l * d.surf.v i ∧ min (d.k.v (i - 1)) (d.k.v i) ≤ l ∧ l ≤ max (d.k.v (i - 1)) (d.k.v i) ∧
        (i + 1 < d.cells → d.size.v (i - 1) = d.size.v i →
          InSeries (d.size.v (i - 1)) (d.size.v i) (d.k.v (i - 1)) (d.k.v i) l) := by
  obtain ⟨L, h, hn, hv⟩ := interLambda_ok ph
  refine ⟨L, h, hn, fun i h1 hi => ?_⟩
  have p1 := ph.size_pos i hi
  have p2 := ph.size_pos (i - 1) (by omega)
  have p3 := ph.k_pos i hi
  have p4 := ph.k_pos (i - 1) (by omega)
  by_cases hl : i + 1 < d.cells
  · refine ⟨kInter d i, by rw [hv i hi, lam, if_pos ⟨h1, hl⟩], ?_, ?_, fun _ he => ?_⟩
    · have hpos := kInter_pos ph h1 hi
      have hf0 : 0 ≤ d.size.v (i - 1) / (d.size.v i + d.size.v (i - 1)) := by positivity
      have hf1 : d.size.v (i - 1) / (d.size.v i + d.size.v (i - 1)) ≤ 1 := by
        rw [div_le_one (by positivity)]; linarith
      unfold kInter
      set f := d.size.v (i - 1) / (d.size.v i + d.size.v (i - 1))
      have hm : 0 < min (d.k.v (i - 1)) (d.k.v i) := lt_min p4 p3
      have b1 : (1 - f) / d.k.v (i - 1) ≤ (1 - f) / min (d.k.v (i - 1)) (d.k.v i) :=
        div_le_div_of_nonneg_left (by linarith) hm (min_le_left _ _)
      have b2 : f / d.k.v i ≤ f / min (d.k.v (i - 1)) (d.k.v i) := div_le_div_of_nonneg_left hf0 hm (min_le_right _ _)
      have b3 : (1 - f) / min (d.k.v (i - 1)) (d.k.v i) + f / min (d.k.v (i - 1)) (d.k.v i) =
          1 / min (d.k.v (i - 1)) (d.k.v i) := by rw [← add_div]; ring_nf
      have b0 : 0 < (1 - f) / d.k.v (i - 1) + f / d.k.v i := by
        by_contra hcon
        have := kInter_pos ph h1 hi
        rw [kInter] at this
        exact absurd (one_div_nonpos.2 (not_lt.1 hcon)) (not_le.2 this)
      rw [le_one_div hm b0]
      linarith
    · have hf0 : 0 ≤ d.size.v (i - 1) / (d.size.v i + d.size.v (i - 1)) := by positivity
      have hf1 : d.size.v (i - 1) / (d.size.v i + d.size.v (i - 1)) ≤ 1 := by
        rw [div_le_one (by positivity)]; linarith
      have hpos := kInter_pos ph h1 hi
      unfold kInter at hpos ⊢
      set f := d.size.v (i - 1) / (d.size.v i + d.size.v (i - 1))
      have hM : 0 < max (d.k.v (i - 1)) (d.k.v i) := lt_max_of_lt_left p4
      have b1 : (1 - f) / max (d.k.v (i - 1)) (d.k.v i) ≤ (1 - f) / d.k.v (i - 1) :=
        div_le_div_of_nonneg_left (by linarith) p4 (le_max_left _ _)
      have b2 : f / max (d.k.v (i - 1)) (d.k.v i) ≤ f / d.k.v i := div_le_div_of_nonneg_left hf0 p3 (le_max_right _ _)
      have b3 : (1 - f) / max (d.k.v (i - 1)) (d.k.v i) + f / max (d.k.v (i - 1)) (d.k.v i) =
          1 / max (d.k.v (i - 1)) (d.k.v i) := by rw [← add_div]; ring_nf
      rw [one_div_le (one_div_pos.1 hpos) hM]
      linarith
    · unfold InSeries kInter
      rw [he]
      field_simp
      ring
  · refine ⟨d.k.v i, by rw [hv i hi, lam, if_neg (by omega)], min_le_right _ _, le_max_right _ _, fun h => absurd h hl⟩

example : Physical exHeat := exHeat_physical

/-- **C26 is false for unequal cells.** The weights of the two half cells are exchanged. -/
theorem C26_weights_false : ∃ d L i, Physical d ∧ interLambda d = ok L ∧ 1 ≤ i ∧ i + 1 < d.cells ∧
    ¬ InSeries (d.size.v (i - 1)) (d.size.v i) (d.k.v (i - 1)) (d.k.v i) (L.v i / d.surf.v i) := by
  obtain ⟨L, h, hn, hv⟩ := interLambda_ok exHeat_physical
  refine ⟨exHeat, L, 1, exHeat_physical, h, le_rfl, by decide, ?_⟩
  rw [hv 1 (by decide)]
  norm_num [InSeries, lam, kInter, exHeat]

/-- **C26 is false at the last interface**, even if all cells are equally large: it uses the conductivity of the last cell only. -/
theorem C26_last_false : ∃ d L i, Physical d ∧ (∀ j < d.cells, d.size.v j = 1) ∧ interLambda d = ok L ∧ 1 ≤ i ∧
    i + 1 = d.cells ∧ ¬ InSeries (d.size.v (i - 1)) (d.size.v i) (d.k.v (i - 1)) (d.k.v i) (L.v i / d.surf.v i) := by
  let d : Data := { exHeat with radii := ⟨4, fun i => i⟩, size := ⟨3, fun _ => 1⟩, vol := ⟨3, fun _ => 1⟩ }
  have ph : Physical d :=
    ⟨exHeat_physical.two, rfl, rfl, rfl, rfl, rfl, rfl, fun i _ => by
      show (1 : ℝ) = ((i + 1 : ℕ) : ℝ) - i
      push_cast; ring, fun _ _ => one_pos,
      exHeat_physical.surf_pos, exHeat_physical.slab, exHeat_physical.k_pos, fun _ _ => one_pos⟩
  obtain ⟨L, h, hn, hv⟩ := interLambda_ok ph
  refine ⟨d, L, 2, ph, fun _ _ => rfl, h, by decide, rfl, ?_⟩
  rw [hv 2 (by decide)]
  norm_num [InSeries, lam, d, exHeat]

/-- **C27 (partial).** If all fields are made of finite numbers, the iteration accepts the first field whose entries all differ
by less than the accuracy from the previous field (a field of ones before the first pass), within the iteration limit, and
the program terminates if there is none. Missing: fields with values that are not numbers, for which it is false, see
`C27_nan_false`. -/
theorem C27_converged_partial {field : Nat → Vec Fl → Vec Fl} {cells maxIter : Nat} {acc : ℝ} (h0 : 0 < cells)
    (hn : ∀ i x, (field i x).n = cells)
    (hfin : ∀ i, AllFin (fields field (Vec.const cells (.fin 1)) i)) :
    (∀ x j, heatSolve field cells acc maxIter = ok (x, j) ↔ j < maxIter ∧
      x = fields field (Vec.const cells (.fin 1)) (j + 1) ∧
      Agree x (fields field (Vec.const cells (.fin 1)) j) acc ∧
      ∀ k < j, ¬ Agree (fields field (Vec.const cells (.fin 1)) (k + 1)) (fields field (Vec.const cells (.fin 1)) k) acc) ∧
    (heatSolve field cells acc maxIter = exit ↔ ∀ k < maxIter,
      ¬ Agree (fields field (Vec.const cells (.fin 1)) (k + 1)) (fields field (Vec.const cells (.fin 1)) k) acc) := by
  set F := fields field (Vec.const cells (.fin 1)) with hF
  have hsize : ∀ i, (F i).n = cells := by
    intro i
    cases i with
    | zero => rfl
    | succ i => exact hn _ _
  have hacc : ∀ k, ∃ m, maxDiff (F (k + 1)) (F k) = ok m ∧ (m.lt (.fin acc) ↔ Agree (F (k + 1)) (F k) acc) := fun k =>
    accept_iff (by rw [hsize]; exact h0) (by rw [hsize, hsize]) (hfin _) (hfin _)
  have sound : ∀ x j, heatSolve field cells acc maxIter = ok (x, j) → j < maxIter ∧ x = F (j + 1) ∧ Agree x (F j) acc ∧
      ∀ k < j, ¬ Agree (F (k + 1)) (F k) acc := by
    intro x j h
    obtain ⟨-, h2, h3, ⟨m, hm, hc⟩, h5⟩ := heatLoop_ok (init := Vec.const cells (.fin 1)) maxIter 0 h
    refine ⟨by omega, h3, ?_, fun k hk => ?_⟩
    · obtain ⟨m', hm', hiff⟩ := hacc j
      rw [← hF, hm'] at hm
      cases hm
      rw [h3]
      exact hiff.1 hc
    · obtain ⟨m', hm', hiff⟩ := hacc k
      obtain ⟨m, hm, hc⟩ := h5 k (by omega) hk
      rw [← hF, hm'] at hm
      cases hm
      exact fun h => hc (hiff.2 h)
  have noexit : (∀ k < maxIter, ¬ Agree (F (k + 1)) (F k) acc) → heatSolve field cells acc maxIter = exit := by
    intro h
    refine heatLoop_exit (init := Vec.const cells (.fin 1)) maxIter 0 (fun k _ hk => ?_)
    obtain ⟨m', hm', hiff⟩ := hacc k
    exact ⟨m', hm', fun hc => h k (by omega) (hiff.1 hc)⟩
  have total := heatLoop_stops (field := field) (init := Vec.const cells (.fin 1)) (acc := acc) maxIter 0
    (fun k => ⟨_, (hacc k).choose_spec.1⟩)
  change heatSolve field cells acc maxIter = exit ∨ ∃ x j, heatSolve field cells acc maxIter = ok (x, j) at total
  have hmiss : ∀ k, Agree (F (k + 1)) (F k) acc → ∀ fuel i, i ≤ k → k < i + fuel →
      heatLoop field acc fuel i (F i) ≠ exit := by
    intro k hA fuel
    induction fuel with
    | zero => intro i _ _; omega
    | succ fuel ih =>
      intro i hi1 hi2 he
      obtain ⟨m', hm', hiff⟩ := hacc i
      rw [heatLoop] at he
      change (maxDiff (F (i + 1)) (F i) >>= _) = _ at he
      rw [hm', ok_bind] at he
      by_cases hc : m'.lt (.fin acc)
      · rw [if_pos hc] at he; cases he
      · rw [if_neg hc] at he
        by_cases hij : i = k
        · subst hij; exact hc (hiff.2 hA)
        · exact ih (i + 1) (by omega) (by omega) he
  refine ⟨fun x j => ⟨sound x j, ?_⟩, ⟨?_, noexit⟩⟩
  · rintro ⟨h1, rfl, h3, h4⟩
    rcases total with h | ⟨x, j', h⟩
    · exact absurd h (hmiss j h3 maxIter 0 (by omega) (by omega))
    · obtain ⟨g1, g2, g3, g4⟩ := sound x j' h
      have : j' = j := by
        rcases lt_trichotomy j' j with hlt | heq | hgt
        · exact absurd (g2 ▸ g3) (h4 j' hlt)
        · exact heq
        · exact absurd h3 (g4 j hgt)
      rw [h, g2, this]
  · intro h k hk hA
    exact hmiss k hA maxIter 0 (by omega) (by omega) h

example : ∃ field : Nat → Vec Fl → Vec Fl, (∀ i x, (field i x).n = 2) ∧
    ∀ i, AllFin (fields field (Vec.const 2 (.fin 1)) i) := by
  refine ⟨fun i _ => ⟨2, fun j => .fin (500 - 100 / (i + 1) + j)⟩, fun _ _ => rfl, fun i j _ => ?_⟩
  cases i with
  | zero => exact ⟨1, rfl⟩
  | succ i => exact ⟨_, rfl⟩

/-- **C27 is false for values that are not numbers.** Whatever the positive accuracy, a field of not-a-number temperatures is accepted
as converged in the first pass. -/
theorem C27_nan_false (acc : ℝ) (hacc : 0 < acc) (maxIter : Nat) (hmax : 0 < maxIter) :
    ∃ x, heatSolve (fun _ _ => ⟨2, fun _ => .nan⟩) 2 acc maxIter = ok (x, 0) ∧ x.n = 2 ∧ ∀ i, x.v i = .nan := by
  refine ⟨⟨2, fun _ => .nan⟩, ?_, rfl, fun _ => rfl⟩
  obtain ⟨m, rfl⟩ : ∃ m, maxIter = m + 1 := ⟨maxIter - 1, by omega⟩
  have hm : maxDiff ⟨2, fun _ => .nan⟩ (Vec.const 2 (.fin 1)) = ok (.fin 0) := by
    rw [maxDiff]
    simp [loop_succ, loop_zero, Vec.get_ok, Vec.const, Fl.sub, Fl.abs, Fl.lt]
  rw [heatSolve, heatLoop, hm, ok_bind, if_pos (show (Fl.fin 0).lt (.fin acc) from hacc)]

example : (0 : ℝ) < 1 / 1000 ∧ 0 < 100 := by norm_num

/-- **C41.** Three numbers describe the right boundary and leave the left one insulated, six numbers describe the left and then the
right boundary, and any other amount terminates the program. -/
theorem C41_boundaries (bc : Vec ℝ) :
    (∀ a b c, bc.toList = [a, b, c] →
      ∃ l r, heatBoundaries bc = ok (l, r) ∧ l.toList = [0, 1, 0] ∧ r.toList = [a, b, c]) ∧
    (∀ a b c a' b' c', bc.toList = [a, b, c, a', b', c'] →
      ∃ l r, heatBoundaries bc = ok (l, r) ∧ l.toList = [a, b, c] ∧ r.toList = [a', b', c']) ∧
    (bc.n ≠ 3 → bc.n ≠ 6 → heatBoundaries bc = exit) := by
  refine ⟨fun a b c h => ⟨_, _, heatBoundaries_ok (Or.inl ⟨h, rfl, rfl, rfl⟩), rfl, rfl⟩,
    fun a b c a' b' c' h => ⟨_, _, heatBoundaries_ok (Or.inr h), rfl, rfl⟩, fun h3 h6 => ?_⟩
  rw [heatBoundaries, if_neg h3, if_neg h6]

example : (Vec.ofList [1, 0, 300, 5, 1, 1000] : Vec ℝ).toList = [1, 0, 300, 5, 1, 1000] := rfl

/-- **C47.** With physical boundary numbers the system has exactly one solution, and it obeys the minimum and maximum principles: if
no cell absorbs heat, no temperature is below a temperature `m` that the boundary conditions do not undercut, and if no
cell produces heat, no temperature is above a temperature that the boundary conditions do not exceed. -/
theorem C47_extremum {d : Data} (ph : Physical d) {AL BL CL AR BR CR : ℝ} (hb : Boundaries d.bc AL BL CL AR BR CR)
    (ha : Admissible d AL BL AR BR) :
    ∃ T rhs, system d = ok (T, rhs) ∧ (∃ t, Solves T rhs d.cells t ∧
        ∀ t', Solves T rhs d.cells t' → ∀ i < d.cells, t' i = t i) ∧
      (∀ m t, Solves T rhs d.cells t → (∀ i < d.cells, 0 ≤ d.q.v i) → (d.geom = .slab → AL * m ≤ CL) → AR * m ≤ CR →
        ∀ i < d.cells, m ≤ t i) ∧
      (∀ m t, Solves T rhs d.cells t → (∀ i < d.cells, d.q.v i ≤ 0) → (d.geom = .slab → CL ≤ AL * m) → CR ≤ AR * m →
        ∀ i < d.cells, t i ≤ m) := by
  obtain ⟨pL, pR⟩ := ha.determined ph
  have h2 := ph.two
  have hsc : 0 < d.surf.v d.cells := by
    have := ph.surf_pos (d.cells - 1) (by omega)
    rwa [show d.cells - 1 + 1 = d.cells from by omega] at this
  obtain ⟨T, rhs, h, hr, hc, hn, hT, hv⟩ := system_ok ph hb ⟨fun hg => (pL hg).ne', pR.ne'⟩
  have hinj : ∀ x : Nat → ℝ, (∀ p, p < d.cells → ∑ q ∈ range d.cells, T.m p q * x q = 0) → ∀ q, q < d.cells → x q = 0 := by
    intro x hx q hq
    have h1 := system_min ph ha hT (x := x) (fun i hi => (hx i hi).ge) q hq
    have h2 := system_min ph ha hT (x := fun i => -x i) (fun i hi => by
      simp only [mul_neg, sum_neg_distrib, hx i hi, neg_zero, le_refl]) q hq
    linarith
  refine ⟨T, rhs, h, ?_, ?_, ?_⟩
  · obtain ⟨t, ht⟩ := solvable_of_injective hinj rhs.v
    refine ⟨t, ht, fun t' ht' i hi => ?_⟩
    have := hinj (fun i => t' i - t i) (fun p hp => by
      simp only [mul_sub, sum_sub_distrib]; rw [ht' p hp, ht p hp, sub_self]) i hi
    linarith
  · intro m t ht hq hL hR i hi
    have := system_min ph ha hT (x := fun i => t i - m) (fun i hi => by
      simp only [mul_sub, sum_sub_distrib]
      rw [ht i hi, system_const hT m hi, hv i hi]
      have e1 : 0 ≤ d.q.v i * d.vol.v i := mul_nonneg (hq i hi) (ph.vol_pos i hi).le
      have e2 : (if i = 0 ∧ d.geom = .slab then bl d AL BL AL * m else 0) ≤
          if i = 0 ∧ d.geom = .slab then bl d AL BL CL else 0 := by
        by_cases hcc : i = 0 ∧ d.geom = .slab
        · rw [if_pos hcc, if_pos hcc, bl, bl, div_mul_eq_mul_div AL _ m]
          exact div_le_div_of_nonneg_right (hL hcc.2) (pL hcc.2).le
        · rw [if_neg hcc, if_neg hcc]
      have e3 : (if i = d.cells - 1 then br d AR BR AR * m else 0) ≤ if i = d.cells - 1 then br d AR BR CR else 0 := by
        by_cases hcc : i = d.cells - 1
        · rw [if_pos hcc, if_pos hcc, br, br, div_mul_eq_mul_div _ _ m]
          refine div_le_div_of_nonneg_right ?_ pR.le
          have := mul_le_mul_of_nonneg_right hR hsc.le
          linarith
        · rw [if_neg hcc, if_neg hcc]
      linarith) i hi
    linarith
  · intro m t ht hq hL hR i hi
    have := system_min ph ha hT (x := fun i => m - t i) (fun i hi => by
      simp only [mul_sub, sum_sub_distrib]
      rw [ht i hi, system_const hT m hi, hv i hi]
      have e1 : d.q.v i * d.vol.v i ≤ 0 := mul_nonpos_of_nonpos_of_nonneg (hq i hi) (ph.vol_pos i hi).le
      have e2 : (if i = 0 ∧ d.geom = .slab then bl d AL BL CL else 0) ≤
          if i = 0 ∧ d.geom = .slab then bl d AL BL AL * m else 0 := by
        by_cases hcc : i = 0 ∧ d.geom = .slab
        · rw [if_pos hcc, if_pos hcc, bl, bl, div_mul_eq_mul_div AL _ m]
          exact div_le_div_of_nonneg_right (hL hcc.2) (pL hcc.2).le
        · rw [if_neg hcc, if_neg hcc]
      have e3 : (if i = d.cells - 1 then br d AR BR CR else 0) ≤ if i = d.cells - 1 then br d AR BR AR * m else 0 := by
        by_cases hcc : i = d.cells - 1
        · rw [if_pos hcc, if_pos hcc, br, br, div_mul_eq_mul_div _ _ m]
          refine div_le_div_of_nonneg_right ?_ pR.le
          have := mul_le_mul_of_nonneg_right hR hsc.le
          linarith
        · rw [if_neg hcc, if_neg hcc]
      linarith) i hi
    linarith

example : Physical exHeat ∧ Boundaries exHeat.bc 1 0 300 5 1 1000 ∧ Admissible exHeat 1 0 5 1 ∧
    (∀ i < exHeat.cells, 0 ≤ exHeat.q.v i) ∧ (1 : ℝ) * 200 ≤ 300 ∧ (5 : ℝ) * 200 ≤ 1000 :=
  ⟨exHeat_physical, exHeat_boundaries,
    ⟨by norm_num, by norm_num, by norm_num, by norm_num, fun _ => by norm_num, by norm_num, Or.inl (by norm_num)⟩,
    fun i _ => by show (0 : ℝ) ≤ i; positivity, by norm_num, by norm_num⟩

end

end Verif.Heat
