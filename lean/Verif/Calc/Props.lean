import Verif.Calc.Loop
import Verif.Calc.Fields
import Verif.Mesh.Examples
import Mathlib.Tactic.NormNum
import Mathlib.Tactic.FieldSimp
import Mathlib.Tactic.Linarith

/-! # Properties of coupled calculations -/

namespace Verif.Calc

open Verif Outcome Finset

noncomputable section

open scoped Classical

variable {R M N : Type} {a : Part R M} {b : Part R N} {w acc : ℝ} {maxIter : Int} {big : List Fl → Fl} {sa sb : Shape}

/-! ### C28: a coupled calculation that finishes has converged -/

/-- **C28.** A coupled calculation ends normally in pass `j` exactly if `j` is below the limit, the passes up to `j` succeed, the main
parameters of both solvers agree with those of the pass before within the accuracy, and did not do so in an earlier pass. The result is the
reactor after pass `j`. (The main parameters are numbers, or fields and tables of finite values of a fixed size.) -/
theorem C28_returns (hbig : Largest big) {r0 : R}
    (hs : ∀ n r x y, r 0 = r0 → History a b w n r x y → ∀ i, i < n → Has sa (x i) ∧ Has sb (y i)) (r' : R) (j : Nat) :
    coupled big a b w acc maxIter r0 = ok (r', j) ↔
      (j : Int) < maxIter ∧ ∃ r x y, r 0 = r0 ∧ History a b w (j + 1) r x y ∧ r (j + 1) = r' ∧ Settled acc x y j ∧
        ∀ i, i < j → ¬ Settled acc x y i := by
  constructor
  · intro h
    obtain ⟨h1, h2⟩ := loop_back hbig hs maxIter.toNat 0 (fun _ => r0) (fun _ => .num (.fin 0)) (fun _ => .num (.fin 0)) _ _ rfl
      (fun i hi => by omega) (fun j hj => by omega) (fun i hi => by omega) r' j h
    exact ⟨by omega, h2⟩
  · rintro ⟨hj, r, x, y, rfl, hist, rfl, hset, hno⟩
    have sh := hs _ r x y rfl hist
    obtain ⟨x', y', hxy, e⟩ := loop_run hbig hist sh j (by omega) hno (maxIter.toNat - j) (.num (.fin 0)) (.num (.fin 0))
      (maxIter := maxIter)
    unfold coupled
    rw [show maxIter.toNat = maxIter.toNat - j + j from by omega, e, show maxIter.toNat - j = maxIter.toNat - j - 1 + 1 from by omega,
      loop_step (hist j (by omega))]
    obtain ⟨d, ed, hd⟩ := differences_ok hbig (sh j (by omega)).1 (sh j (by omega)).2
      (fun k hk => ⟨(hxy k hk).1, (sh k (by omega)).1⟩) (fun k hk => ⟨(hxy k hk).2, (sh k (by omega)).2⟩) (acc := acc)
    rw [ed, ok_bind, if_pos (hd.2 hset)]

/-- **C28.** With an accuracy below one at least two passes are made. -/
theorem C28_twice (hacc : acc < 1) {r0 r' : R} {j : Nat} (h : coupled big a b w acc maxIter r0 = ok (r', j)) : 1 ≤ j := by
  by_contra hj
  have hj : j = 0 := by omega
  subst hj
  unfold coupled at h
  have later : ∀ fuel k x y (r : R) r', coupledLoop big a b w acc maxIter fuel k x y r = ok (r', 0) → k = 0 := by
    intro fuel
    induction fuel with
    | zero =>
      intro k x y r r' h
      unfold coupledLoop notConverged at h
      split_ifs at h <;> cases h
    | succ fuel ih =>
      intro k x y r r' h
      unfold coupledLoop at h
      obtain ⟨p, -, h⟩ := bind_eq_ok.1 h
      obtain ⟨q, -, h⟩ := bind_eq_ok.1 h
      obtain ⟨e, -, h⟩ := bind_eq_ok.1 h
      split_ifs at h
      · cases h; rfl
      · have := ih _ _ _ _ _ h
        omega
  cases hm : maxIter.toNat with
  | zero =>
    rw [hm] at h
    unfold coupledLoop notConverged at h
    split_ifs at h <;> cases h
  | succ n =>
    rw [hm] at h
    unfold coupledLoop at h
    obtain ⟨p, -, h⟩ := bind_eq_ok.1 h
    obtain ⟨q, -, h⟩ := bind_eq_ok.1 h
    unfold differences at h
    rw [if_neg (by simp), ok_bind, if_neg (by rintro ⟨h1, -⟩; exact absurd (show (1 : ℝ) ≤ acc from h1) (not_le.2 hacc))] at h
    have := later _ _ _ _ _ _ h
    omega

/-- **C28.** If all allowed passes succeed and the criterion is never met, the program terminates with an error (for the largest `int` as
limit the counter overflows, which is undefined behaviour). -/
theorem C28_exit (hbig : Largest big) {r : Nat → R} {x y : Nat → Param} (hist : History a b w maxIter.toNat r x y)
    (hs : ∀ i, i < maxIter.toNat → Has sa (x i) ∧ Has sb (y i)) (hno : ∀ i, i < maxIter.toNat → ¬ Settled acc x y i) :
    coupled big a b w acc maxIter (r 0) = if maxIter = 2147483647 then ub else exit := by
  obtain ⟨x', y', -, e⟩ := loop_run hbig hist hs maxIter.toNat le_rfl hno 0 (.num (.fin 0)) (.num (.fin 0)) (maxIter := maxIter)
  unfold coupled
  rw [← zero_add maxIter.toNat, e]
  rfl

/-- **C28.** If the first solver ends the program in some pass before the criterion is met, so does the coupled calculation. -/
theorem C28_first (hbig : Largest big) {n : Nat} (hn : (n : Int) < maxIter) {r : Nat → R} {x y : Nat → Param} (hist : History a b w n r x y)
    (hs : ∀ i, i < n → Has sa (x i) ∧ Has sb (y i)) (hno : ∀ i, i < n → ¬ Settled acc x y i) (he : a.solve (r n) = exit) :
    coupled big a b w acc maxIter (r 0) = exit := by
  obtain ⟨x', y', -, e⟩ := loop_run hbig hist hs n le_rfl hno (maxIter.toNat - n) (.num (.fin 0)) (.num (.fin 0)) (maxIter := maxIter)
  unfold coupled
  rw [show maxIter.toNat = maxIter.toNat - n + n from by omega, e, show maxIter.toNat - n = maxIter.toNat - n - 1 + 1 from by omega]
  unfold coupledLoop partPass
  rw [he, exit_bind, exit_bind]

/-- **C28.** Likewise for the second solver. -/
theorem C28_second (hbig : Largest big) {n : Nat} (hn : (n : Int) < maxIter) {r : Nat → R} {x y : Nat → Param} (hist : History a b w n r x y)
    (hs : ∀ i, i < n → Has sa (x i) ∧ Has sb (y i)) (hno : ∀ i, i < n → ¬ Settled acc x y i) {s : R} {z : Param}
    (h1 : Half a w n (r n) s z) (he : b.solve s = exit) : coupled big a b w acc maxIter (r 0) = exit := by
  obtain ⟨x', y', -, e⟩ := loop_run hbig hist hs n le_rfl hno (maxIter.toNat - n) (.num (.fin 0)) (.num (.fin 0)) (maxIter := maxIter)
  unfold coupled
  rw [show maxIter.toNat = maxIter.toNat - n + n from by omega, e, show maxIter.toNat - n = maxIter.toNat - n - 1 + 1 from by omega]
  conv_lhs => unfold coupledLoop
  rw [partPass_ok.2 h1, ok_bind]
  dsimp only
  unfold partPass
  rw [he, exit_bind, exit_bind]

/-- A library function as assumed. -/
def exBig (l : List Fl) : Fl :=
  if h : ∃ m : ℝ, Fl.fin m ∈ l ∧ ∀ x ∈ l, ∃ u, x = Fl.fin u ∧ u ≤ m then .fin h.choose else .nan

theorem exBig_largest : Largest exBig := by
  intro l hl
  obtain ⟨m, hm, hmax⟩ : ∃ m ∈ l, ∀ x ∈ l, x ≤ m := by
    obtain ⟨m, hm, h⟩ := l.toFinset.exists_max_image id (by
      obtain ⟨x, hx⟩ := List.exists_mem_of_ne_nil l hl
      exact ⟨x, List.mem_toFinset.2 hx⟩)
    exact ⟨m, List.mem_toFinset.1 hm, fun x hx => h x (List.mem_toFinset.2 hx)⟩
  have h : ∃ m : ℝ, Fl.fin m ∈ l.map Fl.fin ∧ ∀ x ∈ l.map Fl.fin, ∃ u, x = Fl.fin u ∧ u ≤ m := by
    refine ⟨m, List.mem_map_of_mem hm, fun x hx => ?_⟩
    obtain ⟨u, hu, rfl⟩ := List.mem_map.1 hx
    exact ⟨u, rfl, hmax u hu⟩
  obtain ⟨h1, h2⟩ := h.choose_spec
  refine ⟨h.choose, ?_, fun x hx => ?_, ?_⟩
  · obtain ⟨u, hu, e⟩ := List.mem_map.1 h1
    cases e
    exact hu
  · obtain ⟨u, e, hu⟩ := h2 _ (List.mem_map_of_mem hx)
    cases e
    exact hu
  · unfold exBig
    rw [dif_pos h]

/-- A solver for the examples: the reactor is one number, halved and increased by one. -/
def exPart : Part ℝ ℝ := ⟨fun r => ok (r / 2 + 1, r), fun r => ok (.num (.fin r)), fun w s m => ok (w * s + (1 - w) * m)⟩

/-- Its results as a field of one value. -/
def exField : Part ℝ ℝ := ⟨fun r => ok (r / 2 + 1, r), fun r => ok (.vec ⟨1, fun _ => .fin r⟩), fun w s m => ok (w * s + (1 - w) * m)⟩

/-- The reactor starts at the fixed point: the second pass is the last one. -/
example : coupled exBig exPart exField 1 (1 / 1000) 10 2 = ok (2, 1) := by
  have half : ∀ i, Half exPart 1 i 2 2 (.num (.fin 2)) ∧ Half exField 1 i 2 2 (.vec ⟨1, fun _ => .fin 2⟩) := fun i =>
    ⟨⟨2, 2, by norm_num [exPart], rfl, fun _ => rfl, fun _ => by norm_num [exPart]⟩,
      ⟨2, 2, by norm_num [exField], rfl, fun _ => rfl, fun _ => by norm_num [exField]⟩⟩
  refine (C28_returns (sa := .num) (sb := .field 1) exBig_largest ?_ 2 1).2 ⟨by norm_num, fun _ => 2, fun _ => .num (.fin 2),
    fun _ => .vec ⟨1, fun _ => .fin 2⟩, rfl, fun i _ => ⟨2, half i⟩, rfl, ⟨⟨2, 2, rfl, rfl, by norm_num, by norm_num⟩,
      fun i _ => ⟨2, 2, rfl, rfl, by norm_num⟩⟩, fun i hi => ?_⟩
  · intro n r x y _ hist i hi
    obtain ⟨s, ⟨s1, m1, -, e1, -⟩, ⟨s2, m2, -, e2, -⟩⟩ := hist i hi
    have e1 : Param.num (.fin s1) = x i := by simpa [exPart] using e1
    have e2 : Param.vec ⟨1, fun _ => .fin s2⟩ = y i := by simpa [exField] using e2
    rw [← e1, ← e2]
    exact ⟨⟨_, rfl⟩, one_pos, _, rfl, rfl, fun _ _ => ⟨s2, rfl⟩⟩
  · obtain rfl : i = 0 := by omega
    simp only [Settled]
    norm_num

/-! ### C29: the measure of convergence -/

/-- **C29, the part that holds.** For main parameters that are numbers (the eigenvalues of the criticality solvers) the change is relative to
the new value, whatever its unit: the difference of `c u` and `c v` is `|u - v| / |u|`. Missing: for fields (the temperatures of the heat
solver) the change is absolute, see `C29_false` and `C29_field`. -/
theorem C29_partial {u v c : ℝ} (hu : u ≠ 0) (hc : c ≠ 0) :
    difference big (.num (.fin (c * u))) (.num (.fin (c * v))) = ok (.fin (|u - v| / |u|)) := by
  have h : c * u ≠ 0 := mul_ne_zero hc hu
  unfold difference
  simp only [Fl.sub, Fl.div, if_neg h, Fl.abs]
  rw [← mul_sub, mul_div_mul_left _ _ hc, abs_div]

example : difference exBig (.num (.fin (3 * 2))) (.num (.fin (3 * 1))) = ok (.fin (1 / 2)) := by
  rw [C29_partial (by norm_num) (by norm_num)]
  norm_num

/-- **C29.** For fields, the difference is the largest absolute change, so it scales with the unit. -/
theorem C29_field (hbig : Largest big) {n : Nat} (hn : 0 < n) (u v : Nat → ℝ) :
    ∃ D, (∃ i, i < n ∧ D = |u i - v i|) ∧ (∀ i, i < n → |u i - v i| ≤ D) ∧
      ∀ c, 0 < c → difference big (.vec ⟨n, fun i => .fin (c * u i)⟩) (.vec ⟨n, fun i => .fin (c * v i)⟩) = ok (.fin (c * D)) := by
  obtain ⟨i, hi, hmax⟩ := (range n).exists_max_image (fun i => |u i - v i|) ⟨0, mem_range.2 hn⟩
  refine ⟨|u i - v i|, ⟨i, mem_range.1 hi, rfl⟩, fun j hj => hmax j (mem_range.2 hj), fun c hc => ?_⟩
  have hl : (⟨n, fun i => ((Fl.fin (c * u i)).sub (Fl.fin (c * v i))).abs⟩ : Vec Fl).toList =
      ((List.range n).map (fun i => |c * u i - c * v i|)).map Fl.fin := by
    simp only [Vec.toList, List.map_map]
    rfl
  obtain ⟨m, hm, hle, e⟩ := hbig ((List.range n).map (fun i => |c * u i - c * v i|)) (by
    intro h
    rw [List.map_eq_nil_iff, List.range_eq_nil] at h
    omega)
  refine (if_pos ⟨rfl, hn⟩ : difference big (.vec ⟨n, fun i => .fin (c * u i)⟩) (.vec ⟨n, fun i => .fin (c * v i)⟩) = _).trans ?_
  dsimp only
  rw [hl, e]
  obtain ⟨j, hj, rfl⟩ := List.mem_map.1 hm
  have h1 := hle _ (List.mem_map_of_mem (f := fun i => |c * u i - c * v i|) (List.mem_range.2 (mem_range.1 hi)))
  have h2 := hmax j (mem_range.2 (List.mem_range.1 hj))
  beta_reduce at h1 ⊢
  rw [← mul_sub, ← mul_sub, abs_mul, abs_mul, abs_of_pos hc] at h1
  rw [← mul_sub, abs_mul, abs_of_pos hc]
  rw [le_antisymm (mul_le_mul_of_nonneg_left h2 hc.le) h1]

/-- **C29 fails.** The same field with the same relative change of one thousandth, in two units: the criterion with accuracy `1/100` is met in
one unit and missed in the other. -/
theorem C29_false (hbig : Largest big) : ∃ (n : Nat) (u v : Nat → ℝ) (c : ℝ), 0 < n ∧ 0 < c ∧ (∀ i, i < n → |u i - v i| = |u i| / 1000) ∧
    (∃ D, difference big (.vec ⟨n, fun i => .fin (u i)⟩) (.vec ⟨n, fun i => .fin (v i)⟩) = ok D ∧ D.le (.fin (1 / 100))) ∧
    ∃ D, difference big (.vec ⟨n, fun i => .fin (c * u i)⟩) (.vec ⟨n, fun i => .fin (c * v i)⟩) = ok D ∧ ¬ D.le (.fin (1 / 100)) := by
  refine ⟨1, fun _ => 1, fun _ => 999 / 1000, 100, one_pos, by norm_num, fun i _ => by norm_num, ?_⟩
  obtain ⟨D, ⟨i, hi, rfl⟩, -, h⟩ := C29_field hbig one_pos (fun _ => 1) (fun _ => 999 / 1000)
  have h1 := h 1 one_pos
  have h2 := h 100 (by norm_num)
  simp only [one_mul] at h1
  refine ⟨⟨_, h1, ?_⟩, ⟨_, h2, ?_⟩⟩
  · show |(1 : ℝ) - 999 / 1000| ≤ 1 / 100
    rw [abs_of_pos (by norm_num)]
    norm_num
  · show ¬ (100 * |(1 : ℝ) - 999 / 1000| ≤ 1 / 100)
    rw [abs_of_pos (by norm_num)]
    norm_num

/-- **C29.** A number and a field cannot be compared. -/
theorem C29_mixed (x : Fl) (y : Vec Fl) : difference big (.num x) (.vec y) = throws .badVariant ∧ difference big (.vec y) (.num x) = throws .badVariant :=
  ⟨rfl, rfl⟩

/-! ### C30: relaxation -/

/-- **C30.** The heat solver relaxed with `w` keeps `w * new + (1 - w) * old` in every cell and changes nothing else of the reactor. -/
theorem C30_temperatures {p : Plant} (hF : p.grid.mats.n = p.grid.cells) {old : Vec ℝ} (hn : old.n = p.grid.cells) (w : ℝ) :
    ∃ g', heatRelax w p old = ok { p with grid := g' } ∧ Heated p.grid (fun i => w * temp p i + (1 - w) * old.v i) g' :=
  heatRelax_ok hF hn w

/-- **C30.** The criticality solvers likewise, for the heat sources. -/
theorem C30_sources {p : Plant} (hF : p.grid.mats.n = p.grid.cells) {old : Vec ℝ} (hn : old.n = p.grid.cells) (w : ℝ) :
    ∃ g', powerRelax w p old = ok { p with grid := g' } ∧ Powered p.grid (fun i => w * heat p i + (1 - w) * old.v i) g' :=
  powerRelax_ok hF hn w

/-- **C30.** For parameters from zero to one every temperature stays between the old and the new one; one keeps the new and zero the old
ones. -/
theorem C30_between {p p' : Plant} (hF : p.grid.mats.n = p.grid.cells) {old : Vec ℝ} (hn : old.n = p.grid.cells) {w : ℝ}
    (h : heatRelax w p old = ok p') {i : Nat} (hi : i < p.grid.cells) :
    (0 ≤ w → w ≤ 1 → min (old.v i) (temp p i) ≤ temp p' i ∧ temp p' i ≤ max (old.v i) (temp p i)) ∧
    (w = 1 → temp p' i = temp p i) ∧ (w = 0 → temp p' i = old.v i) := by
  obtain ⟨g', e, hg⟩ := heatRelax_ok hF hn w
  rw [h] at e
  cases e
  have e : temp { p with grid := g' } i = w * temp p i + (1 - w) * old.v i := by
    show (g'.mats.v i).T = _
    rw [hg.mats i hi]
  rw [e]
  refine ⟨fun h0 h1 => ?_, fun hw => by rw [hw]; ring, fun hw => by rw [hw]; ring⟩
  have a1 := min_le_left (old.v i) (temp p i)
  have a2 := min_le_right (old.v i) (temp p i)
  have b1 := le_max_left (old.v i) (temp p i)
  have b2 := le_max_right (old.v i) (temp p i)
  constructor <;> nlinarith

/-- **C30.** The same for the heat sources. -/
theorem C30_between_sources {p p' : Plant} (hF : p.grid.mats.n = p.grid.cells) {old : Vec ℝ} (hn : old.n = p.grid.cells) {w : ℝ}
    (h : powerRelax w p old = ok p') {i : Nat} (hi : i < p.grid.cells) :
    (0 ≤ w → w ≤ 1 → min (old.v i) (heat p i) ≤ heat p' i ∧ heat p' i ≤ max (old.v i) (heat p i)) ∧
    (w = 1 → heat p' i = heat p i) ∧ (w = 0 → heat p' i = old.v i) := by
  obtain ⟨g', e, hg⟩ := powerRelax_ok hF hn w
  rw [h] at e
  cases e
  have e : heat { p with grid := g' } i = w * heat p i + (1 - w) * old.v i := by
    show (g'.mats.v i).q = _
    rw [hg.mats i hi]
  rw [e]
  refine ⟨fun h0 h1 => ?_, fun hw => by rw [hw]; ring, fun hw => by rw [hw]; ring⟩
  have a1 := min_le_left (old.v i) (heat p i)
  have a2 := min_le_right (old.v i) (heat p i)
  have b1 := le_max_left (old.v i) (heat p i)
  have b2 := le_max_right (old.v i) (heat p i)
  constructor <;> nlinarith

/-- A reactor for the examples. -/
def exPlant (g : Mesh.Grid) : Plant :=
  ⟨g, 1, [], [], ⟨Vec.const 0 0, Vec.const 0 0, 0, 0, Vec.const 0 0, Vec.const 0 0⟩, (0, 0, 0)⟩

example : ∃ p p' : Plant, ∃ old : Vec ℝ, p.grid.mats.n = p.grid.cells ∧ old.n = p.grid.cells ∧ heatRelax (1 / 2) p old = ok p' ∧ 0 < p.grid.cells :=
  have h := C30_temperatures (p := exPlant (Mesh.exGrid .slab)) Mesh.exGrid_furnished.mats_n (old := Vec.const _ 7) rfl (1 / 2)
  ⟨exPlant (Mesh.exGrid .slab), _, Vec.const _ 7, rfl, rfl, h.choose_spec.1, by
    show 0 < (Mesh.exGrid .slab).cells
    decide⟩

/-! ### C37: the choice of the calculation -/

variable {t : Tools} {p : Plant}

/-- **C37.** Neither one entry nor two solvers with the coupling settings: refused. -/
theorem C37_refused (l : List Settings) (h1 : l.length ≠ 1) (h3 : l.length ≠ 3) : problem t p l = exit := by
  match l, h1, h3 with
  | [], _, _ => rfl
  | [_, _], _, _ => rfl
  | _ :: _ :: _ :: _ :: _, _, _ => rfl

/-- **C37.** One solver: that solver runs once. -/
theorem C37_one (o : Settings) :
    (o.kind = .heat → problem t p [o] = do let r ← heatSolve t o p; ok r.1) ∧
    (o.kind = .diffusion → problem t p [o] = do let r ← diffusionSolve t o p; ok r.1) ∧
    (o.kind = .transport → problem t p [o] = do let r ← transportSolve t o p; ok r.1) ∧
    (o.kind = .ads → problem t p [o] = ads t o p) ∧
    (o.kind = .undefined → problem t p [o] = ub) := by
  refine ⟨fun h => ?_, fun h => ?_, fun h => ?_, fun h => ?_, fun h => ?_⟩ <;> simp only [problem, h, single, solver] <;> rfl

/-- **C37.** The kinetics calculation leaves the reactor as it is. -/
theorem C37_kinetics (o : Settings) (h : o.kind = .kinetics) {p' : Plant} (he : problem t p [o] = ok p') : p' = p := by
  simp only [problem, h, single, solver, ok_bind] at he
  obtain ⟨r, hr, e⟩ := bind_eq_ok.1 he
  obtain ⟨s, -, h2⟩ := bind_eq_ok.1 hr
  obtain ⟨s', -, h3⟩ := bind_eq_ok.1 h2
  cases h3
  cases e
  rfl

/-- **C37.** Two solvers and the coupling settings: a coupled calculation of the two, in their order, with accuracy, limit and relaxation
parameter of the coupling settings; a limit of zero or less ends the program. -/
theorem C37_two {o1 o2 o3 : Settings} (h1 : o1.kind ≠ .coupled) (h2 : o2.kind ≠ .coupled) (h3 : o3.kind = .coupled)
    {a b : Part Plant (Vec ℝ)} (ha : solver t o1 = ok a) (hb : solver t o2 = ok b) :
    problem t p [o1, o2, o3] = if 0 < o3.maxIter then do
      let r ← coupled t.big a b o3.relax o3.acc o3.maxIter p
      ok r.1 else exit := by
  have hf : coupledSettings [o1, o2, o3] = ok o3 := by
    unfold coupledSettings
    simp [h1, h2, h3]
  show double t [o1, o2, o3] o1 o2 p = _
  unfold double
  rw [hf, ok_bind, ha, hb]
  rfl

/-- **C37.** Three entries without coupling settings: refused. -/
theorem C37_missing {o1 o2 o3 : Settings} (h1 : o1.kind ≠ .coupled) (h2 : o2.kind ≠ .coupled) (h3 : o3.kind ≠ .coupled) :
    problem t p [o1, o2, o3] = exit := by
  have hf : coupledSettings [o1, o2, o3] = exit := by
    unfold coupledSettings
    simp [h1, h2, h3]
  show double t [o1, o2, o3] o1 o2 p = _
  unfold double
  rw [hf, exit_bind]

/-- Settings for the examples. -/
def exSettings (k : Kind) : Settings := ⟨k, 1 / 1000, 10, 1, Vec.const 0 0, Vec.const 0 0, 0, .forward, .fundamental⟩

example : problem t p [exSettings .heat, exSettings .kinetics, exSettings .coupled] = (do
    let r ← coupled t.big (heatPart t (exSettings .heat)) (kineticsPart t) 1 (1 / 1000) 10 p
    ok r.1) := by
  rw [C37_two (by decide) (by decide) rfl (a := heatPart t (exSettings .heat)) (b := kineticsPart t) rfl rfl, if_pos (by decide)]
  rfl

/-! ### C84: source-driven solvers in pairs -/

theorem idle_nan (big : List Fl → Fl) : difference big (.num (.fin 0)) (.num (.fin 0)) = ok .nan := by
  unfold difference
  simp [Fl.sub, Fl.div, Fl.abs]

theorem idle_loop {b : Part Plant (Vec ℝ)} {big : List Fl → Fl} {w acc : ℝ} {maxIter : Int} (fuel : Nat) :
    (∀ iter y p r, 0 < iter → coupledLoop big idlePart b w acc maxIter fuel iter (.num (.fin 0)) y p ≠ ok r) ∧
    (∀ iter y p r, 0 < iter → coupledLoop big b idlePart w acc maxIter fuel iter y (.num (.fin 0)) p ≠ ok r) := by
  induction fuel with
  | zero =>
    refine ⟨fun iter y p r _ h => ?_, fun iter y p r _ h => ?_⟩ <;>
    · unfold coupledLoop notConverged at h
      split at h <;> cases h
  | succ fuel ih =>
    refine ⟨fun iter y p r hi h => ?_, fun iter y p r hi h => ?_⟩
    · rw [coupledLoop] at h
      obtain ⟨u, hu, h⟩ := bind_eq_ok.1 h
      obtain ⟨v, hv, h⟩ := bind_eq_ok.1 h
      obtain ⟨e, he, h⟩ := bind_eq_ok.1 h
      have hu2 : u.2 = .num (.fin 0) := by
        obtain ⟨s, hs, hu⟩ := bind_eq_ok.1 hu
        obtain ⟨x, hx, hu⟩ := bind_eq_ok.1 hu
        obtain ⟨q, hq, hu⟩ := bind_eq_ok.1 hu
        cases hu
        cases hx
        rfl
      unfold differences at he
      rw [if_pos (by omega), hu2] at he
      obtain ⟨x, hx, he⟩ := bind_eq_ok.1 he
      obtain ⟨x', hx', he⟩ := bind_eq_ok.1 he
      cases he
      rw [idle_nan] at hx
      cases hx
      rw [if_neg (fun hc => hc.1), hu2] at h
      exact ih.1 _ _ _ _ (by omega) h
    · rw [coupledLoop] at h
      obtain ⟨u, hu, h⟩ := bind_eq_ok.1 h
      obtain ⟨v, hv, h⟩ := bind_eq_ok.1 h
      obtain ⟨e, he, h⟩ := bind_eq_ok.1 h
      have hv2 : v.2 = .num (.fin 0) := by
        obtain ⟨s, hs, hv⟩ := bind_eq_ok.1 hv
        obtain ⟨x, hx, hv⟩ := bind_eq_ok.1 hv
        obtain ⟨q, hq, hv⟩ := bind_eq_ok.1 hv
        cases hv
        cases hx
        rfl
      unfold differences at he
      rw [if_pos (by omega), hv2] at he
      obtain ⟨x, hx, he⟩ := bind_eq_ok.1 he
      obtain ⟨x', hx', he⟩ := bind_eq_ok.1 he
      cases he
      rw [idle_nan] at hx'
      cases hx'
      rw [if_neg (fun hc => hc.2), hv2] at h
      exact ih.2 _ _ _ _ (by omega) h

/-- **C84, the part that holds.** With an accuracy below one a pair with a source-driven solver never returns a result, whatever the other solver. Missing: accuracies
from one on, see `C84_false`. -/
theorem C84_partial {o1 o2 o3 : Settings} (h : o1.kind = .ads ∨ o2.kind = .ads) (h1 : o1.kind ≠ .coupled) (h2 : o2.kind ≠ .coupled) (h3 : o3.kind = .coupled)
    (hacc : o3.acc < 1) (p' : Plant) : problem t p [o1, o2, o3] ≠ ok p' := by
  intro he
  have hf : coupledSettings [o1, o2, o3] = ok o3 := by
    unfold coupledSettings
    simp [h1, h2, h3]
  have he : double t [o1, o2, o3] o1 o2 p = ok p' := he
  unfold double at he
  rw [hf, ok_bind] at he
  split at he
  · rename_i hpos
    obtain ⟨a, ha, he⟩ := bind_eq_ok.1 he
    obtain ⟨b, hb, he⟩ := bind_eq_ok.1 he
    obtain ⟨r, hr, -⟩ := bind_eq_ok.1 he
    unfold coupled at hr
    obtain ⟨n, hn⟩ : ∃ n, o3.maxIter.toNat = n + 1 := ⟨o3.maxIter.toNat - 1, by omega⟩
    rw [hn, coupledLoop] at hr
    obtain ⟨u, hu, hr⟩ := bind_eq_ok.1 hr
    obtain ⟨v, hv, hr⟩ := bind_eq_ok.1 hr
    obtain ⟨e, he, hr⟩ := bind_eq_ok.1 hr
    cases he
    rw [if_neg (fun hc => absurd hc.1 (not_le.2 hacc))] at hr
    rcases h with h | h
    · unfold solver at ha
      rw [h] at ha
      cases ha
      have hu2 : u.2 = .num (.fin 0) := by
        obtain ⟨s, hs, hu⟩ := bind_eq_ok.1 hu
        obtain ⟨x, hx, hu⟩ := bind_eq_ok.1 hu
        obtain ⟨q, hq, hu⟩ := bind_eq_ok.1 hu
        cases hu
        cases hx
        rfl
      rw [hu2] at hr
      exact (idle_loop n).1 _ _ _ _ (by omega) hr
    · unfold solver at hb
      rw [h] at hb
      cases hb
      have hv2 : v.2 = .num (.fin 0) := by
        obtain ⟨s, hs, hv⟩ := bind_eq_ok.1 hv
        obtain ⟨x, hx, hv⟩ := bind_eq_ok.1 hv
        obtain ⟨q, hq, hv⟩ := bind_eq_ok.1 hv
        cases hv
        cases hx
        rfl
      rw [hv2] at hr
      exact (idle_loop n).2 _ _ _ _ (by omega) hr
  · cases he

/-- **C84 is violated.** With an accuracy of one or more, the pair of a source-driven and a kinetics solver returns whatever the kinetics solver alone returns: no flux is
calculated. -/
theorem C84_false {o1 o2 o3 : Settings} (h1 : o1.kind = .ads) (h2 : o2.kind = .kinetics) (h3 : o3.kind = .coupled) (hacc : 1 ≤ o3.acc) (hpos : 0 < o3.maxIter) :
    problem t p [o1, o2, o3] = problem t p [o2] := by
  rw [C37_two (by rw [h1]; decide) (by rw [h2]; decide) h3 (a := idlePart) (b := kineticsPart t) (by simp [solver, h1]) (by simp [solver, h2]), if_pos hpos]
  obtain ⟨n, hn⟩ : ∃ n, o3.maxIter.toNat = n + 1 := ⟨o3.maxIter.toNat - 1, by omega⟩
  unfold coupled
  rw [hn, coupledLoop]
  simp only [problem, h2, single, solver, ok_bind]
  show (((partPass idlePart o3.relax 0 p) >>= _) >>= _) = _
  rw [show partPass idlePart o3.relax 0 p = ok (p, .num (.fin 0)) from rfl, ok_bind]
  rw [show partPass (kineticsPart t) o3.relax 0 p = ((kineticsPart t).solve p >>= fun s => ok (s.1, .num (.fin (-1)))) from rfl]
  show (((((kineticsPart t).solve p) >>= _) >>= _) >>= _) = _
  cases hk : (kineticsPart t).solve p with
  | ok s =>
    simp only [ok_bind, differences, ne_eq, not_true_eq_false, if_false]
    rw [if_pos ⟨hacc, hacc⟩]
    rfl
  | exit => rfl
  | throws e => rfl
  | ub => rfl
  | nonfinite => rfl

example (p' : Plant) : problem t p [exSettings .ads, exSettings .heat, exSettings .coupled] ≠ ok p' :=
  C84_partial (Or.inl rfl) (by decide) (by decide) rfl (by norm_num [exSettings]) p'

end

end Verif.Calc
