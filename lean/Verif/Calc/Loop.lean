import Verif.Calc.Model
import Verif.Calc.Spec
import Mathlib.Tactic.Linarith
import Mathlib.Tactic.FieldSimp

/-! # Lemmas about the loop of a coupled calculation -/

namespace Verif.Calc

open Verif Outcome Finset

noncomputable section

open scoped Classical

variable {R M N : Type}

theorem partPass_ok {a : Part R M} {w : ℝ} {i : Nat} {r r' : R} {x : Param} :
    partPass a w i r = ok (r', x) ↔ Half a w i r r' x := by
  unfold partPass Half relaxPart
  constructor
  · intro h
    obtain ⟨⟨s, m⟩, h1, h2⟩ := bind_eq_ok.1 h
    obtain ⟨y, h3, h4⟩ := bind_eq_ok.1 h2
    obtain ⟨z, h5, h6⟩ := bind_eq_ok.1 h4
    cases h6
    refine ⟨s, m, h1, h3, fun hi => ?_, fun hi => ?_⟩
    · rw [if_neg (by simpa using hi)] at h5
      cases h5
      rfl
    · rwa [if_pos hi] at h5
  · rintro ⟨s, m, h1, h2, h3, h4⟩
    rw [h1, ok_bind, h2, ok_bind]
    by_cases hi : i = 0
    · rw [if_neg (by simpa using hi), h3 hi, ok_bind]
    · rw [if_pos hi, h4 hi, ok_bind]

theorem le_fin {x : Fl} {acc : ℝ} (h : x.le (.fin acc)) (hx : ∀ b, x ≠ .inf b) : ∃ u, x = .fin u ∧ u ≤ acc := by
  cases x with
  | nan => exact absurd h (by simp [Fl.le])
  | inf b => exact absurd rfl (hx b)
  | fin u => exact ⟨u, rfl, h⟩

theorem near_num {new old : Fl} {acc : ℝ} : (((new.sub old).div new).abs).le (.fin acc) ↔ Near acc (.num new) (.num old) := by
  unfold Near
  cases new with
  | nan => simp [Fl.sub, Fl.div, Fl.abs, Fl.le]
  | inf a =>
    cases old with
    | nan => simp [Fl.sub, Fl.div, Fl.abs, Fl.le]
    | inf b => by_cases h : a = b <;> simp [Fl.sub, Fl.div, Fl.abs, Fl.le, h]
    | fin v => simp [Fl.sub, Fl.div, Fl.abs, Fl.le]
  | fin u =>
    cases old with
    | nan => simp [Fl.sub, Fl.div, Fl.abs, Fl.le]
    | inf b => simp [Fl.sub, Fl.div, Fl.abs, Fl.le]
    | fin v =>
      by_cases h : u = 0
      · by_cases h' : v = 0
        · simp [Fl.sub, Fl.div, Fl.abs, Fl.le, h, h']
        · simp [Fl.sub, Fl.div, Fl.abs, Fl.le, h, h']
      · have : 0 < |u| := abs_pos.2 h
        have key : |(u - v) / u| ≤ acc ↔ |u - v| ≤ acc * |u| := by rw [abs_div, div_le_iff₀ this]
        simp only [Fl.sub, Fl.div, if_neg h, Fl.abs, Fl.le, Fl.fin.injEq]
        rw [key]
        exact ⟨fun h' => ⟨u, v, rfl, rfl, h, h'⟩, fun ⟨u', v', e1, e2, _, h'⟩ => by rw [e1, e2]; exact h'⟩

theorem largest_le {big : List Fl → Fl} (hb : Largest big) {l : List Fl} {m : List ℝ} (hl : l = m.map Fl.fin) (hm : m ≠ []) {acc : ℝ} :
    (big l).le (.fin acc) ↔ ∀ x ∈ m, x ≤ acc := by
  obtain ⟨y, hy, hy', e⟩ := hb m hm
  rw [hl, e]
  exact ⟨fun h x hx => (hy' x hx).trans h, fun h => h y hy⟩

/-- the difference of two parameters of the same shape -/
theorem difference_ok {big : List Fl → Fl} (hb : Largest big) {s : Shape} {x y : Param} (hx : Has s x) (hy : Has s y) {acc : ℝ} :
    ∃ d, difference big x y = ok d ∧ (d.le (.fin acc) ↔ Near acc x y) := by
  cases s with
  | num =>
    obtain ⟨u, rfl⟩ := hx
    obtain ⟨v, rfl⟩ := hy
    exact ⟨_, rfl, near_num⟩
  | field n =>
    obtain ⟨hn, u, rfl, hu, hfu⟩ := hx
    obtain ⟨-, v, rfl, hv, hfv⟩ := hy
    subst hu
    have hu' : ∀ i, ∃ z, i < u.n → u.v i = .fin z := fun i => by
      by_cases hi : i < u.n
      · obtain ⟨z, hz⟩ := hfu i hi
        exact ⟨z, fun _ => hz⟩
      · exact ⟨0, fun h => absurd h hi⟩
    have hv' : ∀ i, ∃ z, i < u.n → v.v i = .fin z := fun i => by
      by_cases hi : i < u.n
      · obtain ⟨z, hz⟩ := hfv i hi
        exact ⟨z, fun _ => hz⟩
      · exact ⟨0, fun h => absurd h hi⟩
    choose a ha using hu'
    choose b hb' using hv'
    refine ⟨_, (if_pos ⟨hv.symm, hn⟩ : difference big (.vec u) (.vec v) = _), ?_⟩
    rw [largest_le hb (m := (List.range u.n).map (fun i => |a i - b i|))]
    · unfold Near
      simp only [List.mem_map, List.mem_range, forall_exists_index, and_imp, forall_apply_eq_imp_iff₂]
      refine forall₂_congr (fun i hi => ?_)
      rw [ha i hi, hb' i hi]
      simp
    · unfold Vec.toList
      rw [List.map_map]
      refine List.map_congr_left (fun i hi => ?_)
      have hi := List.mem_range.1 hi
      dsimp only at hi ⊢
      rw [ha i hi, hb' i hi]
      rfl
    · simp only [ne_eq, List.map_eq_nil_iff, List.range_eq_nil]
      omega
  | table r c =>
    obtain ⟨hr, hc, u, rfl, hur, huc, hfu⟩ := hx
    obtain ⟨-, -, v, rfl, hvr, hvc, hfv⟩ := hy
    subst hur huc
    have hu' : ∀ i j, ∃ z, i < u.r → j < u.c → u.m i j = .fin z := fun i j => by
      by_cases hi : i < u.r
      · by_cases hj : j < u.c
        · obtain ⟨z, hz⟩ := hfu i j hi hj
          exact ⟨z, fun _ _ => hz⟩
        · exact ⟨0, fun _ h => absurd h hj⟩
      · exact ⟨0, fun h => absurd h hi⟩
    have hv' : ∀ i j, ∃ z, i < u.r → j < u.c → v.m i j = .fin z := fun i j => by
      by_cases hi : i < u.r
      · by_cases hj : j < u.c
        · obtain ⟨z, hz⟩ := hfv i j hi hj
          exact ⟨z, fun _ _ => hz⟩
        · exact ⟨0, fun _ h => absurd h hj⟩
      · exact ⟨0, fun h => absurd h hi⟩
    choose a ha using hu'
    choose b hb' using hv'
    refine ⟨_, (if_pos ⟨hvr.symm, hvc.symm, hr, hc⟩ : difference big (.mat u) (.mat v) = _), ?_⟩
    rw [largest_le hb (m := (List.range u.r).flatMap (fun i => (List.range u.c).map (fun j => |a i j - b i j|)))]
    · unfold Near
      simp only [List.mem_flatMap, List.mem_map, List.mem_range, forall_exists_index, and_imp]
      constructor
      · intro h i j hi hj
        refine ⟨_, _, ha i j hi hj, hb' i j hi hj, h _ i hi j hj rfl⟩
      · rintro h x i hi j hj rfl
        obtain ⟨p, q, hp, hq, hpq⟩ := h i j hi hj
        rw [ha i j hi hj] at hp
        rw [hb' i j hi hj] at hq
        cases hp
        cases hq
        exact hpq
    · unfold entries
      rw [List.map_flatMap]
      dsimp only
      refine List.flatMap_congr (fun i hi => ?_)
      rw [List.map_map]
      refine List.map_congr_left (fun j hj => ?_)
      have hi := List.mem_range.1 hi
      have hj := List.mem_range.1 hj
      dsimp only [Function.comp]
      rw [ha i j hi hj, hb' i j hi hj]
      rfl
    · intro h
      have : |a 0 0 - b 0 0| ∈ (List.range u.r).flatMap (fun i => (List.range u.c).map (fun j => |a i j - b i j|)) :=
        List.mem_flatMap.2 ⟨0, List.mem_range.2 hr, List.mem_map.2 ⟨0, List.mem_range.2 hc, rfl⟩⟩
      rw [h] at this
      simp at this

/-- the test at the end of a pass -/
theorem differences_ok {big : List Fl → Fl} (hb : Largest big) {sa sb : Shape} {i : Nat} {x y : Nat → Param} {x' y' : Param}
    (hx : Has sa (x i)) (hy : Has sb (y i)) (hx' : ∀ j, i = j + 1 → x' = x j ∧ Has sa (x j))
    (hy' : ∀ j, i = j + 1 → y' = y j ∧ Has sb (y j)) {acc : ℝ} :
    ∃ d, differences big i (x i) (y i) x' y' = ok d ∧ ((d.1.le (.fin acc) ∧ d.2.le (.fin acc)) ↔ Settled acc x y i) := by
  cases i with
  | zero => exact ⟨_, rfl, by simp [Fl.le, Settled]⟩
  | succ j =>
    obtain ⟨e1, h1⟩ := hx' j rfl
    obtain ⟨e2, h2⟩ := hy' j rfl
    obtain ⟨d1, f1, g1⟩ := difference_ok hb hx h1 (acc := acc)
    obtain ⟨d2, f2, g2⟩ := difference_ok hb hy h2 (acc := acc)
    refine ⟨(d1, d2), ?_, ?_⟩
    · unfold differences
      rw [if_pos (Nat.succ_ne_zero j), e1, e2, f1, ok_bind, f2, ok_bind]
    · exact and_congr g1 g2

variable {a : Part R M} {b : Part R N} {w acc : ℝ} {maxIter : Int} {big : List Fl → Fl}

/-- one pass, given by a history -/
theorem loop_step {fuel i : Nat} {r : Nat → R} {x y : Nat → Param} {x' y' : Param}
    (h : ∃ s, Half a w i (r i) s (x i) ∧ Half b w i s (r (i + 1)) (y i)) :
    coupledLoop big a b w acc maxIter (fuel + 1) i x' y' (r i) =
      differences big i (x i) (y i) x' y' >>= fun e => if e.1.le (.fin acc) ∧ e.2.le (.fin acc) then ok (r (i + 1), i)
        else coupledLoop big a b w acc maxIter fuel (i + 1) (x i) (y i) (r (i + 1)) := by
  obtain ⟨s, h1, h2⟩ := h
  conv_lhs => unfold coupledLoop
  rw [partPass_ok.2 h1, ok_bind]
  dsimp only
  rw [partPass_ok.2 h2, ok_bind]

/-- a history decides the loop until the criterion is met -/
theorem loop_run (hb : Largest big) {sa sb : Shape} {r : Nat → R} {x y : Nat → Param} {n : Nat} (h : History a b w n r x y)
    (hs : ∀ i, i < n → Has sa (x i) ∧ Has sb (y i)) (k : Nat) (hk : k ≤ n) (hno : ∀ i, i < k → ¬ Settled acc x y i) (fuel : Nat)
    (x0 y0 : Param) : ∃ x' y', (∀ j, k = j + 1 → x' = x j ∧ y' = y j) ∧
      coupledLoop big a b w acc maxIter (fuel + k) 0 x0 y0 (r 0) = coupledLoop big a b w acc maxIter fuel k x' y' (r k) := by
  induction k generalizing fuel with
  | zero => exact ⟨x0, y0, fun j hj => by omega, rfl⟩
  | succ k ih =>
    obtain ⟨x', y', hxy, e⟩ := ih (by omega) (fun i hi => hno i (by omega)) (fuel + 1)
    refine ⟨x k, y k, fun j hj => by cases hj; exact ⟨rfl, rfl⟩, ?_⟩
    rw [show fuel + (k + 1) = fuel + 1 + k from by omega, e, loop_step (h k (by omega))]
    obtain ⟨d, ed, hd⟩ := differences_ok hb (hs k (by omega)).1 (hs k (by omega)).2
      (fun j hj => ⟨(hxy j hj).1, (hs j (by omega)).1⟩) (fun j hj => ⟨(hxy j hj).2, (hs j (by omega)).2⟩) (acc := acc)
    rw [ed, ok_bind, if_neg (fun h => hno k (by omega) (hd.1 h))]

/-- a loop that returns has a history -/
theorem loop_back (hb : Largest big) {sa sb : Shape} {r0 : R}
    (hs : ∀ n r x y, r 0 = r0 → History a b w n r x y → ∀ i, i < n → Has sa (x i) ∧ Has sb (y i))
    (fuel : Nat) : ∀ (k : Nat) (r : Nat → R) (x y : Nat → Param) (x' y' : Param), r 0 = r0 → History a b w k r x y →
      (∀ j, k = j + 1 → x' = x j ∧ y' = y j) → (∀ i, i < k → ¬ Settled acc x y i) → ∀ r' j,
      coupledLoop big a b w acc maxIter fuel k x' y' (r k) = ok (r', j) →
      j < k + fuel ∧ ∃ r x y, r 0 = r0 ∧ History a b w (j + 1) r x y ∧ r (j + 1) = r' ∧ Settled acc x y j ∧
        ∀ i, i < j → ¬ Settled acc x y i := by
  induction fuel with
  | zero =>
    intro k r x y x' y' _ _ _ _ r' j h
    unfold coupledLoop notConverged at h
    split_ifs at h <;> cases h
  | succ fuel ih =>
    intro k r x y x' y' h0 hist hxy hno r' j h
    unfold coupledLoop at h
    obtain ⟨⟨s, u⟩, h1, h2⟩ := bind_eq_ok.1 h
    obtain ⟨⟨t, v⟩, h3, h4⟩ := bind_eq_ok.1 h2
    dsimp only at h3 h4
    have hist' : History a b w (k + 1) (Function.update r (k + 1) t) (Function.update x k u) (Function.update y k v) := by
      intro i hi
      rw [Function.update_of_ne (show i ≠ k + 1 from by omega)]
      by_cases hik : i = k
      · subst hik
        rw [Function.update_self, Function.update_self, Function.update_self]
        exact ⟨s, partPass_ok.1 h1, partPass_ok.1 h3⟩
      · rw [Function.update_of_ne hik, Function.update_of_ne hik, Function.update_of_ne (show i + 1 ≠ k + 1 from by omega)]
        exact hist i (by omega)
    have h0' : Function.update r (k + 1) t 0 = r0 := by rw [Function.update_of_ne (by omega), h0]
    have sh := hs _ _ _ _ h0' hist'
    have hprev : ∀ j, k = j + 1 → x' = Function.update x k u j ∧ y' = Function.update y k v j := fun j hj => by
      rw [Function.update_of_ne (by omega), Function.update_of_ne (by omega)]
      exact hxy j hj
    have hsame : ∀ i, i < k → (Settled acc (Function.update x k u) (Function.update y k v) i ↔ Settled acc x y i) := by
      intro i hi
      cases i with
      | zero => exact Iff.rfl
      | succ i =>
        simp only [Settled, Function.update_of_ne (show i + 1 ≠ k from by omega), Function.update_of_ne (show i ≠ k from by omega)]
    obtain ⟨d, ed, hd⟩ := differences_ok hb (sh k (by omega)).1 (sh k (by omega)).2
      (fun j hj => ⟨(hprev j hj).1, (sh j (by omega)).1⟩) (fun j hj => ⟨(hprev j hj).2, (sh j (by omega)).2⟩) (acc := acc)
    rw [Function.update_self, Function.update_self] at ed
    rw [ed, ok_bind] at h4
    split_ifs at h4 with hc
    · cases h4
      exact ⟨by omega, _, _, _, h0', hist', by rw [Function.update_self], hd.1 hc, fun i hi => fun hS => hno i hi ((hsame i hi).1 hS)⟩
    · obtain ⟨g1, g2⟩ := ih (k + 1) _ _ _ u v h0' hist' (fun j hj => by
          cases hj; rw [Function.update_self, Function.update_self]; exact ⟨rfl, rfl⟩)
        (fun i hi hS => by
          by_cases hik : i = k
          · subst hik; exact hc (hd.2 hS)
          · exact hno i (by omega) ((hsame i (by omega)).1 hS)) r' j (by rw [Function.update_self]; exact h4)
      exact ⟨by omega, g2⟩

end

end Verif.Calc
