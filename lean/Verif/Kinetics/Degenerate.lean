import Verif.Kinetics.Lemmas

/-!
# Groups without fraction and groups with the same decay constant
-/

namespace Verif.Kinetics

open Verif Outcome Numeric Poly Finset Polynomial

noncomputable section

theorem loop_soft {σ : Type} {body : Nat → σ → Outcome σ} {n : Nat} {s : σ} (Inv : Nat → σ → Prop) (h0 : Inv 0 s)
    (hstep : ∀ i t, i < n → Inv i t → body i t = nonfinite ∨ ∃ t', body i t = ok t' ∧ Inv (i + 1) t') :
    loop body n s = nonfinite ∨ ∃ t, loop body n s = ok t ∧ Inv n t := by
  induction n with
  | zero => exact .inr ⟨s, rfl, h0⟩
  | succ n ih =>
    rcases ih (fun i t hi => hstep i t (by omega)) with h | ⟨t, h, ht⟩
    · left; rw [loop_succ, h]; rfl
    · rw [loop_succ, h]
      exact hstep n t (by omega) ht

theorem loop_nonfinite {σ : Type} {body : Nat → σ → Outcome σ} {n k : Nat} {s : σ} (Inv : Nat → σ → Prop) (h0 : Inv 0 s) (hk : k < n)
    (hstep : ∀ i t, i < n → Inv i t → body i t = nonfinite ∨ ∃ t', body i t = ok t' ∧ Inv (i + 1) t') (hbad : ∀ t, Inv k t → body k t = nonfinite) : loop body n s = nonfinite := by
  induction n with
  | zero => omega
  | succ n ih =>
    by_cases hkn : k = n
    · subst hkn
      rcases loop_soft (n := k) Inv h0 (fun i t hi => hstep i t (by omega)) with h | ⟨t, h, ht⟩
      · rw [loop_succ, h]; rfl
      · rw [loop_succ, h]; exact hbad t ht
    · rw [loop_succ, ih (by omega) (fun i t hi => hstep i t (by omega))]; rfl

theorem fdiv_soft (a b : ℝ) : fdiv a b = nonfinite ∨ ∃ x, fdiv a b = ok x := by
  unfold fdiv
  split
  · exact .inl rfl
  · exact .inr ⟨_, rfl⟩

theorem residue_body {n : Nat} {s : State} (h : Consistent n s) (r : ℝ) {j : Nat} (hj : j < n) (t : ℝ × ℝ × ℝ) : (do
    let b ← s.beta.get j
    let l ← s.lam.get j
    let cd ← s.concDev.get j
    let x1 ← fdiv b (r + l)
    let x2 ← fdiv cd (r + l)
    let x3 ← fdiv (b * l) ((r + l) ^ 2)
    ok (t.1 + x1, t.2.1 + x2, t.2.2 + x3)) = (if r + s.lam.v j = 0 then nonfinite else
      ok (t.1 + s.beta.v j / (r + s.lam.v j), t.2.1 + s.concDev.v j / (r + s.lam.v j), t.2.2 + s.beta.v j * s.lam.v j / (r + s.lam.v j) ^ 2) : Outcome (ℝ × ℝ × ℝ)) := by
  rw [Vec.get_ok (by rw [h.beta_n]; exact hj), ok_bind, Vec.get_ok (by rw [h.lam_n]; exact hj), ok_bind, Vec.get_ok (by rw [h.dev_n]; exact hj), ok_bind]
  split
  · rename_i h0
    simp only [fdiv, h0, if_true]
    rfl
  · rename_i h0
    rw [fdiv_ok h0, ok_bind, fdiv_ok h0, ok_bind, fdiv_ok (pow_ne_zero 2 h0), ok_bind]

theorem residue_soft {n : Nat} {s : State} (h : Consistent n s) (r : ℝ) : residue s r = nonfinite ∨ ∃ x, residue s r = ok x := by
  unfold residue
  rw [h.lam_n]
  rcases loop_soft (body := fun j (t : ℝ × ℝ × ℝ) => do
    let b ← s.beta.get j
    let l ← s.lam.get j
    let cd ← s.concDev.get j
    let x1 ← fdiv b (r + l)
    let x2 ← fdiv cd (r + l)
    let x3 ← fdiv (b * l) ((r + l) ^ 2)
    ok (t.1 + x1, t.2.1 + x2, t.2.2 + x3)) (n := n) (s := ((0, 0, 0) : ℝ × ℝ × ℝ)) (fun _ _ => True) trivial (fun j t hj _ => by
    rw [residue_body h r hj t]
    split
    · exact .inl rfl
    · exact .inr ⟨_, rfl, trivial⟩) with e | ⟨t, e, -⟩
  · left; rw [e]; rfl
  · rw [e, ok_bind]
    rcases fdiv_soft 1 s.alpha with e1 | ⟨x, e1⟩
    · left; rw [e1]; rfl
    · rw [e1, ok_bind]
      exact fdiv_soft _ _

theorem residue_nonfinite {n : Nat} {s : State} (h : Consistent n s) {r : ℝ} {i : Nat} (hi : i < n) (hr : r + s.lam.v i = 0) : residue s r = nonfinite := by
  unfold residue
  rw [h.lam_n, loop_nonfinite (body := fun j (t : ℝ × ℝ × ℝ) => do
    let b ← s.beta.get j
    let l ← s.lam.get j
    let cd ← s.concDev.get j
    let x1 ← fdiv b (r + l)
    let x2 ← fdiv cd (r + l)
    let x3 ← fdiv (b * l) ((r + l) ^ 2)
    ok (t.1 + x1, t.2.1 + x2, t.2.2 + x3)) (n := n) (s := ((0, 0, 0) : ℝ × ℝ × ℝ)) (fun _ _ => True) trivial hi (fun j t hj _ => by
    rw [residue_body h r hj t]
    split
    · exact .inl rfl
    · exact .inr ⟨_, rfl, trivial⟩) (fun t _ => by rw [residue_body h r hi t, if_pos hr])]
  rfl

theorem Consistent.later {n : Nat} {s : State} (h : Consistent n s) (x : ℝ) : Consistent n { s with cumTime := x } := ⟨h.lam_n, h.beta_n, h.conc_n, h.dev_n, h.dev⟩

/-- If the root finder returns the negative of a decay constant, the power is not a number. -/
theorem step_nonfinite {solver : Vec ℝ → Vec ℝ} {n : Nat} {s : State} (h : Consistent n s) {rho dt : ℝ} {p : Vec ℝ} (hp : inHourPoly { s with cumTime := s.cumTime + dt } rho = ok p) {j i : Nat}
    (hj : j < (solver p).n) (hi : i < n) (hr : (solver p).v j = -s.lam.v i) : step solver s rho dt = nonfinite := by
  have h' := h.later (s.cumTime + dt)
  have hR : loop (fun i (R : Vec ℝ) => do
      let r ← (solver p).get i
      let x ← residue { s with cumTime := s.cumTime + dt } r
      R.set i x) (solver p).n (Vec.const (solver p).n 0) = nonfinite := by
    refine loop_nonfinite (fun _ R => R.n = (solver p).n) rfl hj (fun m R hm hRn => ?_) (fun R _ => ?_)
    · rw [Vec.get_ok hm, ok_bind]
      rcases residue_soft h' ((solver p).v m) with e | ⟨x, e⟩
      · left; rw [e]; rfl
      · right
        rw [e, ok_bind, Vec.set_ok (by rw [hRn]; exact hm)]
        exact ⟨_, rfl, hRn⟩
    · rw [Vec.get_ok hj, ok_bind, residue_nonfinite h' hi (by rw [hr]; exact neg_add_cancel _)]
      rfl
  unfold step
  simp only [hp, ok_bind, hR]
  rfl

/-- A group without fraction, or two groups with the same decay constant: its negative is a root of the in-hour polynomial. -/
theorem degenerate_root {n : Nat} {lam beta : Nat → ℝ} {alpha rho : ℝ} {i : Nat} (hi : i < n) (hd : beta i = 0 ∨ ∃ j, j < n ∧ j ≠ i ∧ lam j = lam i) :
    (C (rho - ∑ i ∈ range n, beta i) * wPoly n lam - C alpha * (X * wPoly n lam) + ∑ i ∈ range n, C (lam i * beta i) * wPolyI n lam i).eval (-lam i) = 0 := by
  have hw : (wPoly n lam).eval (-lam i) = 0 := by
    unfold wPoly
    rw [eval_prod]
    exact Finset.prod_eq_zero (mem_range.2 hi) (by simp)
  have hI : ∀ m ∈ range n, (C (lam m * beta m) * wPolyI n lam m).eval (-lam i) = 0 := by
    intro m hm
    rw [eval_mul, eval_C]
    by_cases hmi : m = i
    · subst hmi
      rcases hd with hb | ⟨j, hj, hji, e⟩
      · rw [hb]; ring
      · refine mul_eq_zero_of_right _ ?_
        unfold wPolyI
        rw [eval_prod]
        exact Finset.prod_eq_zero (mem_erase.2 ⟨hji, mem_range.2 hj⟩) (by simp [e])
    · refine mul_eq_zero_of_right _ ?_
      unfold wPolyI
      rw [eval_prod]
      exact Finset.prod_eq_zero (mem_erase.2 ⟨Ne.symm hmi, mem_range.2 hi⟩) (by simp)
  rw [eval_add, eval_sub, eval_mul, eval_mul, eval_mul, hw, eval_finsetSum, Finset.sum_eq_zero hI]
  ring

theorem exact_root {solver : Vec ℝ → Vec ℝ} (hs : ExactRootFinder solver) {p : Vec ℝ} (hp : 0 < p.n) (hl : p.v (p.n - 1) ≠ 0) {x : ℝ} (hx : (den p).eval x = 0) : ∃ j, j < (solver p).n ∧ (solver p).v j = x := by
  obtain ⟨z, hz, hn, hv⟩ := hs p hp hl
  have h1 : (∑ i ∈ range p.n, C ((p.v i : ℝ) : ℂ) * X ^ i : ℂ[X]) = (den p).map (algebraMap ℝ ℂ) := by
    unfold den
    simp [Polynomial.map_sum]
  have h2 : ((den p).map (algebraMap ℝ ℂ)).eval (x : ℂ) = 0 := by
    have := Polynomial.eval_map_algebraMap (B := ℂ) (den p) ((algebraMap ℝ ℂ) x)
    rw [Complex.coe_algebraMap] at this
    rw [this]
    have h3 := Polynomial.aeval_algebraMap_apply ℂ x (den p)
    rw [Complex.coe_algebraMap] at h3
    rw [h3]
    simp [hx]
  rw [← h1, hz, eval_mul, eval_C, eval_prod, mul_eq_zero, Finset.prod_eq_zero_iff] at h2
  rcases h2 with h2 | ⟨j, hj, h2⟩
  · exact absurd (by exact_mod_cast h2) hl
  · simp only [eval_sub, eval_X, eval_C] at h2
    refine ⟨j, by rw [hn]; exact mem_range.1 hj, ?_⟩
    rw [hv j (mem_range.1 hj), ← sub_eq_zero.1 h2, Complex.ofReal_re]

theorem step_degenerate {solver : Vec ℝ → Vec ℝ} (hs : ExactRootFinder solver) {n : Nat} {s : State} (h : Consistent n s) (hα : s.alpha ≠ 0) {i : Nat} (hi : i < n)
    (hd : s.beta.v i = 0 ∨ ∃ j, j < n ∧ j ≠ i ∧ s.lam.v j = s.lam.v i) (rho dt : ℝ) : step solver s rho dt = nonfinite := by
  obtain ⟨p, hp, hpn, hpd⟩ := inHourPoly_spec { s with cumTime := s.cumTime + dt } rho n h.lam_n h.beta_n
  have hlead : p.v (n + 1) = -s.alpha := by
    rw [← den_coeff p (by omega), hpd, inHourPoly_den_eq hα, coeff_C_mul]
    obtain ⟨hm, hdeg⟩ := qPoly_monic n s.lam.v (fun i => s.lam.v i * s.beta.v i / s.alpha) ((rho - ∑ i ∈ range n, s.beta.v i) / s.alpha)
    have := hm.coeff_natDegree
    rw [hdeg] at this
    rw [this, mul_one]
  obtain ⟨j, hj, hv⟩ := exact_root hs (p := p) (by omega) (by rw [hpn, show n + 2 - 1 = n + 1 by omega, hlead]; exact neg_ne_zero.2 hα) (x := -s.lam.v i) (by rw [hpd]; exact degenerate_root hi hd)
  exact step_nonfinite h hp hj hi hv

end

end Verif.Kinetics
