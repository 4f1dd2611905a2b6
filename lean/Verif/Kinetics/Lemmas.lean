import Verif.Kinetics.Model
import Verif.Kinetics.Ode
import Verif.Numeric.Props
import Verif.Poly.Lemmas
import Mathlib.Analysis.Complex.Polynomial.Basic

/-! Closed forms of the kinetics model. -/

namespace Verif.Kinetics

open Verif Outcome Numeric Poly Finset Polynomial

/-! ### denotation of vector operations -/

theorem den_congr {K : Type} [CommRing K] {a b : Vec K} (hn : a.n = b.n) (h : ∀ i, i < b.n → a.v i = b.v i) : den a = den b := by
  unfold den
  rw [hn]
  exact sum_congr rfl (fun i hi => by rw [h i (mem_range.1 hi)])

theorem den_push_zero {K : Type} [CommRing K] (a : Vec K) : den (a.push 0) = den a := by
  unfold den Vec.push
  simp only [sum_range_succ, Function.update_self, map_zero, zero_mul, add_zero]
  exact sum_congr rfl (fun i hi => by
    rw [Function.update_of_ne (by have := mem_range.1 hi; omega)])

theorem den_mul_scalar {a p : Vec ℝ} {m : ℝ} (hn : p.n = a.n) (h : ∀ i, i < a.n → p.v i = a.v i * m) :
    den p = C m * den a := by
  unfold den
  rw [hn, mul_sum]
  exact sum_congr rfl (fun i hi => by rw [h i (mem_range.1 hi), C_mul]; ring)

theorem den_add {a b p : Vec ℝ} (hab : a.n = b.n) (hn : p.n = a.n) (h : ∀ i, i < a.n → p.v i = a.v i + b.v i) :
    den p = den a + den b := by
  unfold den
  rw [hn, ← hab, ← sum_add_distrib]
  exact sum_congr rfl (fun i hi => by rw [h i (mem_range.1 hi), C_add]; ring)

theorem den_sub {a b p : Vec ℝ} (hab : a.n = b.n) (hn : p.n = a.n) (h : ∀ i, i < a.n → p.v i = a.v i - b.v i) :
    den p = den a - den b := by
  unfold den
  rw [hn, ← hab, ← sum_sub_distrib]
  exact sum_congr rfl (fun i hi => by rw [h i (mem_range.1 hi), C_sub]; ring)

theorem den_coeff {K : Type} [CommRing K] (p : Vec K) {k : Nat} (hk : k < p.n) : (den p).coeff k = p.v k := by
  unfold den
  rw [finsetSum_coeff]
  simp only [coeff_C_mul_X_pow]
  rw [sum_eq_single k]
  · simp
  · intro b _ hb; simp [Ne.symm hb]
  · intro h; exact absurd (mem_range.2 hk) h

theorem den_sPoly : den sPoly = X := by
  simp [den, sPoly, sum_range_succ]

/-! ### the in-hour polynomial -/

/-- The assembled coefficient list, for equally many constants and fractions. -/
theorem inHourPoly_spec (s : State) (rho : ℝ) (n : Nat) (hl : s.lam.n = n) (hb : s.beta.n = n) :
    ∃ p, inHourPoly s rho = ok p ∧ p.n = n + 2 ∧
      den p = C (rho - ∑ i ∈ range n, s.beta.v i) * wPoly n s.lam.v - C s.alpha * (X * wPoly n s.lam.v)
        + ∑ i ∈ range n, C (s.lam.v i * s.beta.v i) * wPolyI n s.lam.v i := by
  obtain ⟨w, hw, hwn, hwd⟩ := prodPoly_spec s.lam
  have hwd' : den w = wPoly n s.lam.v := by
    rw [hwd, hl]; exact prod_congr rfl (fun i _ => add_comm _ _)
  have hbt : loop (fun i t => do
      let b ← s.beta.get i
      ok (t + b)) s.beta.n (0 : ℝ) = ok (∑ i ∈ range n, s.beta.v i) := by
    rw [loop_sum (fun i => s.beta.v i) s.beta.n 0 _ (by intro i t hi; simp [Vec.get_ok hi]), zero_add, hb]
  obtain ⟨f, hf, hfn, hfv⟩ := (C11_mul (w.push 0) (rho - ∑ i ∈ range n, s.beta.v i)).2
  obtain ⟨g, hg, hgn, hgd⟩ := multiplyPoly_spec w sPoly (by simp [sPoly])
  obtain ⟨g', hg', hgn', hgv'⟩ := (C11_mul g s.alpha).2
  obtain ⟨t, ht, htn, htd⟩ := loop_inv (n := s.lam.n) (s := Vec.const s.lam.n (0 : ℝ))
    (body := fun i (third : Vec ℝ) => do
      let p ← prodPolyI s.lam i
      let l ← s.lam.get i
      let b ← s.beta.get i
      vaddAssign third (vmul (vmul p l) b))
    (fun i third => third.n = n ∧
      den third = ∑ k ∈ range i, C (s.lam.v k * s.beta.v k) * wPolyI n s.lam.v k)
    ⟨hl, by simp [den_const_zero]⟩
    (by
      rintro i u hi ⟨hun, hud⟩
      obtain ⟨p, hp, hpn, hpd⟩ := prodPolyI_spec s.lam i hi
      have hpd' : den p = wPolyI n s.lam.v i := by
        rw [hpd, hl]; exact prod_congr rfl (fun i _ => add_comm _ _)
      obtain ⟨-, -, ⟨q, hq, hqn, hqv⟩, -⟩ := C11_add_sub u (vmul (vmul p (s.lam.v i)) (s.beta.v i))
        (by simp [vmul]; omega)
      refine ⟨q, ?_, by omega, ?_⟩
      · simp only [hp, ok_bind, Vec.get_ok hi, Vec.get_ok (x := s.beta) (i := i) (by omega)]
        exact hq
      · have hm : den (vmul (vmul p (s.lam.v i)) (s.beta.v i)) = C (s.lam.v i * s.beta.v i) * wPolyI n s.lam.v i := by
          rw [← hpd']
          exact den_mul_scalar rfl (fun k _ => by simp [vmul]; ring)
        rw [den_add (by simp [vmul]; omega) hqn hqv, hud, hm, sum_range_succ])
  have hfn2 : f.n = n + 2 := by rw [hfn]; simp only [Vec.push]; omega
  have hgn2 : g'.n = n + 2 := by rw [hgn', hgn]; simp only [sPoly]; omega
  obtain ⟨-, ⟨d, hd, hdn, hdv⟩, -, -⟩ := C11_add_sub f g' (by omega)
  obtain ⟨⟨p, hp, hpn, hpv⟩, -, -, -⟩ := C11_add_sub d ((t.push 0).push 0) (by simp [Vec.push]; omega)
  refine ⟨p, ?_, by omega, ?_⟩
  · unfold inHourPoly
    simp only [hw, ok_bind, hbt, hf, hg, hg']
    rw [ht]
    simp only [ok_bind, hd, hp]
  · rw [den_add (by simp [Vec.push]; omega) hpn hpv, den_sub (by omega) hdn hdv, den_push_zero, den_push_zero, htd, hl,
      den_mul_scalar hfn hfv, den_push_zero, hwd', den_mul_scalar hgn' hgv', hgd, hwd', den_sPoly]
    ring

/-- The assembled polynomial is `-alpha` times the monic in-hour polynomial. -/
theorem inHourPoly_den_eq {n : Nat} {lam beta : Nat → ℝ} {alpha rho : ℝ} (hα : alpha ≠ 0) :
    C (rho - ∑ i ∈ range n, beta i) * wPoly n lam - C alpha * (X * wPoly n lam)
        + ∑ i ∈ range n, C (lam i * beta i) * wPolyI n lam i =
      C (-alpha) * qPoly n lam (fun i => lam i * beta i / alpha) ((rho - ∑ i ∈ range n, beta i) / alpha) := by
  unfold qPoly
  have h1 : (C (rho - ∑ i ∈ range n, beta i) : ℝ[X]) = C alpha * C ((rho - ∑ i ∈ range n, beta i) / alpha) := by
    rw [← C_mul, mul_div_cancel₀ _ hα]
  have h2 : ∑ i ∈ range n, C (lam i * beta i) * wPolyI n lam i =
      C alpha * ∑ i ∈ range n, C (lam i * beta i / alpha) * wPolyI n lam i := by
    rw [mul_sum]
    apply sum_congr rfl
    intro i _
    rw [← mul_assoc, ← C_mul, mul_div_cancel₀ _ hα]
  rw [h1, h2, C_neg]
  ring

/-! ### reality and simplicity of the roots -/

theorem qPoly_map {n : Nat} {lam c : Nat → ℝ} {a : ℝ} :
    (qPoly n lam c a).map (algebraMap ℝ ℂ) = qPoly n (fun i => (lam i : ℂ)) (fun i => (c i : ℂ)) (a : ℂ) := by
  unfold qPoly wPoly wPolyI
  simp [Polynomial.map_sum, Polynomial.map_prod]

/-- Every complex root of the in-hour polynomial with positive data is real, is no pole, and is simple. -/
theorem complex_roots {n : Nat} {lam c : Nat → ℝ} {a : ℝ} (hc : ∀ i, i < n → 0 < c i)
    (hinj : ∀ i, i < n → ∀ j, j < n → lam i = lam j → i = j) {z : ℂ}
    (hz : (qPoly n (fun i => (lam i : ℂ)) (fun i => (c i : ℂ)) (a : ℂ)).eval z = 0) :
    z.im = 0 ∧ (∀ i, i < n → z + lam i ≠ 0) ∧
      (derivative (qPoly n (fun i => (lam i : ℂ)) (fun i => (c i : ℂ)) (a : ℂ))).eval z ≠ 0 := by
  have hne : ∀ i, i < n → z + lam i ≠ 0 := by
    intro i hi h0
    have hzi : z = -(lam i : ℂ) := by linear_combination h0
    rw [hzi, eval_qPoly_pole (lam := fun i => (lam i : ℂ)) hi] at hz
    have h1 := eval_wPolyI_pole_ne_zero (n := n) (lam := fun i => (lam i : ℂ)) (i := i)
      (fun k hk h => hinj i hi k hk (by simpa using h))
    rcases mul_eq_zero.1 (neg_eq_zero.1 hz) with h2 | h2
    · have := hc i hi
      simp only [Complex.ofReal_eq_zero] at h2
      linarith
    · exact h1 h2
  have hroot : z - a - ∑ i ∈ range n, (c i : ℂ) / (z + lam i) = 0 := by
    rw [eval_qPoly (lam := fun i => (lam i : ℂ)) hne] at hz
    rcases mul_eq_zero.1 hz with h | h
    · exact absurd h (eval_wPoly_ne_zero hne)
    · exact h
  have him : z.im = 0 := by
    have h1 := congrArg Complex.im hroot
    simp only [Complex.sub_im, Complex.ofReal_im, sub_zero, Complex.im_sum, Complex.zero_im] at h1
    have h2 : ∀ i ∈ range n, ((c i : ℂ) / (z + lam i)).im = -(z.im * (c i / Complex.normSq (z + lam i))) := by
      intro i _
      rw [Complex.div_im]
      simp
      ring
    rw [sum_congr rfl h2, sum_neg_distrib, sub_neg_eq_add, ← mul_sum] at h1
    have h3 : 0 ≤ ∑ i ∈ range n, c i / Complex.normSq (z + lam i) :=
      sum_nonneg (fun i hi => div_nonneg (hc i (mem_range.1 hi)).le (Complex.normSq_nonneg _))
    have h4 : z.im * (1 + ∑ i ∈ range n, c i / Complex.normSq (z + lam i)) = 0 := by linear_combination h1
    rcases mul_eq_zero.1 h4 with h5 | h5
    · exact h5
    · linarith
  refine ⟨him, hne, ?_⟩
  rw [eval_derivative_qPoly (lam := fun i => (lam i : ℂ)) hne hroot]
  refine mul_ne_zero (eval_wPoly_ne_zero hne) ?_
  have hzr : z = (z.re : ℂ) := by
    apply Complex.ext <;> simp [him]
  rw [hzr]
  have h1 : (1 + ∑ i ∈ range n, (c i : ℂ) / ((z.re : ℂ) + lam i) ^ 2) =
      ((1 + ∑ i ∈ range n, c i / (z.re + lam i) ^ 2 : ℝ) : ℂ) := by push_cast; rfl
  rw [h1]
  have h2 : 0 ≤ ∑ i ∈ range n, c i / (z.re + lam i) ^ 2 :=
    sum_nonneg (fun i hi => div_nonneg (hc i (mem_range.1 hi)).le (sq_nonneg _))
  exact_mod_cast (by linarith : (1 + ∑ i ∈ range n, c i / (z.re + lam i) ^ 2 : ℝ) ≠ 0)

/-- For physical data any complex factorisation of the in-hour polynomial gives the distinct real roots. -/
theorem roots_of_factor {n : Nat} {lam c : Nat → ℝ} {a : ℝ} (hc : ∀ i, i < n → 0 < c i)
    (hinj : ∀ i, i < n → ∀ j, j < n → lam i = lam j → i = j) {z : Nat → ℂ}
    (hf : qPoly n (fun i => (lam i : ℂ)) (fun i => (c i : ℂ)) (a : ℂ) = ∏ j ∈ range (n + 1), (X - C (z j))) :
    (∀ j, j < n + 1 → z j = ((z j).re : ℂ)) ∧ Roots n lam c a (fun j => (z j).re) := by
  have hroot : ∀ j, j < n + 1 → (qPoly n (fun i => (lam i : ℂ)) (fun i => (c i : ℂ)) (a : ℂ)).eval (z j) = 0 := by
    intro j hj
    rw [hf, eval_prod]; exact prod_eq_zero (mem_range.2 hj) (by simp)
  have hre : ∀ j, j < n + 1 → z j = ((z j).re : ℂ) := by
    intro j hj
    apply Complex.ext <;> simp [(complex_roots hc hinj (hroot j hj)).1]
  refine ⟨hre, ⟨?_, ?_, ?_⟩⟩
  · apply Polynomial.map_injective (algebraMap ℝ ℂ) (algebraMap ℝ ℂ).injective
    rw [qPoly_map, hf, Polynomial.map_prod]
    apply prod_congr rfl
    intro j hj
    have := hre j (mem_range.1 hj)
    simp only [Polynomial.map_sub, Polynomial.map_X, Polynomial.map_C, Complex.coe_algebraMap]
    rw [← this]
  · intro i hi j hj hij
    by_contra hne
    have h1 := (complex_roots hc hinj (hroot i hi)).2.2
    apply h1
    rw [hf]
    have h2 := Lagrange.eval_nodal_derivative_eval_node_eq (s := range (n + 1)) (v := z) (mem_range.2 hi)
    rw [Lagrange.nodal_eq] at h2
    rw [h2, Lagrange.eval_nodal]
    apply prod_eq_zero (mem_erase.2 ⟨Ne.symm hne, mem_range.2 hj⟩)
    rw [hre i hi, hre j hj, hij, sub_self]
  · intro j hj i hi h0
    apply (complex_roots hc hinj (hroot j hj)).2.1 i hi
    rw [hre j hj]
    exact_mod_cast h0

/-! ### the root finder -/

theorem Roots.congr {n : Nat} {lam c r r' : Nat → ℝ} {a : ℝ} (h : Roots n lam c a r) (he : ∀ j, j < n + 1 → r' j = r j) :
    Roots n lam c a r' where
  factor := by
    rw [h.factor]; exact prod_congr rfl (fun j hj => by rw [he j (mem_range.1 hj)])
  inj i hi j hj hij := h.inj i hi j hj (by rw [← he i hi, ← he j hj, hij])
  ne j hj i hi := by rw [he j hj]; exact h.ne j hj i hi

theorem exact_roots {solver : Vec ℝ → Vec ℝ} (hs : ExactRootFinder solver) {n : Nat} {lam beta : Nat → ℝ} {alpha rho : ℝ}
    (hp : Physical n lam beta alpha) {p : Vec ℝ} (hpn : p.n = n + 2)
    (hpd : den p = C (-alpha) * qPoly n lam (fun i => lam i * beta i / alpha) ((rho - ∑ i ∈ range n, beta i) / alpha)) :
    (solver p).n = n + 1 ∧
      Roots n lam (fun i => lam i * beta i / alpha) ((rho - ∑ i ∈ range n, beta i) / alpha) (solver p).v := by
  have hα := hp.alpha_pos
  have hlead : p.v (n + 1) = -alpha := by
    rw [← den_coeff p (by omega), hpd, coeff_C_mul]
    obtain ⟨hm, hdeg⟩ := qPoly_monic n lam (fun i => lam i * beta i / alpha) ((rho - ∑ i ∈ range n, beta i) / alpha)
    have := hm.coeff_natDegree
    rw [hdeg] at this
    rw [this, mul_one]
  obtain ⟨z, hz, hn, hv⟩ := hs p (by omega) (by
    rw [hpn, show n + 2 - 1 = n + 1 by omega, hlead]; linarith)
  rw [hpn, show n + 2 - 1 = n + 1 by omega] at hn hv
  refine ⟨hn, ?_⟩
  have hmap : (∑ i ∈ range p.n, C ((p.v i : ℝ) : ℂ) * X ^ i : ℂ[X]) = (den p).map (algebraMap ℝ ℂ) := by
    unfold den
    simp [Polynomial.map_sum]
  rw [hmap, hpd, Polynomial.map_mul, qPoly_map, hpn, show n + 2 - 1 = n + 1 by omega, hlead, Polynomial.map_C] at hz
  have hne : (C (algebraMap ℝ ℂ (-alpha)) : ℂ[X]) ≠ 0 := by
    rw [Ne, C_eq_zero]
    simp only [Complex.coe_algebraMap, Complex.ofReal_eq_zero]
    linarith
  have hz' := mul_left_cancel₀ hne hz
  have := (roots_of_factor (fun i hi => div_pos (mul_pos (hp.lam_pos i hi) (hp.beta_pos i hi)) hα) hp.lam_inj hz').2
  exact this.congr hv

/-! ### one step -/

/-- The state is consistent: all vectors have one entry per group and the stored derivatives agree with the
concentrations and the power. -/
structure Consistent (n : Nat) (s : State) : Prop where
  lam_n : s.lam.n = n
  beta_n : s.beta.n = n
  conc_n : s.conc.n = n
  dev_n : s.concDev.n = n
  dev : ∀ i, i < n → s.concDev.v i = s.beta.v i / s.alpha * s.power - s.lam.v i * s.conc.v i

theorem residue_ok {n : Nat} {s : State} (h : Consistent n s) (hα : s.alpha ≠ 0) {x : ℝ}
    (hne : ∀ i, i < n → x + s.lam.v i ≠ 0)
    (hden : 1 + ∑ i ∈ range n, s.lam.v i * s.beta.v i / s.alpha / (x + s.lam.v i) ^ 2 ≠ 0) :
    residue s x = ok (resid n s.lam.v (fun i => s.lam.v i * s.beta.v i / s.alpha)
      (fun i => s.lam.v i * s.conc.v i) s.power x) := by
  unfold residue
  have hloop : loop (fun j (t : ℝ × ℝ × ℝ) => do
      let b ← s.beta.get j
      let l ← s.lam.get j
      let cd ← s.concDev.get j
      let x1 ← fdiv b (x + l)
      let x2 ← fdiv cd (x + l)
      let x3 ← fdiv (b * l) ((x + l) ^ 2)
      ok (t.1 + x1, t.2.1 + x2, t.2.2 + x3)) s.lam.n (0, 0, 0) =
      ok (∑ j ∈ range n, s.beta.v j / (x + s.lam.v j), ∑ j ∈ range n, s.concDev.v j / (x + s.lam.v j),
        ∑ j ∈ range n, s.beta.v j * s.lam.v j / (x + s.lam.v j) ^ 2) := by
    rw [h.lam_n]
    refine loop_ok (fun k => (∑ j ∈ range k, s.beta.v j / (x + s.lam.v j), ∑ j ∈ range k, s.concDev.v j / (x + s.lam.v j),
        ∑ j ∈ range k, s.beta.v j * s.lam.v j / (x + s.lam.v j) ^ 2)) (by simp) ?_
    intro i hi
    have h1 := hne i hi
    simp only [Vec.get_ok (x := s.beta) (i := i) (by rw [h.beta_n]; exact hi),
      Vec.get_ok (x := s.lam) (i := i) (by rw [h.lam_n]; exact hi),
      Vec.get_ok (x := s.concDev) (i := i) (by rw [h.dev_n]; exact hi), ok_bind, fdiv_ok h1, fdiv_ok (pow_ne_zero 2 h1),
      sum_range_succ]
  rw [hloop]
  simp only [ok_bind, fdiv_ok hα]
  have hd : 1 + 1 / s.alpha * ∑ j ∈ range n, s.beta.v j * s.lam.v j / (x + s.lam.v j) ^ 2 =
      1 + ∑ i ∈ range n, s.lam.v i * s.beta.v i / s.alpha / (x + s.lam.v i) ^ 2 := by
    rw [mul_sum]
    congr 1
    exact sum_congr rfl (fun j _ => by ring)
  rw [hd, fdiv_ok hden]
  unfold resid
  congr 2
  have h1 : ∑ j ∈ range n, s.concDev.v j / (x + s.lam.v j) =
      s.power * (1 / s.alpha * ∑ j ∈ range n, s.beta.v j / (x + s.lam.v j)) -
        ∑ i ∈ range n, s.lam.v i * s.conc.v i / (x + s.lam.v i) := by
    simp only [mul_sum]
    rw [← sum_sub_distrib]
    apply sum_congr rfl
    intro j hj
    rw [h.dev j (mem_range.1 hj)]
    ring
  rw [h1]
  ring

/-- Closed form of one step, for given exact roots. -/
theorem step_ok {solver : Vec ℝ → Vec ℝ} {n : Nat} {s : State} (h : Consistent n s) (hα : s.alpha ≠ 0) {rho : ℝ}
    (hroots : ∀ p, inHourPoly { s with cumTime := 0 } rho = ok p → (solver p).n = n + 1 ∧
      Roots n s.lam.v (fun i => s.lam.v i * s.beta.v i / s.alpha)
        ((rho - ∑ i ∈ range n, s.beta.v i) / s.alpha) (solver p).v) :
    ∃ r R : Nat → ℝ,
      Roots n s.lam.v (fun i => s.lam.v i * s.beta.v i / s.alpha) ((rho - ∑ i ∈ range n, s.beta.v i) / s.alpha) r ∧
      (∀ j, j < n + 1 → R j = resid n s.lam.v (fun i => s.lam.v i * s.beta.v i / s.alpha)
        (fun i => s.lam.v i * s.conc.v i) s.power (r j)) ∧
      ∀ dt, ∃ s', step solver s rho dt = ok s' ∧ s'.lam = s.lam ∧ s'.beta = s.beta ∧ s'.alpha = s.alpha ∧
        s'.cumTime = s.cumTime + dt ∧ s'.power = solP n r R dt ∧
        (∀ i, i < n → s'.conc.v i = solC n s.lam.v s.beta.v r R s.alpha s.conc.v i dt) ∧ Consistent n s' := by
  obtain ⟨p, hp, hpn, -⟩ := inHourPoly_spec { s with cumTime := 0 } rho n h.lam_n h.beta_n
  obtain ⟨hrn, hR⟩ := hroots p hp
  set roots := solver p with hrdef
  refine ⟨roots.v, fun j => resid n s.lam.v (fun i => s.lam.v i * s.beta.v i / s.alpha)
        (fun i => s.lam.v i * s.conc.v i) s.power (roots.v j), hR, fun _ _ => rfl, ?_⟩
  intro dt
  set R : Nat → ℝ := fun j => resid n s.lam.v (fun i => s.lam.v i * s.beta.v i / s.alpha)
        (fun i => s.lam.v i * s.conc.v i) s.power (roots.v j) with hRdef
  unfold step
  have hp' : inHourPoly { s with cumTime := s.cumTime + dt } rho = ok p := hp
  simp only [hp', ok_bind, ← hrdef]
  -- the residues
  obtain ⟨Rv, hRv, hRvn, hRvv⟩ := loop_inv (n := roots.n) (s := Vec.const roots.n (0 : ℝ))
    (body := fun i (Rv : Vec ℝ) => do
      let r ← roots.get i
      let x ← residue { s with cumTime := s.cumTime + dt } r
      Rv.set i x)
    (fun i Rv => Rv.n = n + 1 ∧ ∀ j, j < i → Rv.v j = R j)
    ⟨hrn, by simp⟩
    (by
      rintro i u hi ⟨hun, huv⟩
      have hi' : i < n + 1 := by omega
      refine ⟨⟨u.n, Function.update u.v i (R i)⟩, ?_, hun, ?_⟩
      · have h1 : residue { s with cumTime := s.cumTime + dt } (roots.v i) = ok (R i) :=
          residue_ok (s := { s with cumTime := s.cumTime + dt }) ⟨h.lam_n, h.beta_n, h.conc_n, h.dev_n, h.dev⟩ hα
            (hR.ne i hi') (hR.denom_ne_zero hi')
        simp only [Vec.get_ok hi, ok_bind, h1, Vec.set_ok (x := u) (i := i) (by omega)]
      · intro j hj
        by_cases hji : j = i
        · subst hji; simp
        · simp only [Function.update_of_ne hji]; exact huv j (by omega))
  simp only [hRv, ok_bind]
  rw [hrn] at hRvv
  -- the power
  have hpow : loop (fun i t => do
      let Ri ← Rv.get i
      let r ← roots.get i
      ok (t + Ri * Real.exp (r * dt))) roots.n (0 : ℝ) = ok (solP n roots.v R dt) := by
    rw [hrn, loop_sum (fun j => R j * Real.exp (roots.v j * dt)) (n + 1) 0 _ (by
      intro i t hi
      simp [Vec.get_ok (x := Rv) (i := i) (by omega), Vec.get_ok (x := roots) (i := i) (by omega), hRvv i hi]), zero_add]
    rfl
  simp only [hpow, ok_bind]
  -- the concentrations
  have hsum4 : ∀ i, i < n → loop (fun j t => do
      let Rj ← Rv.get j
      let r ← roots.get j
      let x ← fdiv (Rj * (Real.exp (r * dt) - Real.exp (-s.lam.v i * dt))) (s.lam.v i + r)
      ok (t + x)) roots.n (0 : ℝ) = ok (∑ j ∈ range (n + 1),
        R j * (Real.exp (roots.v j * dt) - Real.exp (-s.lam.v i * dt)) / (s.lam.v i + roots.v j)) := by
    intro i hi
    rw [hrn, loop_sum (fun j => R j * (Real.exp (roots.v j * dt) - Real.exp (-s.lam.v i * dt)) / (s.lam.v i + roots.v j))
      (n + 1) 0 _ (by
        intro j t hj
        have hne := hR.ne j hj i hi
        rw [add_comm] at hne
        simp only [Vec.get_ok (x := Rv) (i := j) (by omega), Vec.get_ok (x := roots) (i := j) (by omega), hRvv j hj,
          ok_bind, fdiv_ok hne]), zero_add]
  obtain ⟨s', hs', h1, h2, h3, h4, h5, h6, h7, h8⟩ := loop_inv (n := s.lam.n)
    (s := { s with cumTime := s.cumTime + dt, power := solP n roots.v R dt })
    (body := fun i (s : State) => do
      let l ← s.lam.get i
      let b ← s.beta.get i
      let c ← s.conc.get i
      let sum4 ← loop (fun j t => do
        let Rj ← Rv.get j
        let r ← roots.get j
        let x ← fdiv (Rj * (Real.exp (r * dt) - Real.exp (-l * dt))) (l + r)
        ok (t + x)) roots.n 0
      let ba ← fdiv b s.alpha
      let c' := ba * sum4 + c * Real.exp (-l * dt)
      let conc ← s.conc.set i c'
      let concDev ← s.concDev.set i (ba * s.power - l * c')
      ok { s with conc := conc, concDev := concDev })
    (fun i s' => s'.lam = s.lam ∧ s'.beta = s.beta ∧ s'.alpha = s.alpha ∧ s'.cumTime = s.cumTime + dt ∧
      s'.power = solP n roots.v R dt ∧ s'.conc.n = n ∧ s'.concDev.n = n ∧
      (∀ j, j < n → s'.conc.v j = if j < i then solC n s.lam.v s.beta.v roots.v R s.alpha s.conc.v j dt else s.conc.v j) ∧
      (∀ j, j < i → s'.concDev.v j = s.beta.v j / s.alpha * s'.power - s.lam.v j * s'.conc.v j))
    ⟨rfl, rfl, rfl, rfl, rfl, h.conc_n, h.dev_n, by simp, by simp⟩
    (by
      rintro i u hi ⟨e1, e2, e3, e4, e5, e6, e7, e8, e9⟩
      rw [h.lam_n] at hi
      have hc : u.conc.v i = s.conc.v i := by rw [e8 i hi, if_neg (by omega)]
      set c' := solC n s.lam.v s.beta.v roots.v R s.alpha s.conc.v i dt with hc'
      refine ⟨{ u with
          conc := ⟨u.conc.n, Function.update u.conc.v i c'⟩,
          concDev := ⟨u.concDev.n, Function.update u.concDev.v i (s.beta.v i / s.alpha * u.power - s.lam.v i * c')⟩ },
        ?_, e1, e2, e3, e4, e5, e6, e7, ?_, ?_⟩
      · simp only [e1, e2, e3, Vec.get_ok (x := s.lam) (i := i) (by rw [h.lam_n]; exact hi),
          Vec.get_ok (x := s.beta) (i := i) (by rw [h.beta_n]; exact hi), Vec.get_ok (x := u.conc) (i := i) (by omega),
          ok_bind, hsum4 i hi, fdiv_ok hα, Vec.set_ok (x := u.conc) (i := i) (by omega),
          Vec.set_ok (x := u.concDev) (i := i) (by omega), hc]
        rfl
      · intro j hj
        by_cases hji : j = i
        · subst hji
          simp only [Function.update_self]
          rw [if_pos (by omega)]
        · simp only [Function.update_of_ne hji]
          rw [e8 j hj]
          by_cases hlt : j < i
          · rw [if_pos hlt, if_pos (by omega)]
          · rw [if_neg hlt, if_neg (by omega)]
      · intro j hj
        by_cases hji : j = i
        · subst hji
          simp only [Function.update_self]
        · simp only [Function.update_of_ne hji]
          exact e9 j (by omega))
  obtain ⟨h8, h9⟩ := h8
  refine ⟨s', hs', h1, h2, h3, h4, h5, ?_, ?_⟩
  · intro i hi
    rw [h8 i hi, if_pos (by rw [h.lam_n]; exact hi)]
  · refine ⟨by rw [h1]; exact h.lam_n, by rw [h2]; exact h.beta_n, h6, h7, ?_⟩
    intro i hi
    rw [h1, h2, h3]
    exact h9 i (by rw [h.lam_n]; exact hi)

/-- One step for physical data and an exact root finder: it follows the solution of the equations. -/
theorem step_solution {solver : Vec ℝ → Vec ℝ} (hs : ExactRootFinder solver) {n : Nat} {s : State} (h : Consistent n s)
    (hp : Physical n s.lam.v s.beta.v s.alpha) (rho : ℝ) :
    ∃ (P : ℝ → ℝ) (Cc : Nat → ℝ → ℝ), PointKinetics n s.lam.v s.beta.v s.alpha rho P Cc ∧
      P 0 = s.power ∧ (∀ i, i < n → Cc i 0 = s.conc.v i) ∧
      ∀ dt, ∃ s', step solver s rho dt = ok s' ∧ s'.lam = s.lam ∧ s'.beta = s.beta ∧ s'.alpha = s.alpha ∧
        s'.cumTime = s.cumTime + dt ∧ s'.power = P dt ∧ (∀ i, i < n → s'.conc.v i = Cc i dt) ∧ Consistent n s' := by
  have hα : s.alpha ≠ 0 := hp.alpha_pos.ne'
  obtain ⟨r, R, hr, hR, hstep⟩ := step_ok (solver := solver) (rho := rho) h hα (by
    intro p hpp
    obtain ⟨p', hp', hpn, hpd⟩ := inHourPoly_spec { s with cumTime := 0 } rho n h.lam_n h.beta_n
    rw [hpp] at hp'
    cases hp'
    exact exact_roots hs hp hpn (hpd.trans (inHourPoly_den_eq hα)))
  obtain ⟨h1, h2, h3⟩ := hr.solves (P0 := s.power) (C0 := s.conc.v) hα R hR
  exact ⟨_, _, h1, h2, h3, hstep⟩

/-! ### construction -/

theorem init_ok {lam beta : Vec ℝ} {alpha power : ℝ} {n : Nat} (hl : lam.n = n) (hb : n ≤ beta.n) (hα : alpha ≠ 0)
    (hlam : ∀ i, i < n → lam.v i ≠ 0) :
    ∃ s, init lam beta alpha power = ok s ∧ s.lam = lam ∧ s.beta = beta ∧ s.alpha = alpha ∧ s.power = power ∧
      s.cumTime = 0 ∧ s.conc.n = n ∧ s.concDev.n = n ∧
      (∀ i, i < n → s.conc.v i = beta.v i * power / (lam.v i * alpha)) ∧ (∀ i, i < n → s.concDev.v i = 0) := by
  obtain ⟨c, hc, hcn, hcv⟩ := loop_inv (n := lam.n) (s := Vec.const 0 (0 : ℝ))
    (body := fun i (conc : Vec ℝ) => do
      let b ← beta.get i
      let l ← lam.get i
      let c ← fdiv (b * power) (l * alpha)
      ok (conc.push c))
    (fun i conc => conc.n = i ∧ ∀ j, j < i → conc.v j = beta.v j * power / (lam.v j * alpha))
    ⟨rfl, by simp⟩
    (by
      rintro i u hi ⟨hun, huv⟩
      refine ⟨u.push (beta.v i * power / (lam.v i * alpha)), ?_, by simp [Vec.push, hun], ?_⟩
      · simp only [Vec.get_ok hi, Vec.get_ok (x := beta) (i := i) (by omega), ok_bind,
          fdiv_ok (mul_ne_zero (hlam i (by omega)) hα)]
      · intro j hj
        simp only [Vec.push, hun]
        by_cases hji : j = i
        · subst hji; simp
        · rw [Function.update_of_ne hji]; exact huv j (by omega))
  unfold init
  simp only [hc, ok_bind]
  exact ⟨_, rfl, rfl, rfl, rfl, rfl, rfl, by simp [hcn, hl], by simp [Vec.const, hl],
    fun i hi => hcv i (by omega), fun i _ => rfl⟩

/-- What a successful construction implies, whatever the data. -/
theorem init_of_ok {lam beta : Vec ℝ} {alpha power : ℝ} {s : State} (h : init lam beta alpha power = ok s) :
    s.lam = lam ∧ s.beta = beta ∧ s.alpha = alpha ∧ s.power = power ∧
      s.cumTime = 0 ∧ s.conc.n = lam.n ∧ s.concDev.n = lam.n ∧ lam.n ≤ beta.n ∧
      (∀ i, i < lam.n → lam.v i * alpha ≠ 0) ∧
      (∀ i, i < lam.n → s.conc.v i = beta.v i * power / (lam.v i * alpha)) ∧ (∀ i, i < lam.n → s.concDev.v i = 0) := by
  unfold init at h
  rw [bind_eq_ok] at h
  obtain ⟨c, hc, hs⟩ := h
  cases hs
  obtain ⟨h1, h2, h3, h4⟩ := loop_inv_of_ok
    (fun i (conc : Vec ℝ) => conc.n = i ∧ i ≤ beta.n ∧ (∀ j, j < i → lam.v j * alpha ≠ 0) ∧
      ∀ j, j < i → conc.v j = beta.v j * power / (lam.v j * alpha))
    ⟨rfl, by simp, by simp, by simp⟩
    (by
      rintro i u u' hi ⟨hun, hb, hne, huv⟩ hb'
      rw [Vec.get_ok hi] at hb'
      by_cases hib : i < beta.n
      · simp only [Vec.get_ok hib, ok_bind] at hb'
        by_cases hz : lam.v i * alpha = 0
        · simp [fdiv, hz] at hb'
        · rw [fdiv_ok hz, ok_bind] at hb'
          cases hb'
          refine ⟨by simp [Vec.push, hun], hib, ?_, ?_⟩
          · intro j hj
            by_cases hji : j = i
            · subst hji; exact hz
            · exact hne j (by omega)
          · intro j hj
            simp only [Vec.push, hun]
            by_cases hji : j = i
            · subst hji; simp
            · rw [Function.update_of_ne hji]; exact huv j (by omega)
      · simp [Vec.get_ub hib] at hb') hc
  exact ⟨rfl, rfl, rfl, rfl, rfl, h1, rfl, h2, h3, h4, fun i _ => rfl⟩

/-- What a successful step implies for the bookkeeping, whatever the root finder does. -/
theorem step_of_ok {solver : Vec ℝ → Vec ℝ} {s s' : State} {rho dt : ℝ} (h : step solver s rho dt = ok s') :
    s'.lam = s.lam ∧ s'.beta = s.beta ∧ s'.alpha = s.alpha ∧ s'.cumTime = s.cumTime + dt ∧
      s'.conc.n = s.conc.n ∧ s'.concDev.n = s.concDev.n ∧
      ∀ i, i < s.lam.n → s'.concDev.v i = s.beta.v i / s.alpha * s'.power - s.lam.v i * s'.conc.v i := by
  unfold step at h
  simp only [bind_eq_ok] at h
  obtain ⟨p, -, Rv, -, pw, -, hl⟩ := h
  refine loop_inv_of_ok
    (fun i (u : State) => u.lam = s.lam ∧ u.beta = s.beta ∧ u.alpha = s.alpha ∧ u.cumTime = s.cumTime + dt ∧
      u.conc.n = s.conc.n ∧ u.concDev.n = s.concDev.n ∧
      ∀ j, j < i → u.concDev.v j = s.beta.v j / s.alpha * u.power - s.lam.v j * u.conc.v j)
    ?_ ?_ hl
  · exact ⟨rfl, rfl, rfl, rfl, rfl, rfl, by simp⟩
  rintro i u u' hi ⟨e1, e2, e3, e4, e5, e6, e7⟩ hb
  simp only [bind_eq_ok] at hb
  obtain ⟨l, hl, b, hb, c, hc, s4, -, ba, hba, conc, hconc, cd, hcd, hu'⟩ := hb
  cases hu'
  have hl' : l = s.lam.v i := by
    unfold Vec.get at hl; split at hl <;> cases hl; rw [e1]
  have hb' : b = s.beta.v i := by
    unfold Vec.get at hb; split at hb <;> cases hb; rw [e2]
  have hba' : ba = s.beta.v i / s.alpha := by
    unfold fdiv at hba; split at hba <;> cases hba; rw [hb', e3]
  unfold Vec.set at hconc hcd
  split at hconc <;> cases hconc
  split at hcd <;> cases hcd
  refine ⟨e1, e2, e3, e4, e5, e6, ?_⟩
  intro j hj
  by_cases hji : j = i
  · subst hji
    simp only [Function.update_self, hba', hl']
  · simp only [Function.update_of_ne hji]
    exact e7 j (by omega)

theorem Consistent.calls_of_ok {solver : Vec ℝ → Vec ℝ} {lam beta : Vec ℝ} {alpha : ℝ} (cs : List (ℝ × ℝ)) :
    ∀ {s s' : State}, (s.lam = lam ∧ s.beta = beta ∧ s.alpha = alpha ∧ s.conc.n = lam.n ∧ s.concDev.n = lam.n ∧
      ∀ i, i < lam.n → s.concDev.v i = beta.v i / alpha * s.power - lam.v i * s.conc.v i) →
    calls solver s cs = ok s' →
    s'.lam = lam ∧ s'.beta = beta ∧ s'.alpha = alpha ∧ s'.conc.n = lam.n ∧ s'.concDev.n = lam.n ∧
      ∀ i, i < lam.n → s'.concDev.v i = beta.v i / alpha * s'.power - lam.v i * s'.conc.v i := by
  induction cs with
  | nil => intro s s' h hc; cases hc; exact h
  | cons c cs ih =>
    rintro s s' ⟨h1, h2, h3, h4, h5, h6⟩ hc
    unfold calls at hc
    rw [bind_eq_ok] at hc
    obtain ⟨t, ht, hc⟩ := hc
    obtain ⟨g1, g2, g3, -, g4, g5, g6⟩ := step_of_ok ht
    refine ih ⟨g1.trans h1, g2.trans h2, g3.trans h3, g4.trans h4, g5.trans h5, ?_⟩ hc
    intro i hi
    rw [g6 i (by rw [h1]; exact hi), h1, h2, h3]

theorem init_consistent {lam beta : Vec ℝ} {alpha power : ℝ} {s : State} (h : init lam beta alpha power = ok s) :
    s.lam = lam ∧ s.beta = beta ∧ s.alpha = alpha ∧ s.conc.n = lam.n ∧ s.concDev.n = lam.n ∧
      ∀ i, i < lam.n → s.concDev.v i = beta.v i / alpha * s.power - lam.v i * s.conc.v i := by
  obtain ⟨h1, h2, h3, h4, -, h6, h7, -, h9, h10, h11⟩ := init_of_ok h
  refine ⟨h1, h2, h3, h6, h7, ?_⟩
  intro i hi
  rw [h11 i hi, h10 i hi, h4]
  have := h9 i hi
  have hl : lam.v i ≠ 0 := left_ne_zero_of_mul this
  have ha : alpha ≠ 0 := right_ne_zero_of_mul this
  field_simp
  ring

/-- Every state a user can reach is consistent. -/
theorem reachable {solver : Vec ℝ → Vec ℝ} {lam beta : Vec ℝ} {alpha power : ℝ} {s0 s : State} {cs : List (ℝ × ℝ)}
    {n : Nat} (hl : lam.n = n) (hb : beta.n = n)
    (h0 : init lam beta alpha power = ok s0) (hc : calls solver s0 cs = ok s) :
    s.lam = lam ∧ s.beta = beta ∧ s.alpha = alpha ∧ Consistent n s := by
  obtain ⟨h1, h2, h3, h4, h5, h6⟩ := Consistent.calls_of_ok cs (init_consistent h0) hc
  subst h1 h2 h3
  exact ⟨rfl, rfl, rfl, hl, hb, h4.trans hl, h5.trans hl, fun i hi => h6 i (by omega)⟩

theorem calls_append_one {solver : Vec ℝ → Vec ℝ} (c : ℝ × ℝ) (cs : List (ℝ × ℝ)) :
    ∀ {s t : State}, calls solver s cs = ok t → calls solver s (cs ++ [c]) = step solver t c.1 c.2 := by
  induction cs with
  | nil =>
    intro s t h
    cases h
    simp only [List.nil_append, calls]
    cases step solver s c.1 c.2 <;> rfl
  | cons d ds ih =>
    intro s t h
    simp only [calls, bind_eq_ok] at h
    obtain ⟨u, hu, h⟩ := h
    simp only [List.cons_append, calls, hu, ok_bind]
    exact ih h

/-- With physical data and an exact root finder no call fails. -/
theorem calls_ok {solver : Vec ℝ → Vec ℝ} (hs : ExactRootFinder solver) {n : Nat} (cs : List (ℝ × ℝ)) :
    ∀ {s : State}, Consistent n s → Physical n s.lam.v s.beta.v s.alpha → ∃ s', calls solver s cs = ok s' := by
  induction cs with
  | nil => intro s _ _; exact ⟨s, rfl⟩
  | cons c cs ih =>
    intro s h hp
    obtain ⟨P, Cc, -, -, -, hstep⟩ := step_solution hs h hp c.1
    obtain ⟨s', hs', h1, h2, h3, -, -, -, h7⟩ := hstep c.2
    obtain ⟨s'', h''⟩ := ih h7 (by rw [h1, h2, h3]; exact hp)
    exact ⟨s'', by simp only [calls, hs', ok_bind]; exact h''⟩

/-- There is an exact root finder, by the fundamental theorem of algebra. -/
theorem exists_exactRootFinder : ∃ solver, ExactRootFinder solver := by
  have key : ∀ p : Vec ℝ, ∃ q : Vec ℝ, 0 < p.n → p.v (p.n - 1) ≠ 0 →
    ∃ z : Nat → ℂ,
      (∑ i ∈ range p.n, C ((p.v i : ℝ) : ℂ) * X ^ i : ℂ[X]) =
        C ((p.v (p.n - 1) : ℝ) : ℂ) * ∏ j ∈ range (p.n - 1), (X - C (z j)) ∧
      q.n = p.n - 1 ∧ ∀ j, j < p.n - 1 → q.v j = (z j).re := by
    intro p
    by_cases hp : 0 < p.n ∧ p.v (p.n - 1) ≠ 0
    swap
    · exact ⟨p, fun h1 h2 => absurd ⟨h1, h2⟩ hp⟩
    obtain ⟨hn, hl⟩ := hp
    set f : ℂ[X] := ∑ i ∈ range p.n, C ((p.v i : ℝ) : ℂ) * X ^ i with hf
    have hcoeff : ∀ k, f.coeff k = if k < p.n then ((p.v k : ℝ) : ℂ) else 0 := by
      intro k
      simp only [hf, finsetSum_coeff, coeff_C_mul, coeff_X_pow, mul_ite, mul_one, mul_zero]
      rw [sum_ite_eq]
      simp
    have hdeg : f.natDegree = p.n - 1 := by
      apply le_antisymm
      · rw [natDegree_le_iff_coeff_eq_zero]
        intro N hN
        rw [hcoeff, if_neg (by omega)]
      · apply le_natDegree_of_ne_zero
        rw [hcoeff, if_pos (by omega)]
        exact_mod_cast hl
    have hlead : f.leadingCoeff = ((p.v (p.n - 1) : ℝ) : ℂ) := by
      rw [leadingCoeff, hdeg, hcoeff, if_pos (by omega)]
    have hsp : f.Splits := IsAlgClosed.splits f
    have hprod := hsp.eq_prod_roots
    have hcard := hsp.natDegree_eq_card_roots
    set l := f.roots.toList with hlst
    have hlen : l.length = p.n - 1 := by rw [hlst, Multiset.length_toList, ← hcard, hdeg]
    refine ⟨⟨p.n - 1, fun j => (l.getD j 0).re⟩, fun _ _ => ⟨fun j => l.getD j 0, ?_, rfl, fun j _ => rfl⟩⟩
    rw [hprod, hlead]
    congr 1
    rw [← Multiset.coe_toList f.roots, ← hlst, Multiset.map_coe, Multiset.prod_coe, ← hlen,
      ← Fin.prod_univ_eq_prod_range (fun j => (X - C (l.getD j 0) : ℂ[X])), ← List.prod_ofFn]
    congr 1
    apply List.ext_get
    · simp
    · intro i h1 h2
      simp only [List.length_map] at h1
      simp [List.getD_eq_getElem?_getD]
  choose solver hsolver using key
  exact ⟨solver, hsolver⟩

end Verif.Kinetics
