import Verif.Kinetics.Lemmas
import Mathlib.Tactic.IntervalCases

/-!
# Property theorems: point kinetics (C01 - C07)

"The object has been constructed from `lam, beta, alpha, power` and any calls `cs` have been made" is written
`init lam beta alpha power = ok s0` and `calls solver s0 cs = ok s`.
-/

namespace Verif.Kinetics

open Verif Outcome Finset Polynomial Poly

noncomputable section

/-- Two-group example data used in the instances below. -/
def exLam : Vec ℝ := ⟨2, fun i => if i = 0 then 1 else 2⟩
/-- Two-group example data used in the instances below. -/
def exBeta : Vec ℝ := ⟨2, fun i => if i = 0 then 1 / 1000 else 3 / 1000⟩

theorem exLam_n : exLam.n = 2 := rfl
theorem exBeta_n : exBeta.n = 2 := rfl

theorem exPhysical : Physical 2 exLam.v exBeta.v (1 / 10000) where
  alpha_pos := by norm_num
  lam_pos i hi := by interval_cases i <;> norm_num [exLam]
  beta_pos i hi := by interval_cases i <;> norm_num [exBeta]
  lam_inj i hi j hj := by interval_cases i <;> interval_cases j <;> norm_num [exLam]

/-- **C01.** Whatever was computed before, a call `power(rho, dt)` does not fail and leaves the power and the precursor
concentrations that *every* solution of the point-kinetics equations starting from the present power and concentrations
has at time `dt`. -/
theorem C01_step_solves {solver : Vec ℝ → Vec ℝ} (hsolver : ExactRootFinder solver) {n : Nat} {lam beta : Vec ℝ}
    {alpha power : ℝ} (hl : lam.n = n) (hb : beta.n = n) (hphys : Physical n lam.v beta.v alpha)
    {s0 s : State} {cs : List (ℝ × ℝ)} (h0 : init lam beta alpha power = ok s0) (hc : calls solver s0 cs = ok s)
    (rho dt : ℝ) {P : ℝ → ℝ} {Cc : Nat → ℝ → ℝ} (hode : PointKinetics n lam.v beta.v alpha rho P Cc)
    (hP : P 0 = s.power) (hC : ∀ i, i < n → Cc i 0 = s.conc.v i) :
    ∃ s', step solver s rho dt = ok s' ∧ s'.power = P dt ∧ ∀ i, i < n → s'.conc.v i = Cc i dt := by
  obtain ⟨rfl, rfl, rfl, hcons⟩ := reachable hl hb h0 hc
  obtain ⟨P', C', hode', hP', hC', hstep⟩ := step_solution hsolver hcons hphys rho
  obtain ⟨s', hs', -, -, -, -, h5, h6, -⟩ := hstep dt
  obtain ⟨u1, u2⟩ := hode.unique hode' 0 (hP.trans hP'.symm) (fun i hi => (hC i hi).trans (hC' i hi).symm) dt
  exact ⟨s', hs', h5.trans u1.symm, fun i hi => (h6 i hi).trans (u2 i hi).symm⟩

/-- **C01, existence.** The solution spoken of in `C01_step_solves` exists. -/
theorem C01_solution_exists {solver : Vec ℝ → Vec ℝ} (hsolver : ExactRootFinder solver) {n : Nat} {lam beta : Vec ℝ}
    {alpha power : ℝ} (hl : lam.n = n) (hb : beta.n = n) (hphys : Physical n lam.v beta.v alpha)
    {s0 s : State} {cs : List (ℝ × ℝ)} (h0 : init lam beta alpha power = ok s0) (hc : calls solver s0 cs = ok s)
    (rho : ℝ) :
    ∃ (P : ℝ → ℝ) (Cc : Nat → ℝ → ℝ), PointKinetics n lam.v beta.v alpha rho P Cc ∧
      P 0 = s.power ∧ ∀ i, i < n → Cc i 0 = s.conc.v i := by
  obtain ⟨rfl, rfl, rfl, hcons⟩ := reachable hl hb h0 hc
  obtain ⟨P', C', hode', hP', hC', -⟩ := step_solution hsolver hcons hphys rho
  exact ⟨P', C', hode', hP', hC'⟩

/-- **C01, construction.** Physical data of matching sizes are always accepted, with precursors in equilibrium. -/
theorem C01_init {n : Nat} {lam beta : Vec ℝ} {alpha : ℝ} (power : ℝ) (hl : lam.n = n) (hb : beta.n = n)
    (hphys : Physical n lam.v beta.v alpha) :
    ∃ s0, init lam beta alpha power = ok s0 ∧ s0.power = power ∧
      ∀ i, i < n → s0.conc.v i = beta.v i * power / (lam.v i * alpha) := by
  obtain ⟨s, h1, -, -, -, h5, -, -, -, h9, -⟩ := init_ok (power := power) hl hb.ge hphys.alpha_pos.ne'
    (fun i hi => (hphys.lam_pos i hi).ne')
  exact ⟨s, h1, h5, h9⟩

/-- Instance of C01: the two-group data, any exact root finder (one exists), a reactivity step, then a second one. -/
example : ∃ solver, ExactRootFinder solver ∧ ∃ s0, init exLam exBeta (1 / 10000) 5 = ok s0 ∧
    ∃ s, calls solver s0 [(1 / 1000, 3)] = ok s ∧
    ∃ (P : ℝ → ℝ) (Cc : Nat → ℝ → ℝ), PointKinetics 2 exLam.v exBeta.v (1 / 10000) (-1) P Cc ∧
      ∃ s', step solver s (-1) 7 = ok s' ∧ s'.power = P 7 := by
  obtain ⟨solver, hs⟩ := exists_exactRootFinder
  obtain ⟨s0, h0, -⟩ := C01_init 5 exLam_n exBeta_n exPhysical
  obtain ⟨P, Cc, h1, h2, h3⟩ := C01_solution_exists (cs := []) hs exLam_n exBeta_n exPhysical h0 rfl (1 / 1000)
  obtain ⟨s, hst, -⟩ := C01_step_solves (cs := []) hs exLam_n exBeta_n exPhysical h0 rfl (1 / 1000) 3 h1 h2 h3
  have hc : calls solver s0 [(1 / 1000, 3)] = ok s := by simp only [calls, hst, ok_bind]
  obtain ⟨P', Cc', g1, g2, g3⟩ := C01_solution_exists hs exLam_n exBeta_n exPhysical h0 hc (-1)
  obtain ⟨s', hst', g4, -⟩ := C01_step_solves hs exLam_n exBeta_n exPhysical h0 hc (-1) 7 g1 g2 g3
  exact ⟨solver, hs, s0, h0, s, hc, P', Cc', g1, s', hst', g4⟩

/-- **C02.** After construction and any calls, for *any* root finder, the data are unchanged, there is one concentration and
one derivative per group, and the stored derivative is `(beta_i/alpha) power - lambda_i concentration_i`. -/
theorem C02_derivative_consistent {solver : Vec ℝ → Vec ℝ} {lam beta : Vec ℝ} {alpha power : ℝ}
    {s0 s : State} {cs : List (ℝ × ℝ)} (h0 : init lam beta alpha power = ok s0) (hc : calls solver s0 cs = ok s) :
    s.lam = lam ∧ s.beta = beta ∧ s.alpha = alpha ∧ s.conc.n = lam.n ∧ s.concDev.n = lam.n ∧
      ∀ i, i < lam.n → s.concDev.v i = beta.v i / alpha * s.power - lam.v i * s.conc.v i :=
  Consistent.calls_of_ok cs (init_consistent h0) hc

/-- Instance of C02: a useless root finder that always answers "3" still gives a consistent state (one group). -/
example : ∃ s0 s, init (Vec.const 1 2) (Vec.const 1 1) 1 4 = ok s0 ∧
    calls (fun _ => Vec.const 1 3) s0 [(5, 6)] = ok s := by
  have h : ∃ s0, init (Vec.const 1 2) (Vec.const 1 1) 1 4 = ok s0 ∧ s0.lam = Vec.const 1 2 ∧
      s0.beta = Vec.const 1 1 ∧ s0.alpha = 1 ∧ s0.power = 4 ∧ s0.cumTime = 0 ∧ s0.conc.n = 1 ∧ s0.concDev.n = 1 := by
    obtain ⟨s, h1, h2, h3, h4, h5, h6, h7, h8, -⟩ := init_ok (lam := Vec.const 1 2) (beta := Vec.const 1 1) (alpha := 1)
      (power := 4) (n := 1) rfl le_rfl one_ne_zero (by simp [Vec.const])
    exact ⟨s, h1, h2, h3, h4, h5, h6, h7, h8⟩
  obtain ⟨s0, h0, h1, h2, h3, h4, h5, h6, h7⟩ := h
  refine ⟨s0, ?_⟩
  obtain ⟨p, hp, -⟩ := inHourPoly_spec { s0 with cumTime := 0 + 6 } 5 1 (by simp [h1, Vec.const]) (by simp [h2, Vec.const])
  have : ∃ s, step (fun _ => Vec.const 1 3) s0 5 6 = ok s := by
    unfold step residue
    dsimp only
    rw [h5, hp]
    simp only [ok_bind, Vec.const, loop, h1, h2, h3, Vec.get, h6, h7, Vec.set, fdiv, zero_lt_one, if_true]
    norm_num [h1, h2, h3, h6, h7, Vec.const]
  obtain ⟨s, hs⟩ := this
  exact ⟨s, h0, by simp [calls, hs]⟩

/-- **C03.** A constructed reactor driven with zero reactivity, for any list of step lengths, keeps its initial power and its
initial concentrations. -/
theorem C03_equilibrium {solver : Vec ℝ → Vec ℝ} (hsolver : ExactRootFinder solver) {n : Nat} {lam beta : Vec ℝ}
    {alpha power : ℝ} (hl : lam.n = n) (hb : beta.n = n) (hphys : Physical n lam.v beta.v alpha)
    {s0 : State} (h0 : init lam beta alpha power = ok s0) (dts : List ℝ) :
    ∃ s, calls solver s0 (dts.map fun dt => (0, dt)) = ok s ∧ s.power = power ∧
      ∀ i, i < n → s.conc.v i = s0.conc.v i := by
  obtain ⟨h1, h2, h3, h4, -, -, -, -, -, h10, -⟩ := init_of_ok h0
  have hcons : Consistent n s0 := (reachable (cs := []) (solver := solver) hl hb h0 rfl).2.2.2
  subst h1 h2 h3
  suffices H : ∀ (dts : List ℝ) (s : State), s.lam = s0.lam → s.beta = s0.beta → s.alpha = s0.alpha → Consistent n s →
      s.power = power → (∀ i, i < n → s.conc.v i = s0.conc.v i) →
      ∃ s', calls solver s (dts.map fun dt => (0, dt)) = ok s' ∧ s'.power = power ∧
        ∀ i, i < n → s'.conc.v i = s0.conc.v i from H dts s0 rfl rfl rfl hcons h4 (fun _ _ => rfl)
  intro dts
  induction dts with
  | nil => intro s _ _ _ _ hp hcc; exact ⟨s, rfl, hp, hcc⟩
  | cons dt dts ih =>
    intro s e1 e2 e3 hcons hp hcc
    have hphys' : Physical n s.lam.v s.beta.v s.alpha := by rw [e1, e2, e3]; exact hphys
    obtain ⟨P, Cc, hode, hP, hC, hstep⟩ := step_solution hsolver hcons hphys' 0
    obtain ⟨s', hs', g1, g2, g3, -, g5, g6, g7⟩ := hstep dt
    have hconst : PointKinetics n s.lam.v s.beta.v s.alpha 0 (fun _ => power) (fun i _ => s0.conc.v i) := by
      have hα := hphys.alpha_pos.ne'
      have key : ∀ i, i < n → s0.lam.v i * s0.conc.v i = s0.beta.v i / s0.alpha * power := by
        intro i hi
        have := (hphys.lam_pos i hi).ne'
        rw [h10 i (by omega)]
        field_simp
      rw [e1, e2, e3]
      constructor
      · intro t
        have e : (0 - ∑ i ∈ range n, s0.beta.v i) / s0.alpha * power + ∑ i ∈ range n, s0.lam.v i * s0.conc.v i = 0 := by
          rw [sum_congr rfl (fun i hi => key i (mem_range.1 hi)), ← sum_mul, ← sum_div]
          ring
        rw [e]
        exact hasDerivAt_const t power
      · intro i hi t
        rw [key i hi, sub_self]
        exact hasDerivAt_const t (s0.conc.v i)
    obtain ⟨u1, u2⟩ := hode.unique hconst 0 (hP.trans hp) (fun i hi => (hC i hi).trans (hcc i hi)) dt
    obtain ⟨s'', k1, k2, k3⟩ := ih s' (g1.trans e1) (g2.trans e2) (g3.trans e3) g7 (g5.trans u1)
      (fun i hi => (g6 i hi).trans (u2 i hi))
    refine ⟨s'', ?_, k2, k3⟩
    simp only [List.map_cons, calls, hs', ok_bind]
    exact k1

/-- Instance of C03. -/
example : ∃ solver s0 s, ExactRootFinder solver ∧ init exLam exBeta (1 / 10000) 5 = ok s0 ∧
    calls solver s0 [(0, 1), (0, 20), (0, 3)] = ok s ∧ s.power = 5 := by
  obtain ⟨solver, hs⟩ := exists_exactRootFinder
  obtain ⟨s0, h0, -⟩ := C01_init 5 exLam_n exBeta_n exPhysical
  obtain ⟨s, h1, h2, -⟩ := C03_equilibrium hs exLam_n exBeta_n exPhysical h0 [1, 20, 3]
  exact ⟨solver, s0, s, hs, h0, h1, h2⟩

/-- **C04.** From any reachable state two steps `a`, `b` with the same reactivity leave the same power, concentrations,
derivatives and elapsed time as one step `a + b`. -/
theorem C04_split {solver : Vec ℝ → Vec ℝ} (hsolver : ExactRootFinder solver) {n : Nat} {lam beta : Vec ℝ}
    {alpha power : ℝ} (hl : lam.n = n) (hb : beta.n = n) (hphys : Physical n lam.v beta.v alpha)
    {s0 s : State} {cs : List (ℝ × ℝ)} (h0 : init lam beta alpha power = ok s0) (hc : calls solver s0 cs = ok s)
    (rho a b : ℝ) :
    ∃ s1 s2 s3, step solver s rho a = ok s1 ∧ step solver s1 rho b = ok s2 ∧ step solver s rho (a + b) = ok s3 ∧
      s2.power = s3.power ∧ s2.cumTime = s3.cumTime ∧
      ∀ i, i < n → s2.conc.v i = s3.conc.v i ∧ s2.concDev.v i = s3.concDev.v i := by
  obtain ⟨rfl, rfl, rfl, hcons⟩ := reachable hl hb h0 hc
  obtain ⟨P, Cc, hode, hP, hC, hstep⟩ := step_solution hsolver hcons hphys rho
  obtain ⟨s1, hs1, g1, g2, g3, g4, g5, g6, g7⟩ := hstep a
  obtain ⟨s3, hs3, k1, k2, k3, k4, k5, k6, k7⟩ := hstep (a + b)
  have hphys' : Physical n s1.lam.v s1.beta.v s1.alpha := by rw [g1, g2, g3]; exact hphys
  obtain ⟨P', Cc', hode', hP', hC', hstep'⟩ := step_solution hsolver g7 hphys' rho
  obtain ⟨s2, hs2, m1, m2, m3, m4, m5, m6, m7⟩ := hstep' b
  rw [g1, g2, g3] at hode'
  have hshift : PointKinetics n s.lam.v s.beta.v s.alpha rho (fun t => P (a + t)) (fun i t => Cc i (a + t)) :=
    ⟨fun t => (hode.power (a + t)).comp_const_add a t, fun i hi t => (hode.conc i hi (a + t)).comp_const_add a t⟩
  obtain ⟨u1, u2⟩ := hode'.unique hshift 0 (by simp [hP', g5]) (fun i hi => by simp [hC' i hi, g6 i hi]) b
  have hp : s2.power = s3.power := by rw [m5, k5, u1]
  refine ⟨s1, s2, s3, hs1, hs2, hs3, hp, by rw [m4, g4, k4]; ring, ?_⟩
  intro i hi
  have hcc : s2.conc.v i = s3.conc.v i := by rw [m6 i hi, k6 i hi, u2 i hi]
  refine ⟨hcc, ?_⟩
  rw [m7.dev i hi, k7.dev i hi, hp, hcc, m1, m2, m3, g1, g2, g3, k1, k2, k3]

/-- **C04, no time.** A step of length 0 changes neither power, nor concentrations, derivatives and elapsed time. -/
theorem C04_zero {solver : Vec ℝ → Vec ℝ} (hsolver : ExactRootFinder solver) {n : Nat} {lam beta : Vec ℝ}
    {alpha power : ℝ} (hl : lam.n = n) (hb : beta.n = n) (hphys : Physical n lam.v beta.v alpha)
    {s0 s : State} {cs : List (ℝ × ℝ)} (h0 : init lam beta alpha power = ok s0) (hc : calls solver s0 cs = ok s)
    (rho : ℝ) :
    ∃ s', step solver s rho 0 = ok s' ∧ s'.power = s.power ∧ s'.cumTime = s.cumTime ∧
      ∀ i, i < n → s'.conc.v i = s.conc.v i ∧ s'.concDev.v i = s.concDev.v i := by
  obtain ⟨rfl, rfl, rfl, hcons⟩ := reachable hl hb h0 hc
  obtain ⟨P, Cc, hode, hP, hC, hstep⟩ := step_solution hsolver hcons hphys rho
  obtain ⟨s', hs', g1, g2, g3, g4, g5, g6, g7⟩ := hstep 0
  have hp : s'.power = s.power := by rw [g5, hP]
  refine ⟨s', hs', hp, by rw [g4, add_zero], ?_⟩
  intro i hi
  have hcc : s'.conc.v i = s.conc.v i := by rw [g6 i hi, hC i hi]
  exact ⟨hcc, by rw [g7.dev i hi, hcons.dev i hi, hp, hcc, g1, g2, g3]⟩

/-- Instance of C04: after a prompt jump. -/
example : ∃ solver s0 s, ExactRootFinder solver ∧ init exLam exBeta (1 / 10000) 5 = ok s0 ∧
    calls solver s0 [(1 / 1000, 3)] = ok s := by
  obtain ⟨solver, hs⟩ := exists_exactRootFinder
  obtain ⟨s0, h0, -⟩ := C01_init 5 exLam_n exBeta_n exPhysical
  obtain ⟨s, -, -, h1, -⟩ := C04_split (cs := []) hs exLam_n exBeta_n exPhysical h0 rfl (1 / 1000) 3 0
  exact ⟨solver, s0, s, hs, h0, by simp only [calls, h1, ok_bind]⟩

/-- **C05.** For equally long data lists the coefficients handed to the root finder exist (no length error), are `n + 2`
many, and for every `x` which is no `-lambda_i` their polynomial has the stated value. -/
theorem C05_polynomial (s : State) (rho : ℝ) (n : Nat) (hl : s.lam.n = n) (hb : s.beta.n = n) :
    ∃ p, inHourPoly s rho = ok p ∧ p.n = n + 2 ∧
      ∀ x : ℝ, (∀ i, i < n → s.lam.v i + x ≠ 0) →
        (∑ k ∈ range p.n, p.v k * x ^ k = (∏ i ∈ range n, (s.lam.v i + x)) *
          (rho - ∑ i ∈ range n, s.beta.v i - s.alpha * x + ∑ i ∈ range n, s.lam.v i * s.beta.v i / (s.lam.v i + x))) ∧
        (∑ k ∈ range p.n, p.v k * x ^ k = 0 ↔ InHour n s.lam.v s.beta.v s.alpha rho x) := by
  obtain ⟨p, hp, hpn, hpd⟩ := inHourPoly_spec s rho n hl hb
  refine ⟨p, hp, hpn, ?_⟩
  intro x hx
  have hx' : ∀ i, i < n → x + s.lam.v i ≠ 0 := fun i hi => by rw [add_comm]; exact hx i hi
  have hev : ∑ k ∈ range p.n, p.v k * x ^ k = (den p).eval x := by simp [den, eval_finsetSum]
  have h1 : ∑ k ∈ range p.n, p.v k * x ^ k = (∏ i ∈ range n, (s.lam.v i + x)) *
      (rho - ∑ i ∈ range n, s.beta.v i - s.alpha * x + ∑ i ∈ range n, s.lam.v i * s.beta.v i / (s.lam.v i + x)) := by
    rw [hev, hpd]
    simp only [eval_add, eval_sub, eval_mul, eval_C, eval_X, eval_finsetSum]
    have hw : (wPoly n s.lam.v).eval x = ∏ i ∈ range n, (s.lam.v i + x) := by
      rw [eval_wPoly]; exact prod_congr rfl (fun i _ => add_comm _ _)
    have hs : ∀ i ∈ range n, s.lam.v i * s.beta.v i * (wPolyI n s.lam.v i).eval x =
        (∏ i ∈ range n, (s.lam.v i + x)) * (s.lam.v i * s.beta.v i / (s.lam.v i + x)) := by
      intro i hi
      rw [eval_wPolyI (mem_range.1 hi) (hx' i (mem_range.1 hi)), hw, add_comm x]
      ring
    have hs' := sum_congr rfl hs
    rw [← mul_sum] at hs'
    rw [hs', hw]
    ring
  refine ⟨h1, ?_⟩
  rw [h1, mul_eq_zero, or_iff_right (prod_ne_zero_iff.2 fun i hi => hx i (mem_range.1 hi)), InHour]
  constructor <;> intro h <;> linarith

/-- Instance of C05: two groups. -/
example : ∃ p, inHourPoly ⟨exLam, exBeta, exBeta, exBeta, 1, 1, 0⟩ 1 = ok p ∧ p.n = 4 := by
  obtain ⟨p, h1, h2, -⟩ := C05_polynomial ⟨exLam, exBeta, exBeta, exBeta, 1, 1, 0⟩ 1 2 rfl rfl
  exact ⟨p, h1, h2⟩

/-- **C06.** For physical data the in-hour polynomial factors over the complex numbers into `n + 1` linear factors with real,
pairwise distinct roots, which differ from all `-lambda_i` and are exactly the real solutions of the in-hour equation; and an
exact root finder (which returns real parts only) returns these. -/
theorem C06_real_roots (s : State) (rho : ℝ) (n : Nat) (hl : s.lam.n = n) (hb : s.beta.n = n)
    (hphys : Physical n s.lam.v s.beta.v s.alpha) :
    ∃ p, inHourPoly s rho = ok p ∧ ∃ r : Nat → ℝ,
      (∑ k ∈ range p.n, C ((p.v k : ℝ) : ℂ) * X ^ k : ℂ[X]) =
        C ((-s.alpha : ℝ) : ℂ) * ∏ j ∈ range (n + 1), (X - C ((r j : ℝ) : ℂ)) ∧
      (∀ j, j < n + 1 → ∀ j', j' < n + 1 → r j = r j' → j = j') ∧
      (∀ j, j < n + 1 → ∀ i, i < n → s.lam.v i + r j ≠ 0) ∧
      (∀ x, (∀ i, i < n → s.lam.v i + x ≠ 0) →
        (InHour n s.lam.v s.beta.v s.alpha rho x ↔ ∃ j, j < n + 1 ∧ x = r j)) ∧
      ∀ solver, ExactRootFinder solver → (solver p).n = n + 1 ∧
        ∀ x, (∃ j, j < n + 1 ∧ (solver p).v j = x) ↔ ∃ j, j < n + 1 ∧ r j = x := by
  obtain ⟨p, hp, hpn, hpd⟩ := inHourPoly_spec s rho n hl hb
  obtain ⟨p', hp', -, hp5⟩ := C05_polynomial s rho n hl hb
  rw [hp] at hp'
  cases hp'
  have hα := hphys.alpha_pos.ne'
  have hpd' := hpd.trans (inHourPoly_den_eq hα)
  obtain ⟨sv, hsv⟩ := exists_exactRootFinder
  obtain ⟨hrn, hR⟩ := exact_roots (rho := rho) hsv hphys hpn hpd'
  have hfac : ∀ x : ℝ, ∑ k ∈ range p.n, p.v k * x ^ k = -s.alpha * ∏ j ∈ range (n + 1), (x - (sv p).v j) := by
    intro x
    have hev : ∑ k ∈ range p.n, p.v k * x ^ k = (den p).eval x := by simp [den, eval_finsetSum]
    rw [hev, hpd', hR.factor]
    simp [eval_prod]
  refine ⟨p, hp, (sv p).v, ?_, hR.inj, fun j hj i hi => by rw [add_comm]; exact hR.ne j hj i hi, ?_, ?_⟩
  · have hmap : (∑ i ∈ range p.n, C ((p.v i : ℝ) : ℂ) * X ^ i : ℂ[X]) = (den p).map (algebraMap ℝ ℂ) := by
      unfold den
      simp [Polynomial.map_sum]
    rw [hmap, hpd', hR.factor, Polynomial.map_mul, Polynomial.map_prod, Polynomial.map_C]
    simp
  · intro x hx
    rw [← (hp5 x hx).2, hfac, mul_eq_zero, or_iff_right (neg_ne_zero.2 hα), prod_eq_zero_iff]
    constructor
    · rintro ⟨j, hj, h⟩; exact ⟨j, mem_range.1 hj, sub_eq_zero.1 h⟩
    · rintro ⟨j, hj, h⟩; exact ⟨j, mem_range.2 hj, sub_eq_zero.2 h⟩
  · intro solver hsolver
    obtain ⟨hrn', hR'⟩ := exact_roots (rho := rho) hsolver hphys hpn hpd'
    refine ⟨hrn', fun x => ?_⟩
    have e1 : (∃ j, j < n + 1 ∧ (solver p).v j = x) ↔ ∏ j ∈ range (n + 1), (x - (solver p).v j) = 0 := by
      rw [prod_eq_zero_iff]
      constructor
      · rintro ⟨j, hj, h⟩; exact ⟨j, mem_range.2 hj, by rw [h, sub_self]⟩
      · rintro ⟨j, hj, h⟩; exact ⟨j, mem_range.1 hj, (sub_eq_zero.1 h).symm⟩
    have e2 : (∃ j, j < n + 1 ∧ (sv p).v j = x) ↔ ∏ j ∈ range (n + 1), (x - (sv p).v j) = 0 := by
      rw [prod_eq_zero_iff]
      constructor
      · rintro ⟨j, hj, h⟩; exact ⟨j, mem_range.2 hj, by rw [h, sub_self]⟩
      · rintro ⟨j, hj, h⟩; exact ⟨j, mem_range.1 hj, (sub_eq_zero.1 h).symm⟩
    have e3 := congrArg (Polynomial.eval x) (hR.factor.symm.trans hR'.factor)
    simp only [eval_prod, eval_sub, eval_X, eval_C] at e3
    rw [e1, e2, e3]

/-- Instance of C06. -/
example : Physical 2 exLam.v exBeta.v (1 / 10000) := exPhysical

/-- The steps a reactivity history asks for: reactivity `rhos[i]` from `times[i-1]` (or 0) to `times[i]`. -/
def historySteps (rhos times : Vec ℝ) (k : Nat) : List (ℝ × ℝ) :=
  (List.range k).map fun i => (rhos.v i, times.v i - if i = 0 then 0 else times.v (i - 1))

/-- **C07.** With at least as many times as reactivities, a history is the sequence of single calls: if the single calls
succeed with the intermediate states `st 0, st 1, …` then the history returns the power after each of them, one per
reactivity, ends in the last state, and the elapsed time has grown by the last used time. -/
theorem C07_history (solver : Vec ℝ → Vec ℝ) (s : State) (rhos times : Vec ℝ) (hn : rhos.n ≤ times.n)
    (st : Nat → State) (hst : ∀ k, k ≤ rhos.n → calls solver s (historySteps rhos times k) = ok (st k)) :
    ∃ res, history solver s rhos times = ok (st rhos.n, res) ∧ res.n = rhos.n ∧
      (∀ i, i < rhos.n → res.v i = (st (i + 1)).power) ∧
      (∀ i, i < rhos.n → (st (i + 1)).cumTime = s.cumTime + times.v i) := by
  have hstep : ∀ k, k < rhos.n →
      step solver (st k) (rhos.v k) (times.v k - if k = 0 then 0 else times.v (k - 1)) = ok (st (k + 1)) := by
    intro k hk
    have h1 := hst (k + 1) hk
    rw [historySteps, List.range_succ, List.map_append, List.map_singleton] at h1
    have h2 := calls_append_one (rhos.v k, times.v k - if k = 0 then 0 else times.v (k - 1)) _ (hst k hk.le)
    rw [historySteps] at h2
    exact h2.symm.trans h1
  have h0 : st 0 = s := by
    have := hst 0 (Nat.zero_le _)
    simp [historySteps, calls] at this
    exact this.symm
  have hcum : ∀ i, i < rhos.n → (st (i + 1)).cumTime = s.cumTime + times.v i := by
    intro i
    induction i with
    | zero =>
      intro hi
      rw [(step_of_ok (hstep 0 hi)).2.2.2.1, h0]
      simp
    | succ i ih =>
      intro hi
      rw [(step_of_ok (hstep (i + 1) hi)).2.2.2.1, ih (by omega)]
      simp
  obtain ⟨⟨s', res⟩, hr, hs', hrn, hrv⟩ := loop_inv (n := rhos.n) (s := (s, Vec.const 0 (0 : ℝ)))
    (body := fun i (st : State × Vec ℝ) => do
      let deltaT ← (if i > 0 then do
          let t1 ← times.get i
          let t0 ← times.get (i - 1)
          ok (t1 - t0)
        else times.get i)
      let rho ← rhos.get i
      let s' ← step solver st.1 rho deltaT
      ok (s', st.2.push s'.power))
    (fun i u => u.1 = st i ∧ u.2.n = i ∧ ∀ j, j < i → u.2.v j = (st (j + 1)).power)
    ⟨h0.symm, rfl, by simp⟩
    (by
      rintro i ⟨u, res⟩ hi ⟨h1, h2, h3⟩
      dsimp only at h1 h2 h3 ⊢
      refine ⟨(st (i + 1), res.push (st (i + 1)).power), ?_, rfl, by simp [Vec.push, h2], ?_⟩
      · have hs := hstep i hi
        by_cases h : i = 0
        · subst h
          simp only [if_true, sub_zero] at hs
          simp [Vec.get_ok hi, Vec.get_ok (x := times) (i := 0) (by omega), h1, hs]
        · rw [if_neg h] at hs
          simp [Vec.get_ok hi, Vec.get_ok (x := times) (i := i) (by omega),
            Vec.get_ok (x := times) (i := i - 1) (by omega), h1, hs, show 0 < i by omega]
      · intro j hj
        simp only [Vec.push, h2]
        by_cases hji : j = i
        · subst hji; simp
        · rw [Function.update_of_ne hji]; exact h3 j (by omega))
  refine ⟨res, ?_, hrn, hrv, hcum⟩
  unfold history
  dsimp only at hs'
  rw [hr, hs']

/-- **C07 with C01.** Physical data, exact root finder: let `P k, Cc k` solve the equations with reactivity `rhos[k]`, start from
the constructed state at time 0 and be joined continuously at the times `times[k]`. Then the history returns the powers
`P k (times[k])`. -/
theorem C07_follows_solution {solver : Vec ℝ → Vec ℝ} (hsolver : ExactRootFinder solver) {n : Nat} {lam beta : Vec ℝ}
    {alpha power : ℝ} (hl : lam.n = n) (hb : beta.n = n) (hphys : Physical n lam.v beta.v alpha)
    {s0 : State} (h0 : init lam beta alpha power = ok s0) (rhos times : Vec ℝ) (hn : rhos.n ≤ times.n)
    (P : Nat → ℝ → ℝ) (Cc : Nat → Nat → ℝ → ℝ)
    (hode : ∀ k, k < rhos.n → PointKinetics n lam.v beta.v alpha (rhos.v k) (P k) (Cc k))
    (hP0 : P 0 0 = power) (hC0 : ∀ i, i < n → Cc 0 i 0 = beta.v i * power / (lam.v i * alpha))
    (hP : ∀ k, k + 1 < rhos.n → P (k + 1) (times.v k) = P k (times.v k))
    (hC : ∀ k, k + 1 < rhos.n → ∀ i, i < n → Cc (k + 1) i (times.v k) = Cc k i (times.v k)) :
    ∃ s res, history solver s0 rhos times = ok (s, res) ∧ res.n = rhos.n ∧
      ∀ k, k < rhos.n → res.v k = P k (times.v k) := by
  obtain ⟨e1, e2, e3, e4, -, -, -, -, -, e10, -⟩ := init_of_ok h0
  have hcons : Consistent n s0 := (reachable (cs := []) (solver := solver) hl hb h0 rfl).2.2.2
  have hphys0 : Physical n s0.lam.v s0.beta.v s0.alpha := by rw [e1, e2, e3]; exact hphys
  choose st hst using fun k => calls_ok hsolver (historySteps rhos times k) hcons hphys0
  obtain ⟨res, h1, h2, h3, -⟩ := C07_history solver s0 rhos times hn st (fun k _ => hst k)
  refine ⟨_, res, h1, h2, ?_⟩
  have hst0 : st 0 = s0 := by
    have := hst 0
    simp [historySteps, calls] at this
    exact this.symm
  have key : ∀ k, k < rhos.n → (st (k + 1)).power = P k (times.v k) ∧
      ∀ i, i < n → (st (k + 1)).conc.v i = Cc k i (times.v k) := by
    intro k
    induction k with
    | zero =>
      intro hk
      obtain ⟨s', hs', g1, g2⟩ := C01_step_solves (cs := []) hsolver hl hb hphys h0 rfl (rhos.v 0) (times.v 0)
        (hode 0 hk) (hP0.trans e4.symm) (fun i hi => by rw [hC0 i hi, e10 i (by omega)])
      have h' : calls solver s0 (historySteps rhos times 1) = ok s' := by
        simp [historySteps, calls, hs']
      rw [hst 1] at h'
      cases h'
      exact ⟨g1, g2⟩
    | succ k ih =>
      intro hk
      obtain ⟨i1, i2⟩ := ih (by omega)
      have hsh : PointKinetics n lam.v beta.v alpha (rhos.v (k + 1)) (fun t => P (k + 1) (times.v k + t))
          (fun i t => Cc (k + 1) i (times.v k + t)) :=
        ⟨fun t => ((hode _ hk).power (times.v k + t)).comp_const_add _ t,
          fun i hi t => ((hode _ hk).conc i hi (times.v k + t)).comp_const_add _ t⟩
      obtain ⟨s', hs', g1, g2⟩ := C01_step_solves hsolver hl hb hphys h0 (hst (k + 1)) (rhos.v (k + 1))
        (times.v (k + 1) - times.v k) hsh (by simp only [add_zero]; rw [hP k hk, i1])
        (fun i hi => by simp only [add_zero]; rw [hC k hk i hi, i2 i hi])
      have h' := calls_append_one (rhos.v (k + 1), times.v (k + 1) - times.v k) _ (hst (k + 1))
      have h'' : historySteps rhos times (k + 1 + 1) =
          historySteps rhos times (k + 1) ++ [(rhos.v (k + 1), times.v (k + 1) - times.v k)] := by
        simp [historySteps, List.range_succ]
      rw [← h'', hst (k + 2), hs'] at h'
      cases h'
      refine ⟨?_, fun i hi => ?_⟩
      · rw [g1]; congr 1; ring
      · rw [g2 i hi]; congr 1; ring
  intro k hk
  rw [h3 k hk, (key k hk).1]

/-- Instance of `C07_follows_solution`: two intervals with different reactivities; the joined solutions exist. -/
example : ∃ (P : Nat → ℝ → ℝ) (Cc : Nat → Nat → ℝ → ℝ) (rho : Nat → ℝ), rho 0 ≠ rho 1 ∧
    (∀ k, k < 2 → PointKinetics 2 exLam.v exBeta.v (1 / 10000) (rho k) (P k) (Cc k)) ∧ P 0 0 = 5 ∧
    (∀ i, i < 2 → Cc 0 i 0 = exBeta.v i * 5 / (exLam.v i * (1 / 10000))) ∧
    P 1 3 = P 0 3 ∧ ∀ i, i < 2 → Cc 1 i 3 = Cc 0 i 3 := by
  obtain ⟨solver, hs⟩ := exists_exactRootFinder
  obtain ⟨s0, h0, hp0, hc0⟩ := C01_init 5 exLam_n exBeta_n exPhysical
  obtain ⟨P, Cc, h1, h2, h3⟩ := C01_solution_exists (cs := []) hs exLam_n exBeta_n exPhysical h0 rfl (1 / 1000)
  obtain ⟨s, hst, k1, k2⟩ := C01_step_solves (cs := []) hs exLam_n exBeta_n exPhysical h0 rfl (1 / 1000) 3 h1 h2 h3
  have hc : calls solver s0 [(1 / 1000, 3)] = ok s := by simp only [calls, hst, ok_bind]
  obtain ⟨P', Cc', g1, g2, g3⟩ := C01_solution_exists hs exLam_n exBeta_n exPhysical h0 hc (-1)
  refine ⟨fun k => if k = 0 then P else fun t => P' (t - 3), fun k => if k = 0 then Cc else fun i t => Cc' i (t - 3),
    fun k => if k = 0 then 1 / 1000 else -1, by norm_num, ?_, ?_, ?_, ?_, ?_⟩
  · intro k hk
    interval_cases k
    · simpa using h1
    · simp only [one_ne_zero, if_false]
      exact ⟨fun t => (g1.power (t - 3)).comp_sub_const t 3, fun i hi t => (g1.conc i hi (t - 3)).comp_sub_const t 3⟩
  · simp [h2, hp0]
  · intro i hi
    simp [h3 i hi, hc0 i hi]
  · simp [g2, k1]
  · intro i hi
    simp [g3 i hi, k2 i hi]

/-- **C07, too few times.** If the single calls up to the last supplied time succeed but there is no time for the next
reactivity, the access `times[i]` is out of bounds: undefined behaviour. -/
theorem C07_missing_times (solver : Vec ℝ → Vec ℝ) (s : State) (rhos times : Vec ℝ) (hn : times.n < rhos.n)
    (st : Nat → State) (hst : ∀ k, k ≤ times.n → calls solver s (historySteps rhos times k) = ok (st k)) :
    history solver s rhos times = ub := by
  obtain ⟨res, h1, -⟩ := C07_history solver s ⟨times.n, rhos.v⟩ times le_rfl st hst
  unfold history at h1 ⊢
  have hget : ∀ i, i < times.n → (⟨times.n, rhos.v⟩ : Vec ℝ).get i = rhos.get i := by
    intro i hi
    rw [Vec.get_ok (x := ⟨times.n, rhos.v⟩) (i := i) hi, Vec.get_ok (x := rhos) (i := i) (by omega)]
  have hcongr : ∀ {σ : Type} (b b' : Nat → σ → Outcome σ) (n : Nat) (s : σ), (∀ i t, i < n → b i t = b' i t) →
      loop b n s = loop b' n s := by
    intro σ b b' n s hb
    induction n with
    | zero => rfl
    | succ n ih =>
      rw [loop_succ, loop_succ, ih (fun i t hi => hb i t (by omega))]
      congr 1
      funext t
      exact hb n t (by omega)
  have hub : ∀ {σ : Type} (b : Nat → σ → Outcome σ) (m k : Nat) (s t : σ), loop b m s = ok t → b m t = ub →
      loop b (m + 1 + k) s = ub := by
    intro σ b m k s t h h'
    induction k with
    | zero => rw [Nat.add_zero, loop_succ, h]; exact h'
    | succ k ih => rw [← Nat.add_assoc, loop_succ, ih]; rfl
  obtain ⟨k, hk⟩ : ∃ k, rhos.n = times.n + 1 + k := ⟨rhos.n - times.n - 1, by omega⟩
  rw [hk]
  refine hub _ _ _ _ (st times.n, res) ?_ ?_
  · rw [← h1]
    exact hcongr _ _ _ _ (fun i t hi => by rw [hget i hi])
  · have : times.get times.n = ub := Vec.get_ub (by omega)
    dsimp only
    split
    · simp [this]
    · simp [this]

/-- Instance of C07: two reactivities, three times, physical data: the calls do succeed. -/
example : ∃ solver s0 s res, init exLam exBeta (1 / 10000) 5 = ok s0 ∧
    history solver s0 ⟨2, fun i => i⟩ ⟨3, fun i => 10 * i + 1⟩ = ok (s, res) ∧ res.n = 2 ∧ s.cumTime = 11 := by
  obtain ⟨solver, hs⟩ := exists_exactRootFinder
  obtain ⟨s0, h0, -⟩ := C01_init 5 exLam_n exBeta_n exPhysical
  have hex : ∀ cs, ∃ s, calls solver s0 cs = ok s := by
    intro cs
    obtain ⟨h1, h2, h3, h4⟩ := reachable (solver := solver) (cs := []) exLam_n exBeta_n h0 rfl
    exact calls_ok hs cs h4 (by rw [h1, h2, h3]; exact exPhysical)
  choose st hst using fun k => hex (historySteps ⟨2, fun i => i⟩ ⟨3, fun i => 10 * i + 1⟩ k)
  obtain ⟨res, h1, h2, -, h4⟩ := C07_history solver s0 ⟨2, fun i => i⟩ ⟨3, fun i => 10 * i + 1⟩ (by simp) st
    (fun k _ => hst k)
  refine ⟨solver, s0, _, res, h0, h1, h2, ?_⟩
  have h5 := h4 1 (by simp)
  rw [(init_of_ok h0).2.2.2.2.1] at h5
  simp only at h5 ⊢
  rw [h5]; norm_num

end

end Verif.Kinetics
