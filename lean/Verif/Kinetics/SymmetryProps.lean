import Verif.Kinetics.Symmetry
import Verif.Kinetics.Degenerate
import Verif.Kinetics.Props

/-!
# Property theorems: the groups (C111) and the units (C112)
-/

namespace Verif.Kinetics

open Verif Outcome Finset

noncomputable section

/-- **C111.** The order in which the groups of delayed neutrons are listed does not matter: the powers are the same and every group has the same concentration. For different decay constants and positive fractions. -/
theorem C111_partial {solver : Vec ℝ → Vec ℝ} (hsolver : ExactRootFinder solver) {n : Nat} {lam beta lam' beta' : Vec ℝ} {alpha : ℝ} (p : ℝ) (hl : lam.n = n) (hb : beta.n = n) (hl' : lam'.n = n) (hb' : beta'.n = n)
    (hphys : Physical n lam.v beta.v alpha) {σ : Nat → Nat} (hσ : Set.BijOn σ (Set.Iio n) (Set.Iio n)) (hlam : ∀ i, i < n → lam'.v i = lam.v (σ i)) (hbeta : ∀ i, i < n → beta'.v i = beta.v (σ i)) (cs : List (ℝ × ℝ)) :
    ∃ s0 s0' s s', init lam beta alpha p = ok s0 ∧ init lam' beta' alpha p = ok s0' ∧ calls solver s0 cs = ok s ∧ calls solver s0' cs = ok s' ∧
      s'.power = s.power ∧ ∀ i, i < n → s'.conc.v i = s.conc.v (σ i) := by
  have h1 : ∀ i, i < n → lam'.v i = lam.v (σ i) / 1 := fun i hi => by rw [hlam i hi, div_one]
  have h2 : ∀ i, i < n → beta'.v i = 1 * beta.v (σ i) := fun i hi => by rw [hbeta i hi, one_mul]
  have hphys' : Physical n lam'.v beta'.v alpha := physical_order hσ one_pos one_pos hphys h1 h2 (by ring)
  obtain ⟨s0, h0, -⟩ := C01_init (lam := lam) (beta := beta) p hl hb hphys
  obtain ⟨s0', h0', -⟩ := C01_init (lam := lam') (beta := beta') p hl' hb' hphys'
  have hA : Alike n σ 1 1 1 s0 s0' := alike_init hσ one_pos one_pos hl hb hl' hb' hphys h1 h2 h0 (by rw [one_mul, one_mul, one_mul]; exact h0')
  obtain ⟨s, s', e1, e2, e3⟩ := hA.calls hsolver hσ one_pos one_pos cs
  simp only [one_mul, Prod.mk.eta, List.map_id'] at e2
  exact ⟨s0, s0', s, s', h0, h0', e1, e2, by rw [e3.power, one_mul], fun i hi => by rw [e3.conc i hi, one_mul]⟩

/-- **C111.** If a group has no fraction, or two groups have the same decay constant, the object is constructed, but the first call already divides by zero, whatever the reactivity and the time. -/
theorem C111_degenerate {solver : Vec ℝ → Vec ℝ} (hsolver : ExactRootFinder solver) {n : Nat} {lam beta : Vec ℝ} {alpha : ℝ} (p : ℝ) (hl : lam.n = n) (hb : beta.n = n) (ha : alpha ≠ 0)
    (hlam : ∀ i, i < n → lam.v i ≠ 0) {i : Nat} (hi : i < n) (hd : beta.v i = 0 ∨ ∃ j, j < n ∧ j ≠ i ∧ lam.v j = lam.v i) :
    ∃ s0, init lam beta alpha p = ok s0 ∧ ∀ rho dt cs, calls solver s0 ((rho, dt) :: cs) = nonfinite := by
  obtain ⟨s0, h0, -⟩ := init_ok (lam := lam) (beta := beta) (power := p) hl hb.ge ha hlam
  obtain ⟨e1, e2, e3, h1⟩ := reachable (cs := []) (solver := id) hl hb h0 rfl
  refine ⟨s0, h0, fun rho dt cs => ?_⟩
  rw [calls, step_degenerate hsolver h1 (by rw [e3]; exact ha) hi (by rw [e1, e2]; exact hd) rho dt]
  rfl

/-- **C111 is false.** One group of fraction 0.002 gives powers; the same group listed as two halves gives none, nor does the group together with one of fraction zero. -/
theorem C111_false : ∃ solver, ExactRootFinder solver ∧ Physical 1 (Vec.ofList [1]).v (Vec.ofList [2 / 1000]).v (1 / 10000) ∧
    ∃ s0 s1 s2, init (Vec.ofList [1]) (Vec.ofList [2 / 1000]) (1 / 10000) 5 = ok s0 ∧ init (Vec.ofList [1, 1]) (Vec.ofList [1 / 1000, 1 / 1000]) (1 / 10000) 5 = ok s1 ∧
      init (Vec.ofList [1, 2]) (Vec.ofList [2 / 1000, 0]) (1 / 10000) 5 = ok s2 ∧
      ∀ rho dt, (∃ s, calls solver s0 [(rho, dt)] = ok s) ∧ calls solver s1 [(rho, dt)] = nonfinite ∧ calls solver s2 [(rho, dt)] = nonfinite := by
  obtain ⟨solver, hs⟩ := exists_exactRootFinder
  have hphys : Physical 1 (Vec.ofList [(1 : ℝ)]).v (Vec.ofList [(2 / 1000 : ℝ)]).v (1 / 10000) :=
    ⟨by norm_num, fun i hi => by interval_cases i; norm_num [Vec.ofList], fun i hi => by interval_cases i; norm_num [Vec.ofList], fun i hi j hj _ => by omega⟩
  obtain ⟨s0, h0, -⟩ := C01_init (lam := Vec.ofList [1]) (beta := Vec.ofList [2 / 1000]) 5 rfl rfl hphys
  obtain ⟨s1, h1, e1⟩ := C111_degenerate hs (n := 2) (lam := Vec.ofList [1, 1]) (beta := Vec.ofList [1 / 1000, 1 / 1000]) (alpha := 1 / 10000) 5 rfl rfl (by norm_num)
    (fun i hi => by interval_cases i <;> norm_num [Vec.ofList]) (i := 0) (by decide) (.inr ⟨1, by decide, by decide, by norm_num [Vec.ofList]⟩)
  obtain ⟨s2, h2, e2⟩ := C111_degenerate hs (n := 2) (lam := Vec.ofList [1, 2]) (beta := Vec.ofList [2 / 1000, 0]) (alpha := 1 / 10000) 5 rfl rfl (by norm_num)
    (fun i hi => by interval_cases i <;> norm_num [Vec.ofList]) (i := 1) (by decide) (.inl (by norm_num [Vec.ofList]))
  refine ⟨solver, hs, hphys, s0, s1, s2, h0, h1, h2, fun rho dt => ⟨?_, e1 rho dt [], e2 rho dt []⟩⟩
  obtain ⟨a1, a2, a3, a4⟩ := reachable (n := 1) (lam := Vec.ofList [1]) (beta := Vec.ofList [2 / 1000]) (cs := []) (solver := id) rfl rfl h0 rfl
  obtain ⟨P, C, -, -, -, h⟩ := step_solution hs a4 (by rw [a1, a2, a3]; exact hphys) rho
  obtain ⟨s, h, -⟩ := h dt
  exact ⟨s, by rw [calls, h]; rfl⟩

/-- **C112.** Powers come out in the units of the initial power (`k`, any number), and nothing depends on the unit of time (`θ`) or on a common factor `c` of reactivities, fractions and generation time
(reactivities in dollars). -/
theorem C112 {solver : Vec ℝ → Vec ℝ} (hsolver : ExactRootFinder solver) {n : Nat} {lam beta lam' beta' : Vec ℝ} {alpha : ℝ} (p k : ℝ) {c θ : ℝ} (hc : 0 < c) (hθ : 0 < θ)
    (hl : lam.n = n) (hb : beta.n = n) (hl' : lam'.n = n) (hb' : beta'.n = n) (hphys : Physical n lam.v beta.v alpha) (hlam : ∀ i, i < n → lam'.v i = lam.v i / θ) (hbeta : ∀ i, i < n → beta'.v i = c * beta.v i)
    {rhos times rhos' times' : Vec ℝ} (ht : rhos.n ≤ times.n) (hr' : rhos'.n = rhos.n) (ht' : rhos.n ≤ times'.n) (hrho : ∀ i, i < rhos.n → rhos'.v i = c * rhos.v i)
    (htime : ∀ i, i < rhos.n → times'.v i = θ * times.v i) :
    ∃ s0 s0' s s' res res', init lam beta alpha p = ok s0 ∧ init lam' beta' (c * θ * alpha) (k * p) = ok s0' ∧ history solver s0 rhos times = ok (s, res) ∧ history solver s0' rhos' times' = ok (s', res') ∧
      res.n = rhos.n ∧ res'.n = rhos.n ∧ ∀ i, i < rhos.n → res'.v i = k * res.v i := by
  have hσ : Set.BijOn id (Set.Iio n) (Set.Iio n) := Set.bijOn_id _
  have hphys' : Physical n lam'.v beta'.v (c * θ * alpha) := physical_order hσ hc hθ hphys hlam hbeta rfl
  obtain ⟨s0, h0, -⟩ := C01_init (lam := lam) (beta := beta) p hl hb hphys
  obtain ⟨s0', h0', -⟩ := C01_init (lam := lam') (beta := beta') (k * p) hl' hb' hphys'
  have hA : Alike n id k c θ s0 s0' := alike_init hσ hc hθ hl hb hl' hb' hphys hlam hbeta h0 h0'
  have hall := fun m (hm : m ≤ rhos.n) => hA.calls hsolver hσ hc hθ (historySteps rhos times m)
  have : Nonempty State := ⟨s0⟩
  choose! st st' e1 e2 e3 using hall
  have hF : ∀ m, m ≤ rhos.n → (historySteps rhos times m).map (fun x => (c * x.1, θ * x.2)) = historySteps rhos' times' m := fun m hm => by
    unfold historySteps
    rw [List.map_map]
    refine List.map_congr_left fun i hi => ?_
    have hi := List.mem_range.1 hi
    simp only [Function.comp]
    rw [hrho i (by omega), htime i (by omega), mul_sub]
    split
    · rw [mul_zero]
    · rw [htime (i - 1) (by omega)]
  obtain ⟨res, a1, a2, a3, -⟩ := C07_history solver s0 rhos times ht st e1
  obtain ⟨res', b1, b2, b3, -⟩ := C07_history solver s0' rhos' times' (by rw [hr']; exact ht') st' (fun m hm => by rw [hr'] at hm; rw [← hF m hm]; exact e2 m hm)
  exact ⟨s0, s0', _, _, res, res', h0, h0', a1, b1, a2, b2.trans hr', fun i hi => by rw [a3 i hi, b3 i (by rw [hr']; exact hi), (e3 (i + 1) hi).power]⟩

/-! ### examples -/

/-- Two groups exchanged. -/
example : ∃ solver, ExactRootFinder solver ∧ ∃ s0 s0' s s', init exLam exBeta (1 / 10000) 5 = ok s0 ∧ init (Vec.ofList [2, 1]) (Vec.ofList [3 / 1000, 1 / 1000]) (1 / 10000) 5 = ok s0' ∧
    calls solver s0 [(1 / 1000, 3)] = ok s ∧ calls solver s0' [(1 / 1000, 3)] = ok s' ∧ s'.power = s.power ∧ s'.conc.v 0 = s.conc.v 1 := by
  obtain ⟨solver, hs⟩ := exists_exactRootFinder
  obtain ⟨s0, s0', s, s', h1, h2, h3, h4, h5, h6⟩ := C111_partial hs (n := 2) (lam' := Vec.ofList [2, 1]) (beta' := Vec.ofList [3 / 1000, 1 / 1000]) 5 exLam_n exBeta_n rfl rfl exPhysical (σ := fun i => 1 - i)
    ⟨fun i hi => by have : i < 2 := hi; show 1 - i < 2; omega, fun i hi j hj e => by have : i < 2 := hi; have : j < 2 := hj; have : 1 - i = 1 - j := e; omega,
      fun j hj => ⟨1 - j, by have : j < 2 := hj; show 1 - j < 2; omega, by have : j < 2 := hj; show 1 - (1 - j) = j; omega⟩⟩
    (fun i hi => by interval_cases i <;> norm_num [Vec.ofList, exLam]) (fun i hi => by interval_cases i <;> norm_num [Vec.ofList, exBeta]) [(1 / 1000, 3)]
  exact ⟨solver, hs, s0, s0', s, s', h1, h2, h3, h4, h5, h6 0 (by decide)⟩

/-- Two groups, milliseconds instead of seconds, dollars instead of absolute reactivities and kilowatts instead of watts. -/
example : ∃ solver, ExactRootFinder solver ∧ ∃ s0 s0' s s' res res', init exLam exBeta (1 / 10000) 5 = ok s0 ∧ init (Vec.ofList [1 / 1000, 2 / 1000]) (Vec.ofList [1 / 4, 3 / 4]) 25 (5 / 1000) = ok s0' ∧
    history solver s0 (Vec.ofList [1 / 1000, -4 / 1000]) (Vec.ofList [1, 5]) = ok (s, res) ∧ history solver s0' (Vec.ofList [1 / 4, -1]) (Vec.ofList [1000, 5000]) = ok (s', res') ∧
    res'.v 1 = 1 / 1000 * res.v 1 := by
  obtain ⟨solver, hs⟩ := exists_exactRootFinder
  obtain ⟨s0, s0', s, s', res, res', h1, h2, h3, h4, -, -, h5⟩ := C112 hs (n := 2) (lam' := Vec.ofList [1 / 1000, 2 / 1000]) (beta' := Vec.ofList [1 / 4, 3 / 4]) 5 (1 / 1000) (c := 250) (θ := 1000) (by norm_num) (by norm_num)
    exLam_n exBeta_n rfl rfl exPhysical (fun i hi => by interval_cases i <;> norm_num [Vec.ofList, exLam]) (fun i hi => by interval_cases i <;> norm_num [Vec.ofList, exBeta])
    (rhos := Vec.ofList [1 / 1000, -4 / 1000]) (times := Vec.ofList [1, 5]) (rhos' := Vec.ofList [1 / 4, -1]) (times' := Vec.ofList [1000, 5000]) le_rfl rfl le_rfl
    (fun i hi => by have : i < 2 := hi; interval_cases i <;> norm_num [Vec.ofList]) (fun i hi => by have : i < 2 := hi; interval_cases i <;> norm_num [Vec.ofList])
  refine ⟨solver, hs, s0, s0', s, s', res, res', h1, ?_, h3, h4, h5 1 (by decide)⟩
  rw [← h2]
  norm_num

end

end Verif.Kinetics
