import Verif.Kinetics.OrderSteps
import Verif.Kinetics.Props

/-!
# Property theorems: more reactivity never gives less power (C109)
-/

namespace Verif.Kinetics

open Verif Outcome Finset

noncomputable section

/-- **C109.** Two reactors with the same data start with precursors in equilibrium and positive power, the second with no less than the first; in every step of time the second has no less reactivity. Then no call
fails, the first keeps a positive power and no negative concentrations, the second has no less of anything at the end, and more power if it ever had more, or ever had more reactivity for some time. -/
theorem C109 {solver : Vec ℝ → Vec ℝ} (hsolver : ExactRootFinder solver) {n : Nat} {lam beta : Vec ℝ} {alpha p p' : ℝ} (hl : lam.n = n) (hb : beta.n = n)
    (hphys : Physical n lam.v beta.v alpha) (hp : 0 < p) (hpp : p ≤ p') {cs cs' : List (ℝ × ℝ)} (hcs : List.Forall₂ (fun c c' => c.1 ≤ c'.1 ∧ c.2 = c'.2 ∧ 0 ≤ c.2) cs cs') :
    ∃ s0 s0' s s', init lam beta alpha p = ok s0 ∧ init lam beta alpha p' = ok s0' ∧ calls solver s0 cs = ok s ∧ calls solver s0' cs' = ok s' ∧
      0 < s.power ∧ s.power ≤ s'.power ∧ (∀ i, i < n → 0 ≤ s.conc.v i ∧ s.conc.v i ≤ s'.conc.v i) ∧
      (p < p' ∨ (∃ q ∈ cs.zip cs', q.1.1 < q.2.1 ∧ 0 < q.1.2) → s.power < s'.power) := by
  obtain ⟨s0, h0, h1, -⟩ := C01_init (lam := lam) (beta := beta) p hl hb hphys
  obtain ⟨s0', h0', h1', -⟩ := C01_init (lam := lam) (beta := beta) p' hl hb hphys
  obtain ⟨s, s', e1, e2, e3, e4⟩ := (ordered_init hl hb hphys hp hpp h0 h0').calls hsolver hcs
  rw [h1, h1'] at e4
  exact ⟨s0, s0', s, s', h0, h0', e1, e2, e3.pos, e3.le, fun i hi => ⟨e3.conc i hi, e3.le_conc i hi⟩, e4⟩

/-- The time at which interval `k` of a history begins. -/
def beginning (times : Vec ℝ) (k : Nat) : ℝ := if k = 0 then 0 else times.v (k - 1)

/-- **C109, histories.** The same for two histories of reactivity at the same times, which do not go back: every power the program gives for the first is positive and no larger than that for the second, and smaller from
the first interval on in which the second has more reactivity. -/
theorem C109_history {solver : Vec ℝ → Vec ℝ} (hsolver : ExactRootFinder solver) {n : Nat} {lam beta : Vec ℝ} {alpha p : ℝ} (hl : lam.n = n) (hb : beta.n = n)
    (hphys : Physical n lam.v beta.v alpha) (hp : 0 < p) {rhos rhos' times : Vec ℝ} (hn : rhos'.n = rhos.n) (ht : rhos.n ≤ times.n) (htime : ∀ k, k < rhos.n → beginning times k ≤ times.v k)
    (hrho : ∀ k, k < rhos.n → rhos.v k ≤ rhos'.v k) :
    ∃ s0 s s' res res', init lam beta alpha p = ok s0 ∧ history solver s0 rhos times = ok (s, res) ∧ history solver s0 rhos' times = ok (s', res') ∧ res.n = rhos.n ∧ res'.n = rhos.n ∧
      ∀ i, i < rhos.n → 0 < res.v i ∧ res.v i ≤ res'.v i ∧ ((∃ k, k ≤ i ∧ rhos.v k < rhos'.v k ∧ beginning times k < times.v k) → res.v i < res'.v i) := by
  obtain ⟨s0, h0, -⟩ := C01_init (lam := lam) (beta := beta) p hl hb hphys
  have hO := ordered_init hl hb hphys hp le_rfl h0 h0
  have hF : ∀ k, k ≤ rhos.n → List.Forall₂ (fun c c' : ℝ × ℝ => c.1 ≤ c'.1 ∧ c.2 = c'.2 ∧ 0 ≤ c.2) (historySteps rhos times k) (historySteps rhos' times k) := fun k hk => by
    unfold historySteps
    rw [List.forall₂_map_left_iff, List.forall₂_map_right_iff, List.forall₂_same]
    intro i hi
    have hi' : i < rhos.n := (List.mem_range.1 hi).trans_le hk
    exact ⟨hrho i hi', rfl, sub_nonneg.2 (htime i hi')⟩
  have hall := fun k (hk : k ≤ rhos.n) => hO.calls hsolver (hF k hk)
  have : Nonempty State := ⟨s0⟩
  choose! st st' e1 e2 e3 e4 using hall
  obtain ⟨res, a1, a2, a3, -⟩ := C07_history solver s0 rhos times ht st e1
  obtain ⟨res', b1, b2, b3, -⟩ := C07_history solver s0 rhos' times (hn ▸ ht) st' (fun k hk => e2 k (hn ▸ hk))
  refine ⟨s0, _, _, res, res', h0, a1, b1, a2, b2.trans hn, fun i hi => ?_⟩
  rw [a3 i hi, b3 i (hn ▸ hi)]
  refine ⟨(e3 (i + 1) hi).pos, (e3 (i + 1) hi).le, ?_⟩
  rintro ⟨k, hk, h1, h2⟩
  refine e4 (i + 1) hi (.inr ⟨((rhos.v k, times.v k - beginning times k), (rhos'.v k, times.v k - beginning times k)), ?_, h1, sub_pos.2 h2⟩)
  unfold historySteps
  rw [List.zip_map, List.mem_map]
  refine ⟨(k, k), ?_, rfl⟩
  exact List.mem_iff_getElem.2 ⟨k, by simp; omega, by simp⟩

/-- **C109, from equilibrium.** A reactor that starts in equilibrium never falls below its power without negative reactivities, and never rises above it without positive ones; and it is above (below) from the first
interval on whose reactivity is positive (negative). -/
theorem C109_sign {solver : Vec ℝ → Vec ℝ} (hsolver : ExactRootFinder solver) {n : Nat} {lam beta : Vec ℝ} {alpha p : ℝ} (hl : lam.n = n) (hb : beta.n = n)
    (hphys : Physical n lam.v beta.v alpha) (hp : 0 < p) {rhos times : Vec ℝ} (ht : rhos.n ≤ times.n) (htime : ∀ k, k < rhos.n → beginning times k ≤ times.v k) :
    ∃ s0 s res, init lam beta alpha p = ok s0 ∧ history solver s0 rhos times = ok (s, res) ∧ res.n = rhos.n ∧ (∀ i, i < rhos.n → 0 < res.v i) ∧
      ((∀ k, k < rhos.n → 0 ≤ rhos.v k) → ∀ i, i < rhos.n → p ≤ res.v i ∧ ((∃ k, k ≤ i ∧ 0 < rhos.v k ∧ beginning times k < times.v k) → p < res.v i)) ∧
      ((∀ k, k < rhos.n → rhos.v k ≤ 0) → ∀ i, i < rhos.n → res.v i ≤ p ∧ ((∃ k, k ≤ i ∧ rhos.v k < 0 ∧ beginning times k < times.v k) → res.v i < p)) := by
  obtain ⟨s0, s, _, res, _, h0, h1, -, h2, -, h3⟩ := C109_history hsolver hl hb hphys hp (rhos := rhos) (rhos' := rhos) rfl ht htime (fun _ _ => le_rfl)
  -- the critical reactor
  have flat : ∀ {s' : State} {res' : Vec ℝ}, history solver s0 ⟨rhos.n, fun _ => 0⟩ times = ok (s', res') → ∀ i, i < rhos.n → res'.v i = p := by
    intro s' res' h' i hi
    have hst : ∀ k, k ≤ rhos.n → ∃ s, calls solver s0 (historySteps ⟨rhos.n, fun _ => 0⟩ times k) = ok s ∧ s.power = p := fun k _ => by
      obtain ⟨s, e1, e2, -⟩ := C03_equilibrium hsolver hl hb hphys h0 ((List.range k).map (fun i => times.v i - if i = 0 then 0 else times.v (i - 1)))
      exact ⟨s, by rw [← e1, historySteps, List.map_map]; rfl, e2⟩
    have : Nonempty State := ⟨s0⟩
    choose! st e1 e2 using hst
    obtain ⟨res'', a1, -, a3, -⟩ := C07_history solver s0 ⟨rhos.n, fun _ => 0⟩ times ht st e1
    rw [h'] at a1
    cases a1
    rw [a3 i hi, e2 (i + 1) hi]
  refine ⟨s0, s, res, h0, h1, h2, fun i hi => (h3 i hi).1, fun hr i hi => ?_, fun hr i hi => ?_⟩
  · obtain ⟨t0, t, t', r, r', g0, g1, g2, -, -, g3⟩ := C109_history hsolver hl hb hphys hp (rhos := ⟨rhos.n, fun _ => 0⟩) (rhos' := rhos) rfl ht htime hr
    rw [h0] at g0
    cases g0
    rw [h1] at g2
    cases g2
    have := (g3 i hi).2
    rwa [flat g1 i hi] at this
  · obtain ⟨t0, t, t', r, r', g0, g1, g2, -, -, g3⟩ := C109_history hsolver hl hb hphys hp (rhos := rhos) (rhos' := ⟨rhos.n, fun _ => 0⟩) rfl ht htime hr
    rw [h0] at g0
    cases g0
    rw [h1] at g1
    cases g1
    have := (g3 i hi).2
    rwa [flat g2 i hi] at this

/-! ### examples -/

/-- Two groups, a step of reactivity against a smaller one, then the same in both: the power stays larger. -/
example : ∃ solver, ExactRootFinder solver ∧ ∃ s0 s0' s s', init exLam exBeta (1 / 10000) 5 = ok s0 ∧ init exLam exBeta (1 / 10000) 5 = ok s0' ∧
    calls solver s0 [(-1 / 1000, 3), (-1, 2)] = ok s ∧ calls solver s0' [(1 / 1000, 3), (-1, 2)] = ok s' ∧ 0 < s.power ∧ s.power < s'.power := by
  obtain ⟨solver, hs⟩ := exists_exactRootFinder
  obtain ⟨s0, s0', s, s', h1, h2, h3, h4, h5, -, -, h6⟩ := C109 hs exLam_n exBeta_n exPhysical (p := 5) (p' := 5) (by norm_num) le_rfl
    (cs := [(-1 / 1000, 3), (-1, 2)]) (cs' := [(1 / 1000, 3), (-1, 2)]) (.cons (by norm_num) (.cons (by norm_num) .nil))
  exact ⟨solver, hs, s0, s0', s, s', h1, h2, h3, h4, h5, h6 (.inr ⟨_, List.mem_cons_self, by norm_num⟩)⟩

/-- A rod is drawn half way, then out: the power has risen at both times. -/
example : ∃ solver, ExactRootFinder solver ∧ ∃ s0 s res, init exLam exBeta (1 / 10000) 5 = ok s0 ∧
    history solver s0 (Vec.ofList [1 / 1000, 2 / 1000]) (Vec.ofList [1, 2]) = ok (s, res) ∧ 5 < res.v 0 ∧ 5 < res.v 1 := by
  obtain ⟨solver, hs⟩ := exists_exactRootFinder
  obtain ⟨s0, s, res, h1, h2, -, -, h3, -⟩ := C109_sign hs exLam_n exBeta_n exPhysical (p := 5) (by norm_num) (rhos := Vec.ofList [1 / 1000, 2 / 1000]) (times := Vec.ofList [1, 2]) le_rfl
    (fun k hk => by
      have : k < 2 := hk
      interval_cases k <;> norm_num [beginning, Vec.ofList])
  have h4 := h3 (fun k hk => by
    have : k < 2 := hk
    interval_cases k <;> norm_num [Vec.ofList])
  have h0 : ∃ k, k ≤ 0 ∧ 0 < (Vec.ofList [(1 / 1000 : ℝ), 2 / 1000]).v k ∧ beginning (Vec.ofList [1, 2]) k < (Vec.ofList [(1 : ℝ), 2]).v k := ⟨0, le_rfl, by norm_num [Vec.ofList], by norm_num [beginning, Vec.ofList]⟩
  exact ⟨solver, hs, s0, s, res, h1, h2, (h4 0 (by decide)).2 h0, (h4 1 (by decide)).2 (h0.imp fun k h => ⟨h.1.trans (by omega), h.2⟩)⟩

end

end Verif.Kinetics
