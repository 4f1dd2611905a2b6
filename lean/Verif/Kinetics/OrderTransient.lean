import Verif.Kinetics.OrderProps
import Verif.Kinetics.Surplus

/-!
# Property theorem: the order of two transients (C109)
-/

namespace Verif.Kinetics

open Verif Outcome

/-- **C109, without the program.** Of two transients from the same equilibrium the one with more reactivity has more power at the ends of the intervals. -/
theorem C109_transient {n m : Nat} {lam beta : Nat → ℝ} {alpha power : ℝ} {rhos rhos' times : Nat → ℝ} (hphys : Physical n lam beta alpha) (hp : 0 < power)
    (htime : ∀ k, k < m → (if k = 0 then 0 else times (k - 1)) ≤ times k) (hrho : ∀ k, k < m → rhos k ≤ rhos' k) {P P' : Nat → ℝ → ℝ} {C C' : Nat → Nat → ℝ → ℝ}
    (h : Transient n lam beta alpha power m rhos times P C) (h' : Transient n lam beta alpha power m rhos' times P' C') {k : Nat} (hk : k < m) :
    0 < P k (times k) ∧ P k (times k) ≤ P' k (times k) ∧
      ((∃ j, j ≤ k ∧ rhos j < rhos' j ∧ (if j = 0 then 0 else times (j - 1)) < times j) → P k (times k) < P' k (times k)) := by
  obtain ⟨solver, hs⟩ := exists_exactRootFinder
  obtain ⟨s0, s, s', res, res', a0, a1, a2, a3, a4, a5⟩ := C109_history hs (lam := ⟨n, lam⟩) (beta := ⟨n, beta⟩) rfl rfl hphys hp (rhos := ⟨m, rhos⟩) (rhos' := ⟨m, rhos'⟩) (times := ⟨m, times⟩) rfl le_rfl htime hrho
  obtain ⟨t0, t, r, b0, b1, b2, b3⟩ := history_transient hs (lam := ⟨n, lam⟩) (beta := ⟨n, beta⟩) rfl hphys (rhos := ⟨m, rhos⟩) (times := ⟨m, times⟩) rfl h
  obtain ⟨t0', t', r', c0, c1, c2, c3⟩ := history_transient hs (lam := ⟨n, lam⟩) (beta := ⟨n, beta⟩) rfl hphys (rhos := ⟨m, rhos'⟩) (times := ⟨m, times⟩) rfl h'
  rw [a0] at b0 c0
  cases b0
  cases c0
  rw [a1] at b1
  rw [a2] at c1
  cases b1
  cases c1
  have := a5 k hk
  rw [b3 k hk, c3 k hk] at this
  exact this

end Verif.Kinetics
