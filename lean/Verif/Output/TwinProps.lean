import Verif.Output.TransientProps
import Verif.Kinetics.SymmetryProps
import Verif.Kinetics.OrderTransient

/-!
# Property theorems: kinetics calculations of files, compared (C109, C111)
-/

namespace Verif.Output

open Verif Outcome Input

noncomputable section

variable {e : Env} {disk : Text → Option (List Text)} {prog input output base : Text} {names : List Text} {raw lines : List Text} {lam beta times rhos : Vec ℝ} {alpha power : ℝ}

/-- **C111, whole program.** A file that gives two groups the same decay constant, or a group no fraction, is read without complaint; its calculation divides by zero. -/
theorem C111_file (hs : Started e disk input output names base) (hd : disk input = some raw) (hraw : Stored raw lines) (hc : Clean e.lib lines)
    (hF : TransientFile e.lib lines lam beta alpha power times rhos) (hn : times.n = rhos.n) (hpos : 0 < rhos.n) (hb : beta.n = lam.n) (ha : alpha ≠ 0) (hlam : ∀ i, i < lam.n → lam.v i ≠ 0)
    {i : Nat} (hi : i < lam.n) (hdeg : beta.v i = 0 ∨ ∃ j, j < lam.n ∧ j ≠ i ∧ lam.v j = lam.v i) (hroots : Kinetics.ExactRootFinder e.tools.roots) (a : Level) :
    ((main e [prog, input, output, a.word]).run (World.start disk)).2 = nonfinite := by
  obtain ⟨r, hr, hl, hR⟩ := transientFile_read hc hraw hF hn e.plant
  obtain ⟨o, ho, hk⟩ := hR.solvers
  rw [← hd] at hr
  have hwk := work_eq hs hr
  have h1 := hR.lam.n
  have h2 := hR.beta.n
  have h3 := hR.rhos.n
  have h4 := hR.times.n
  obtain ⟨s0, h0, h5⟩ := Kinetics.C111_degenerate hroots (lam := r.plant.kinetics.lam) (beta := r.plant.kinetics.beta) (alpha := r.plant.kinetics.alpha) r.plant.kinetics.power h1 (h2.trans hb)
    (by rw [hR.alpha]; exact ha) (fun i hi => by rw [hR.lam.v i hi]; exact hlam i hi) hi (by
      rw [hR.beta.v i (by omega)]
      refine hdeg.imp id ?_
      rintro ⟨j, hj, hji, e⟩
      exact ⟨j, hj, hji, by rw [hR.lam.v j hj, hR.lam.v i hi, e]⟩)
  have h6 : ∀ rho dt, Kinetics.step e.tools.roots s0 rho dt = nonfinite := fun rho dt => by
    have := h5 rho dt []
    unfold Kinetics.calls at this
    cases hst : Kinetics.step e.tools.roots s0 rho dt with
    | ok s => rw [hst] at this; cases this
    | exit => rw [hst] at this; cases this
    | throws x => rw [hst] at this; cases this
    | ub => rw [hst] at this; cases this
    | nonfinite => rfl
  have h7 : Kinetics.history e.tools.roots s0 r.plant.kinetics.rhos r.plant.kinetics.times = nonfinite := by
    unfold Kinetics.history
    refine loop_fail_at (k := 0) (t := (s0, Vec.const 0 0)) (fun _ => rfl) (by omega) rfl ?_
    rw [if_neg (by omega), Vec.get_ok (by omega), ok_bind, Vec.get_ok (by omega), ok_bind, h6]
    rfl
  have h8 : calculate e base r.plots r.plant [o] = nonfinite := by
    show (if o.kind = .ads then ads e o r.plant else single e base r.plots o r.plant) = _
    rw [if_neg (by rw [hk]; decide)]
    unfold single Calc.solver Calc.kineticsPart
    simp only [hk, h0, h7, ok_bind]
    rfl
  rw [(main_word prog hs.free hs.apart a).result, hwk, ho, h8]
  rfl

/-- **C109, whole program.** The log of a kinetics calculation shows positive powers; with any other reactivities, none of them lower (higher), the reactor would have had no less (no more) power at any of the times,
and more (less) from the first difference on. -/
theorem C109_log (hs : Started e disk input output names base) (hd : disk input = some raw) (hraw : Stored raw lines) (hc : Clean e.lib lines)
    (hF : TransientFile e.lib lines lam beta alpha power times rhos) (hn : times.n = rhos.n) (hb : beta.n = lam.n) (hphys : Kinetics.Physical lam.n lam.v beta.v alpha) (hpow : 0 < power)
    (htime : ∀ k, k < rhos.n → (if k = 0 then 0 else times.v (k - 1)) < times.v k) (hq : Silent lines "plots".toList 0 4294967295) (hroots : Kinetics.ExactRootFinder e.tools.roots) (a : Level) :
    ∃ x : Nat → ℝ, (∃ p', Logged e a output names (e.talk (some raw)) p' (block "Output power [W]: " ((List.range rhos.n).map fun k => e.fmt (.fin (x k)))) []
        ((main e [prog, input, output, a.word]).run (World.start disk))) ∧ (∀ k, k < rhos.n → 0 < x k) ∧
      ∀ other P C, Kinetics.Transient lam.n lam.v beta.v alpha power rhos.n other times.v P C →
        ((∀ k, k < rhos.n → rhos.v k ≤ other k) → ∀ k, k < rhos.n → x k ≤ P k (times.v k) ∧ ((∃ j, j ≤ k ∧ rhos.v j < other j) → x k < P k (times.v k))) ∧
        ((∀ k, k < rhos.n → other k ≤ rhos.v k) → ∀ k, k < rhos.n → P k (times.v k) ≤ x k ∧ ((∃ j, j ≤ k ∧ other j < rhos.v j) → P k (times.v k) < x k)) := by
  obtain ⟨⟨P, C, hT⟩, h⟩ := C92_partial (prog := prog) hs hd hraw hc hF hn hb hphys hq hroots a
  have ht : ∀ k, k < rhos.n → (if k = 0 then 0 else times.v (k - 1)) ≤ times.v k := fun k hk => (htime k hk).le
  refine ⟨fun k => P k (times.v k), h P C hT, fun k hk => (Kinetics.C109_transient hphys hpow ht (fun _ _ => le_rfl) hT hT hk).1, fun other P' C' hT' => ⟨fun ho k hk => ?_, fun ho k hk => ?_⟩⟩
  · have := Kinetics.C109_transient hphys hpow ht ho hT hT' hk
    exact ⟨this.2.1, fun ⟨j, hj, h1⟩ => this.2.2 ⟨j, hj, h1, htime j (by omega)⟩⟩
  · have := Kinetics.C109_transient hphys hpow ht ho hT' hT hk
    exact ⟨this.2.1, fun ⟨j, hj, h1⟩ => this.2.2 ⟨j, hj, h1, htime j (by omega)⟩⟩

/-! ### examples -/

/-- The pulse of the examples: with twice the reactivity in the first second the power would have been higher at both times. -/
example : ∃ x : Nat → ℝ, (∃ p', Logged pulseEnv .err "out/bar.log".toList ["Input file: in/bar.txt".toList, "Output file: bar.log \n".toList] (pulseEnv.talk (some (pulseFile pulseTwo))) p'
      (block "Output power [W]: " ((List.range 2).map fun k => pulseEnv.fmt (.fin (x k)))) [] (pulseRun pulseTwo)) ∧ 0 < x 0 ∧ 0 < x 1 ∧
    ∃ P C, Kinetics.Transient 2 (pulseVec pulseTwo.constants).v (pulseVec pulseTwo.fractions).v (1 / 10000) 5 2 (Vec.ofList [2 / 1000, -4 / 1000]).v (pulseVec ["1.0", "5.0"]).v P C ∧
      x 0 < P 0 ((pulseVec ["1.0", "5.0"]).v 0) ∧ x 1 < P 1 ((pulseVec ["1.0", "5.0"]).v 1) := by
  have hv : pulseVec ["1.0", "5.0"] = Vec.ofList [1, 5] := by simp [pulseVec]
  have hr : pulseVec ["1.0e-03", "-4.0e-03"] = Vec.ofList [1 / 1000, -4 / 1000] := by simp [pulseVec]
  obtain ⟨x, h1, h2, h3⟩ := C109_log (prog := "almost".toList) (pulseStarted _) (reportDisk_get _) (pulseStored pulseTwo (by simp [pulses])) (pulseLib_clean _)
    (pulse_file (q := pulseTwo) (by simp [pulses])) rfl rfl pulseTwo_physical (by norm_num) (fun k hk => by
      have : k < 2 := hk
      show _ < (pulseVec ["1.0", "5.0"]).v k
      show (if k = 0 then 0 else (pulseVec ["1.0", "5.0"]).v (k - 1)) < _
      rw [hv]
      interval_cases k <;> norm_num [Vec.ofList]) (pulseSilent (by simp)) pulseRoots .err
  obtain ⟨P, C, hT⟩ := Kinetics.exists_transient pulseTwo_physical 5 2 (Vec.ofList [2 / 1000, -4 / 1000]).v (pulseVec ["1.0", "5.0"]).v
  have h4 := (h3 _ P C hT).1 (fun k hk => by
    have : k < 2 := hk
    rw [hr]
    interval_cases k <;> norm_num [Vec.ofList])
  have h5 : (pulseVec ["1.0e-03", "-4.0e-03"]).v 0 < (Vec.ofList [(2 / 1000 : ℝ), -4 / 1000]).v 0 := by
    rw [hr]
    norm_num [Vec.ofList]
  exact ⟨x, h1, h2 0 (by decide), h2 1 (by decide), P, C, hT, (h4 0 (by decide)).2 ⟨0, le_rfl, h5⟩, (h4 1 (by decide)).2 ⟨0, by decide, h5⟩⟩


/-- Two groups with the decay constant 1. -/
example : (pulseRun pulseTwin).2 = nonfinite :=
  C111_file (prog := "almost".toList) (pulseStarted _) (reportDisk_get _) (pulseStored pulseTwin (by simp [pulses])) (pulseLib_clean _)
    (pulse_file (q := pulseTwin) (by simp [pulses])) rfl (by decide) rfl (by norm_num)
    (fun i hi => by
      have : i < 2 := hi
      have h : pulseVec ["1.0", "1.0"] = Vec.ofList [1, 1] := by simp [pulseVec]
      show (pulseVec ["1.0", "1.0"]).v i ≠ 0
      rw [h]
      interval_cases i <;> norm_num [Vec.ofList])
    (i := 0) (by decide) (.inr ⟨1, by decide, by decide, by
      have h : pulseVec ["1.0", "1.0"] = Vec.ofList [1, 1] := by simp [pulseVec]
      show (pulseVec ["1.0", "1.0"]).v 1 = (pulseVec ["1.0", "1.0"]).v 0
      rw [h]
      norm_num [Vec.ofList]⟩) pulseRoots .err

end

end Verif.Output
