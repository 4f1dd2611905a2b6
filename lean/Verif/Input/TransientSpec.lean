import Verif.Input.RunSpec

/-! # Specification: input files for a kinetics calculation -/

namespace Verif.Input

open Verif

/-- A file for a kinetics calculation: the decay constants `lam` and the fractions `beta` of the delayed neutrons, the generation time `alpha`, the power `power` to start with, and the
reactivities `rhos` up to the times `times`. -/
structure TransientFile (lib : Lib) (lines : List Text) (lam beta : Vec ℝ) (alpha power : ℝ) (times rhos : Vec ℝ) : Prop where
  solvers : ∃ c, Card lines "solvers" [c, "kinetics".toList]
  header : ∃ c w, CardIn lines "solver kinetics".toList 0 4294967295 [c, w]
  accuracy : ∃ v x, Setting lines .kinetics "accuracy" [v] ∧ lib.stod v = .ok x
  limit : ∃ v n, Setting lines .kinetics "max_iteration_number" [v] ∧ Numeral v n ∧ n ≤ 2147483647
  constants : ListFile lib lines "delayed_constants" lam
  fractions : ListFile lib lines "delayed_fractions" beta
  generation : NumberFile lib lines "generation_time" alpha
  start : NumberFile lib lines "initial_power" power
  times : ListFile lib lines "times" times
  reactivities : ListFile lib lines "reactivities" rhos
  plots : Silent lines "plots".toList 0 4294967295 ∨ ∃ c ws, ws ≠ [] ∧ Card lines "plots" (c :: ws)

end Verif.Input
