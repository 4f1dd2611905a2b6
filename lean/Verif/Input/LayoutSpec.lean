import Verif.Input.Spec

/-!
# Files that say the same

The content of a file is what its lines say before the first percent sign, in lower case and without white space at the end; lines that say nothing
do not count.
-/

namespace Verif.Input

open Verif

noncomputable section

/-- Words the reader looks for; every keyword contains one of them. -/
def vocabulary : List String :=
  ["solver", "geometry", "mesh", "plots", "material", "accuracy", "max_iteration_number", "albedo", "heat_boundary_conditions", "energies", "direction",
    "eigenmodes", "ext_source", "relaxation_parameter", "generation_time", "initial_power", "delayed_constants", "delayed_fractions", "times",
    "reactivities", "thermal_power", "heat_sources", "temperatures", "thermal_conductivity", "ni(", "chi(", "fission(", "total(", "diffcoeff(",
    "scattmatrix("]

/-- What stands behind a percent sign, in a line that does not begin with one, mentions none of the keywords. -/
def Harmless (lines : List Text) : Prop := ∀ l ∈ active lines, ∀ m r, Cut l m → l = m ++ r → ∀ w ∈ vocabulary, ¬ w.toList <:+: small r

/-- The text of the line `l` is `t`: lower case, no comment, no white space at the end. -/
def Gist (l t : Text) : Prop := ∃ s, Cut (small l) (t ++ s) ∧ (∀ c ∈ s, White c) ∧ ∀ c ∈ t.getLast?, ¬ White c

/-- The texts of the lines, one after the other, without the empty ones. -/
inductive Content : List Text → List Text → Prop
  | nil : Content [] []
  | skip {l : Text} {ls ts : List Text} (hl : Gist l []) (h : Content ls ts) : Content (l :: ls) ts
  | line {l t : Text} {ls ts : List Text} (hl : Gist l t) (ht : t ≠ []) (h : Content ls ts) : Content (l :: ls) (t :: ts)

/-- The first line that does not begin with a percent sign says something. -/
def Opens (lines : List Text) : Prop := ∃ l t, (active lines).head? = some l ∧ Gist l t ∧ t ≠ []

end

end Verif.Input
