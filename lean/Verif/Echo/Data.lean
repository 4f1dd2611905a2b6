import Verif.Input.Data

/-!
# What the program prints while it reads a file (shared by the model and the specification)
-/

namespace Verif.Echo

open Verif

/-- A `std::string`, as in `Verif.Input`. -/
abbrev Text := Input.Text

/-- How the reader speaks: the path of the file as it is given on the command line, the text of a number in the format `7.6e`, and the text of a number of entries that is printed as a
`double` with the format `{}` (`/repo/Backbone/IO/Input.cpp:642`). -/
structure Voice where
  path : Text
  fmt : ℝ → Text
  count : Nat → Text

/-- The lines printed, all with the level `CRITICAL`, and how it ended. What was printed up to the end remains, however it ends. -/
structure Tell (α : Type) where
  said : List Text
  res : Outcome α

end Verif.Echo
