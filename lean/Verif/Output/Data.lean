import Verif.Input.Data

/-!
# Messages, the output file, figures and the surroundings of the program (shared by the model and the specification)
-/

namespace Verif.Output

open Verif Outcome

/-- A `std::string`, as in `Verif.Input`. -/
abbrev Text := Input.Text

/-- `TraceLevel`, `/repo/Backbone/IO/TraceLevel.h:4`. -/
inductive Level
  | critical | err | warn | info | debug | trace
  deriving DecidableEq

/-- The numbers of `TraceLevel`, `/repo/Backbone/IO/TraceLevel.h:4`: the larger, the less important is a message. -/
def Level.rank : Level → Nat
  | .critical => 0
  | .err => 1
  | .warn => 2
  | .info => 3
  | .debug => 4
  | .trace => 5

/-- A message and its level. -/
abbrev Message := Level × Text

/-- The pattern of the lines of the logger: that of the library before any call of `set_pattern`, the one with time and name
(`/repo/Backbone/IO/Output.cpp:14,22`), and the plain message (line 17). -/
inductive Pattern
  | standard | stamped | plain
  deriving DecidableEq

/-- The levels of the logging library, `spdlog::level`, from the least to the most important. -/
inductive Severity
  | trace | debug | info | warn | err | critical
  deriving DecidableEq

/-- The order of `spdlog::level`. -/
def Severity.rank : Severity → Nat
  | .trace => 0
  | .debug => 1
  | .info => 2
  | .warn => 3
  | .err => 4
  | .critical => 5

/-- The logger: the least severity that is written, the pattern, and the file written to. -/
structure Logger where
  threshold : Severity
  pattern : Pattern
  file : Text

/-- A figure: the file it is saved in, the text at the vertical axis, the positions, and the curves with their labels. -/
structure Figure where
  file : Text
  axis : Text
  xs : List ℝ
  curves : List (Text × List Fl)

/-- The surroundings of the program and the members of `Output` (`/repo/Backbone/IO/Output.h:50-56`): the files (`none` if there is no such file; a
log file has one entry per message), what was written to the console, the figures saved, the logger (`none` is the null pointer), the names, and the level. -/
structure World where
  disk : Text → Option (List Text)
  console : List Text
  drawn : List Figure
  logger : Option Logger
  inputPath : Text
  inputName : Text
  outputPath : Text
  outputName : Text
  fullName : Text
  level : Option Level

/-- The surroundings when the program starts, with the given files; `/repo/Backbone/IO/Output.h:11-12`. -/
def World.start (disk : Text → Option (List Text)) : World := ⟨disk, [], [], none, [], [], [], [], [], none⟩

/-- What the program depends on besides its arguments and files: the library functions of the reader and of the solvers, the text of a number in the
format `7.6e`, the text of a line with a pattern other than the plain one, the version, which files can be removed and opened for writing, the messages printed while the file is read and
the solvers iterate, the least entry of a list, and the reactor before the file is read. Simplifications: the time in a stamp does not change; the messages printed
while reading and iterating are any function of the input file, and they are printed before the results. -/
structure Env where
  lib : Input.Lib
  tools : Calc.Tools
  fmt : Fl → Text
  stamp : Pattern → Severity → Text → Text
  version : Text
  removable : Text → Bool
  writable : Text → Bool
  talk : Option (List Text) → List Message
  small : List Fl → Fl
  plant : Calc.Plant

end Verif.Output
