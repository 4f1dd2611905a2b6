import Verif.Output.Data

/-!
# What the output has to look like, without reference to the model
-/

namespace Verif.Output

open Verif Outcome

/-- The word for a level on the command line. -/
def Level.word : Level → Text
  | .critical => "CRITICAL".toList
  | .err => "ERR".toList
  | .warn => "WARN".toList
  | .info => "INFO".toList
  | .debug => "DEBUG".toList
  | .trace => "TRACE".toList

/-- The texts of the messages that are at least as important as the level `a`. -/
def shown (a : Level) (ms : List Message) : List Text := (ms.filter fun m => m.1.rank ≤ a.rank).map Prod.snd

/-- The lines every log begins with. -/
def opening (e : Env) : List Text :=
  [e.stamp .stamped .critical "Start simulation".toList, e.stamp .stamped .critical ("ALMOST Version: ".toList ++ e.version ++ " \n".toList)]

/-- The line every log of a calculation that came to its end ends with. -/
def closing (e : Env) : List Text := [e.stamp .stamped .critical "End simulation".toList]

/-- The complaint about a word that is no level. -/
def complaint (e : Env) : List Text :=
  [e.stamp .standard .critical "Trace Level not recognized".toList,
   e.stamp .standard .critical "Please use capital letters: CRITICAL, ERR, WARN, INFO, DEBUG or TRACE".toList,
   e.stamp .standard .critical "Trace Level defaulted to CRITICAL \n".toList]

/-- Critical messages. -/
def urgent (ls : List Text) : List Message := ls.map fun t => (.critical, t)

/-- The output file can be opened for writing, and there is none yet or the old one can be removed. -/
structure Free (e : Env) (disk : Text → Option (List Text)) (output : Text) : Prop where
  writable : e.writable output = true
  fresh : disk output = none ∨ e.removable output = true

/-- One of the characters that separate the parts of a path. -/
def Separator (c : Char) : Prop := c = '/' ∨ c = '\\'

/-- The path is made of the directory `dir`, a separator, and the name `name`, which has no separator. -/
def Path (path dir name : Text) : Prop := ∃ c, Separator c ∧ path = dir ++ c :: name ∧ ∀ x ∈ name, ¬ Separator x

/-- The name is made of `base`, a dot, and an extension without a dot. -/
def Extended (name base : Text) : Prop := ∃ ext : Text, name = base ++ '.' :: ext ∧ '.' ∉ ext

end Verif.Output
