import Mathlib.Data.List.Basic

/-!
Vocabulary for C128.
-/

namespace Parcels.Indent

/-- White space within a line: blank, tab, carriage return, vertical tab, form feed. -/
def blanks : List Char := [' ', '\t', '\r', '\x0b', '\x0c']

/-- `short` is `long` without the indentation `w`: `long` begins with `w`, or it is too short to hold it (an empty line, for instance). -/
def Without (w long short : List Char) : Prop := long = w ++ short ∨ (long.length < w.length ∧ short = long)

end Parcels.Indent
