import Mathlib.Data.List.Basic

/-!
Model of `fix_indentation` (parcels/kernel.py:49-58), by which kernels can be defined inside other functions: the source of a kernel, as lines, before it is parsed
(kernel.py:114).

Simplification: the text is given as its lines (`split('\n')` and `join` undo each other).
-/

namespace Parcels.Indent

/-- White space in a line (`\s`). Models: kernel.py:49. -/
def isSpace (c : Char) : Bool := c == ' ' || c == '\t' || c == '\r' || c == '\x0b' || c == '\x0c'

/-- `line.replace(w, '', 1)`, for a nonempty `w`: its first occurrence is left out, wherever it is. Models: kernel.py:57. -/
def removeFirst (w : List Char) : List Char → List Char
  | [] => []
  | c :: l => if w.isPrefixOf (c :: l) then (c :: l).drop w.length else c :: removeFirst w l

/-- `fix_indentation`: the white space before the first line is the indentation. Models: kernel.py:52-58. -/
def fix : List (List Char) → List (List Char)
  | [] => []
  | l0 :: ls =>
    let w := l0.takeWhile isSpace
    if w = [] then l0 :: ls else (l0 :: ls).map (removeFirst w)

end Parcels.Indent
