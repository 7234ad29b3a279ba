import Mathlib.Data.List.Basic
import Mathlib.Data.List.Nodup

/-!
Model of the names that the generated C function of a kernel declares (parcels/compilation/codegenerator.py:241-264, 411-455, 474-490, 785,
kernel.py:106-109, 475).

Simplifications: the keywords of C and the names of the C headers are not modelled.
-/

namespace Parcels.Scope

/-- What the names depend on: the variables of the Python function, its arguments first (`co_varnames`; for a concatenated kernel, those of
all its parts, kernel.py:475); the C names of the fields it samples, the fieldset's constants it uses, and the number of samples. -/
structure KernelNames where
  funcvars : List String
  fields : List String
  consts : List String
  samples : Nat

/-- `part in s`. Models: compilation/codegenerator.py:262 (`in` on strings). -/
def contains (part : List Char) : List Char → Bool
  | [] => part.isPrefixOf []
  | c :: s => part.isPrefixOf (c :: s) || contains part s

/-- `pnum` and names that contain `parcels_tmpvar` raise NotImplementedError. Models: codegenerator.py:262-263. -/
def rejected (k : KernelNames) : Bool :=
  k.funcvars.any fun v => decide (v = "pnum") || contains "parcels_tmpvar".toList v.toList

/-- Repeated names are removed, each time the first one. Models: codegenerator.py:436-445. -/
def dropRepeated : List String → List String → List String → List String
  | [], _, copy => copy
  | v :: rest, used, copy =>
    if v ∈ used then dropRepeated rest used (copy.erase v) else dropRepeated rest (used ++ [v]) copy

/-- The names of the function's arguments, and two more. Models: codegenerator.py:411. -/
def kernelVars : List String := ["particle", "fieldset", "time", "output_time", "tol"]

/-- The declared variables. Models: codegenerator.py:436-451. -/
def declared (k : KernelNames) : List String := (dropRepeated k.funcvars [] k.funcvars).diff kernelVars

/-- The temporary variables. Models: codegenerator.py:241-246, 452-453. -/
def temps (k : KernelNames) : List String := (List.range k.samples).map fun i => "parcels_tmpvar" ++ toString i

/-- The parameters of the C function. Models: codegenerator.py:474-490. -/
def params (k : KernelNames) : List String := ["particles", "pnum", "time"] ++ k.fields ++ k.consts

/-- The variables declared at the beginning of its body. Models: codegenerator.py:449-453. -/
def locals (k : KernelNames) : List String := temps k ++ declared k ++ ["err"]

end Parcels.Scope
