import Verif.Model.TimeInterp
import Mathlib.Algebra.Group.Basic
import Mathlib.Logic.Function.Basic

/-!
Model of nested and summed fields: `NestedField` and `SummedField` (parcels/field.py:1718-1832), `Field.__add__`
(field.py:1381-1387), and the C code generated for them (parcels/compilation/codegenerator.py:823-895).

Simplifications: sampling one field of the list at the position is a value or an exception (Model/Interp and
Model/TimeInterp give it); `V` is the type of the values, a number or a tuple of numbers.
-/

namespace Parcels.FieldLists
open Parcels.Search Parcels.TimeInterp

variable {V F : Type}

/-- `FieldOutOfBoundError` / `ERROR_OUT_OF_BOUNDS`. Models: tools/statuscodes.py:24, 53-64. -/
def oob : SErr := .space .outOfBounds

/-- The exceptions caught by `NestedField.__getitem__`. Models: field.py:1827-1831. -/
def caught (e : SErr) : Bool := decide (e = .space .outOfBounds) || decide (e = .space .sampling)

/-- `NestedField.__getitem__`. The empty list does not occur: the constructor reads `F[0]`.
Models: field.py:1816-1832. -/
def nested : List (Except SErr V) → Except SErr V
  | [] => .error (.space .index)
  | [o] => o
  | .ok v :: _ => .ok v
  | .error e :: rest => if caught e then nested rest else .error e

/-- One field in the generated C code: outcome of the sampling function, and the conversion `var *= factor` that
follows in any case. Models: compilation/codegenerator.py:787-899. -/
structure CField (V : Type) where
  out : Except SErr V
  conv : V → V

/-- `err` and the temporary after sampling and conversion; a sampling function that fails does not write the
temporary. Models: codegenerator.py:862-866. -/
def CField.run (f : CField V) (var : V) : Option SErr × V :=
  match f.out with
  | .ok v => (none, f.conv v)
  | .error e => (some e, f.conv var)

/-- `CHECKSTATUS(err)`, then `var` is used. Models: index_search.h:11. -/
def checkStatus (err : Option SErr) (var : V) : Except SErr V :=
  match err with
  | none => .ok var
  | some e => .error e

/-- The C code for a nested field, `while (1==1) {..}` unrolled. Models: codegenerator.py:857-871, 873-895. -/
def cNested : List (CField V) → Option SErr → V → Except SErr V
  | [], err, var => checkStatus err var
  | f :: rest, _, var =>
    let r := f.run var
    if r.1 ≠ some oob then checkStatus r.1 r.2 else cNested rest r.1 r.2

/-- `SummedField.__getitem__`: sample all, then sum. Models: field.py:1755-1767. -/
def summed [Add V] [Zero V] : List (Except SErr V) → Except SErr V
  | [] => .ok 0
  | .error e :: _ => .error e
  | .ok v :: rest =>
    match summed rest with
    | .error e => .error e
    | .ok s => .ok (v + s)

/-- The C code for a summed scalar field: each temporary is filled, converted and checked; the expression `tmp0+tmp1+..`
stands for the value. Models: codegenerator.py:284-289, 823-832. -/
def cSummed [Add V] [Zero V] : List (CField V × V) → Except SErr V
  | [] => .ok 0
  | (f, old) :: rest =>
    let r := f.run old
    match checkStatus r.1 r.2 with
    | .error e => .error e
    | .ok v =>
      match cSummed rest with
      | .error e => .error e
      | .ok s => .ok (v + s)

/-- The C code for a summed vector field: the status is checked once, after the last field.
Models: codegenerator.py:290-301, 834-855. -/
def cSummedVec [Add V] [Zero V] : List (CField V × V) → Option SErr → V → Except SErr V
  | [], err, acc => checkStatus err acc
  | (f, old) :: rest, _, acc =>
    let r := f.run old
    cSummedVec rest r.1 (acc + r.2)

/-! ### The `+` operator -/

/-- Summed fields are mutable lists; the heap gives the content of each, `next` is a fresh address. Models: field.py:1718-1778 (`SummedField` is a list). -/
structure Heap (F : Type) where
  cont : Nat → List F
  next : Nat

/-- Operands of `+`. Models: field.py:1381-1388, 1769-1778. -/
inductive Operand (F : Type) where
  | field (f : F)
  | summed (r : Nat)

/-- Change a list. Models: field.py:1769-1778. -/
def Heap.set (h : Heap F) (r : Nat) (l : List F) : Heap F := { h with cont := Function.update h.cont r l }

/-- `for fld in field: self.append(fld)`: the iterator reads position `i` of the list `t` as it is at that time.
`none`: not ended within the fuel. Models: field.py:1775-1776. -/
def appendLoop (s t : Nat) : Nat → Heap F → Nat → Option (Heap F)
  | 0, _, _ => none
  | n + 1, h, i =>
    match (h.cont t)[i]? with
    | none => some h
    | some f => appendLoop s t n (h.set s (h.cont s ++ [f])) (i + 1)

/-- `a + b`: the heap afterwards and the address of the result. Models: field.py:1381-1387, 1769-1777. -/
def plus (fuel : Nat) (h : Heap F) : Operand F → Operand F → Option (Heap F × Nat)
  | .field f, .field g => some ({ (h.set h.next [f, g]) with next := h.next + 1 }, h.next)
  | .field f, .summed r => some (h.set r (f :: h.cont r), r)
  | .summed r, .field g => some (h.set r (h.cont r ++ [g]), r)
  | .summed r, .summed t => (appendLoop r t fuel h 0).map fun h' => (h', r)

end Parcels.FieldLists
