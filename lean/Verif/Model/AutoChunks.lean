import Mathlib.Data.List.Basic

/-!
Model of `_chunkmap_to_chunksize` (parcels/fieldfilebuffer.py:456-494): with `chunksize='auto'`, the sizes that Dask chose for the first data of a field are kept as a
dictionary (fieldfilebuffer.py:686-697), with which the later files are opened.

Simplifications: `chunk_mapping` is the list of the sizes of the chunks along the axes of the data; dimensions other than the four of parcels are left out; a dimension
that is not found in the file has no index.
-/

namespace Parcels.AutoChunks

/-- The dimensions of parcels. Models: fieldfilebuffer.py:468-471. -/
inductive Dim where
  | time
  | depth
  | lat
  | lon
deriving DecidableEq, Repr

/-- A dimension in the file, the result of `_is_dimension_in_dataset`: whether it has an index, its name and its size; and whether it is one of the dimensions of the
field (`_is_dimension_available`). Models: fieldfilebuffer.py:376-385, 401-427, 468-471. -/
structure Found where
  index : Bool
  name : String
  size : Nat
  available : Bool
deriving DecidableEq, Repr

/-- The dictionary. Models: fieldfilebuffer.py:465. -/
abbrev Chunks := Dim → Option (String × Nat)

/-- `dict[k] = v`. Models: fieldfilebuffer.py:473-474. -/
def put (c : Chunks) (d : Dim) (n : String) (k : Nat) : Chunks := fun e => if e = d then some (n, k) else c e

/-- The empty dictionary. Models: fieldfilebuffer.py:465. -/
def empty : Chunks := fun _ => none

/-- `depthi is not None and depthi >= 0 and depthvalue > 1 and self._is_dimension_available('depth')`. Models: fieldfilebuffer.py:477, 480. -/
def Found.long (f : Found) : Bool := f.index && decide (f.size > 1) && f.available

/-- `_chunkmap_to_chunksize`; data with one axis or none give the empty dictionary. Models: fieldfilebuffer.py:456-494. -/
def toChunks (file : Dim → Found) (m : List Nat) : Chunks :=
  match m with
  | [a, b] => (put (put empty .lon (file .lat).name a) .lat (file .lon).name b)
  | [a, b, c] =>
    if (file .depth).long then (put (put (put empty .depth (file .depth).name a) .lat (file .lat).name b) .lon (file .lon).name c)
    else if (file .time).long then (put (put (put empty .time (file .time).name a) .lat (file .lat).name b) .lon (file .lon).name c)
    else (put (put empty .lat (file .lat).name a) .lon (file .lon).name b)
  | a :: b :: c :: d :: _ =>
    (put (put (put (put empty .time (file .time).name a) .depth (file .depth).name b) .lat (file .lat).name c) .lon (file .lon).name d)
  | _ => empty

end Parcels.AutoChunks
