import Mathlib.Data.List.Basic
import Mathlib.Algebra.BigOperators.Group.List.Basic

/-!
Model of the data that a compiled kernel gets: NumPy arrays in memory, what `Kernel.execute_jit` does with the arrays of the fields and grids before it calls the
C function (parcels/kernel.py:236-271), and how the C code finds a number in them (parcels/include/parcels.h:313-374, 406-473, parcels/include/index_search.h:35-46).

Simplifications: fields with data in one NumPy array, in memory (blocks of Dask arrays are in Model/Chunks and Model/MixedChunks); an array carries the memory it lies in, so that
a change in place is an assignment of the changed array (for arrays that share memory: several assignments); reading a number with the wrong type is `none`; reads outside the
arrays are in Model/Memory.
-/

namespace Parcels.JitData

/-- Types of numbers in arrays. Models: the types of parcels/grid.py:102-112, parcels/field.py:1178-1183. -/
inductive DType where
  | f32
  | f64
deriving DecidableEq, Repr

/-- A NumPy array: the memory it lies in (numbered by items), the place of its first item, its shape and its strides. Models: `numpy.ndarray`, as used in
parcels/field.py:1172-1202, parcels/grid.py:96-130. -/
structure Arr (α : Type) where
  dtype : DType
  mem : ℤ → α
  offset : ℤ
  shape : List ℕ
  strides : List ℤ

variable {α : Type}

/-- The place of an item. Models: indexing of `numpy.ndarray`, as for `data_chunks` and `lon` of parcels/field.py:1189-1196, parcels/grid.py:122-128. -/
def addr : List ℤ → List ℕ → ℤ
  | s :: ss, i :: is => i * s + addr ss is
  | _, _ => 0

/-- `a[idx]` in Python. Models: indexing of `numpy.ndarray`, as in parcels/field.py:888-1012. -/
def Arr.get (a : Arr α) (idx : List ℕ) : α := a.mem (a.offset + addr a.strides idx)

/-- The strides of an array in C order are right, from the last dimension on. Models: `flags.c_contiguous` of parcels/field.py:1192, parcels/kernel.py:258-264. -/
def inOrder : List ℕ → List ℤ → Bool
  | [], [] => true
  | d :: ds, s :: ss => (d == 1 || s == ((ds.prod : ℕ) : ℤ)) && inOrder ds ss
  | _, _ => false

/-- `a.flags.c_contiguous`. Models: parcels/field.py:1192, parcels/kernel.py:258-264 (NumPy: strides of dimensions of length 1, and of empty arrays, do not matter). -/
def Arr.contiguous (a : Arr α) : Bool := a.shape.any (· == 0) || inOrder a.shape a.strides

/-- Strides in C order. Models: `a.copy()` of parcels/field.py:1193, parcels/kernel.py:259-265. -/
def cStrides : List ℕ → List ℤ
  | [] => []
  | _ :: ds => ((ds.prod : ℕ) : ℤ) :: cStrides ds

/-- The index of item number `k` in C order. Models: `a.copy()` of parcels/field.py:1193, parcels/kernel.py:259-265. -/
def unravel : List ℕ → ℕ → List ℕ
  | [], _ => []
  | _ :: ds, k => k / ds.prod :: unravel ds (k % ds.prod)

/-- `a.copy()`: a new array in C order. Models: parcels/field.py:1193, parcels/kernel.py:259-265. -/
def Arr.copy (a : Arr α) : Arr α :=
  ⟨a.dtype, fun k => a.get (unravel a.shape k.toNat), 0, a.shape, cStrides a.shape⟩

/-- `if not a.flags.c_contiguous: a = a.copy()`. Models: parcels/field.py:1192-1193, parcels/kernel.py:258-265. -/
def Arr.tidy (a : Arr α) : Arr α := if a.contiguous then a else a.copy

/-- A field: `data`, the number of its grid, `chunk_set`, `data_chunks[0]`. Models: parcels/field.py:186-205, 1120-1170. -/
structure Fld (α : Type) where
  data : Arr α
  grid : ℕ
  chunkSet : Bool
  chunk : Option (Arr α)

/-- A grid: its coordinates, `chunk_info` and `load_chunk`. Models: parcels/grid.py:37-68, 96-130. -/
structure Grd (α : Type) where
  lon : Arr α
  lat : Arr α
  depth : Arr α
  time : Arr α
  info : List ℕ
  load : List ℕ

/-- All fields and grids. Models: the objects of parcels/kernel.py:239-265. -/
structure World (α : Type) where
  fields : ℕ → Fld α
  grids : ℕ → Grd α

/-- `chunk_info` for a NumPy array: number of dimensions without time, one block in each, the sizes. Models: parcels/field.py:1127-1130, 1142-1143. -/
def infoOf (shape : List ℕ) : List ℕ := (shape.length - 1) :: List.replicate (shape.length - 1) 1 ++ shape.tail

/-- `chunk_setup`. Models: parcels/field.py:1120-1144 (NumPy branch). -/
def setup (w : World α) (i : ℕ) : World α :=
  let f := w.fields i
  ⟨Function.update w.fields i { f with chunkSet := true, chunk := none },
   Function.update w.grids f.grid { w.grids f.grid with info := infoOf f.data.shape, load := [0] }⟩

/-- `chunk_data`; `array` is `np.array`. Models: parcels/field.py:1146-1170 (NumPy branch). -/
def chunkData (array : Arr α → Arr α) (w : World α) (i : ℕ) : World α :=
  let w1 := if (w.fields i).chunkSet then w else setup w i
  let f := w1.fields i
  ⟨Function.update w1.fields i { f with chunk := some (array f.data) },
   Function.update w1.grids f.grid { w1.grids f.grid with load := (w1.grids f.grid).load.set 0 2 }⟩

/-- The loop over the fields of the particle set's FieldSet; `used` are the fields in the kernel. Models: parcels/kernel.py:244-252. -/
def eachField (array : Arr α → Arr α) (used : List ℕ) (w : World α) (i : ℕ) : World α :=
  if i ∈ used then chunkData array w i
  else { w with fields := Function.update w.fields i { w.fields i with chunk := none } }

/-- The loop over the grids. Models: parcels/kernel.py:254-265. -/
def eachGrid (w : World α) (g : ℕ) : World α :=
  let q := w.grids g
  let q' := { q with load := q.load.map fun x => if x = 1 then 2 else x, depth := q.depth.tidy, lon := q.lon.tidy, lat := q.lat.tidy }
  { w with grids := Function.update w.grids g q' }

/-- `f.ctypes_struct`, for the data. Models: parcels/field.py:1188-1196. -/
def struct (w : World α) (i : ℕ) : World α :=
  { w with fields := Function.update w.fields i { w.fields i with chunk := (w.fields i).chunk.map Arr.tidy } }

/-- `execute_jit` up to the call of the C function: `members` and `gset` are the fields and the grids of the particle set's FieldSet, `used` the fields in the kernel.
Models: parcels/kernel.py:236-267. -/
def prepare (array : Arr α → Arr α) (members gset used : List ℕ) (w : World α) : World α :=
  used.foldl struct (gset.foldl eachGrid (members.foldl (eachField array used) w))

/-- The place of an item in C, for `type (*a)[..][..]` with these dimensions (without the first). Models: parcels/include/parcels.h:350-352, 360-368 (2D), 446-448, 458-467 (3D). -/
def lin : List ℕ → List ℕ → ℕ
  | _ :: ds, i :: is => i * ds.prod + lin ds is
  | _, _ => 0

/-- A number read in C through a pointer. Models: `ctypes.data_as(POINTER(c_float))` of parcels/field.py:1194, parcels/grid.py:122-129, and the reads in
parcels/include/parcels.h:350-352, parcels/include/index_search.h:35-46. -/
def Arr.read (a : Arr α) (t : DType) (k : ℕ) : Option α := if a.dtype = t then some (a.mem (a.offset + k)) else none

/-- The sizes of the only block. Models: parcels/include/parcels.h:330-332, 422-426. -/
def sizes (info : List ℕ) : List ℕ :=
  match info with
  | n :: rest => (rest.drop n).take n
  | [] => []

/-- Item `[t][z][y][x]` of a field in C; `none` also if there are no data. Models: parcels/include/parcels.h:313-374 (`getCell2D`), 406-473 (`getCell3D`), for one block. -/
def cField (w : World α) (i : ℕ) (idx : List ℕ) : Option α :=
  let g := w.grids (w.fields i).grid
  match g.load, (w.fields i).chunk with
  | l :: _, some a => if 2 ≤ l then a.read .f32 (lin (0 :: sizes g.info) idx) else none
  | _, _ => none

/-- A coordinate of a grid in C. Models: parcels/include/index_search.h:35-46, 59-404 (`lon[i]`, `lon[j*xdim+i]`, ...). -/
def cCoord (a : Arr α) (t : DType) (idx : List ℕ) : Option α := a.read t (lin a.shape idx)

/-- `g.time = g.time + shift`, once, when the FieldSet is completed: an array in C order. Models: parcels/fieldset.py:228-233. -/
def complete (shift : α → α) (q : Grd α) : Grd α :=
  if q.time.shape = [1] then q else { q with time := { q.time.copy with mem := fun k => shift (q.time.copy.mem k) } }

end Parcels.JitData
