import Mathlib.Data.Rat.Defs
import Mathlib.Data.List.Basic

/-!
Model of fields split into chunks, in JIT mode: how the layout is told to the C code, how the C code finds the datum at given
indices, and how chunks are requested, loaded and dropped.

`getBlock2D`/`getBlock3D` and `getCell2D`/`getCell3D` are the same code for two and three axes; they are modelled once, for
any number of axes. Indices are integers, since nothing keeps the C code from negative ones. Reads outside an array and
through a null pointer are `undef`. Data have any type.
-/

namespace Parcels.Chunks

/-- Element `i` of an array, if there is one. Models: array accesses in parcels.h:284-473. -/
def at? {α : Type} (l : List α) (i : ℤ) : Option α := if i < 0 then none else l[i.toNat]?

/-! ### The layout -/

/-- `grid.chunk_info`: number of axes, number of chunks of each axis, sizes of the chunks of the first axis, of the second
axis, ... Models: parcels/field.py:1140-1143. -/
def chunkInfo (axes : List (List Nat)) : List Nat := [axes.length] ++ axes.map List.length ++ axes.flatten

/-- `shift`: where the sizes of axis `i` start, after the first `1 + ndim` numbers.
Models: parcels/include/parcels.h:294-295, 331, 424-426. -/
def shift (info : List Nat) (i : Nat) : Nat := ((info.drop 1).take i).sum

/-- The sizes of axis `i`. Models: parcels.h:296-298. -/
def axisSizes (info : List Nat) (i : Nat) : List Nat :=
  (info.drop (1 + info.headD 0 + shift info i)).take (info.getD (1 + i) 0)

/-- The loop over the chunks of an axis: number of the chunk and index in it. Models: parcels.h:297-305. -/
def findChunk : List Nat → (j sum idx : ℤ) → ℤ × ℤ
  | [], j, sum, idx => (j, idx - sum)
  | c :: cs, j, sum, idx => if idx < sum + c then (j, idx - sum) else findChunk cs (j + 1) (sum + c) idx

/-- Position of an element in an array with the given dimensions, row by row, `acc` being the number of whole arrays before
it. Models: the casts to multi-dimensional arrays in parcels.h:313-374, 406-473. -/
def flatIndex : (acc : ℤ) → (dims idx : List ℤ) → ℤ
  | acc, d :: ds, i :: is => flatIndex (acc * d + i) ds is
  | acc, _, _ => acc

/-- Result of `getBlock`: `bid`, `block`, `index_local`. Models: parcels.h:284-311, 376-404. -/
structure Block where
  id : ℤ
  block : List ℤ
  loc : List ℤ
deriving DecidableEq, Repr

/-- `getBlock2D`, `getBlock3D`. Models: parcels.h:284-311, 376-404. -/
def getBlock (info : List Nat) (index : List ℤ) : Block :=
  let r := index.zipIdx.map fun p => findChunk (axisSizes info p.2) 0 0 p.1
  let shape := ((info.drop 1).take (info.headD 0)).map fun (n : Nat) => (n : ℤ)
  ⟨flatIndex 0 shape (r.map (·.1)), r.map (·.1), r.map (·.2)⟩

/-- `zdim`, `ydim`, `xdim`: the size of the chunk along each axis. Models: parcels.h:329-332, 422-426. -/
def chunkDims (info : List Nat) (block : List ℤ) : Option (List ℤ) :=
  block.zipIdx.mapM fun p => (at? info ((1 + info.headD 0 + shift info p.2 : Nat) + p.1)).map fun (n : Nat) => (n : ℤ)

/-- The corners of a cell, in the order of the loops. Models: parcels.h:338-339, 432-434. -/
def corners : Nat → List (List ℤ)
  | 0 => [[]]
  | n + 1 => [(0 : ℤ), 1].flatMap fun b => (corners n).map (b :: ·)

/-- What `getCell` does: `rep` is REPEAT, `ok` is SUCCESS with `cell_data` row by row. Both with the new `load_chunk`. Models: parcels.h:313-374, 406-473. -/
inductive Out (α : Type) where
  | undef
  | rep (load : List Nat)
  | ok (load : List Nat) (cell : List α)
deriving DecidableEq, Repr

/-- Look at the load state of a chunk: request it if it is not loaded, mark it as touched if it is.
Models: parcels.h:324-328, 341-345, 417-421, 436-440. -/
def access (load : List Nat) (bid : ℤ) : Option (List Nat × Bool) :=
  match at? load bid with
  | none => none
  | some s => if s < 2 then some (load.set bid.toNat 1, false) else some (load.set bid.toNat 2, true)

/-- `((float (*)[zdim][ydim][xdim]) data_chunks[blockid])[t][..][..]`. Models: parcels.h:350-352, 446-448. -/
def readAt {α : Type} (chunks : List (Option (List α))) (bid : ℤ) (dims : List ℤ) (t : ℤ) (loc : List ℤ) : Option α :=
  match at? chunks bid with
  | some (some flat) => at? flat (flatIndex t dims loc)
  | _ => none

/-- The loops over time steps and corners. Models: parcels.h:337, 355-356. -/
def steps (n : Nat) (firstOnly : Bool) : List (ℤ × List ℤ) :=
  (if firstOnly then [(0 : ℤ)] else [0, 1]).flatMap fun t => (corners n).map (t, ·)

/-- The loops for a cell that is on several chunks. Models: parcels.h:337-357, 431-454. -/
def gather {α : Type} (info : List Nat) (chunks : List (Option (List α))) (index : List ℤ) (ti : ℤ) :
    List (ℤ × List ℤ) → (load : List Nat) → (cell : List α) → Out α
  | [], load, cell => .ok load cell
  | s :: rest, load, cell =>
    let b := getBlock info (List.zipWith (· + ·) index s.2)
    match access load b.id with
    | none => .undef
    | some (load', false) => .rep load'
    | some (load', true) =>
      match chunkDims info b.block with
      | none => .undef
      | some ds =>
        match readAt chunks b.id ds (ti + s.1) b.loc with
        | none => .undef
        | some a => gather info chunks index ti rest load' (cell ++ [a])

/-- `getCell2D`, `getCell3D`; `index` is `{yi, xi}` or `{zi, yi, xi}`. Models: parcels.h:313-374, 406-473. -/
def getCell {α : Type} (info : List Nat) (chunks : List (Option (List α))) (load : List Nat) (index : List ℤ) (ti : ℤ)
    (firstOnly : Bool) : Out α :=
  let b := getBlock info index
  match access load b.id with
  | none => .undef
  | some (load', false) => .rep load'
  | some (load', true) =>
    match chunkDims info b.block with
    | none => .undef
    | some ds =>
      let todo := steps index.length firstOnly
      if (List.zipWith (fun l d => decide (l = d - 1 ∧ 1 < d)) b.loc ds).any id then   -- 334, 428
        gather info chunks index ti todo load' []
      else
        let off := ds.map fun d => if d = 1 then (0 : ℤ) else 1                          -- 363-364, 462-464
        let cell := todo.mapM fun s =>
          readAt chunks b.id ds (ti + s.1) (List.zipWith (· + ·) b.loc (List.zipWith (· * ·) s.2 off))
        match cell with
        | none => .undef
        | some cell => .ok load' cell

/-! ### Loading -/

/-- `np.unravel_index`. Models: parcels/field.py:1117-1118. -/
def unravel : List Nat → Nat → List Nat
  | [], _ => []
  | _ :: ds, n => (n / ds.prod) :: unravel ds (n % ds.prod)

/-- The data of a field: number of loaded time steps, and the value at a time step and indices. Models: `self.data` and `grid.tdim` of field.py:1120-1170. -/
structure Data (α : Type) where
  tdim : Nat
  v : Nat → List Nat → α

/-- `np.array(self.data.blocks[(slice(self.grid.tdim),) + self.get_block(block_id)])`, in memory order.
Models: parcels/field.py:1154-1155. Simplification: dask's `blocks` is the part of the array that the chunk sizes say. -/
def loadBlock {α : Type} (axes : List (List Nat)) (d : Data α) (bid : Nat) : List α :=
  let block := unravel (axes.map List.length) bid
  let dims := List.zipWith (fun (sizes : List Nat) b => sizes.getD b 0) axes block
  let orig := List.zipWith (fun (sizes : List Nat) b => (sizes.take b).sum) axes block
  (List.range (d.tdim * dims.prod)).map fun n =>
    match unravel (d.tdim :: dims) n with
    | [] => d.v 0 orig
    | t :: l => d.v t (List.zipWith (· + ·) orig l)

/-- A field on the grid: is it used by the kernel, its data, its loaded chunks. Models: `data_chunks`, `c_data_chunks` of field.py:1120-1170; kernel.py:247. -/
structure FieldSt (α : Type) where
  used : Bool
  data : Data α
  chunks : List (Option (List α))

/-- A grid with chunks, and the fields on it, whose data are dask arrays with these chunks. Models: `grid.load_chunk` and `grid.chunk_info`, field.py:1120-1170. -/
structure Sys (α : Type) where
  axes : List (List Nat)
  load : List Nat
  fields : List (FieldSt α)

/-- Number of chunks. Models: parcels/field.py:1124-1126. -/
def nparts (axes : List (List Nat)) : Nat := (axes.map List.length).prod

/-- `Field.chunk_setup` of the fields of a grid. Models: parcels/field.py:1120-1144 (dask branch). -/
def setup {α : Type} (axes : List (List Nat)) (fs : List (Bool × Data α)) : Sys α :=
  ⟨axes, List.replicate (nparts axes) 0, fs.map fun f => ⟨f.1, f.2, List.replicate (nparts axes) none⟩⟩

/-- `Field.chunk_data` of one field. Models: parcels/field.py:1150-1161 (dask branch). -/
def chunkData {α : Type} (axes : List (List Nat)) (load : List Nat) (f : FieldSt α) : List (Option (List α)) :=
  f.chunks.zipIdx.map fun c =>
    let s := load.getD c.2 0
    if s = 1 ∨ (s = 2 ∨ s = 3) ∧ c.1.isNone then some (loadBlock axes f.data c.2)
    else if s = 0 then none
    else c.1

/-- Before the C code runs: load what is needed for the fields of the kernel, forget the chunks of other fields, and mark
requested chunks as loaded. Models: parcels/kernel.py:244-256. -/
def prepare {α : Type} (s : Sys α) : Sys α :=
  { s with
    fields := s.fields.map fun f =>
      if f.used then { f with chunks := chunkData s.axes s.load f } else { f with chunks := f.chunks.map fun _ => none }
    load := s.load.map fun x => if x = 1 then 2 else x }

/-- At the start of `Kernel.execute`. Models: parcels/kernel.py:411-415. -/
def markOld {α : Type} (s : Sys α) : Sys α := { s with load := s.load.map fun x => if x = 2 then 3 else x }

/-- A new time snapshot is loaded: the fields get new data (`new`), touched chunks are to be loaded again, the others are
dropped. The loop of lines 1130-1147 does nothing, since no chunk is touched any more.
Models: parcels/fieldset.py:1072-1076, 1124-1127. -/
def snapshot {α : Type} (new : List (Data α)) (s : Sys α) : Sys α :=
  { s with
    fields := List.zipWith (fun f d => { f with data := d }) s.fields new
    load := (s.load.map fun x => if x = 2 then 1 else x).map fun x => if x = 3 then 0 else x }

/-- The kernel uses other fields from now on. Models: `self.field_args` of the kernel at parcels/kernel.py:247. -/
def useFields {α : Type} (used : List Bool) (s : Sys α) : Sys α :=
  { s with fields := List.zipWith (fun f u => { f with used := u }) s.fields used }

/-- One evaluation of a field by the C code: which field, where. Models: parcels.h:513-530 (the calls of getCell2D and getCell3D). -/
structure Access where
  field : Nat
  index : List ℤ
  ti : ℤ
  firstOnly : Bool

/-- The C code evaluates a field. Models: parcels.h:508-530. -/
def evalField {α : Type} (s : Sys α) (a : Access) : Out α :=
  match s.fields[a.field]? with
  | none => .undef
  | some f => getCell (chunkInfo s.axes) f.chunks s.load a.index a.ti a.firstOnly

end Parcels.Chunks
