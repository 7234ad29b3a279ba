import Verif.Model.Chunks

/-!
Model of fields that share a grid but are split into blocks each in its own way, in JIT mode.

The layout that the C code is told (`grid.chunk_info`) and the load states (`grid.load_chunk`) belong to the grid. The
blocks in memory (`data_chunks`) belong to the field. `Model/Chunks` assumes that all fields of the grid are split in the
same way and are set up together; here each field has its own layout, is a dask or a numpy array, and is set up when the
code does it. Python exceptions are `none`.
-/

namespace Parcels.MixedChunks

open Parcels.Chunks

/-- A field: how its data are split (for a numpy array: one block), is it a dask array, is it used by the kernel, its
data, `chunk_set`, `data_chunks`. Models: parcels/field.py:186-205, 1120-1144. -/
structure Fld (α : Type) where
  axes : List (List Nat)
  dask : Bool
  used : Bool
  data : Data α
  isSet : Bool
  chunks : List (Option (List α))

/-- What belongs to the grid: the layout last written into `chunk_info`, `load_chunk`. And the fields on the grid, in the
order of `get_fields`. Models: parcels/grid.py:64-68, parcels/field.py:1139-1143. -/
structure St (α : Type) where
  info : List (List Nat)
  load : List Nat
  fields : List (Fld α)

variable {α : Type}

/-- `chunk_setup`: the field's blocks, the new load states; the layout of the grid becomes `f.axes`.
Models: parcels/field.py:1120-1144. -/
def setUp (f : Fld α) : Fld α := { f with isSet := true, chunks := List.replicate (nparts f.axes) none }

/-- Load states after `chunk_setup`. Models: parcels/field.py:1139. -/
def freshLoad (f : Fld α) : List Nat := List.replicate (nparts f.axes) 0

/-- `if not f.chunk_set: f.chunk_setup()`. Models: parcels/field.py:1147-1148, parcels/fieldset.py:1070-1071. -/
def ensure (g : List (List Nat) × List Nat) (f : Fld α) : (List (List Nat) × List Nat) × Fld α :=
  if f.isSet then (g, f) else ((f.axes, freshLoad f), setUp f)

/-- The loop of `chunk_data` over `range(len(grid.load_chunk))` for a dask array. Blocks after these are left as they are.
Models: parcels/field.py:1151-1161. -/
def loadDask (load : List Nat) (f : Fld α) : List (Option (List α)) :=
  f.chunks.zipIdx.map fun c =>
    match load[c.2]? with
    | none => c.1
    | some s =>
      if s = 1 ∨ (s = 2 ∨ s = 3) ∧ c.1.isNone then some (loadBlock f.axes f.data c.2)
      else if s = 0 then none
      else c.1

/-- `chunk_data`. For a dask array it fails if the grid has more load states than the field has blocks; for a numpy array
it writes the first load state and the first block. Models: parcels/field.py:1146-1169. -/
def chunkData (g : List (List Nat) × List Nat) (f : Fld α) : Option ((List (List Nat) × List Nat) × Fld α) :=
  let r := ensure g f
  if r.2.dask then
    if r.2.chunks.length < r.1.2.length then none else some (r.1, { r.2 with chunks := loadDask r.1.2 r.2 })
  else
    if r.1.2.length = 0 ∨ r.2.chunks.length = 0 then none
    else some ((r.1.1, r.1.2.set 0 2), { r.2 with chunks := r.2.chunks.set 0 (some (loadBlock r.2.axes r.2.data 0)) })

/-- The loop over the fields in `execute_jit`: load the fields of the kernel, forget the blocks of the others.
Models: parcels/kernel.py:244-253. -/
def prepFields : List (List Nat) × List Nat → List (Fld α) → Option ((List (List Nat) × List Nat) × List (Fld α))
  | g, [] => some (g, [])
  | g, f :: fs =>
    if f.used then
      match chunkData g f with
      | none => none
      | some (g1, f1) => (prepFields g1 fs).map fun r => (r.1, f1 :: r.2)
    else (prepFields g fs).map fun r => (r.1, { f with chunks := f.chunks.map fun _ => none } :: r.2)

/-- `Field.ctypes_struct` can be built: no block is still requested, and each block that is loaded according to the grid
is there. Models: parcels/field.py:1188-1196. -/
def passes (load : List Nat) (f : Fld α) : Bool :=
  load.zipIdx.all fun p => decide (p.1 = 0) || (decide (2 ≤ p.1) &&
    match f.chunks[p.2]? with
    | some (some _) => true
    | _ => false)

/-- Before the C code runs. Models: parcels/kernel.py:239-267. -/
def prepare (s : St α) : Option (St α) :=
  match prepFields (s.info, s.load) s.fields with
  | none => none
  | some (g, fs) =>
    let load := g.2.map fun x => if x = 1 then 2 else x
    if (fs.filter (·.used)).all (passes load) then some ⟨g.1, load, fs⟩ else none

/-- At the start of `Kernel.execute`. Models: parcels/kernel.py:411-415. -/
def markOld (s : St α) : St α := { s with load := s.load.map fun x => if x = 2 then 3 else x }

/-- Touched blocks are to be loaded again, the others are dropped. Models: parcels/fieldset.py:1072-1076, 1124-1127. -/
def again (load : List Nat) : List Nat :=
  (load.map fun x => if x = 2 then 1 else x).map fun x => if x = 3 then 0 else x

/-- First load of the data of the fields: each gets new data, is set up if it was not, and load states are renewed.
Models: parcels/fieldset.py:1040-1076. -/
def firstLoad : List (List Nat) × List Nat → List (Fld α × Data α) → (List (List Nat) × List Nat) × List (Fld α)
  | g, [] => (g, [])
  | g, (f, d) :: fs =>
    let r := ensure g { f with data := d }
    let rest := firstLoad (r.1.1, again r.1.2) fs
    (rest.1, r.2 :: rest.2)

/-- First load of the data. Models: parcels/fieldset.py:1040-1076. -/
def snapshotFirst (new : List (Data α)) (s : St α) : St α :=
  let r := firstLoad (s.info, s.load) (s.fields.zip new)
  ⟨r.1.1, r.1.2, r.2⟩

/-- Later loads: nothing is set up. Models: parcels/fieldset.py:1078-1127. -/
def snapshotNext (new : List (Data α)) (s : St α) : St α :=
  ⟨s.info, again s.load, List.zipWith (fun f d => { f with data := d }) s.fields new⟩

/-- The kernel uses other fields from now on. Models: `self.field_args` of the kernel at parcels/kernel.py:247-248. -/
def useFields (used : List Bool) (s : St α) : St α :=
  { s with fields := List.zipWith (fun f u => { f with used := u }) s.fields used }

/-- The C code evaluates a field: it takes the layout and the load states from the grid, the blocks from the field.
Models: parcels/include/parcels.h:508-530. -/
def evalField (s : St α) (a : Access) : Out α :=
  match s.fields[a.field]? with
  | none => .undef
  | some f => getCell (chunkInfo s.info) f.chunks s.load a.index a.ti a.firstOnly

/-- The fields before anything happened: not set up, no blocks. Models: parcels/field.py:186-205, parcels/grid.py:64-68. -/
def start (fs : List (List (List Nat) × Bool × Bool × Data α)) : St α :=
  ⟨[], [], fs.map fun f => ⟨f.1, f.2.1, f.2.2.1, f.2.2.2, false, []⟩⟩

end Parcels.MixedChunks
