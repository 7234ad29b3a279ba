import Verif.Model.Chunks

/-!
Vocabulary for C47 and C48.
-/

namespace Parcels.Chunks

/-- Node `i` of an axis is element `l` of its chunk `b`. -/
def InChunk (sizes : List Nat) (i b l : Nat) : Prop :=
  ∃ c, sizes[b]? = some c ∧ l < c ∧ (sizes.take b).sum + l = i

/-- Chunk number `bid` holds the node with indices `idx`. (Chunks are numbered row by row.) -/
def Holds (axes : List (List Nat)) (bid : Nat) (idx : List Nat) : Prop :=
  bid < (axes.map List.length).prod ∧ idx.length = axes.length ∧
    ∀ (k : Nat) (ax : List Nat) (b i : Nat), axes[k]? = some ax → (unravel (axes.map List.length) bid)[k]? = some b →
      idx[k]? = some i → ∃ l, InChunk ax i b l

/-- `idx` are the lowest indices of a cell of the grid: along each axis there is a next node, unless the axis has only one
node. -/
def IsCell (axes : List (List Nat)) (idx : List Nat) : Prop :=
  List.Forall₂ (fun (ax : List Nat) i => i + 1 < ax.sum ∨ ax.sum = 1 ∧ i = 0) axes idx

/-- The nodes of the cell: each index or the next one, in the order of the loops; where an axis has only one node, twice
that node. -/
def nodes : (axes : List (List Nat)) → (idx : List Nat) → List (List Nat)
  | ax :: axes, i :: idx => [i, if ax.sum = 1 then i else i + 1].flatMap fun j => (nodes axes idx).map (j :: ·)
  | _, _ => [[]]

/-- The data of the cell: at time step `ti` and, unless `firstOnly`, at the next. -/
def cellData {α : Type} (axes : List (List Nat)) (d : Data α) (idx : List Nat) (ti : Nat) (firstOnly : Bool) : List α :=
  (if firstOnly then [ti] else [ti, ti + 1]).flatMap fun t => (nodes axes idx).map fun n => d.v t n

/-- Layouts the C code copes with: no chunk is empty, only the last chunk of an axis can have a single node, and axes with a
single node only exist if no axis is split. -/
structure Copes (axes : List (List Nat)) : Prop where
  ne : ∀ ax ∈ axes, ax ≠ []
  pos : ∀ ax ∈ axes, ∀ c ∈ ax, 0 < c
  inner : ∀ ax ∈ axes, ∀ c ∈ ax.dropLast, 2 ≤ c
  flat : (∀ ax ∈ axes, 2 ≤ ax.sum) ∨ (∀ ax ∈ axes, ax.length = 1)

/-- Chunks whose state is 2 or 3 are in memory, with the data `d`. -/
structure InMemory {α : Type} (axes : List (List Nat)) (d : Data α) (load : List Nat) (chunks : List (Option (List α))) :
    Prop where
  lenLoad : load.length = (axes.map List.length).prod
  lenChunks : chunks.length = (axes.map List.length).prod
  data : ∀ b s, load[b]? = some s → 2 ≤ s → chunks[b]? = some (some (loadBlock axes d b))

/-- Load states after evaluations: a loaded chunk may have become "touched", all else is the same. -/
def Touched (load load' : List Nat) : Prop :=
  load'.length = load.length ∧ ∀ (b s s' : Nat), load[b]? = some s → load'[b]? = some s' → s' = s ∨ 2 ≤ s ∧ s' = 2

/-- The same, but chunk `b`, which was not loaded, is now requested. -/
def Requested (load load' : List Nat) (b : Nat) : Prop :=
  load'.length = load.length ∧ (∃ s, load[b]? = some s ∧ s < 2) ∧ load'[b]? = some 1 ∧
    ∀ (c s s' : Nat), c ≠ b → load[c]? = some s → load'[c]? = some s' → s' = s ∨ 2 ≤ s ∧ s' = 2

end Parcels.Chunks

namespace Parcels.Chunks

/-- Everything that can happen to a grid with chunks, from the start on: `Kernel.execute` starts, the C code is about to be
called, it evaluates a field, a new time snapshot is loaded, another kernel with other fields is used. The Boolean says
whether the C code is running. -/
inductive Reach {α : Type} (axes : List (List Nat)) (fs : List (Bool × Data α)) : Bool → Sys α → Prop
  | start : Reach axes fs false (setup axes fs)
  | execute {r s} : Reach axes fs r s → Reach axes fs false (markOld s)
  | call {r s} : Reach axes fs r s → Reach axes fs true (prepare s)
  | ok {s} {a : Access} {load cell} : Reach axes fs true s → evalField s a = .ok load cell → Reach axes fs true { s with load := load }
  | rep {s} {a : Access} {load} : Reach axes fs true s → evalField s a = .rep load → Reach axes fs true { s with load := load }
  | snapshot {r s} {new : List (Data α)} : Reach axes fs r s → new.length = s.fields.length → Reach axes fs false (snapshot new s)
  | use {r s} {used : List Bool} : Reach axes fs r s → used.length = s.fields.length → Reach axes fs false (useFields used s)

/-- Anything but a new snapshot. -/
inductive Event {α : Type} (s : Sys α) : Sys α → Prop
  | execute : Event s (markOld s)
  | call : Event s (prepare s)
  | ok {a : Access} {load cell} : evalField s a = .ok load cell → Event s { s with load := load }
  | rep {a : Access} {load} : evalField s a = .rep load → Event s { s with load := load }
  | use {used : List Bool} : Event s (useFields used s)

end Parcels.Chunks
