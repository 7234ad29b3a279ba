import Verif.Model.MixedChunks
import Verif.Spec.Chunks

/-!
Vocabulary for C88.
-/

namespace Parcels.MixedChunks

open Parcels.Chunks

/-- Everything that can happen to a grid and its fields: the data are loaded for the first time, or again; `Kernel.execute`
starts; the C code is about to be called, which Python may refuse; it evaluates a field of the kernel; another kernel is
used. The Boolean says whether the C code is running. -/
inductive Reach {α : Type} (fs : List (List (List Nat) × Bool × Bool × Data α)) : Bool → St α → Prop
  | start : Reach fs false (start fs)
  | first {r s} {new : List (Data α)} : Reach fs r s → new.length = s.fields.length → Reach fs false (snapshotFirst new s)
  | next {r s} {new : List (Data α)} : Reach fs r s → new.length = s.fields.length → Reach fs false (snapshotNext new s)
  | execute {r s} : Reach fs r s → Reach fs false (markOld s)
  | call {r s s'} : Reach fs r s → prepare s = some s' → Reach fs true s'
  | ok {s} {a : Access} {load cell} : Reach fs true s → evalField s a = .ok load cell → Reach fs true { s with load := load }
  | rep {s} {a : Access} {load} : Reach fs true s → evalField s a = .rep load → Reach fs true { s with load := load }
  | use {r s} {used : List Bool} : Reach fs r s → used.length = s.fields.length → Reach fs false (useFields used s)

/-- All fields on the grid are split in the same way: they are dask arrays with the same block sizes, or numpy arrays (one
block) of the same shape. -/
def SameSplit {α : Type} (axes : List (List Nat)) (dask : Bool) (fs : List (List (List Nat) × Bool × Bool × Data α)) : Prop :=
  (∀ f ∈ fs, f.1 = axes ∧ f.2.1 = dask) ∧ (dask = false → ∀ ax ∈ axes, ax.length = 1)

/-- What C88 asks of one evaluation of field `f` at a cell: the data of that field at that cell are read, or a block that
holds a node of the cell and is not loaded is requested. -/
def Reads {α : Type} (s : St α) (field : Nat) (f : Fld α) (idx : List Nat) (ti : Nat) (firstOnly : Bool) : Prop :=
  let o := evalField s ⟨field, idx.map fun (n : Nat) => (n : ℤ), (ti : ℤ), firstOnly⟩
  (∃ load', o = .ok load' (cellData f.axes f.data idx ti firstOnly)) ∨
  (∃ load' b n, o = .rep load' ∧ n ∈ nodes f.axes idx ∧ Holds f.axes b n ∧ Requested s.load load' b)

end Parcels.MixedChunks
