import Verif.Model.JitData

/-!
Vocabulary for the statement of C107.
-/

namespace Parcels.JitData

variable {α : Type}

/-- An index in an array of this shape. -/
def InBounds (idx shape : List ℕ) : Prop := List.Forall₂ (· < ·) idx shape

/-- What is assumed of `np.array(a)`: an array with the same shape, type and items, in any order in memory. -/
def IsArray (array : Arr α → Arr α) : Prop :=
  ∀ a, (array a).shape = a.shape ∧ (array a).dtype = a.dtype ∧ ∀ idx, InBounds idx a.shape → (array a).get idx = a.get idx

/-- What can happen between two calls of compiled kernels: the data of a field are changed or replaced, the coordinates of a grid are changed or replaced, a field gets its block (when data are
looked for before a run), a compiled kernel is called. -/
inductive Op (α : Type) where
  | setData (i : ℕ) (a : Arr α)
  | setCoords (g : ℕ) (lon lat depth : Arr α)
  | setup (i : ℕ)
  | call (members gset used : List ℕ)

/-- The effect on the fields and grids. -/
def step (array : Arr α → Arr α) (w : World α) : Op α → World α
  | .setData i a => { w with fields := Function.update w.fields i { w.fields i with data := a } }
  | .setCoords g lon lat depth => { w with grids := Function.update w.grids g { w.grids g with lon := lon, lat := lat, depth := depth } }
  | .setup i => if (w.fields i).chunkSet then w else setup w i
  | .call members gset used => prepare array members gset used w

/-- The user keeps types and shapes. -/
def Allowed (w : World α) : Op α → Prop
  | .setData i a => a.shape = (w.fields i).data.shape ∧ a.dtype = .f32
  | .setCoords _ lon lat depth => lon.dtype = .f32 ∧ lat.dtype = .f32 ∧ depth.dtype = .f32
  | _ => True

/-- A history. -/
inductive Reach (array : Arr α → Arr α) (w0 : World α) : World α → Prop where
  | start : Reach array w0 w0
  | next {w : World α} (op : Op α) : Reach array w0 w → Allowed w op → Reach array w0 (step array w op)

/-- Fields and grids as they are made: data and coordinates are numbers of 32 bits, times of 64 bits; no block has been set up; fields on the same grid have the same shape; the times are those of
a completed FieldSet. -/
structure Fresh (w : World α) : Prop where
  data : ∀ i, (w.fields i).data.dtype = .f32 ∧ (w.fields i).data.shape ≠ [] ∧ (w.fields i).chunkSet = false
  same : ∀ i j, (w.fields i).grid = (w.fields j).grid → (w.fields i).data.shape = (w.fields j).data.shape
  coords : ∀ g, (w.grids g).lon.dtype = .f32 ∧ (w.grids g).lat.dtype = .f32 ∧ (w.grids g).depth.dtype = .f32
  times : ∀ g, ∃ (shift : α → α) (q : Grd α) (n : ℕ) (s : ℤ), q.time.dtype = .f64 ∧ q.time.shape = [n] ∧ q.time.strides = [s] ∧ w.grids g = complete shift q

end Parcels.JitData
