import Verif.Model.Collection

/-!
Vocabulary for the statements of C13-C17 and C23.
-/

namespace Parcels.Collection

/-- Every array has one entry per particle and the reported number of particles is that number. -/
def Aligned {V : Type} (c : Coll V) : Prop :=
  c.ncount = c.ids.length ∧ ∀ p ∈ c.cols, p.2.length = c.ids.length

/-- The `sorted` flag tells the truth. -/
def FlagOK {V : Type} (c : Coll V) : Prop := c.sorted = true → c.ids.Pairwise (· ≤ ·)

/-- What is stored at position `i`: the ID and the value of every variable. -/
def row {V : Type} (c : Coll V) (i : Nat) : Option ℤ × List (String × Option V) :=
  (c.ids[i]?, c.cols.map fun p => (p.1, p.2[i]?))

/-- The particles of the set, in order. -/
def rows {V : Type} (c : Coll V) : List (Option ℤ × List (String × Option V)) :=
  (List.range c.ids.length).map (row c)

/-- The names of the variables. -/
def names {V : Type} (c : Coll V) : List String := c.cols.map (·.1)

/-- The list without the entries at the given positions, order kept. -/
def without {α : Type} (del : List Nat) (l : List α) : List α :=
  (l.zipIdx.filter fun p => p.2 ∉ del).map (·.1)

/-- The public operations that add or remove particles. -/
inductive Op (V : Type) where
  | add (o : Coll V)
  | removeIndices (idx : List ℤ)
  | removeIndex (i : ℤ)
  | removeBool (v : List Bool)
  | removeID (id : ℤ)
  | removeIDs (q : List ℤ)
  | deleteID (mark : V) (id : ℤ)

/-- The set after an operation; an operation that raises leaves the set as it was, except `add`. -/
def apply {V : Type} (c : Coll V) : Op V → Coll V
  | .add o => (addSame c o).1
  | .removeIndices idx => match removeMulti c idx with | .ok c' => c' | .error _ => c
  | .removeIndex i => match removeSingle c i with | .ok c' => c' | .error _ => c
  | .removeBool v => match removeBool c v with | .ok c' => c' | .error _ => c
  | .removeID id => match removeByID c id with | .ok c' => c' | .error _ => c
  | .removeIDs q => match removeByIDs c q with | .ok c' => c' | .error _ => c
  | .deleteID m id => match deleteByID c m id with | .ok c' => c' | .error _ => c

/-- A history of operations. -/
def applyAll {V : Type} (c : Coll V) (ops : List (Op V)) : Coll V := ops.foldl apply c

/-- Operations within the limits in which the set stays consistent: sets that are added are consistent
themselves, have the same variables, each once, and do not come with unsorted IDs into an empty set;
index lists do not name a position twice. -/
def Reasonable {V : Type} (c : Coll V) : Op V → Prop
  | .add o => Aligned o ∧ FlagOK o ∧ names o = names c ∧ (names o).Nodup ∧
      (c.ids = [] → c.sorted = true → o.ids.Pairwise (· ≤ ·))
  | .removeIndices idx =>
      -- no two entries name the same position (a negative entry counts from the end)
      idx.Pairwise fun (i j : ℤ) => i ≠ j ∧ i ≠ j + c.ids.length ∧ j ≠ i + c.ids.length
  | .removeIDs q => q.Nodup
  | _ => True

/-- All operations of a history are reasonable at the time they are done. -/
def ReasonableAll {V : Type} (c : Coll V) : List (Op V) → Prop
  | [] => True
  | o :: ops => Reasonable c o ∧ ReasonableAll (apply c o) ops

/-- IDs handed out by a history of ParticleSet constructions, starting from class counter `lastID`.
Each construction is given by its `pid_orig`. -/
def history (lastID : ℤ) : List (List ℤ) → List (List ℤ)
  | [] => []
  | p :: ps =>
    let r := construct (V := Unit) lastID p []
    r.1.ids :: history r.2 ps

end Parcels.Collection
