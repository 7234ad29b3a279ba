import Verif.Model.SharedFields

/-!
Vocabulary for C89.
-/

namespace Parcels.SharedFields

/-- What a program does with FieldSets: make one, add a Field to one, complete one (which making a ParticleSet does). -/
inductive Op where
  | new
  | add (s f : Nat)
  | complete (s : Nat)
deriving DecidableEq, Repr

/-- The effect; nothing happens if the code refuses. -/
def step (w : W) : Op → W
  | .new => newSet w
  | .add s f => (addField w s f).getD w
  | .complete s => (complete w s).getD w

/-- The Fields before they are put into any FieldSet. -/
def start (gs : List G) (gridOf : List Nat) : W := ⟨gs, gridOf.map fun g => ⟨g, none, none⟩, []⟩

/-- A program. -/
def run (w : W) (ops : List Op) : W := ops.foldl step w

/-- The dates of the snapshots of a field. -/
def dates (w : W) (f : Nat) : Option (List ℚ) :=
  (w.fields[f]?).bind fun fl => (w.grids[fl.grid]?).map fun g => g.time.map (· + g.origin)

/-- `igrid` of the field is the place of its grid among the grids of the FieldSet. Particles have one entry for each of
these in their index arrays. -/
def InPlace (w : W) (s f : Nat) : Prop :=
  ∃ st fl i, w.sets[s]? = some st ∧ w.fields[f]? = some fl ∧ fl.igrid = some i ∧ st.grids[i]? = some fl.grid

/-- The times of the field count from the origin of the FieldSet, as the times of its particles do. (Fields with a single
snapshot do not vary in time.) -/
def OnClock (w : W) (s f : Nat) : Prop :=
  ∃ st fl g, w.sets[s]? = some st ∧ w.fields[f]? = some fl ∧ w.grids[fl.grid]? = some g ∧
    (g.time.length = 1 ∨ st.origin = some g.origin)

/-- All that matters of a FieldSet: the set itself, its fields, and their grids. -/
def view (w : W) (s : Nat) : Option (S × List (Option F × Option G)) :=
  (w.sets[s]?).map fun st => (st, st.members.map fun f => (w.fields[f]?, (w.fields[f]?).bind fun fl => w.grids[fl.grid]?))

/-- The operation has nothing to do with FieldSet `s`: it works on another one, and on no Field or Grid of `s`. -/
def Apart (w : W) (s : Nat) : Op → Prop
  | .new => True
  | .add t f => t ≠ s ∧ ∀ st, w.sets[s]? = some st → f ∉ st.members
  | .complete t => t ≠ s ∧ ∀ st st', w.sets[s]? = some st → w.sets[t]? = some st' →
      ∀ f ∈ st.members, ∀ fl, w.fields[f]? = some fl → fl.grid ∉ st'.grids

end Parcels.SharedFields
