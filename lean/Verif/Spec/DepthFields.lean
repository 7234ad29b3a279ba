import Verif.Model.DepthFields
import Verif.Spec.TimeChunk

/-!
Vocabulary for depths that are given by a field (C93).
-/

namespace Parcels.DepthFields
open Parcels.TimeChunk Parcels.Search

/-- All times of a field. -/
def FSet.series (S : FSet) (i : Nat) : List ℚ :=
  match (S.grid (S.field i).grid).times with
  | .all T => T
  | .deferred _ g => g.full

/-- The times of the snapshots `l` of field `j`. -/
def FSet.timesOf (S : FSet) (j : Nat) (l : List Nat) : List ℚ := l.map fun k => (S.series j).getD k 0

/-- The levels of field `i` follow field `j`: for every snapshot in memory of field `i`, the depths of the levels of that snapshot are the data of
field `j` at the same time. -/
def Follows (S : FSet) (i j : Nat) : Prop :=
  ∃ l l', S.data i = some l ∧ (S.grid (S.field i).grid).depth = .snaps j l' ∧ S.timesOf i l = S.timesOf j l'

/-- The FieldSet in which field `i` is loaded when needed, and gets its depths from field `j`, which is also loaded when needed; both from
files. -/
structure Uses (S : FSet) (i j : Nat) : Prop where
  fi : i < S.fields.length
  fj : j < S.fields.length
  gi : (S.field i).grid < S.grids.length
  gj : (S.field j).grid < S.grids.length
  filesI : (S.field i).files = true
  filesJ : (S.field j).files = true
  src : (S.grid (S.field i).grid).src = .field j

/-- A grid whose times are loaded when needed, in a state after any history of loading and sampling. -/
def Loading (g : GridS) (T : List ℚ) : Prop :=
  ∃ fl d, g.times = .deferred fl d ∧ fl.periodic = false ∧ Increasing T ∧ 3 ≤ T.length ∧ Reachable fl T d

end Parcels.DepthFields
