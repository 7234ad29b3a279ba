import Verif.Model.Advance
import Verif.Spec.Search

/-!
Vocabulary for the statements of C114: the snapshots of a field with their dates.
-/

namespace Parcels.Advance

open Converters (ticks)

variable {D : Type}

/-- The date of time `t` of a grid, in the unit of its calendar. -/
def date (g : Gr) (t : ℚ) : ℚ := g.origin + t * ticks g.calendar

/-- The dates of a grid. -/
def dates (g : Gr) : List ℚ := g.time.map (date g)

/-- The snapshots of a field, with their dates. -/
def snapshots (g : Gr) (f : F D) : List (ℚ × D) := (dates g).zip f.data

/-- The oldest of the snapshots `l` is replaced by `new`, in the direction in which time passes. -/
def replaced {A : Type} (forward : Bool) (l : List A) (new : A) : List A := if forward then l.tail ++ [new] else new :: l.dropLast

/-- All the dates of a list are before, or all are after, the date `d`. -/
def Beyond (forward : Bool) (l : List ℚ) (d : ℚ) : Prop := if forward then ∀ e ∈ l, e < d else ∀ e ∈ l, d < e

/-- The fields in the list other than vector fields. -/
def scalars : List (NF D) → List (String × F D)
  | [] => []
  | .vector :: fs => scalars fs
  | .scalar n f :: fs => (n, f) :: scalars fs

end Parcels.Advance
