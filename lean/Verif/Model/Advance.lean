import Verif.Model.TimeInterp
import Verif.Model.Converters

/-!
Model of `FieldSet.advancetime` (parcels/fieldset.py:989-1015), `Grid.advancetime` (parcels/grid.py:145-158) and `Field.advancetime` (parcels/field.py:1332-1342).

Simplifications: exact numbers; a snapshot of a field is a value of type `D`; both grids use the same calendar (else `reltime` raises before anything is changed); grids are numbered, and fields refer to them by
number, so that fields share grids; nested and summed fields are not modelled (they have no attribute `grid`).
-/

namespace Parcels.Advance

open Converters (Calendar reltime)

/-- What is raised: not one snapshot, overlapping times, both directions, `isinstance` with one argument, no field of that name. Models: grid.py:150, 158; fieldset.py:1006, 1012; field.py:1333. -/
inductive AErr where
  | snapshots
  | overlap
  | mixed
  | type
  | attribute
deriving DecidableEq, Repr

/-- A grid: its times and the date they count from. Models: grid.py:37-68. -/
structure Gr where
  time : List ℚ
  calendar : Calendar
  origin : ℚ
deriving DecidableEq

/-- `grid.advancetime(grid_new)`: both grids afterwards, and the direction or what was raised. The times of the new grid are changed before the checks. `if self.time_origin` always holds (an object).
Models: grid.py:145-158. -/
def gridAdvance (g gnew : Gr) : Gr × Gr × Except AErr ℤ :=
  let gnew := { gnew with time := gnew.time.map (· + reltime g.calendar g.origin gnew.origin) }
  match gnew.time with
  | [t] =>
    if g.time.getLastD 0 < t then ({ g with time := g.time.tail ++ [t] }, gnew, .ok 1)
    else if t < g.time.headD 0 then ({ g with time := t :: g.time.dropLast }, gnew, .ok (-1))
    else (g, gnew, .error .overlap)
  | _ => (g, gnew, .error .snapshots)

variable {D : Type}

/-- A field: the number of its grid, and its snapshots. Models: field.py:80-235. -/
structure F (D : Type) where
  grid : Nat
  data : List D

/-- `isinstance(self.data) is not isinstance(field_new)`: `isinstance` takes two arguments. Models: field.py:1333. -/
def sameTypes : Except AErr Bool := .error .type

/-- `field.advancetime(field_new, advanceForward)`; `check`: the outcome of the comparison in line 1333. Models: field.py:1332-1342. -/
def fieldAdvance (check : Except AErr Bool) (f fnew : F D) (forward : Bool) : Except AErr (F D) :=
  match check with
  | .error e => .error e
  | .ok true => .ok f
  | .ok false => if forward then .ok { f with data := f.data.tail ++ fnew.data } else .ok { f with data := fnew.data ++ f.data.dropLast }

/-- The grids and fields of both field sets, and the grids that are marked as advanced. Models: fieldset.py:999-1015. -/
structure S (D : Type) where
  grids : Nat → Gr
  news : Nat → Gr
  fields : String → Option (F D)
  advanced : Nat → Bool

/-- A field of the new field set, in the order of `get_fields`. Models: fieldset.py:926-940, 1003-1005. -/
inductive NF (D : Type) where
  | vector
  | scalar (name : String) (f : F D)

/-- The loop over the fields of the new field set. Models: fieldset.py:1003-1015. -/
def loop : List (NF D) → ℤ → S D → S D × Except AErr Unit
  | [], _, s => (s, .ok ())
  | .vector :: fs, adv, s => loop fs adv s
  | .scalar name fnew :: fs, adv, s =>
    match s.fields name with
    | none => (s, .error .attribute)
    | some f =>
      if s.advanced fnew.grid then
        match fieldAdvance sameTypes f fnew (adv == 1) with
        | .error e => (s, .error e)
        | .ok f' => loop fs adv { s with fields := Function.update s.fields name (some f') }
      else
        match gridAdvance (s.grids f.grid) (s.news fnew.grid) with
        | (g, gnew, .error e) => ({ s with grids := Function.update s.grids f.grid g, news := Function.update s.news fnew.grid gnew }, .error e)
        | (g, gnew, .ok adv2) =>
          let s := { s with grids := Function.update s.grids f.grid g, news := Function.update s.news fnew.grid gnew }
          if adv2 * adv < 0 then (s, .error .mixed)
          else
            let s := { s with advanced := Function.update s.advanced fnew.grid true }
            match fieldAdvance sameTypes f fnew (adv2 == 1) with
            | .error e => (s, .error e)
            | .ok f' => loop fs adv2 { s with fields := Function.update s.fields name (some f') }

/-- `fieldset.advancetime(fieldset_new)`. Models: fieldset.py:989-1015. -/
def advancetime (fs : List (NF D)) (s : S D) : S D × Except AErr Unit := loop fs 0 { s with advanced := fun _ => false }

end Parcels.Advance
