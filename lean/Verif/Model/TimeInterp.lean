import Verif.Model.Search
import Mathlib.Algebra.Order.Floor.Defs
import Mathlib.Data.Rat.Floor

/-!
Model of sampling in time: `Field.time_index` and `Field.eval` (parcels/field.py:1048-1104), the constructor's handling
of `time_periodic` (field.py:136-157, 173-174), and the C code (parcels/include/index_search.h:433-458,
parcels.h:476-512, 582-584).

Simplifications: exact arithmetic; the value of snapshot `i` at the position is `snap i` (Model/Interp gives it); unit
conversion is in Model/Converters; depths that vary in time are not modelled.
-/

namespace Parcels.TimeInterp
open Parcels.Search

/-- Exceptions of sampling: outside the time axis, or from the search in space. Models: field.py:1054-1055, 1041-1042; parcels.h:486-511. -/
inductive SErr where
  | time
  | space (e : Err)
deriving DecidableEq, Repr

/-- What the code uses of a field's time axis: the loaded times `time`, the number `tdim` of snapshots (it is set when the grid is made,
grid.py:273, 400, and in deferred loading, grid.py:221, and it is not always the length of `time`), first and last of all times, and
the flags. -/
structure TAxis where
  time : List ℚ
  tdim : Nat
  fullMin : ℚ
  fullMax : ℚ
  periodic : Bool
  extrap : Bool

/-- An axis that is loaded completely, and that the constructor of the field did not extend. Models: grid.py:37-68. -/
def TAxis.full (time : List ℚ) (periodic extrap : Bool) : TAxis :=
  { time := time, tdim := time.length, fullMin := time.headD 0, fullMax := time.getLastD 0, periodic := periodic, extrap := extrap }

/-- A Python index into the axis. Models: field.py:1088-1099. -/
def wrapIdx (n : Nat) (i : ℤ) : Nat := if i < 0 then (i + n).toNat else i.toNat

/-- `time_index.argmin() - 1 if time_index.any() else 0` for `time_index = grid.time <= time`. `argmin` of a list of
`True` only is 0. Models: field.py:1056, 1065-1068, 1078. -/
def argminIdx (T : List ℚ) (t : ℚ) : ℤ :=
  if T.any fun v => decide (v ≤ t) then
    (if T.all fun v => decide (v ≤ t) then -1 else ((T.findIdx fun v => !decide (v ≤ t) : Nat) : ℤ) - 1)
  else 0

/-- Number of periods before `t`. Models: field.py:1059. -/
def periodsOf (a : TAxis) (t : ℚ) : ℤ := ⌊(t - a.fullMin) / (a.fullMax - a.fullMin)⌋

/-- `time_index`: index and number of periods. Models: field.py:1048-1078. -/
def timeIndex (a : TAxis) (t : ℚ) : Except SErr (ℤ × ℤ) :=
  if a.periodic = false ∧ a.extrap = false ∧ (t < a.time.headD 0 ∨ a.time.getLastD 0 < t) then .error .time
  else if a.periodic then
    if (a.time.all fun v => decide (v ≤ t)) || (a.time.all fun v => !decide (v ≤ t)) then
      .ok (argminIdx a.time (t - periodsOf a t * (a.fullMax - a.fullMin)), periodsOf a t)
    else .ok (argminIdx a.time t, 0)
  else if a.time.all fun v => decide (v ≤ t) then .ok ((a.time.length : ℤ) - 1, 0)
  else if a.time.all fun v => !decide (v ≤ t) then .ok (0, 0)
  else .ok (argminIdx a.time t, 0)

/-- `eval` without unit conversion. Models: field.py:1080-1099. -/
def evalTime (a : TAxis) (snap : Nat → Except Err ℚ) (t : ℚ) : Except SErr ℚ :=
  match timeIndex a t with
  | .error e => .error e
  | .ok (ti, periods) =>
    let n := a.time.length
    let t' := t - periods * (a.fullMax - a.fullMin)
    let t0 := a.time.getD (wrapIdx n ti) 0
    if ti < (a.tdim : ℤ) - 1 ∧ t0 < t' then
      match snap (wrapIdx n ti) with
      | .error e => .error (.space e)
      | .ok f0 =>
        match snap (wrapIdx n (ti + 1)) with
        | .error e => .error (.space e)
        | .ok f1 =>
          let t1 := a.time.getD (wrapIdx n (ti + 1)) 0
          .ok (f0 + (f1 - f0) * ((t' - t0) / (t1 - t0)))
    else
      match snap (wrapIdx n ti) with
      | .error e => .error (.space e)
      | .ok f0 => .ok f0

/-- `search_time_index`: the time moved into the axis, the index and the number of periods. `none`: the recursion has
not ended within the fuel. Models: index_search.h:433-458. -/
def cSearchTime (T : List ℚ) (periodic : Bool) (lo hi : ℚ) : Nat → ℚ → ℤ → ℤ → Option (ℚ × Nat × ℤ)
  | 0, _, _, _ => none
  | f + 1, t, ti, periods =>
    let ti0 : Nat := if ti < 0 then 0 else ti.toNat
    let finish := fun (r : ℚ × Nat × ℤ) => some (r.1, cWalk ltB T r.1 r.2.1, r.2.2)
    if periodic ∧ t < T.headD 0 then
      let k := ⌊(t - lo) / (hi - lo)⌋
      let t1 := t - k * (hi - lo)
      let k2 := if t1 < T.headD 0 then k - 1 else k
      let t2 := if t1 < T.headD 0 then t1 - k2 * (hi - lo) else t1
      (cSearchTime T periodic lo hi f t2 ((T.length : ℤ) - 1) k2).bind finish
    else if periodic ∧ T.getLastD 0 < t then
      let k := ⌊(t - lo) / (hi - lo)⌋
      (cSearchTime T periodic lo hi f (t - k * (hi - lo)) 0 k).bind finish
    else finish (t, ti0, periods)

/-- Sampling in JIT mode from the stored index `ti`; the inner `none` is a recursion that does not end within the fuel.
Models: parcels.h:486-511, 585-589. -/
def cEvalTime (a : TAxis) (snap : Nat → Except Err ℚ) (fuel : Nat) (t : ℚ) (ti : ℤ) : Option (Except SErr ℚ) :=
  if a.periodic = false ∧ a.extrap = false ∧ (t < a.time.headD 0 ∨ a.time.getD (a.tdim - 1) 0 < t) then some (.error .time)
  else
    match cSearchTime (a.time.take a.tdim) a.periodic a.fullMin a.fullMax fuel t ti 0 with
    | none => none
    | some (t', i, _) =>
      let t0 := a.time.getD i 0
      let two := decide (i < a.tdim - 1) && decide (t0 < t')
      match snap i with
      | .error e => some (.error (.space e))
      | .ok f0 =>
        bif two then
          match snap (i + 1) with
          | .error e => some (.error (.space e))
          | .ok f1 =>
            let t1 := a.time.getD (i + 1) 0
            some (.ok (f0 + (f1 - f0) * ((t' - t0) / (t1 - t0))))
        else some (.ok (f0 + (0 - f0) * ((t0 - t0) / (t0 + 1 - t0))))

/-- The axis of a field with `time_periodic`, loaded completely: the grid was made with `n` times, `time` is what the constructor made of
them. Models: field.py:148-156, grid.py:273, 400 (`tdim` is not changed). -/
def TAxis.periodicOf (n : Nat) (time : List ℚ) (extrap : Bool) : TAxis :=
  { time := time, tdim := n, fullMin := time.headD 0, fullMax := time.getLastD 0, periodic := true, extrap := extrap }

/-- The constructor with `time_periodic = P` (a number): the axis, and whether the first snapshot is appended as the
last; `none`: ValueError. Models: field.py:148-156. -/
def periodicAxis (T : List ℚ) (P : ℚ) : Option (List ℚ × Bool) :=
  if isclose (T.getLastD 0 - T.headD 0) P then some (T, false)
  else if P < T.getLastD 0 - T.headD 0 then none
  else some (T ++ [T.headD 0 + P], true)

/-- The snapshots after construction: the appended one repeats the first. Models: field.py:173-174. -/
def periodicSnap (n : Nat) (appended : Bool) (snap : Nat → Except Err ℚ) (i : Nat) : Except Err ℚ :=
  if appended && decide (i = n) then snap 0 else snap i

/-- The axis of a field made by `Field.from_xarray`: the argument `time_periodic` is not passed on, and the default of the constructor is
False. Models: field.py:454-488, 92-94, 136-145. -/
def TAxis.ofXarray (time : List ℚ) (_timePeriodic : Option ℚ) (allowTimeExtrapolation : Option Bool) : TAxis :=
  TAxis.full time false (allowTimeExtrapolation.getD (decide (time.length = 1)))

end Parcels.TimeInterp
