import Verif.Model.TimeInterp
import Verif.Model.Converters

/-!
Model of deferred loading: `Grid.computeTimeChunk` (parcels/grid.py:188-234), `FieldSet.computeTimeChunk`
(parcels/fieldset.py:1017-1168), `Field.computeTimeChunk` and `Field.collect_timeslices` (parcels/field.py:223-252,
1344-1379, 173-174, 187-188).

Simplifications: exact arithmetic; fields that share a grid share its decisions, so one field stands for all of a grid's
fields (they have the same flags); a snapshot in memory is represented by its index in the whole time series (the data
themselves are those of `recordOf`); spatial chunks are in Model/Chunks.
-/

namespace Parcels.TimeChunk
open Parcels.Search Parcels.TimeInterp

/-- The flags of a field that matter. The constructor clears `extrap` for periodic fields. Models: field.py:136-156. -/
structure Flags where
  periodic : Bool
  extrap : Bool
deriving DecidableEq, Repr

/-- A grid with deferred loading: all times, index of the first loaded snapshot (-1: none), the loaded times
(`grid.time`), the number of periods (`grid.periods`), and which snapshots `data[0]` and `data[1]` hold. Models: grid.py:37-68, 188-234; field.py:438-439. -/
structure DG where
  full : List ℚ
  ti : ℤ
  loaded : List ℚ
  periods : ℤ
  mem : Nat × Nat
deriving DecidableEq, Repr

/-- `update_status`. Models: grid.py:192, 203, 223-229. -/
inductive Status where
  | notUpdated
  | updated
  | firstUpdated
deriving DecidableEq, Repr

/-- A grid before anything is loaded. Models: field.py:437-439, grid.py ctor. -/
def DG.fresh (full : List ℚ) : DG := { full := full, ti := -1, loaded := full, periods := 0, mem := (0, 0) }

/-- `time_full[-1] - time_full[0]`. Models: grid.py:194-204, 231-233. -/
def DG.span (g : DG) : ℚ := g.full.getLastD 0 - g.full.headD 0

/-- `time_full[ti:ti+2]`. Models: grid.py:202, 206, 220. -/
def slice (full : List ℚ) (i : Nat) : List ℚ := (full.drop i).take 2

/-- What `time_index` leaves in `grid.periods`. Models: field.py:1057-1067. -/
def storedPeriods (a : TAxis) (t : ℚ) (old : ℤ) : ℤ :=
  if a.periodic && ((a.time.all fun v => decide (v ≤ t)) || (a.time.all fun v => !decide (v ≤ t))) then periodsOf a t
  else old

/-- First part: keep, advance by one, or reset the loaded pair. Models: grid.py:192-207. -/
def advance (g : DG) (t : ℚ) (s : ℤ) : ℤ × List ℚ × Status :=
  let t' := t - g.periods * g.span
  let n : ℤ := g.full.length
  if 0 ≤ g.ti then
    if t' < g.loaded.getD 0 0 ∨ g.loaded.getD 1 0 < t' then (-1, g.loaded, .notUpdated)
    else if 0 ≤ s ∧ (t' < g.full.headD 0 ∨ g.full.getLastD 0 ≤ t') then (-1, g.loaded, .notUpdated)
    else if s < 0 ∧ (t' ≤ g.full.headD 0 ∨ g.full.getLastD 0 < t') then (-1, g.loaded, .notUpdated)
    else if 0 ≤ s ∧ g.loaded.getD 1 0 ≤ t' ∧ g.ti < n - 2 then
      (g.ti + 1, slice g.full (g.ti + 1).toNat, .updated)
    else if s < 0 ∧ t' ≤ g.loaded.getD 0 0 ∧ 0 < g.ti then
      (g.ti - 1, slice g.full (g.ti - 1).toNat, .updated)
    else (g.ti, g.loaded, .notUpdated)
  else (g.ti, g.loaded, .notUpdated)

/-- The index after a reset, from the index `i` found by `time_index` and the stored periods; the second component is
the local variable `periods`. Models: grid.py:208-218. -/
def resetIdx (g : DG) (periodic : Bool) (t : ℚ) (s : ℤ) (i p : ℤ) : ℤ × ℤ :=
  let n : ℤ := g.full.length
  let wrapped := decide (s = -1) && decide (i = 0) && decide (t - p * g.span = g.full.headD 0) && periodic
  let i1 := if wrapped then n - 1 else i
  let p1 := if wrapped then p - 1 else p
  let i2 := if s = -1 ∧ 0 < i1 then i1 - 1 else i1
  let i3 := if n - 1 ≤ i2 then n - 2 else i2
  (i3, p1)

/-- The status after a reset, from the times loaded before and after. Models: grid.py:222-229. -/
def resetStatus (prev now : List ℚ) : Status :=
  if prev.length ≠ 2 ∨ prev.length ≠ now.length then .firstUpdated
  else if now = prev then .notUpdated
  else if now.take 1 = prev.take 1 then .updated
  else .firstUpdated

/-- The next time at which new snapshots are needed; `none`: never. Models: grid.py:189, 230-233. -/
def nextTime (full : List ℚ) (extrap : Bool) (span : ℚ) (s i p : ℤ) (now : List ℚ) : Option ℚ :=
  if 0 ≤ s ∧ (i < (full.length : ℤ) - 2 ∨ extrap = false) then some (now.getD 1 0 + p * span)
  else if s < 0 ∧ (0 < i ∨ extrap = false) then some (now.getD 0 0 + p * span)
  else none

/-- What is read into memory. Models: fieldset.py:1044-1123. -/
def loadMem (st : Status) (s : ℤ) (i : ℤ) (mem : Nat × Nat) : Nat × Nat :=
  match st with
  | .notUpdated => mem
  | .firstUpdated => (i.toNat, i.toNat + 1)
  | .updated => if 0 ≤ s then (mem.2, i.toNat + 1) else (i.toNat, mem.1)

/-- `Grid.computeTimeChunk`, followed by the loading. Models: grid.py:188-234, fieldset.py:1044-1123. -/
def gridChunk (f : Flags) (g : DG) (t : ℚ) (s : ℤ) : Except SErr (DG × Option ℚ) :=
  let (ti, now, st) := advance g t s
  if ti = -1 then
    match timeIndex (TAxis.full g.full f.periodic f.extrap) t with
    | .error e => .error e
    | .ok (i, _) =>
      let p := storedPeriods (TAxis.full g.full f.periodic f.extrap) t g.periods
      let (j, p1) := resetIdx g f.periodic t s i p
      let now := slice g.full j.toNat
      .ok ({ g with ti := j, loaded := now, periods := p, mem := loadMem (resetStatus g.loaded now) s j g.mem },
        nextTime g.full f.extrap g.span s j p1 now)
  else
    .ok ({ g with ti := ti, loaded := now, mem := loadMem st s ti g.mem },
      nextTime g.full f.extrap g.span s ti g.periods now)

/-- The axis on which fields are sampled while the grid is in this state; after the first load `tdim` and the number of loaded times are both
2. Models: grid.py:220-221. -/
def DG.axis (g : DG) (f : Flags) : TAxis :=
  { time := g.loaded, tdim := g.loaded.length, fullMin := g.full.headD 0, fullMax := g.full.getLastD 0, periodic := f.periodic, extrap := f.extrap }

/-- Snapshot `i` in memory, if `snap` gives the snapshots of the whole series. Models: fieldset.py:1059-1069, 1101-1123. -/
def DG.inMem (g : DG) (snap : Nat → Except Err ℚ) (i : Nat) : Except Err ℚ := if i = 0 then snap g.mem.1 else snap g.mem.2

/-- Sampling in Scipy mode changes `grid.periods`. Models: field.py:1060-1063. -/
def DG.sampled (g : DG) (f : Flags) (u : ℚ) : DG := { g with periods := storedPeriods (g.axis f) u g.periods }

/-- Sampling in JIT mode changes `grid.periods`, which the C code shares. Models: index_search.h:433-458. -/
def DG.cSampled (g : DG) (f : Flags) (fuel : Nat) (u : ℚ) (ti : ℤ) : DG :=
  match cSearchTime g.loaded f.periodic (g.full.headD 0) (g.full.getLastD 0) fuel u ti g.periods with
  | some (_, _, p) => { g with periods := p }
  | none => g

/-- `nextTime` over all grids: the earliest (latest, if backward); `none` is infinity. Models: fieldset.py:1038. -/
def soonest (s : ℤ) : Option ℚ → Option ℚ → Option ℚ
  | none, b => b
  | a, none => a
  | some a, some b => if 0 ≤ s then some (min a b) else some (max a b)

/-- The loop over the grids. Models: fieldset.py:1031-1038. -/
def chunkAll (t : ℚ) (s : ℤ) : List (Flags × DG) → Except SErr (List (Flags × DG) × Option ℚ)
  | [] => .ok ([], none)
  | (f, g) :: rest =>
    match gridChunk f g t s with
    | .error e => .error e
    | .ok (g', nx) =>
      if nx = some t ∧ s ≠ 0 then .error .time
      else
        match chunkAll t s rest with
        | .error e => .error e
        | .ok (rest', nx') => .ok ((f, g') :: rest', soonest s nx nx')

/-- `np.sign(dt)`. Models: fieldset.py:1026. -/
def signQ (dt : ℚ) : ℤ := if 0 < dt then 1 else if dt < 0 then -1 else 0

/-- `FieldSet.computeTimeChunk`: the time of the next call; `none` is infinity. Models: fieldset.py:1017-1168. -/
def computeTimeChunk (gs : List (Flags × DG)) (t dt : ℚ) : Except SErr (List (Flags × DG) × Option ℚ) :=
  match chunkAll t (signQ dt) gs with
  | .error e => .error e
  | .ok (gs', nx) =>
    if dt = 0 then .ok (gs', none)
    else
      match nx with
      | none => .ok (gs', none)
      | some nx =>
        let nSteps := Converters.truncInt ((nx - t) / dt)
        .ok (gs', some (if nSteps = 0 then nx else t + nSteps * dt))

/-! ### Files -/

/-- `dataFiles`: for every time index the file, with the extra entry of periodic fields.
Models: field.py:224-241, 182-183. -/
def dataFiles (files : List (List ℚ)) (extra : Bool) : List Nat :=
  let l := files.zipIdx.flatMap fun (ts, f) => List.replicate ts.length f
  if extra then l ++ [l.headD 0] else l

/-- `(time_data <= t).argmin() - 1` as a Python index. Models: field.py:1366. -/
def recordIdx (times : List ℚ) (t : ℚ) : Nat :=
  let a := if times.all fun v => decide (v ≤ t) then 0 else times.findIdx fun v => !decide (v ≤ t)
  wrapIdx times.length ((a : ℤ) - 1)

/-- File and record read for time index `k`. Models: field.py:1344-1366. -/
def recordOf (files : List (List ℚ)) (extra : Bool) (full : List ℚ) (k : Nat) : Nat × Nat :=
  let f := (dataFiles files extra).getD k 0
  (f, recordIdx (files.getD f []) (full.getD k 0))

end Parcels.TimeChunk
