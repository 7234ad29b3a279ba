import Verif.Model.GridRun
import Verif.Model.TimeChunk

/-!
Model of a whole call of `ParticleSet.execute` with a fieldset that is loaded in parts (`deferred_load=True`, the default): Model/WholeRun with the calls of
`FieldSet.computeTimeChunk` (Model/TimeChunk), and kernels that sample the snapshots in memory (Model/GridRun).

Simplifications: those of the three models. What `computeTimeChunk` returns is computed here: `input` of the options of Model/WholeRun is not used. The fields are not periodic in time, so sampling does not change the state of the grids.
-/

namespace Parcels.DeferRun

open GridRun (Fld)
open TimeChunk (Flags DG)
open WholeRun (Exec St Run Opts write args startTime)
open Schedule (Ext Args)
open TimeInterp (SErr)

variable {V : Type}

/-- The grids with deferred loading. Models: fieldset.py:1031-1038. -/
abbrev Grids := List (Flags × DG)

/-- The field as it is in memory: the loaded times, and the snapshots `data[0]` and `data[1]`. `slot` tells which entry of `gs` is the grid with that number;
`none` for a grid that is loaded at once. Models: fieldset.py:1059-1069, 1101-1123; grid.py:202, 206, 220. -/
def inMemory (slot : Nat → Option Nat) (gs : Grids) (f : Fld) : Fld :=
  match (slot f.igrid).bind fun k => gs[k]? with
  | none => f
  | some x => { f with time := x.2.loaded, data := fun i => f.data (if i = 0 then x.2.mem.1 else x.2.mem.2) }

/-- What `computeTimeChunk` returns, as a number. Models: fieldset.py:1027. -/
def ext (dt : ℚ) : Option ℚ → Ext
  | some x => .fin x
  | none => if 0 < dt then .pinf else .ninf

/-- The arguments of the event loop when the next call of `computeTimeChunk` returns `e`. Models: particlesets/baseparticleset.py:426, 474. -/
def withInput (a : Args) (e : Ext) : Args := { a with input := fun _ _ => e }

/-- `next_input = self.fieldset.computeTimeChunk(time, dt)`, unless the end is reached. Models: particlesets/baseparticleset.py:473-474. -/
def request (a : Args) (gs : Grids) (t : ℚ) : Except SErr (Grids × Option ℚ) :=
  if t = a.E then .ok (gs, none) else TimeChunk.computeTimeChunk gs t a.dt

/-- The `while` loop. The kernel sees the snapshots that are in memory. An exception of `computeTimeChunk` leaves `execute`.
Models: particlesets/baseparticleset.py:434-478. -/
def loop (a : Args) (exec : Grids → Exec V) : Nat → Grids → St V → Option (Run V × Grids)
  | 0, _, _ => none
  | n + 1, gs, s =>
    if Schedule.continues a s.sched then
      match Schedule.nextStop a s.sched with
      | .fin t =>
        match exec gs t a.dt s.ps with
        | none => none
        | some (.raised, ps) => some (.raised { s with ps := ps }, gs)
        | some (_, ps) =>
          match (bif Schedule.near t (s.sched.next .output) then write a.hasFile { s with ps := ps } t else some { s with ps := ps }) with
          | none => some (.crash { s with ps := ps }, gs)
          | some s2 =>
            match request a gs t with
            | .error _ => some (.crash s2, gs)
            | .ok (gs', nx) =>
              if a.dt = 0 then some (.done { s2 with sched := Schedule.fire (withInput a (ext a.dt nx)) s.sched t }, gs')
              else loop a exec n gs' { s2 with sched := Schedule.fire (withInput a (ext a.dt nx)) s.sched t }
      | _ => some (.crash s, gs)
    else some (.done s, gs)

/-- `execute`. The first call of `computeTimeChunk` has the sign of `dt` for its time step. Models: particlesets/baseparticleset.py:376-483. -/
def execute (o : Opts) (exec : Grids → Exec V) (fuel : Nat) (file : Output.PFile) (gs : Grids) (ps : List (Recovery.TP V)) : Option (Run V × Grids) :=
  match startTime o.dt ps with
  | none => some (.crash ⟨⟨0, fun _ => .pinf, .pinf, 0, [], []⟩, ps, file, []⟩, gs)
  | some S =>
    let a := args o S
    let s0 : St V := ⟨Schedule.init a, ps.map fun q => (q.1, { q.2 with dt := a.dt }), file, []⟩
    match write a.hasFile s0 S with
    | none => some (.crash s0, gs)
    | some s1 =>
      match TimeChunk.computeTimeChunk gs S (sgn a.dt) with
      | .error _ => some (.crash s1, gs)
      | .ok (gs1, nx) =>
        match loop a exec fuel gs1 { s1 with sched := Schedule.init (withInput a (ext a.dt nx)) } with
        | none => none
        | some (.done s2, gs2) =>
          match write a.hasFile s2 s2.sched.time with
          | none => some (.crash s2, gs2)
          | some s3 => some (.done s3, gs2)
        | some r => some r

end Parcels.DeferRun
