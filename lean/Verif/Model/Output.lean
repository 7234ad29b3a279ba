import Verif.Model.Base

/-!
Model of trajectory output: which records `ParticleFile.write` stores
(parcels/particlesets/collectionsoa.py:36-52, 815-871; parcels/particlefile.py:238-249).

Simplifications: all variables written at each output time are one value `vals`; the variables
written once are part of the same value. Warnings are left out. Times are rationals; `none` is NaN.
-/

namespace Parcels.Output

/-- What the writer reads of a particle. Models: particlesets/collectionsoa.py:36-52, 841-866. -/
structure P (V : Type) where
  id : ℤ
  time : Option ℚ
  dt : ℚ
  deleted : Bool
  vals : V
deriving DecidableEq

/-- `_to_write_particles`. Models: collectionsoa.py:36-43. -/
def toWrite {V : Type} (p : P V) (time : ℚ) : Bool :=
  match p.time with
  | none => false
  | some t => decide (time - |p.dt / 2| ≤ t) && decide (t ≤ time + |p.dt / 2|)

/-- `_is_particle_started_yet`. Models: collectionsoa.py:46-52. -/
def started {V : Type} (p : P V) (time : ℚ) : Bool :=
  match p.time with
  | none => false
  | some t => decide (p.dt * t ≤ p.dt * time) || isclose t time

/-- The `deleted_only` argument: False, True, a Boolean array or a list of indices. Models: particlesets/collectionsoa.py:839-846. -/
inductive Req where
  | regular
  | deletedTrue
  | mask (m : List Bool)
  | indices (l : List Nat)
deriving DecidableEq, Repr

/-- The parts of a ParticleFile that a write reads or changes.
Models: parcels/particlefile.py:54-86. -/
structure PFile where
  lasttime : Option ℚ
  writeOndelete : Bool
  hasOnce : Bool
  maxid : ℤ
  timeWritten : List ℚ
  writtenOnce : List ℤ
deriving DecidableEq

/-- A new ParticleFile. Models: particlefile.py:57-86. -/
def newFile (writeOndelete hasOnce : Bool) : PFile :=
  { lasttime := none, writeOndelete := writeOndelete, hasOnce := hasOnce, maxid := -1,
    timeWritten := [], writtenOnce := [] }

/-- `data[mask]`. Models: particlesets/collectionsoa.py:849, 863-866. -/
def byMask {α : Type} (l : List α) (m : List Bool) : List α := ((l.zip m).filter (·.2)).map (·.1)

/-- The particles selected, and the truth value of `np.any(indices_to_write) > 0`.
Models: collectionsoa.py:839-846. -/
def choose {V : Type} (ps : List (P V)) (time : ℚ) : Req → List (P V) × Bool
  | .regular => (ps.filter fun p => toWrite p time, ps.any fun p => toWrite p time)
  | .deletedTrue =>
    let idx := (List.range ps.length).filter fun i => (ps[i]?.map (·.deleted)).getD false
    (idx.filterMap fun i => ps[i]?, idx.any fun i => i ≠ 0)
  | .mask m => (byMask ps m, m.any id)
  | .indices l => (l.filterMap fun i => ps[i]?, l.any fun i => i ≠ 0)

/-- `np.maximum(maxid, np.max(ids))`. Models: particlesets/collectionsoa.py:850. -/
def maxWith {V : Type} (m : ℤ) (l : List (P V)) : ℤ := l.foldl (fun a p => max a p.id) m

/-- A selected particle that makes the writer warn about its time. Models: collectionsoa.py:852. -/
def badTime {V : Type} (p : P V) (time : ℚ) : Bool :=
  match p.time with
  | none => false
  | some t => !p.deleted && decide (1 / 1000 < |time - t|)

/-- The warning indexes the time array of all particles with a mask of the length of the selection:
IndexError unless all particles are selected. Models: collectionsoa.py:852-854. -/
def warnRaises {V : Type} (ps sel : List (P V)) (time : ℚ) : Bool :=
  (sel.any fun p => badTime p time) && decide (sel.length ≠ ps.length)

/-- `toDictionary`: the file afterwards, the records of this write, the 'once' records of this write;
`none`: IndexError (nothing is stored then).
Simplification: for particles with time NaN the comparison of the warning (`np.greater(.., where=..)`,
whose value there is not defined by numpy) counts as false.
Models: collectionsoa.py:815-871. -/
def toDict {V : Type} (f : PFile) (ps : List (P V)) (time : ℚ) (req : Req) :
    Option (PFile × List (P V) × List (P V)) :=
  if f.lasttime ≠ some time ∧ (f.writeOndelete = false ∨ req ≠ .regular) then
    if ps.isEmpty then
      some (if req = .regular then { f with lasttime := some time } else f, [], [])
    else
      let c := choose ps time req
      let data := bif c.2 then c.1 else []
      if warnRaises ps c.1 time then none
      else
        let first := if f.hasOnce then
            ps.filter fun p => toWrite p time && started p time && decide (p.id ∉ f.writtenOnce)
          else []
        some ({ f with
          lasttime := if req = .regular then some time else f.lasttime
          maxid := bif c.2 then maxWith f.maxid data else f.maxid
          timeWritten := if time ∈ f.timeWritten then f.timeWritten else f.timeWritten ++ [time]
          writtenOnce := f.writtenOnce ++ first.map (·.id) }, data, first)
  else some (f, [], [])

/-- One call of `ParticleFile.write`: time, kind, the particle set at that moment.
Models: particlefile.py:238-249; particlesets/baseparticleset.py:407, 462, 481; kernel.py:381, 394. -/
structure Event (V : Type) where
  time : ℚ
  req : Req
  ps : List (P V)

/-- What one call stored. Models: particlesets/collectionsoa.py:848-866. -/
structure Out (V : Type) where
  time : ℚ
  data : List (P V)
  once : List (P V)
deriving DecidableEq

/-- A whole history of calls: the file afterwards and everything stored, in order. An exception ends it
(the Boolean is true then). Models: particlefile.py:238-249, called several times. -/
def run {V : Type} : PFile → List (Event V) → PFile × List (Out V) × Bool
  | f, [] => (f, [], false)
  | f, e :: es =>
    match toDict f e.ps e.time e.req with
    | none => (f, [], true)
    | some r =>
      let q := run r.1 es
      (q.1, { time := e.time, data := r.2.1, once := r.2.2 } :: q.2.1, q.2.2)

end Parcels.Output
