import Verif.Model.WholeRun

/-!
Model of a whole call of `ParticleSet.execute` with repeated release (`repeatdt`): Model/WholeRun with the branch of the event loop that adds particles.

Simplifications: as in Model/WholeRun; no other ParticleSet is made meanwhile, so that the identifiers of new particles are consecutive; the fields, the class and
the type of coordinates of the new set are those of the old one; one processor (no MPI).
-/

namespace Parcels.ReleaseRun

open KernelLoop (Kern)
open Recovery (TP)
open Schedule (Args)
open WholeRun (Exec St Run Opts write startTime)

variable {V : Type}

/-- The first pass of `Kernel.execute`: the particles after the kernel ran for the first time, before any is removed. Models: kernel.py:397-399, 418-421. -/
abbrev Pass (V : Type) := (endtime dt : ℚ) → List (TP V) → Option (List (TP V))

/-- The first pass in Scipy mode. Models: kernel.py:397-399, 421. -/
def scipyPass (K : Kern Unit V) (fuel : Nat) : Pass V := fun E dt ps =>
  (Recovery.runPass K E dt fuel () (ps.map fun p => (p.1, { p.2 with state := .evaluate }))).map fun r => r.2.1

/-- The first pass in JIT mode. Models: kernel.py:397-399, 419. -/
def jitPass (K : Kern Unit V) (fuel : Nat) : Pass V := fun E dt ps =>
  (JitExec.runPass K id E dt fuel ((), none) (ps.map fun p => (p.1, { p.2 with state := .evaluate }))).map fun r => r.2

/-- What the set keeps for repeated release: `repeatdt`, `repeat_starttime`, and the variables of new particles (`repeatlon`, `repeatlat`, `repeatdepth`,
`repeatkwargs`): `held = none` as long as these arrays are those of the particles themselves (see Model/RepeatRelease). `nextId` is the `lastID` of the class.
Models: particlesets/particlesetsoa.py:125-156. -/
structure Repeat (V : Type) where
  repeatdt : ℚ
  start : Option ℚ
  held : Option (List V)
  nextId : Nat

/-- What the arrays hold after a call of `Kernel.execute`: if they were those of the particles, they have seen the first pass, after which `remove_deleted_soa`
gave the particles new arrays. `fresh` makes the variables of a new particle of those of an old one (`lon`, `lat`, `depth` and the keyword arguments are kept, the
others are initialised). Models: kernel.py:384-395; particlesets/particlesetsoa.py:146-150; particlesets/collectionsoa.py:634-647. -/
def hold (pass : Pass V) (fresh : V → V) (t dt : ℚ) (ps : List (TP V)) : Option (List V) → Option (List V)
  | some vs => some vs
  | none => (pass t dt ps).map fun qs => qs.map fun q => fresh q.2.vars

/-- The new particles. Models: particlesets/baseparticleset.py:450-457; particlesets/collectionsoa.py:100-174. -/
def newBatch (t dt : ℚ) (id : Nat) (vs : List V) : List (TP V) := vs.mapIdx fun i v => (id + i, ⟨t, dt, .evaluate, v⟩)

/-- The `while` loop. Models: particlesets/baseparticleset.py:434-478. -/
def loop (a : Args) (exec : Exec V) (pass : Pass V) (fresh : V → V) : Nat → Repeat V → St V → Option (Run V × Repeat V)
  | 0, _, _ => none
  | n + 1, rep, s =>
    if Schedule.continues a s.sched then
      match Schedule.nextStop a s.sched with
      | .fin t =>
        match exec t a.dt s.ps, hold pass fresh t a.dt s.ps rep.held with
        | none, _ => none
        | _, none => none
        | some (.raised, ps), some vs => some (.raised { s with ps := ps }, { rep with held := some vs })
        | some (_, ps), some vs =>
          let ps1 := bif Schedule.near t (s.sched.next .release) then ps ++ newBatch t a.dt rep.nextId vs else ps
          let rep1 := { rep with held := some vs, nextId := bif Schedule.near t (s.sched.next .release) then rep.nextId + vs.length else rep.nextId }
          match (bif Schedule.near t (s.sched.next .output) then write a.hasFile { s with ps := ps1 } t else some { s with ps := ps1 }) with
          | none => some (.crash { s with ps := ps1 }, rep1)
          | some s2 =>
            if t ≠ a.E ∧ a.hasFieldset = false then some (.crash s2, rep1)
            else if a.dt = 0 then some (.done { s2 with sched := Schedule.fire a s.sched t }, rep1)
            else loop a exec pass fresh n rep1 { s2 with sched := Schedule.fire a s.sched t }
      | _ => some (.crash s, rep)
    else some (.done s, rep)

/-- The arguments of the event loop. Models: particlesets/baseparticleset.py:385-401, 419-422. -/
def args (o : Opts) (S repeatdt rs : ℚ) : Args := { WholeRun.args o S with repeatdt := some repeatdt, rs := rs }

/-- `execute`. Models: particlesets/baseparticleset.py:376-483 (`repeat_starttime` at 386-387). -/
def execute (o : Opts) (exec : Exec V) (pass : Pass V) (fresh : V → V) (fuel : Nat) (file : Output.PFile) (rep : Repeat V) (ps : List (TP V)) :
    Option (Run V × Repeat V) :=
  match startTime o.dt ps with
  | none => some (.crash ⟨⟨0, fun _ => .pinf, .pinf, 0, [], []⟩, ps, file, []⟩, rep)
  | some S =>
    let rs := rep.start.getD S
    let rep0 := { rep with start := some rs }
    let a := args o S rep.repeatdt rs
    let s0 : St V := ⟨Schedule.init a, ps.map fun q => (q.1, { q.2 with dt := a.dt }), file, []⟩
    match write a.hasFile s0 S with
    | none => some (.crash s0, rep0)
    | some s1 =>
      match loop a exec pass fresh fuel rep0 s1 with
      | none => none
      | some (.done s2, rep2) =>
        match write a.hasFile s2 s2.sched.time with
        | none => some (.crash s2, rep2)
        | some s3 => some (.done s3, rep2)
      | some r => some r

end Parcels.ReleaseRun
