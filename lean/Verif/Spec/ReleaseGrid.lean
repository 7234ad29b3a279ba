import Verif.Spec.ReleaseRun
import Verif.Spec.GridRun

/-!
Vocabulary for C118: runs with repeated release, in Scipy mode and in JIT mode (where each particle also remembers cells), that follow the same trajectories.
-/

namespace Parcels.ReleaseGrid

open Recovery (TP RMap)
open GridRun (Hint bare)
open WholeRun (Opts St Scheme trajectory record records outputTimes core)
open ReleaseRun (Repeat)

variable {V : Type}

/-- What a set keeps for repeated release, without the remembered cells. -/
def bareRep (rep : Repeat (V × (Nat → Hint))) : Repeat V := ⟨rep.repeatdt, rep.start, rep.held.map (·.map Prod.fst), rep.nextId⟩

/-- Both runs (`s` in Scipy mode, `s'` in JIT mode) end with the particles among `qs` whose trajectory, as given by the scheme `ref`, has not ended; each where its
trajectory is. Their output files have, at the start, every `outputdt` and at the end, the particles that have been released and whose trajectory has not ended. -/
structure Follow (ref : Scheme V) (o : Opts) (S : ℚ) (N : Nat) (qs : List (TP V)) (file : Output.PFile) (s : St V) (s' : St (V × (Nat → Hint))) : Prop where
  scipy : s.ps.map core = qs.filterMap (trajectory ref o.dt (S + N * o.dt))
  jit : (s'.ps.map core).map bare = qs.filterMap (trajectory ref o.dt (S + N * o.dt))
  scipyFile : o.hasFile = true → file.writeOndelete = false → file.lasttime ≠ some S → ∀ i, o.outputdt = some i →
    records s = (outputTimes S o.dt i N).flatMap fun t => qs.filterMap (record ref o.dt t)
  jitFile : o.hasFile = true → file.writeOndelete = false → file.lasttime ≠ some S → ∀ i, o.outputdt = some i →
    (records s').map bare = (outputTimes S o.dt i N).flatMap fun t => qs.filterMap (record ref o.dt t)

end Parcels.ReleaseGrid
