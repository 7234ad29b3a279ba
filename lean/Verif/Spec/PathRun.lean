import Verif.Spec.RepairRun

/-!
Vocabulary for the statements of C109: runs whose stops may be anywhere.
-/

namespace Parcels.PathRun

open KernelLoop (Exc)
open Recovery (TP)
open WholeRun (Scheme Opts)
open RepairRun (Act)

variable {V : Type}

/-- A step in the direction of the run, not longer than `dt`. -/
def Step (dt h : ℚ) : Prop := 0 < h * sgn dt ∧ |h| ≤ |dt|

/-- The times and variables that a particle can reach from time `t` and variables `v`: each step is a step of the scheme and begins where the step before it ended; after a failed step, the recovery
function may assign new variables, at the same time. -/
inductive Path (f : Scheme V) (act : Act V) (dt t : ℚ) (v : V) : ℚ → V → Prop
  | here : Path f act dt t v t v
  | step {t1 v1 h v2} : Path f act dt t v t1 v1 → Step dt h → f t1 h v1 = .ok v2 → Path f act dt t v (t1 + h) v2
  | repair {t1 v1 h v2 e} : Path f act dt t v t1 v1 → Step dt h → f t1 h v1 = .error e → act e t1 v1 = some v2 → Path f act dt t v t1 v2

/-- The particle reaches a point where a step fails, and the recovery function does not let it go on. -/
def Fails (f : Scheme V) (act : Act V) (dt : ℚ) (q : TP V) : Prop :=
  ∃ t v h e, Path f act dt q.2.time q.2.vars t v ∧ Step dt h ∧ f t h v = .error e ∧ act e t v = none

/-- What became of each particle of the first list, in order: it is in the second list, related to what it was, or it is gone, for a reason. -/
inductive Account (R : TP V → TP V → Prop) (gone : TP V → Prop) : List (TP V) → List (TP V) → Prop
  | nil : Account R gone [] []
  | keep {q r qs rs} : R q r → Account R gone qs rs → Account R gone (q :: qs) (r :: rs)
  | drop {q qs rs} : gone q → Account R gone qs rs → Account R gone (q :: qs) rs

/-- The end of the run. -/
def endOf (o : Opts) (S : ℚ) : ℚ :=
  match o.until_ with
  | .runtime r => S + r * sgn o.dt
  | .endtime e => e

/-- The run starts with the first particle, at `S`, and is not of zero length. -/
structure Starts (o : Opts) (S : ℚ) (ps : List (TP V)) : Prop where
  first : ∃ q ∈ ps, q.2.time = S
  others : ∀ q ∈ ps, 0 ≤ (q.2.time - S) * sgn o.dt
  step : 1 / 100000000 < |o.dt|
  length : 1 / 100000 ≤ (endOf o S - S) * sgn o.dt

end Parcels.PathRun
