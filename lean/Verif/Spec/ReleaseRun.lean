import Verif.Model.ReleaseRun
import Verif.Spec.WholeRun

/-!
Vocabulary for C102: all particles that are released in the course of a run.
-/

namespace Parcels.ReleaseRun

open KernelLoop (Kern)
open Recovery (TP RMap)
open WholeRun (Exec Opts scipyExec jitExec)

variable {V : Type}

/-- The times after `S`, up to the end of a run of `N` steps, that are whole numbers of intervals `r` away from `rs`. -/
def releaseTimes (rs S dt r : ℚ) (N : Nat) : List ℚ :=
  ((List.range N).map fun n => S + (n + 1 : ℕ) * dt).filter fun t => decide ((⌊(t - rs) / r⌋ : ℚ) * r = t - rs)

/-- One particle for each of the values `vs`, with consecutive identifiers, that start at time `t`. -/
def batch (dt : ℚ) (vs : List V) (id : Nat) (t : ℚ) : List (TP V) := List.zipWith (fun i v => (i, ⟨t, dt, .evaluate, v⟩)) (List.range' id vs.length) vs

/-- The particles of all releases. -/
def releases (dt : ℚ) (vs : List V) : Nat → List ℚ → List (TP V)
  | _, [] => []
  | id, t :: ts => batch dt vs id t ++ releases dt vs (id + vs.length) ts

/-- The kernel is executed in one of the two modes. -/
def IsMode (K : Kern Unit V) (user : RMap Unit V) (exec : Exec V) (pass : Pass V) : Prop :=
  ∃ fuel nRounds, (exec = scipyExec K user fuel nRounds ∧ pass = scipyPass K fuel) ∨ (exec = jitExec K user fuel nRounds ∧ pass = jitPass K fuel)

/-- The particles of the run: those that are there at the start, and those of all releases (with the values `vs`) until the end. -/
def everyone (o : Opts) (S : ℚ) (rep : Repeat V) (vs : List V) (N : Nat) (ps : List (TP V)) : List (TP V) :=
  ps ++ releases o.dt vs rep.nextId (releaseTimes (rep.start.getD S) S o.dt rep.repeatdt N)

/-- The interval of release is a whole number of steps, and the first release was a whole number of steps before `S` or is at `S`. -/
def Repeats (o : Opts) (S : ℚ) (rep : Repeat V) : Prop :=
  (∃ k : ℕ, 0 < k ∧ rep.repeatdt = k * |o.dt|) ∧ ∃ z : ℕ, rep.start.getD S = S - z * o.dt

end Parcels.ReleaseRun
