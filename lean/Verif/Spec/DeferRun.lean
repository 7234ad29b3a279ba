import Verif.Model.DeferRun
import Verif.Spec.GridRun
import Verif.Spec.TimeChunk

/-!
Vocabulary for C100: fields that are loaded in parts, and runs in which that must not matter.
-/

namespace Parcels.DeferRun

open GridRun (Fld Prog Body Hint)
open WholeRun (OnGrid)
open Search (Increasing InRange)

variable {V : Type}

/-- All times at which the program samples are in the set `P`. -/
def Within (P : ℚ → Prop) : Prog V → Prop
  | .ret _ => True
  | .fail _ => True
  | .get _ t _ _ _ k => P t ∧ ∀ w, Within P (k w)

/-- The kernel samples only at times from the beginning to the end of its step. -/
def DuringStep (b : Body V) : Prop := ∀ t dt v, Within (fun u => ∃ w : ℚ, 0 ≤ w ∧ w ≤ 1 ∧ u = t + w * dt) (b t dt v)

/-- `gs` are the grids with deferred loading of the fields `fs`, each in any state that earlier requests and samples lead to (among them the state before
anything is loaded). They have at least three snapshots; the fields are not periodic in time. -/
structure Deferred (fs : Nat → Fld) (slot : Nat → Option Nat) (gs : Grids) : Prop where
  grid : ∀ i k, slot (fs i).igrid = some k → ∃ x, gs[k]? = some x ∧ (fs i).time = x.2.full
  extrap : ∀ i k x, slot (fs i).igrid = some k → gs[k]? = some x → x.1.extrap = (fs i).extrap
  notPeriodic : ∀ x ∈ gs, x.1.periodic = false
  increasing : ∀ x ∈ gs, Increasing x.2.full
  length : ∀ x ∈ gs, 3 ≤ x.2.full.length
  state : ∀ x ∈ gs, TimeChunk.Reachable x.1 x.2.full x.2

/-- The times of the snapshots suit the run of `N` steps of length `dt` from `S`: they are a whole number of steps away from `S`; they are a whole number of
seconds away from `S`, or a second is a whole number of steps; the run is inside the series, or extrapolation is allowed; backward in time, the run starts
at a snapshot, outside the series or between two snapshots that are loaded already. -/
structure Timed (S dt : ℚ) (N : ℕ) (gs : Grids) : Prop where
  onGrid : ∀ x ∈ gs, ∀ t ∈ x.2.full, OnGrid S dt t
  seconds : (∃ k : ℕ, k * |dt| = 1) ∨ ∀ x ∈ gs, ∀ t ∈ x.2.full, OnGrid S 1 t
  inside : ∀ x ∈ gs, x.1.extrap = true ∨ (InRange x.2.full S ∧ InRange x.2.full (S + N * dt))
  backward : dt < 0 → ∀ x ∈ gs, TimeChunk.BackwardState x.1 x.2 S

/-- `Kernel.execute` in Scipy mode, with the fields as they are in memory. -/
def scipyExecD (fs : Nat → Fld) (slot : Nat → Option Nat) (b : Body V) (user : Recovery.RMap Unit V) (fuel nRounds : Nat) : Grids → WholeRun.Exec V := fun gs =>
  WholeRun.scipyExec (WholeRun.kernel (GridRun.scipyScheme (fun i => inMemory slot gs (fs i)) b)) user fuel nRounds

/-- The same in JIT mode. -/
def jitExecD (fs : Nat → Fld) (slot : Nat → Option Nat) (b : Body V) (user : Recovery.RMap Unit (V × (Nat → Hint))) (fuel nRounds : Nat) :
    Grids → WholeRun.Exec (V × (Nat → Hint)) := fun gs =>
  WholeRun.jitExec (WholeRun.kernel (GridRun.jitScheme (fun i => inMemory slot gs (fs i)) b)) user fuel nRounds

/-- Remembered cells that are cells of the grids; the remembered time is one of the two in memory, for grids with deferred loading. -/
def Hints (fs : Nat → Fld) (slot : Nat → Option Nat) (hs : Nat → Hint) : Prop := ∀ i,
  (hs (fs i).igrid).xi + 1 < (fs i).grid.lon.length ∧ (hs (fs i).igrid).yi + 1 < (fs i).grid.lat.length ∧
  (hs (fs i).igrid).zi ≤ (fs i).grid.depth.length - 1 ∧
  (hs (fs i).igrid).ti < (match slot (fs i).igrid with | some _ => 2 | none => (fs i).time.length : ℕ)

end Parcels.DeferRun
