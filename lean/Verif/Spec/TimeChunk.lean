import Verif.Model.TimeChunk
import Verif.Spec.Search

/-!
Vocabulary for C39, C40, C55: which snapshots are in memory, and whether they are the right ones.
-/

namespace Parcels.TimeChunk
open Parcels.Search

/-- The snapshots `i` and `i+1` of the series, and no others, are loaded: the grid's bookkeeping and the memory agree. -/
structure Holds (g : DG) (i : Nat) : Prop where
  idx : g.ti = i
  lt : i + 1 < g.full.length
  times : g.loaded = [g.full.getD i 0, g.full.getD (i + 1) 0]
  memory : g.mem = (i, i + 1)

/-- Running forward from `t`, the snapshots `i` and `i+1` are the right ones: they bracket the times from `t` on; before
the first snapshot and from the last one on (where the field is constant, if it can be sampled at all) they are the first
two or the last two. -/
def RightForward (full : List ℚ) (i : Nat) (t : ℚ) : Prop :=
  (full.getD i 0 ≤ t ∧ t < full.getD (i + 1) 0) ∨ (i = 0 ∧ t < full.getD 0 0) ∨
  (i + 2 = full.length ∧ full.getD (full.length - 1) 0 ≤ t)

/-- The same running backward. -/
def RightBackward (full : List ℚ) (i : Nat) (t : ℚ) : Prop :=
  (full.getD i 0 < t ∧ t ≤ full.getD (i + 1) 0) ∨ (i = 0 ∧ t ≤ full.getD 0 0) ∨
  (i + 2 = full.length ∧ full.getD (full.length - 1) 0 < t)

/-- At time `u` no other snapshots than `i` and `i+1` are needed. -/
def Covers (full : List ℚ) (i : Nat) (u : ℚ) : Prop :=
  (full.getD i 0 ≤ u ∧ u ≤ full.getD (i + 1) 0) ∨ (i = 0 ∧ u < full.getD 0 0) ∨
    (i + 2 = full.length ∧ full.getD (full.length - 1) 0 < u)

/-- All states a grid can be in: fresh, or after any history of successful requests and of samples, at any times and in
any direction, by either mode (a sample in JIT mode starts from any stored index). -/
inductive Reachable (f : Flags) (full : List ℚ) : DG → Prop
  | fresh : Reachable f full (DG.fresh full)
  | request {g g' : DG} {t : ℚ} {s : ℤ} {nx : Option ℚ} : Reachable f full g →
      gridChunk f g t s = .ok (g', nx) → Reachable f full g'
  | scipy {g : DG} {u : ℚ} : Reachable f full g → Reachable f full (g.sampled f u)
  | jit {g : DG} {u : ℚ} {ti : ℤ} {fuel : Nat} : Reachable f full g → Reachable f full (g.cSampled f fuel u ti)

/-- A forward run of a periodic field, from a time not before the first snapshot. `ForwardRun f full g t nx b`: the grid
is in state `g`; the last request was at time `t` and returned `nx`; no time later than `b` was seen. Between requests
the field is sampled from `t` up to `nx`. -/
inductive ForwardRun (f : Flags) (full : List ℚ) : DG → ℚ → Option ℚ → ℚ → Prop
  | start {g : DG} {t : ℚ} {s : ℤ} {nx : Option ℚ} : full.getD 0 0 ≤ t → 0 ≤ s →
      gridChunk f (DG.fresh full) t s = .ok (g, nx) → ForwardRun f full g t nx t
  | request {g g' : DG} {t t' b : ℚ} {s : ℤ} {nx nx' : Option ℚ} : ForwardRun f full g t nx b → b ≤ t' → 0 ≤ s →
      gridChunk f g t' s = .ok (g', nx') → ForwardRun f full g' t' nx' t'
  | scipy {g : DG} {t b u : ℚ} {nx : Option ℚ} : ForwardRun f full g t nx b → t ≤ u → (∀ x, nx = some x → u ≤ x) →
      ForwardRun f full (g.sampled f u) t nx (max b u)
  | jit {g : DG} {t b u : ℚ} {nx : Option ℚ} {ti : ℤ} {fuel : Nat} : ForwardRun f full g t nx b → t ≤ u →
      (∀ x, nx = some x → u ≤ x) → ForwardRun f full (g.cSampled f fuel u ti) t nx (max b u)

/-- A grid of a field set in a forward run that is now at time `t`. -/
def ForwardState (f : Flags) (g : DG) (t : ℚ) : Prop :=
  Increasing g.full ∧ 3 ≤ g.full.length ∧
    ((f.periodic = false ∧ Reachable f g.full g) ∨
     (f.periodic = true ∧ f.extrap = false ∧
      ((g = DG.fresh g.full ∧ g.full.getD 0 0 ≤ t) ∨ ∃ t0 nx b, ForwardRun f g.full g t0 nx b ∧ b ≤ t)))

/-- A grid of a field that is not periodic, from which a backward request at time `t` is right: `t` is the time of a
snapshot, or between the loaded snapshots, or outside the series. -/
def BackwardState (f : Flags) (g : DG) (t : ℚ) : Prop :=
  Increasing g.full ∧ 3 ≤ g.full.length ∧ f.periodic = false ∧ Reachable f g.full g ∧
    ((∃ k, k < g.full.length ∧ t = g.full.getD k 0) ∨
     (∃ i, Holds g i ∧ g.full.getD i 0 ≤ t ∧ t ≤ g.full.getD (i + 1) 0) ∨
     t < g.full.getD 0 0 ∨ g.full.getD (g.full.length - 1) 0 < t)

/-- The grid holds the snapshots needed at every time of the set `S`, up to whole periods for periodic fields. -/
def HoldsFor (f : Flags) (g : DG) (S : ℚ → Prop) : Prop :=
  ∃ (i : Nat) (p : ℤ), Holds g i ∧ (f.periodic = false → p = 0) ∧
    ∀ u, S u → Covers g.full i (u - p * (g.full.getD (g.full.length - 1) 0 - g.full.getD 0 0))

/-- What a field gives at time `u`, in Scipy mode, from the loaded snapshots; and if the whole series were loaded (for a periodic field: a
series that spans the period, see `C39_loaded_at_once_differs`). -/
def sampleDeferred (f : Flags) (g : DG) (snap : Nat → Except Err ℚ) (u : ℚ) : Except TimeInterp.SErr ℚ :=
  TimeInterp.evalTime (g.axis f) (g.inMem snap) u
def sampleFull (f : Flags) (full : List ℚ) (snap : Nat → Except Err ℚ) (u : ℚ) : Except TimeInterp.SErr ℚ :=
  TimeInterp.evalTime (TimeInterp.TAxis.full full f.periodic f.extrap) snap u

/-- The same in JIT mode. -/
def cSampleDeferred (f : Flags) (g : DG) (snap : Nat → Except Err ℚ) (fuel : Nat) (u : ℚ) (ti : ℤ) :
    Option (Except TimeInterp.SErr ℚ) :=
  TimeInterp.cEvalTime (g.axis f) (g.inMem snap) fuel u ti
def cSampleFull (f : Flags) (full : List ℚ) (snap : Nat → Except Err ℚ) (fuel : Nat) (u : ℚ) (ti : ℤ) :
    Option (Except TimeInterp.SErr ℚ) :=
  TimeInterp.cEvalTime (TimeInterp.TAxis.full full f.periodic f.extrap) snap fuel u ti

end Parcels.TimeChunk
