import Verif.Model.CGridSteps
import Verif.Spec.CGridRun
import Verif.Spec.PathRun

/-!
Vocabulary for C121: the paths of particles in the flow of a C-grid.
-/

namespace Parcels.CGridRun

open Interp (Arr)
open Recovery (TP)
open RepairRun (Act)
open PathRun (Step)
open GridRun (Fld)

variable {V : Type}

section Paths

variable (mit per : Bool) (f : Fld) (dV : Nat → Arr)

/-- The program ends with `w`, where each sample is a velocity in a cell that contains the sampled position. -/
inductive Follows : Prog V → V → Prop
  | ret (v : V) : Follows (.ret v) v
  | get {t z y x k u v w} : Gives mit per f dV t z y x u v → Follows (k u v) w → Follows (.get t z y x k) w

/-- The program fails: it raises an error itself, or samples where the field does not cover the position or the time. -/
inductive Leaves : Prog V → Prop
  | fail (e) : Leaves (.fail e)
  | out {t z y x k} : ¬ Covers per f t z y x → Leaves (.get t z y x k)
  | get {t z y x k u v} : Gives mit per f dV t z y x u v → Leaves (k u v) → Leaves (.get t z y x k)

/-- All samples of the program are off the longitudes, latitudes and levels of the grid. -/
inductive OffNodes : Prog V → Prop
  | ret (v) : OffNodes (.ret v)
  | fail (e) : OffNodes (.fail e)
  | get {t z y x k} : x ∉ f.grid.lon → y ∉ f.grid.lat → (f.grid.depth.length ≤ 1 ∨ z ∉ f.grid.depth) → (∀ u v, Gives mit per f dV t z y x u v → OffNodes (k u v)) → OffNodes (.get t z y x k)

/-- The times and variables that a particle can reach from time `t` and variables `v` by steps of the kernel, each not longer than `dt` and in the direction of the run; after a failed step the recovery function `act` may assign new variables. -/
inductive FlowPath (b : Body V) (act : Act V) (dt t : ℚ) (v : V) : ℚ → V → Prop
  | here : FlowPath b act dt t v t v
  | step {t1 v1 h v2} : FlowPath b act dt t v t1 v1 → Step dt h → Follows mit per f dV (b t1 h v1) v2 → FlowPath b act dt t v (t1 + h) v2
  | repair {t1 v1 h v2 e} : FlowPath b act dt t v t1 v1 → Step dt h → Leaves mit per f dV (b t1 h v1) → act e t1 v1 = some v2 → FlowPath b act dt t v t1 v2

/-- The particle reaches a point where a step fails, and the recovery function does not let it go on. -/
def Lost (b : Body V) (act : Act V) (dt t : ℚ) (v : V) : Prop :=
  ∃ t1 v1 h e, FlowPath mit per f dV b act dt t v t1 v1 ∧ Step dt h ∧ Leaves mit per f dV (b t1 h v1) ∧ act e t1 v1 = none

end Paths

/-- A recovery function that treats the particle as `act` does, and leaves the remembered cell. -/
def keeping {H : Type} (act : Act V) : Act (V × H) := fun e t s => (act e t s.1).map fun v => (v, s.2)

/-- On all faces of the grid, at all times and levels, the velocities through western faces satisfy `P` and those through southern faces `Q`. -/
def OnFaces (mit : Bool) (f : Fld) (dV : Nat → Arr) (P Q : ℚ → Prop) : Prop :=
  (∀ i k m n, m + 1 < f.grid.lat.length → n < f.grid.lon.length → P (western mit (f.data i) k m n)) ∧
  ∀ i k m n, m < f.grid.lat.length → n + 1 < f.grid.lon.length → Q (southern mit (dV i) k m n)

end Parcels.CGridRun
