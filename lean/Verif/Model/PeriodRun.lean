import Verif.Model.GridRun

/-!
Model of kernels that sample gridded fields of which some are periodic in time (`time_periodic`): Model/GridRun with the search of the time index for such fields.

Simplifications: those of Model/GridRun; the times of a periodic field span the period, so that the constructor does not extend them (if it does, see C33).
-/

namespace Parcels.PeriodRun

open Search Interp TimeInterp
open KernelLoop (Exc)
open GridRun (Fld Hint exc snap Prog Body)

/-- `field[time, depth, lat, lon]` in Scipy mode; `per`: the field is periodic in time. Models: field.py:567-571, 1048-1104. -/
def eval (per : Bool) (f : Fld) (t z y x : ℚ) : Except Exc ℚ :=
  match evalTime (TAxis.full f.time per f.extrap) (snap f z y x) t with
  | .ok v => .ok v
  | .error e => .error (exc e)

/-- What the particle remembers after a sample. Models: parcels.h:489, 507-510; index_search.h:433-458. -/
def remember (per : Bool) (f : Fld) (t z y x : ℚ) (h : Hint) : Hint :=
  match cSearchTime f.time per (f.time.headD 0) (f.time.getLastD 0) 2 t h.ti 0, cSearchRect f.grid x y z h.xi h.yi h.zi with
  | some (_, i, _), .ok p => ⟨p.xi.toNat, p.yi.toNat, p.zi.toNat, i⟩
  | _, _ => h

/-- The same sample in JIT mode: the value, and what the particle remembers. Simplification: after an error nothing new is remembered; the search of the time calls itself at most once.
Models: parcels.h:476-591, 958-970; index_search.h:433-458. -/
def cEval (per : Bool) (f : Fld) (t z y x : ℚ) (h : Hint) : Except Exc (ℚ × Hint) :=
  match cEvalTime (TAxis.full f.time per f.extrap) (fun i => cSample f.grid .nemo .linear (f.data i) x y z h.xi h.yi h.zi) 2 t h.ti with
  | some (.ok v) => .ok (v, remember per f t z y x h)
  | some (.error e) => .error (exc e)
  | none => .error .anyOther

variable {V : Type}

/-- A program in Scipy mode, with the function that samples field `f`. Models: kernel.py:315-337. -/
def scipyOf (ev : Nat → (t z y x : ℚ) → Except Exc ℚ) : Prog V → Except Exc V
  | .ret v => .ok v
  | .fail e => .error e
  | .get f t z y x k =>
    match ev f t z y x with
    | .error e => .error e
    | .ok w => scipyOf ev (k w)

/-- A program in JIT mode; `ig`: the number of the grid of each field. Models: compilation/codegenerator.py:787-820. -/
def jitOf (cev : Nat → (t z y x : ℚ) → Hint → Except Exc (ℚ × Hint)) (ig : Nat → Nat) : Prog V → (Nat → Hint) → Except Exc (V × (Nat → Hint))
  | .ret v, hs => .ok (v, hs)
  | .fail e, _ => .error e
  | .get f t z y x k, hs =>
    match cev f t z y x (hs (ig f)) with
    | .error e => .error e
    | .ok (w, h) => jitOf cev ig (k w) (Function.update hs (ig f) h)

/-- The kernel in Scipy mode. `per i`: field `i` is periodic in time. Models: kernel.py:315-337. -/
def scipyScheme (per : Nat → Bool) (fs : Nat → Fld) (b : Body V) : (time dt : ℚ) → V → Except Exc V :=
  fun t dt v => scipyOf (fun i => eval (per i) (fs i)) (b t dt v)

/-- The kernel in JIT mode. Models: compilation/codegenerator.py:1005-1066. -/
def jitScheme (per : Nat → Bool) (fs : Nat → Fld) (b : Body V) : (time dt : ℚ) → V × (Nat → Hint) → Except Exc (V × (Nat → Hint)) :=
  fun t dt s => jitOf (fun i => cEval (per i) (fs i)) (fun i => (fs i).igrid) (b t dt s.1) s.2

end Parcels.PeriodRun
