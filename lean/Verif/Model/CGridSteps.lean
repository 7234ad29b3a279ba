import Verif.Model.CGridRun

/-!
Model of kernels that sample the velocity of a C-grid, as programs for whole runs (Model/WholeRun): in Scipy mode, and in JIT mode with the cell remembered in the particle.

Simplifications: those of Model/CGridRun; the kernel samples no other field.
-/

namespace Parcels.CGridRun

open Interp (Arr)
open CGrid (Metric)
open KernelLoop (Exc)
open GridRun (Fld Hint)

/-- A kernel that samples the velocity: `get t z y x k` samples at `(t, z, y, x)` and goes on with `k`. Models: kernel.py:315-337; compilation/codegenerator.py:801-820. -/
inductive Prog (V : Type) where
  | ret (v : V)
  | fail (e : Exc)
  | get (t z y x : ℚ) (k : (u v : ℚ) → Prog V)

variable {V : Type}

/-- The program in Scipy mode. Models: kernel.py:315-337; field.py:1673-1677. -/
def scipy (m : Metric ℚ) (mit per : Bool) (f : Fld) (dV : Nat → Arr) : Prog V → Except Exc V
  | .ret v => .ok v
  | .fail e => .error e
  | .get t z y x k =>
    match eval m mit per f dV t z y x with
    | .error e => .error e
    | .ok (u, v) => scipy m mit per f dV (k u v)

/-- The program in JIT mode; the particle remembers the cell it found (`&xi[igrid]`, `&yi[igrid]`, `&zi[igrid]`, `&ti[igrid]`). Models: compilation/codegenerator.py:801-820; parcels.h:697, 706, 738, 973-990. -/
def jit (m : Metric ℚ) (mit per : Bool) (f : Fld) (dV : Nat → Arr) : Prog V → Hint → Except Exc (V × Hint)
  | .ret v, h => .ok (v, h)
  | .fail e, _ => .error e
  | .get t z y x k, h =>
    match cEval m mit per f dV t z y x h with
    | .error e => .error e
    | .ok (u, v) => jit m mit per f dV (k u v) (PeriodRun.remember per f t z y x h)

/-- A kernel: from time, step and variables of the particle to its program. Models: kernel.py:315. -/
abbrev Body (V : Type) := (time dt : ℚ) → V → Prog V

/-- The kernel in Scipy mode, for whole runs. Models: kernel.py:315-337. -/
def scipyScheme (m : Metric ℚ) (mit per : Bool) (f : Fld) (dV : Nat → Arr) (b : Body V) : (time dt : ℚ) → V → Except Exc V :=
  fun t dt v => scipy m mit per f dV (b t dt v)

/-- The kernel in JIT mode; the remembered cell is a variable of the particle. Models: compilation/codegenerator.py:1005-1066. -/
def jitScheme (m : Metric ℚ) (mit per : Bool) (f : Fld) (dV : Nat → Arr) (b : Body V) : (time dt : ℚ) → V × Hint → Except Exc (V × Hint) :=
  fun t dt s => jit m mit per f dV (b t dt s.1) s.2

/-- `AdvectionRK4`; the variables are lon, lat, depth. Models: kernels/advection.py:11-23. -/
def rk4 : Body (ℚ × ℚ × ℚ) := fun time dt p =>
  .get time p.2.2 p.2.1 p.1 fun u1 v1 =>
  let lon1 := p.1 + u1 * (1 / 2) * dt
  let lat1 := p.2.1 + v1 * (1 / 2) * dt
  .get (time + 1 / 2 * dt) p.2.2 lat1 lon1 fun u2 v2 =>
  let lon2 := p.1 + u2 * (1 / 2) * dt
  let lat2 := p.2.1 + v2 * (1 / 2) * dt
  .get (time + 1 / 2 * dt) p.2.2 lat2 lon2 fun u3 v3 =>
  let lon3 := p.1 + u3 * dt
  let lat3 := p.2.1 + v3 * dt
  .get (time + dt) p.2.2 lat3 lon3 fun u4 v4 =>
  .ret (p.1 + (u1 + 2 * u2 + 2 * u3 + u4) / 6 * dt, p.2.1 + (v1 + 2 * v2 + 2 * v3 + v4) / 6 * dt, p.2.2)

/-- `AdvectionEE`. Models: kernels/advection.py:48-54. -/
def ee : Body (ℚ × ℚ × ℚ) := fun time dt p =>
  .get time p.2.2 p.2.1 p.1 fun u1 v1 => .ret (p.1 + u1 * dt, p.2.1 + v1 * dt, p.2.2)

end Parcels.CGridRun
