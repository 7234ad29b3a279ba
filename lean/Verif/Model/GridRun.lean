import Verif.Model.WholeRun
import Verif.Model.Interp
import Verif.Model.TimeInterp

/-!
Model of kernels that sample gridded fields, put together from the models of the search (Model/Search), of the interpolation in space (Model/Interp) and in
time (Model/TimeInterp): what such a kernel does in Scipy mode, and in JIT mode with the cells remembered in the particle.

Simplifications: rectilinear grids with z levels, linear interpolation, NEMO indexing, flat mesh (no conversion of units), fields loaded at once and not
periodic in time; exact arithmetic. That the generated C code computes what the Python kernel computes is C44 and C45.
-/

namespace Parcels.GridRun

open Search Interp TimeInterp
open KernelLoop (Exc)

/-- A field. `igrid` is the number of its grid in the FieldSet. Models: field.py:92-204; parcels.h:21-26 (`CField`). -/
structure Fld where
  grid : RGrid
  time : List ℚ
  extrap : Bool
  data : Nat → Arr
  igrid : Nat

/-- The exceptions of sampling, as the loops record them. Models: kernel.py:325-337; index_search.h:50-52. -/
def exc : SErr → Exc
  | .time => .timeExtrapolation
  | .space .outOfBounds => .outOfBound
  | .space .throughSurface => .outOfBoundSurface
  | .space .sampling => .anyOther
  | .space .index => .anyOther

/-- One snapshot in Scipy mode. Models: field.py:1033-1046. -/
def snap (f : Fld) (z y x : ℚ) (i : Nat) : Except Err ℚ :=
  match sample f.grid .nemo .linear (f.data i) x y z with
  | .ok (some v) => .ok v
  | .ok none => .error .index
  | .error e => .error e

/-- `field[time, depth, lat, lon]` in Scipy mode. Models: field.py:567-571, 1080-1104. -/
def eval (f : Fld) (t z y x : ℚ) : Except Exc ℚ :=
  match evalTime (TAxis.full f.time false f.extrap) (snap f z y x) t with
  | .ok v => .ok v
  | .error e => .error (exc e)

/-- What a particle remembers of its last sample on a grid. Models: particle.py:179-182; particlesets/collectionsoa.py:143-148. -/
structure Hint where
  xi : Nat
  yi : Nat
  zi : Nat
  ti : ℤ

/-- What the particle remembers after a sample. Models: parcels.h:489, 507-510 (`&ti[igrid]`, `&xi[igrid]`, `&yi[igrid]`, `&zi[igrid]`). -/
def remember (f : Fld) (t z y x : ℚ) (h : Hint) : Hint :=
  match cSearchTime f.time false 0 0 1 t h.ti 0, cSearchRect f.grid x y z h.xi h.yi h.zi with
  | some (_, i, _), .ok p => ⟨p.xi.toNat, p.yi.toNat, p.zi.toNat, i⟩
  | _, _ => h

/-- The same sample in JIT mode: the value, and what the particle remembers. Simplification: after an error nothing new is remembered.
Models: parcels.h:476-591, 958-970. -/
def cEval (f : Fld) (t z y x : ℚ) (h : Hint) : Except Exc (ℚ × Hint) :=
  match cEvalTime (TAxis.full f.time false f.extrap) (fun i => cSample f.grid .nemo .linear (f.data i) x y z h.xi h.yi h.zi) 1 t h.ti with
  | some (.ok v) => .ok (v, remember f t z y x h)
  | some (.error e) => .error (exc e)
  | none => .error .anyOther

/-- A kernel body as a program: it samples fields (given by a number) at places that depend on the samples so far, and ends with new variables or fails.
Models: the kernels of kernels/advection.py and of users; field.py:567-571. -/
inductive Prog (V : Type) where
  | ret (v : V)
  | fail (e : Exc)
  | get (f : Nat) (t z y x : ℚ) (k : ℚ → Prog V)

variable {V : Type}

/-- The program in Scipy mode. Models: kernel.py:315-337. -/
def scipy (fs : Nat → Fld) : Prog V → Except Exc V
  | .ret v => .ok v
  | .fail e => .error e
  | .get f t z y x k =>
    match eval (fs f) t z y x with
    | .error e => .error e
    | .ok w => scipy fs (k w)

/-- The program in JIT mode. `hs` are the cells remembered for each grid. Models: compilation/codegenerator.py:787-820 (the calls and `CHECKSTATUS`). -/
def jit (fs : Nat → Fld) : Prog V → (Nat → Hint) → Except Exc (V × (Nat → Hint))
  | .ret v, hs => .ok (v, hs)
  | .fail e, _ => .error e
  | .get f t z y x k, hs =>
    match cEval (fs f) t z y x (hs (fs f).igrid) with
    | .error e => .error e
    | .ok (w, h) => jit fs (k w) (Function.update hs (fs f).igrid h)

/-- A kernel: from time, step and variables of the particle to its program. Models: kernel.py:315. -/
abbrev Body (V : Type) := (time dt : ℚ) → V → Prog V

/-- The kernel in Scipy mode, for whole runs. Models: kernel.py:315-337. -/
def scipyScheme (fs : Nat → Fld) (b : Body V) : (time dt : ℚ) → V → Except Exc V := fun t dt v => scipy fs (b t dt v)

/-- The kernel in JIT mode, for whole runs; the remembered cells are variables of the particle. Models: compilation/codegenerator.py:1005-1066. -/
def jitScheme (fs : Nat → Fld) (b : Body V) : (time dt : ℚ) → V × (Nat → Hint) → Except Exc (V × (Nat → Hint)) :=
  fun t dt s => jit fs (b t dt s.1) s.2

/-- `fieldset.UV[time, depth, lat, lon]`, with fields 0 and 1. Models: field.py:1632-1643, 1673-1677; parcels.h:973-990. -/
def uv (t z y x : ℚ) (k : ℚ → ℚ → Prog V) : Prog V := .get 0 t z y x fun u => .get 1 t z y x fun v => k u v

/-- The same in Scipy mode as a function. Models: field.py:1632-1643, 1673-1677. -/
def flow (fs : Nat → Fld) : (time depth lat lon : ℚ) → Except Exc (ℚ × ℚ) := fun t z y x =>
  match eval (fs 0) t z y x with
  | .error e => .error e
  | .ok u =>
    match eval (fs 1) t z y x with
    | .error e => .error e
    | .ok v => .ok (u, v)

/-- `AdvectionRK4`; the variables are lon, lat, depth. Models: kernels/advection.py:11-23. -/
def rk4 : Body (ℚ × ℚ × ℚ) := fun time dt p =>
  uv time p.2.2 p.2.1 p.1 fun u1 v1 =>
  let lon1 := p.1 + u1 * (1 / 2) * dt
  let lat1 := p.2.1 + v1 * (1 / 2) * dt
  uv (time + 1 / 2 * dt) p.2.2 lat1 lon1 fun u2 v2 =>
  let lon2 := p.1 + u2 * (1 / 2) * dt
  let lat2 := p.2.1 + v2 * (1 / 2) * dt
  uv (time + 1 / 2 * dt) p.2.2 lat2 lon2 fun u3 v3 =>
  let lon3 := p.1 + u3 * dt
  let lat3 := p.2.1 + v3 * dt
  uv (time + dt) p.2.2 lat3 lon3 fun u4 v4 =>
  .ret (p.1 + (u1 + 2 * u2 + 2 * u3 + u4) / 6 * dt, p.2.1 + (v1 + 2 * v2 + 2 * v3 + v4) / 6 * dt, p.2.2)

/-- `AdvectionEE`. Models: kernels/advection.py:48-54. -/
def ee : Body (ℚ × ℚ × ℚ) := fun time dt p =>
  uv time p.2.2 p.2.1 p.1 fun u1 v1 => .ret (p.1 + u1 * dt, p.2.1 + v1 * dt, p.2.2)

/-- `fieldset.UVW[time, depth, lat, lon]`, with fields 0, 1 and 2. Models: field.py:1632-1641, 1673-1677; parcels.h:992-1011. -/
def uvw (t z y x : ℚ) (k : ℚ → ℚ → ℚ → Prog V) : Prog V := .get 0 t z y x fun u => .get 1 t z y x fun v => .get 2 t z y x fun w => k u v w

/-- `AdvectionRK4_3D`. Models: kernels/advection.py:26-45. -/
def rk4_3D : Body (ℚ × ℚ × ℚ) := fun time dt p =>
  uvw time p.2.2 p.2.1 p.1 fun u1 v1 w1 =>
  let lon1 := p.1 + u1 * (1 / 2) * dt
  let lat1 := p.2.1 + v1 * (1 / 2) * dt
  let dep1 := p.2.2 + w1 * (1 / 2) * dt
  uvw (time + 1 / 2 * dt) dep1 lat1 lon1 fun u2 v2 w2 =>
  let lon2 := p.1 + u2 * (1 / 2) * dt
  let lat2 := p.2.1 + v2 * (1 / 2) * dt
  let dep2 := p.2.2 + w2 * (1 / 2) * dt
  uvw (time + 1 / 2 * dt) dep2 lat2 lon2 fun u3 v3 w3 =>
  let lon3 := p.1 + u3 * dt
  let lat3 := p.2.1 + v3 * dt
  let dep3 := p.2.2 + w3 * dt
  uvw (time + dt) dep3 lat3 lon3 fun u4 v4 w4 =>
  .ret (p.1 + (u1 + 2 * u2 + 2 * u3 + u4) / 6 * dt, p.2.1 + (v1 + 2 * v2 + 2 * v3 + v4) / 6 * dt,
    p.2.2 + (w1 + 2 * w2 + 2 * w3 + w4) / 6 * dt)

end Parcels.GridRun
