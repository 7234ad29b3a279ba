import Verif.Model.GridRun
import Verif.Model.FieldLists

/-!
Model of kernels that sample nested fields on grids, put together from the models of gridded fields (Model/GridRun) and of nested fields (Model/FieldLists): in Scipy mode, and in JIT mode with the
cells remembered in the particle, also after samples that found no value.

Simplifications: those of Model/GridRun.
-/

namespace Parcels.NestRun

open Search Interp TimeInterp FieldLists
open KernelLoop (Exc)
open GridRun (Fld Hint exc snap)

/-- `field.eval(time, depth, lat, lon)` in Scipy mode, with the exception. Models: field.py:1080-1104. -/
def evalS (f : Fld) (t z y x : ℚ) : Except SErr ℚ := evalTime (TAxis.full f.time false f.extrap) (snap f z y x) t

/-- `eval` of one member of a nested field: a field, or a vector field with the components given. Models: field.py:1632-1643, 1080-1104. -/
def member (fs : Nat → Fld) (t z y x : ℚ) : List Nat → Except SErr (List ℚ)
  | [] => .ok []
  | i :: is =>
    match evalS (fs i) t z y x with
    | .error e => .error e
    | .ok w =>
      match member fs t z y x is with
      | .error e => .error e
      | .ok ws => .ok (w :: ws)

/-- `nestedfield[time, depth, lat, lon]` in Scipy mode. Models: field.py:1816-1832. -/
def nestedS (fs : Nat → Fld) (ms : List (List Nat)) (t z y x : ℚ) : Except SErr (List ℚ) := nested (ms.map (member fs t z y x))

/-- What the particle remembers after a sample in JIT mode that has passed the test of the time: the time index in any case; the cell if it was found; if the position is in the horizontal range and the
depth is not found, the horizontal indices. Models: parcels.h:489, 507-511; index_search.h:186-191 (returns before anything is written), 192-240 (`xi`, `yi`), 64-72 (`zi` is not written on failure). -/
def after (f : Fld) (t z y x : ℚ) (h : Hint) : Hint :=
  match cSearchTime f.time false 0 0 1 t h.ti 0 with
  | none => h
  | some (_, i, _) =>
    match cSearchRect f.grid x y z h.xi h.yi h.zi with
    | .ok p => ⟨p.xi.toNat, p.yi.toNat, p.zi.toNat, i⟩
    | .error _ =>
      match cSearchRect { f.grid with depth := [] } x y z h.xi h.yi h.zi with
      | .ok p => ⟨p.xi.toNat, p.yi.toNat, h.zi, i⟩
      | .error _ => { h with ti := i }

/-- One field in JIT mode: the value or the error, and what the particle remembers. Models: parcels.h:476-591, 958-970. -/
def cEvalS (f : Fld) (t z y x : ℚ) (h : Hint) : Except SErr ℚ × Hint :=
  match cEvalTime (TAxis.full f.time false f.extrap) (fun i => cSample f.grid .nemo .linear (f.data i) x y z h.xi h.yi h.zi) 1 t h.ti with
  | none => (.error (.space .index), h)
  | some (.error .time) => (.error .time, h)
  | some r => (r, after f t z y x h)

/-- One member of a nested field in JIT mode; `CHECKSTATUS` after each component. Models: parcels.h:973-1011. -/
def cMember (fs : Nat → Fld) (t z y x : ℚ) : List Nat → (Nat → Hint) → Except SErr (List ℚ) × (Nat → Hint)
  | [], hs => (.ok [], hs)
  | i :: is, hs =>
    match cEvalS (fs i) t z y x (hs (fs i).igrid) with
    | (.error e, h) => (.error e, Function.update hs (fs i).igrid h)
    | (.ok w, h) =>
      match cMember fs t z y x is (Function.update hs (fs i).igrid h) with
      | (.error e, hs') => (.error e, hs')
      | (.ok ws, hs') => (.ok (w :: ws), hs')

/-- The generated code for a nested field: the next member is sampled only after ERROR_OUT_OF_BOUNDS. Models: compilation/codegenerator.py:857-895. -/
def cNest (fs : Nat → Fld) (t z y x : ℚ) : List (List Nat) → (Nat → Hint) → Except SErr (List ℚ) × (Nat → Hint)
  | [], hs => (.error (.space .index), hs)
  | m :: ms, hs =>
    match cMember fs t z y x m hs with
    | (.ok ws, hs') => (.ok ws, hs')
    | (.error e, hs') => if e = oob ∧ ms ≠ [] then cNest fs t z y x ms hs' else (.error e, hs')

/-- A kernel body as a program that samples nested fields, given by a number; the answer has one value for each component. Models: the kernels of kernels/advection.py and of users; field.py:1816-1832. -/
inductive Prog (V : Type) where
  | ret (v : V)
  | fail (e : Exc)
  | get (n : Nat) (t z y x : ℚ) (k : List ℚ → Prog V)

variable {V : Type}

/-- The program in Scipy mode. `ns`: the members of each nested field. Models: kernel.py:315-337. -/
def scipy (fs : Nat → Fld) (ns : Nat → List (List Nat)) : Prog V → Except Exc V
  | .ret v => .ok v
  | .fail e => .error e
  | .get n t z y x k =>
    match nestedS fs (ns n) t z y x with
    | .error e => .error (exc e)
    | .ok ws => scipy fs ns (k ws)

/-- The program in JIT mode. Models: compilation/codegenerator.py:857-895. -/
def jit (fs : Nat → Fld) (ns : Nat → List (List Nat)) : Prog V → (Nat → Hint) → Except Exc (V × (Nat → Hint))
  | .ret v, hs => .ok (v, hs)
  | .fail e, _ => .error e
  | .get n t z y x k, hs =>
    match cNest fs t z y x (ns n) hs with
    | (.error e, _) => .error (exc e)
    | (.ok ws, hs') => jit fs ns (k ws) hs'

/-- A kernel: from time, step and variables of the particle to its program. Models: kernel.py:315. -/
abbrev Body (V : Type) := (time dt : ℚ) → V → Prog V

/-- The kernel in Scipy mode, for whole runs. Models: kernel.py:315-337. -/
def scipyScheme (fs : Nat → Fld) (ns : Nat → List (List Nat)) (b : Body V) : (time dt : ℚ) → V → Except Exc V := fun t dt v => scipy fs ns (b t dt v)

/-- The kernel in JIT mode, for whole runs; the remembered cells are variables of the particle. Models: compilation/codegenerator.py:1005-1066. -/
def jitScheme (fs : Nat → Fld) (ns : Nat → List (List Nat)) (b : Body V) : (time dt : ℚ) → V × (Nat → Hint) → Except Exc (V × (Nat → Hint)) :=
  fun t dt s => jit fs ns (b t dt s.1) s.2

/-- `fieldset.UV[time, depth, lat, lon]`, the nested field with number 0. Models: field.py:1816-1832. -/
def uv (t z y x : ℚ) (k : ℚ → ℚ → Prog V) : Prog V := .get 0 t z y x fun ws =>
  match ws with
  | [u, v] => k u v
  | _ => .fail .anyOther

/-- `AdvectionRK4` with nested velocities; the variables are lon, lat, depth. Models: kernels/advection.py:11-23. -/
def rk4 : Body (ℚ × ℚ × ℚ) := fun time dt p =>
  uv time p.2.2 p.2.1 p.1 fun u1 v1 =>
  let lon1 := p.1 + u1 * (1 / 2) * dt
  let lat1 := p.2.1 + v1 * (1 / 2) * dt
  uv (time + 1 / 2 * dt) p.2.2 lat1 lon1 fun u2 v2 =>
  let lon2 := p.1 + u2 * (1 / 2) * dt
  let lat2 := p.2.1 + v2 * (1 / 2) * dt
  uv (time + 1 / 2 * dt) p.2.2 lat2 lon2 fun u3 v3 =>
  let lon3 := p.1 + u3 * dt
  let lat3 := p.2.1 + v3 * dt
  uv (time + dt) p.2.2 lat3 lon3 fun u4 v4 =>
  .ret (p.1 + (u1 + 2 * u2 + 2 * u3 + u4) / 6 * dt, p.2.1 + (v1 + 2 * v2 + 2 * v3 + v4) / 6 * dt, p.2.2)

/-- The same velocities as a function. Models: field.py:1816-1832. -/
def flow (fs : Nat → Fld) (ns : Nat → List (List Nat)) : (time depth lat lon : ℚ) → Except Exc (ℚ × ℚ) := fun t z y x =>
  match nestedS fs (ns 0) t z y x with
  | .error e => .error (exc e)
  | .ok [u, v] => .ok (u, v)
  | .ok _ => .error .anyOther

end Parcels.NestRun
