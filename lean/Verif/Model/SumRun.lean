import Verif.Model.NestRun

/-!
Model of kernels that sample summed fields on grids, put together from the models of gridded fields (Model/GridRun) and of lists of fields (Model/NestRun, Model/FieldLists).

Simplifications: those of Model/GridRun. The temporaries of the generated code are not initialised: `junk i` is what the temporary for field `i` holds if no value is written to it.
-/

namespace Parcels.SumRun

open Search Interp TimeInterp FieldLists
open KernelLoop (Exc)
open GridRun (Fld Hint exc)
open NestRun (Prog Body member cEvalS cMember)

/-- `np.sum(vals, 0)` or `tmp0+tmp1+..` for each component. Models: field.py:1763-1767; compilation/codegenerator.py:284-301. -/
def addAll : List (List ℚ) → List ℚ
  | [] => []
  | [v] => v
  | v :: vs => List.zipWith (· + ·) v (addAll vs)

/-- All members in order. Models: field.py:1759-1765. -/
def members (fs : Nat → Fld) (t z y x : ℚ) : List (List Nat) → Except SErr (List (List ℚ))
  | [] => .ok []
  | m :: ms =>
    match member fs t z y x m with
    | .error e => .error e
    | .ok v =>
      match members fs t z y x ms with
      | .error e => .error e
      | .ok vs => .ok (v :: vs)

/-- `summedfield[time, depth, lat, lon]` in Scipy mode. Models: field.py:1755-1767. -/
def sumS (fs : Nat → Fld) (ms : List (List Nat)) (t z y x : ℚ) : Except SErr (List ℚ) :=
  match members fs t z y x ms with
  | .error e => .error e
  | .ok vs => .ok (addAll vs)

/-- The generated code for a summed field of scalar fields: CHECKSTATUS after each field. Models: compilation/codegenerator.py:823-832. -/
def cScalars (fs : Nat → Fld) (t z y x : ℚ) : List (List Nat) → (Nat → Hint) → Except SErr (List (List ℚ)) × (Nat → Hint)
  | [], hs => (.ok [], hs)
  | m :: ms, hs =>
    match cMember fs t z y x m hs with
    | (.error e, hs') => (.error e, hs')
    | (.ok v, hs') =>
      match cScalars fs t z y x ms hs' with
      | (.error e, hs'') => (.error e, hs'')
      | (.ok vs, hs'') => (.ok (v :: vs), hs'')

/-- One vector field: the status and the temporaries afterwards. After the first component that fails nothing more is written. Models: parcels.h:973-1011. -/
def written (junk : Nat → ℚ) (fs : Nat → Fld) (t z y x : ℚ) : List Nat → (Nat → Hint) → Option SErr × List ℚ × (Nat → Hint)
  | [], hs => (none, [], hs)
  | i :: is, hs =>
    match cEvalS (fs i) t z y x (hs (fs i).igrid) with
    | (.error e, h) => (some e, (i :: is).map junk, Function.update hs (fs i).igrid h)
    | (.ok w, h) =>
      match written junk fs t z y x is (Function.update hs (fs i).igrid h) with
      | (err, ws, hs') => (err, w :: ws, hs')

/-- The generated code for a summed field of vector fields: `err` is overwritten by each, and CHECKSTATUS comes after the last. Models: compilation/codegenerator.py:834-855. -/
def cVectors (junk : Nat → ℚ) (fs : Nat → Fld) (t z y x : ℚ) : List (List Nat) → Option SErr → (Nat → Hint) → Option SErr × List (List ℚ) × (Nat → Hint)
  | [], err, hs => (err, [], hs)
  | m :: ms, _, hs =>
    match written junk fs t z y x m hs with
    | (err, v, hs') =>
      match cVectors junk fs t z y x ms err hs' with
      | (err', vs, hs'') => (err', v :: vs, hs'')

/-- A sample of a summed field in JIT mode; `vec`: it is a sum of vector fields. Models: compilation/codegenerator.py:284-301, 823-855. -/
def cSum (junk : Nat → ℚ) (fs : Nat → Fld) (vec : Bool) (ms : List (List Nat)) (t z y x : ℚ) (hs : Nat → Hint) : Except SErr (List ℚ) × (Nat → Hint) :=
  if vec then
    match cVectors junk fs t z y x ms none hs with
    | (some e, _, hs') => (.error e, hs')
    | (none, vs, hs') => (.ok (addAll vs), hs')
  else
    match cScalars fs t z y x ms hs with
    | (.error e, hs') => (.error e, hs')
    | (.ok vs, hs') => (.ok (addAll vs), hs')

variable {V : Type}

/-- A program that samples lists of fields, in Scipy mode, with the function that samples. Models: kernel.py:315-337. -/
def scipyG (ev : Nat → (t z y x : ℚ) → Except SErr (List ℚ)) : Prog V → Except Exc V
  | .ret v => .ok v
  | .fail e => .error e
  | .get n t z y x k =>
    match ev n t z y x with
    | .error e => .error (exc e)
    | .ok ws => scipyG ev (k ws)

/-- The same in JIT mode. Models: compilation/codegenerator.py:823-855. -/
def jitG (cev : Nat → (t z y x : ℚ) → (Nat → Hint) → Except SErr (List ℚ) × (Nat → Hint)) : Prog V → (Nat → Hint) → Except Exc (V × (Nat → Hint))
  | .ret v, hs => .ok (v, hs)
  | .fail e, _ => .error e
  | .get n t z y x k, hs =>
    match cev n t z y x hs with
    | (.error e, _) => .error (exc e)
    | (.ok ws, hs') => jitG cev (k ws) hs'

/-- The kernel in Scipy mode; `ns`: the members of each summed field. Models: kernel.py:315-337. -/
def scipyScheme (fs : Nat → Fld) (ns : Nat → List (List Nat)) (b : Body V) : (time dt : ℚ) → V → Except Exc V :=
  fun t dt v => scipyG (fun n => sumS fs (ns n)) (b t dt v)

/-- The kernel in JIT mode; `vec n`: summed field `n` is a sum of vector fields. Models: compilation/codegenerator.py:1005-1066. -/
def jitScheme (junk : Nat → ℚ) (fs : Nat → Fld) (vec : Nat → Bool) (ns : Nat → List (List Nat)) (b : Body V) : (time dt : ℚ) → V × (Nat → Hint) → Except Exc (V × (Nat → Hint)) :=
  fun t dt s => jitG (fun n => cSum junk fs (vec n) (ns n)) (b t dt s.1) s.2

end Parcels.SumRun
