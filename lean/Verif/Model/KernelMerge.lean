import Verif.Model.Base

/-!
Model of adding kernels: `Kernel.merge`, `__add__`, `__radd__` (parcels/kernel.py:467-487), and of
what the merged Python function does when called.

Kernel bodies are statement sequences. Expressions are arbitrary functions of the values of the names
they mention and of the particle (and everything reachable from it); they may raise. Loops inside
kernels are not part of this model.
-/

namespace Parcels.KernelMerge

/-- A statement sequence in the body of a kernel. `W` is the state of particle and fieldset, `V` the
values of Python names. `reads` are the names occurring in the expression.
* `assign x reads f`: `x = <expr>`
* `effect reads f`: assignment to a particle attribute, or a call
* `ret reads f`: `return <expr>`
* `ite reads c t e`: `if <expr>: t else: e`. Models: `py_ast.body` of kernel.py:114, 469-471. -/
inductive Code (W V : Type) where
  | done
  | assign (x : String) (reads : List String) (f : List V → W → Except String V) (next : Code W V)
  | effect (reads : List String) (f : List V → W → Except String W) (next : Code W V)
  | ret (reads : List String) (f : List V → W → Except String V)
  | ite (reads : List String) (c : List V → W → Except String Bool) (t e next : Code W V)

/-- `body1 + body2` on statement lists. Models: kernel.py:470. -/
def Code.append {W V : Type} : Code W V → Code W V → Code W V
  | .done, b => b
  | .assign x r f n, b => .assign x r f (n.append b)
  | .effect r f n, b => .effect r f (n.append b)
  | .ret r f, _ => .ret r f
  | .ite r c t e n, b => .ite r c t e (n.append b)

/-- A kernel: function name, names of the three arguments, body, list of variable names, C include
text, whether C files are deleted.
Models: parcels/kernel.py:74-137. -/
structure Kernel (W V : Type) where
  funcname : String
  args : String × String × String
  body : Code W V
  funcvars : List String
  cInclude : String
  deleteCfiles : Bool

/-- `Kernel.merge`: names concatenated, arguments of the first, bodies concatenated.
Models: parcels/kernel.py:467-477. Simplification: statements after a `return` at the top level of
the first body are dropped here; they are never executed. -/
def merge {W V : Type} (k1 k2 : Kernel W V) : Kernel W V :=
  { funcname := k1.funcname ++ k2.funcname
    args := k1.args
    body := k1.body.append k2.body
    funcvars := k1.funcvars ++ k2.funcvars
    cInclude := k1.cInclude ++ k2.cInclude
    deleteCfiles := k1.deleteCfiles && k2.deleteCfiles }

/-- What can stand on either side of `+`: a kernel or a bare Python function (with its name, argument
names, body and variable names). Models: kernel.py:479-487. -/
inductive Operand (W V : Type) where
  | kernel (k : Kernel W V)
  | function (name : String) (args : String × String × String) (body : Code W V) (vars : List String)

/-- `Kernel(fieldset, ptype, pyfunc=f)`. Models: parcels/kernel.py:74-137. -/
def ofFunction {W V : Type} (name : String) (args : String × String × String) (body : Code W V)
    (vars : List String) : Kernel W V :=
  { funcname := name, args := args, body := body, funcvars := vars, cInclude := "", deleteCfiles := true }

/-- `a + b`; `none` when both are bare functions (Python raises TypeError).
Models: parcels/kernel.py:479-487. -/
def add {W V : Type} : Operand W V → Operand W V → Option (Kernel W V)
  | .kernel k1, .kernel k2 => some (merge k1 k2)
  | .kernel k1, .function n a b v => some (merge k1 (ofFunction n a b v))
  | .function n a b v, .kernel k2 => some (merge (ofFunction n a b v) k2)
  | .function .., .function .. => none

/-! ### Calling a kernel function (Python semantics) -/

/-- Names assigned in a body: local variables of the function. Models: `co_varnames` of kernel.py:109; the scoping rules of Python. -/
def Code.assigned {W V : Type} : Code W V → List String
  | .done => []
  | .assign x _ _ n => x :: n.assigned
  | .effect _ _ n => n.assigned
  | .ret _ _ => []
  | .ite _ _ t e n => t.assigned ++ e.assigned ++ n.assigned

/-- Names read in a body. Models: the body compiled at kernel.py:131-134; the scoping rules of Python. -/
def Code.names {W V : Type} : Code W V → List String
  | .done => []
  | .assign _ r _ n => r ++ n.names
  | .effect r _ n => r ++ n.names
  | .ret r _ => r
  | .ite r _ t e n => r ++ t.names ++ e.names ++ n.names

/-- Result of running statements. Models: the call at kernel.py:315. -/
inductive Flow (W V : Type) where
  | normal (w : W) (env : String → Option V)
  | ret (w : W) (v : V)
  | raise (w : W) (msg : String)
  | nameError (w : W) (x : String)

/-- Value of a name: local if the function assigns it or takes it as argument, else global. Models: the globals of kernel.py:115-134; the scoping rules of Python. -/
def lookup {V : Type} (locals : List String) (glob env : String → Option V) (x : String) : Option V :=
  if x ∈ locals then env x else glob x

/-- Values of several names, or the first name that is not bound. Models: the globals of kernel.py:115-134; the scoping rules of Python. -/
def lookups {V : Type} (locals : List String) (glob env : String → Option V) :
    List String → Except String (List V)
  | [] => .ok []
  | x :: xs =>
    match lookup locals glob env x with
    | none => .error x
    | some v =>
      match lookups locals glob env xs with
      | .error y => .error y
      | .ok vs => .ok (v :: vs)

/-- Running statements. Models: the call at kernel.py:315; the semantics of Python. -/
def exec {W V : Type} (locals : List String) (glob : String → Option V) :
    Code W V → W → (String → Option V) → Flow W V
  | .done, w, env => .normal w env
  | .assign x r f n, w, env =>
    match lookups locals glob env r with
    | .error y => .nameError w y
    | .ok vs =>
      match f vs w with
      | .error m => .raise w m
      | .ok v => exec locals glob n w (Function.update env x (some v))
  | .effect r f n, w, env =>
    match lookups locals glob env r with
    | .error y => .nameError w y
    | .ok vs =>
      match f vs w with
      | .error m => .raise w m
      | .ok w' => exec locals glob n w' env
  | .ret r f, w, env =>
    match lookups locals glob env r with
    | .error y => .nameError w y
    | .ok vs =>
      match f vs w with
      | .error m => .raise w m
      | .ok v => .ret w v
  | .ite r c t e n, w, env =>
    match lookups locals glob env r with
    | .error y => .nameError w y
    | .ok vs =>
      match c vs w with
      | .error m => .raise w m
      | .ok true =>
        match exec locals glob t w env with
        | .normal w' env' => exec locals glob n w' env'
        | other => other
      | .ok false =>
        match exec locals glob e w env with
        | .normal w' env' => exec locals glob n w' env'
        | other => other

/-- Result of calling a kernel function: `none` is Python's `None`. Models: kernel.py:315-337. -/
inductive Result (W V : Type) where
  | value (w : W) (v : Option V)
  | raise (w : W) (msg : String)
  | nameError (w : W) (x : String)

/-- Local names of a kernel function. Models: kernel.py:109, 475. -/
def Kernel.locals {W V : Type} (k : Kernel W V) : List String :=
  k.args.1 :: k.args.2.1 :: k.args.2.2 :: k.body.assigned

/-- Environment at the call `f(particle, fieldset, time)`. Models: kernel.py:315. -/
def bind3 {V : Type} (args : String × String × String) (p f t : V) : String → Option V :=
  Function.update (Function.update (Function.update (fun _ => none) args.1 (some p))
    args.2.1 (some f)) args.2.2 (some t)

/-- The call `pyfunc(particle, fieldset, time)` (parcels/kernel.py:315 in the Scipy loop). -/
def call {W V : Type} (glob : String → Option V) (k : Kernel W V) (p f t : V) (w : W) : Result W V :=
  match exec k.locals glob k.body w (bind3 k.args p f t) with
  | .normal w' _ => .value w' none
  | .ret w' v => .value w' (some v)
  | .raise w' m => .raise w' m
  | .nameError w' x => .nameError w' x

end Parcels.KernelMerge
