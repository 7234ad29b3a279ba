import Mathlib.Logic.Function.Basic
import Mathlib.Data.List.Basic
import Mathlib.Algebra.Order.Ring.Int

/-!
Model of the compiled libraries of kernels: choosing file names, writing and compiling the C code, loading and unloading the library, and removing the files
(parcels/kernel.py:74-82, 169-234, 490-500; parcels/particlesets/baseparticleset.py:335-347; the call at kernel.py:270-271).

The directory of the files is shared with other processes of the user. The loader is that of Linux: opening a path that is already loaded gives the
loaded library again, whatever the file is now, and a library is unloaded when it has been closed as often as opened. Simplifications: C code and
functions are numbers; the hash in the file names is the pair of what is hashed (the static part as a name, and the time); no MPI (each rank adds its
number to the name); a failing compiler leaves the source and the log and no library; a Kernel is finalized at some time after the last reference to it
(`collect`).
-/

namespace Parcels.Libs

/-- The base of the file names: name of the kernel, particle type and fields, and the time. Models: kernel.py:186-190. -/
structure Key where
  name : String
  time : Int
  deriving DecidableEq, Repr

/-- The three files. Models: kernel.py:181-183. -/
inductive Kind where
  | src | lib | log
  deriving DecidableEq, Repr

/-- The files: which C code they are made from. Models: kernel.py:223-227. -/
abbrev FS := Key → Kind → Option Nat

/-- A library in memory. Models: kernel.py:231-234. -/
structure Lib where
  handle : Nat
  key : Key
  code : Nat
  refs : Nat
  deriving DecidableEq, Repr

/-- A Kernel: its function, name, C code, `delete_cfiles`, base of file names, `_lib`, `_function` (in which library), and the two finalizers.
Models: kernel.py:74-82, 169-183. -/
structure Kern where
  func : Nat
  name : String
  code : Nat
  delete : Bool
  key : Key
  lib : Option Nat
  fn : Option Nat
  cleanFiles : Option Key
  cleanLib : Option Nat

/-- The state of a process: files, loaded libraries, Kernels, `pset.kernel` of every ParticleSet; `double`: a library was closed that was not open;
`clock`: the last time that was read. Models: kernel.py:61-234. -/
structure State where
  fs : FS
  libs : List Lib
  next : Nat
  kernels : Nat → Option Kern
  count : Nat
  psets : Nat → Option Nat
  double : Bool
  clock : Int

/-- Results of `execute`: the C code that ran, an exception, or a call into a library that is not loaded. Models: kernel.py:270-271. -/
inductive Outcome where
  | ran (code : Nat)
  | error
  | crash
  | none
  deriving DecidableEq, Repr

/-- `dlopen`. Models: kernel.py:232. -/
def dlopen (s : State) (key : Key) : Option (State × Nat) :=
  match s.fs key .lib with
  | none => none
  | some c =>
    match s.libs.find? fun l => l.key = key with
    | some l => some ({ s with libs := s.libs.map fun x => if x.handle = l.handle then { x with refs := x.refs + 1 } else x }, l.handle)
    | none => some ({ s with libs := s.libs ++ [⟨s.next, key, c, 1⟩], next := s.next + 1 }, s.next)

/-- `dlclose`. Models: kernel.py:195, 500. -/
def dlclose (s : State) (h : Nat) : State :=
  match s.libs.find? fun l => l.handle = h with
  | none => { s with double := true }
  | some l =>
    if l.refs ≤ 1 then { s with libs := s.libs.filter fun x => x.handle ≠ h }
    else { s with libs := s.libs.map fun x => if x.handle = h then { x with refs := x.refs - 1 } else x }

/-- Removing one file; `none`: it does not exist. Models: kernel.py:209, 492. -/
def rm (fs : FS) (key : Key) (kind : Kind) : Option FS :=
  if (fs key kind).isSome then some (Function.update fs key (Function.update (fs key) kind none)) else none

/-- `[remove(s) for s in [src_file, lib_file, log_file]]`: the files, and whether all were removed. Models: kernel.py:209, 492. -/
def rmAll (fs : FS) (key : Key) : FS × Bool :=
  match rm fs key .src with
  | none => (fs, false)
  | some fs => match rm fs key .lib with
    | none => (fs, false)
    | some fs => match rm fs key .log with
      | none => (fs, false)
      | some fs => (fs, true)

/-- `Kernel(...)`, at time `t`. Models: kernel.py:74-82, 169-183. -/
def newKernel (s : State) (func : Nat) (name : String) (code : Nat) (delete : Bool) (t : Int) : State :=
  { s with
    kernels := Function.update s.kernels s.count (some ⟨func, name, code, delete, ⟨name, t⟩, none, none, none, none⟩)
    count := s.count + 1
    clock := t }

/-- Unloading the library of a Kernel. Models: kernel.py:194-197. -/
def closeLib (s : State) (kern : Kern) : State :=
  match kern.lib with
  | some h => dlclose s h
  | none => s

/-- `remove_lib`, at time `t`. Models: kernel.py:192-221. -/
def removeLib (s : State) (k : Nat) (kern : Kern) (t : Int) : State × Kern × Bool :=
  let s := closeLib s kern
  let kern := { kern with lib := none, cleanFiles := none, cleanLib := none }
  if (s.fs kern.key .lib).isSome then
    let r := rmAll s.fs kern.key
    let kern' := if r.2 then { kern with key := ⟨kern.name, t⟩ } else kern
    ({ s with fs := r.1, clock := t, kernels := Function.update s.kernels k (some kern') }, kern', r.2)
  else ({ s with kernels := Function.update s.kernels k (some kern) }, kern, true)

/-- `compile`; `fails`: the compiler fails. Models: kernel.py:223-229, codecompiler.py:223-240, 250-254. -/
def compile (s : State) (k : Nat) (kern : Kern) (fails : Bool) : State × Kern × Bool :=
  let f := Function.update (Function.update (s.fs kern.key) .src (some kern.code)) .log (some kern.code)
  if fails then ({ s with fs := Function.update s.fs kern.key f }, kern, false)
  else
    let kern' := { kern with cleanFiles := some kern.key }
    ({ s with fs := Function.update s.fs kern.key (Function.update f .lib (some kern.code)), kernels := Function.update s.kernels k (some kern') }, kern', true)

/-- `load_lib`. Models: kernel.py:231-234. -/
def loadLib (s : State) (k : Nat) (kern : Kern) : State × Bool :=
  match dlopen s kern.key with
  | none => (s, false)
  | some (s, h) => ({ s with kernels := Function.update s.kernels k (some { kern with lib := some h, fn := some h, cleanLib := some h }) }, true)

/-- Calling `self._function`. Models: kernel.py:270-271. -/
def call (s : State) (kern : Kern) : Outcome :=
  match kern.fn with
  | none => .error
  | some h => match s.libs.find? fun l => l.handle = h with
    | none => .crash
    | some l => .ran l.code

/-- What `execute` is given: a function (with its name and the C code generated for it), or a Kernel. Models: baseparticleset.py:338-341. -/
inductive Arg where
  | func (f : Nat) (name : String) (code : Nat)
  | kernel (k : Nat)

/-- `self.kernel is None or (self.kernel.pyfunc is not pyfunc and self.kernel is not pyfunc)`. Models: baseparticleset.py:336. -/
def needsKernel (s : State) (p : Nat) (a : Arg) : Bool :=
  match s.psets p with
  | none => true
  | some k => match a with
    | .func f _ _ => match s.kernels k with
      | some kern => kern.func ≠ f
      | none => true
    | .kernel j => k ≠ j

/-- Preparing a Kernel: `remove_lib`, `compile`, `load_lib`. Models: baseparticleset.py:344-347. -/
def prepare (s : State) (k : Nat) (kern : Kern) (t : Int) (fails : Bool) : State × Bool :=
  let r := removeLib s k kern t
  if r.2.2 then
    let c := compile r.1 k r.2.1 fails
    if c.2.2 then loadLib c.1 k c.2.1 else (c.1, false)
  else (r.1, false)

/-- `self.kernel = pyfunc` or `self.kernel = self.Kernel(pyfunc)`, at time `t`. Models: baseparticleset.py:338-341, particlesetsoa.py:537-544. -/
def assign (s : State) (p : Nat) (a : Arg) (t : Int) : State × Nat :=
  match a with
  | .func f name code => ({ newKernel s f name code true t with psets := Function.update s.psets p (some s.count) }, s.count)
  | .kernel j => ({ s with psets := Function.update s.psets p (some j) }, j)

/-- The libraries for `pset.execute`: a Kernel is made at time `t1` if needed, and new file names are taken at time `t2` if needed.
Models: baseparticleset.py:335-347. -/
def ready (s : State) (p : Nat) (a : Arg) (t1 t2 : Int) (fails : Bool) : State × Bool :=
  if needsKernel s p a then
    match (assign s p a t1).1.kernels (assign s p a t1).2 with
    | some kern => prepare (assign s p a t1).1 (assign s p a t1).2 kern t2 fails
    | none => ((assign s p a t1).1, false)
  else (s, true)

/-- `pset.execute`. Models: baseparticleset.py:335-347, kernel.py:270-271. -/
def execute (s : State) (p : Nat) (a : Arg) (t1 t2 : Int) (fails : Bool) : State × Outcome :=
  let r := ready s p a t1 t2 fails
  if r.2 then
    match (r.1.psets p).bind r.1.kernels with
    | some kern => (r.1, call r.1 kern)
    | none => (r.1, .error)
  else (r.1, .error)

/-- `cleanup_remove_files`, as finalizer of a Kernel. Models: kernel.py:229, 490-492. -/
def cleanupFiles (s : State) (kern : Kern) : State :=
  match kern.cleanFiles with
  | some key => if (s.fs key .lib).isSome ∧ kern.delete then { s with fs := (rmAll s.fs key).1 } else s
  | none => s

/-- `cleanup_unload_lib`, as finalizer of a Kernel. Models: kernel.py:234, 495-500. -/
def cleanupLib (s : State) (kern : Kern) : State :=
  match kern.cleanLib with
  | some h => dlclose s h
  | none => s

/-- The finalizers of a Kernel. Models: kernel.py:229, 234, 490-500. -/
def collect (s : State) (k : Nat) : State :=
  match s.kernels k with
  | none => s
  | some kern => { cleanupLib (cleanupFiles s kern) kern with kernels := Function.update s.kernels k none }

/-- What happens in a process: Kernels are made, ParticleSets execute, ParticleSets are dropped, Kernels are finalized, and other processes change
files. Models: kernel.py:74-234, 490-500, baseparticleset.py:335-347. -/
inductive Op where
  | make (func : Nat) (name : String) (code : Nat) (delete : Bool) (t : Int)
  | exec (p : Nat) (a : Arg) (t1 t2 : Int) (fails : Bool)
  | drop (p : Nat)
  | collect (k : Nat)
  | others (fs : FS)

/-- One of these. Models: kernel.py:74-234, 490-500, baseparticleset.py:335-347. -/
def step (s : State) : Op → State × Outcome
  | .make f n c d t => (newKernel s f n c d t, .none)
  | .exec p a t1 t2 fails => execute s p a t1 t2 fails
  | .drop p => ({ s with psets := Function.update s.psets p none }, .none)
  | .collect k => (collect s k, .none)
  | .others fs => ({ s with fs := fs }, .none)

/-- A new process, with the files that are there. Models: kernel.py:74-82. -/
def init (fs : FS) (clock : Int) : State := ⟨fs, [], 0, fun _ => none, 0, fun _ => none, false, clock⟩

end Parcels.Libs
