import Mathlib.Data.List.Induction

/-!
Model of the compiled library behind `parcels.rng` (parcels/rng.py:18-128): its files in the cache directory, and whether it is loaded.

Simplifications: one object (the names of the files contain a fresh UUID); compilation succeeds; `ctypes` is there (not the end of the interpreter).
-/

namespace Parcels.RngLib

/-- The source, the library and the log in the cache directory. Models: rng.py:98-107. -/
structure Files where
  src : Bool
  lib : Bool
  log : Bool
deriving DecidableEq, Repr

/-- The object and its files. `named`: the names of the files are set; `handle`: `_lib` is not None; `loaded`: `_loaded`. Models: rng.py:55-74. -/
structure State where
  files : Files
  named : Bool
  handle : Bool
  loaded : Bool
deriving DecidableEq, Repr

/-- Before `__init__`. Models: rng.py:55-62. -/
def blank : State := ⟨⟨false, false, false⟩, false, false, false⟩

/-- `compile`: new names, unless there are some; the files are written, unless the library is loaded. Models: rng.py:98-116. -/
def compile (s : State) : State :=
  { s with named := true, files := if s.handle then s.files else ⟨true, true, true⟩ }

/-- `load_lib`; `none`: OSError. Models: rng.py:88-90. -/
def load (s : State) : Option State := if s.files.lib then some { s with handle := true, loaded := true } else none

/-- `unload_lib`. Models: rng.py:80-86. -/
def unload (s : State) : State := if s.handle && s.loaded then { s with handle := false, loaded := false } else s

/-- `remove_lib`: the three files are removed, one after the other; `none`: FileNotFoundError. Models: rng.py:92-96. -/
def remove (s : State) : Option State :=
  if s.handle && s.loaded && s.files.lib then
    if s.files.src && s.files.log then some { s with files := ⟨false, false, false⟩ } else none
  else some s

/-- `__init__`. Models: rng.py:61-74. -/
def create : Option State := load (compile blank)

/-- The property `lib`, which all random functions use. Models: rng.py:118-125. -/
def use (s : State) : Option State :=
  let s := if s.named then s else compile s
  if s.handle && s.loaded then some s else load s

/-- `__del__`. Models: rng.py:76-78. -/
def del (s : State) : Option State := remove (unload s)

/-- What a program can do with the object. Models: rng.py:76-125. -/
inductive Op where
  | compile
  | load
  | unload
  | remove
  | use
deriving DecidableEq, Repr

/-- One call. Models: rng.py:76-125. -/
def step (s : State) : Op → Option State
  | .compile => some (compile s)
  | .load => load s
  | .unload => some (unload s)
  | .remove => remove s
  | .use => use s

/-- Calls after the construction; `none`: one of them raised an error. Models: rng.py:61-125. -/
def run (ops : List Op) : Option State := ops.foldl (fun s op => s.bind fun s => step s op) create

end Parcels.RngLib
