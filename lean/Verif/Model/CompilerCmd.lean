import Mathlib.Data.List.Basic

/-!
Model of the command with which kernels and the library of random numbers are compiled: `GNU_parameters` and `GNUCompiler.compile`
(parcels/compilation/codecompiler.py:65-120, 198-279).

Simplifications: all arguments are lists of strings (`None` is the empty list); the process that runs the command is left out; the environment variables `CC` and `MPICC` are
arguments, and so are whether mpi4py is there and whether pointers have 8 bytes.
-/

namespace Parcels.CompilerCmd

/-- `os._exists(name)`: whether the module `os` itself defines the name; it does not define `mpicc` or `mpiCC`. Models: codecompiler.py:98-99. -/
def osExists (_ : String) : Bool := false

/-- The compiler. Models: codecompiler.py:93-101. -/
def compiler (mpi : Bool) (mpiccEnv ccEnv : Option String) : String :=
  let m0 := mpiccEnv
  let m1 := if m0.isNone && osExists "mpicc" then some "mpicc" else none
  let m2 := if m1.isNone && osExists "mpiCC" then some "mpiCC" else none
  match mpi, m2 with
  | true, some m => m
  | _, _ => match ccEnv with
    | some c => c
    | none => "gcc"

/-- Arguments of `GNUCompiler`. Models: codecompiler.py:66, 263. -/
structure Args where
  cppargs : List String
  ldargs : List String
  incdirs : List String
  libdirs : List String
  libs : List String

/-- `libs.append("m")` changes the list of the caller. Models: codecompiler.py:78. -/
def libsAfter (a : Args) : List String := a.libs ++ ["m"]

/-- `arch_flag`. Models: codecompiler.py:103. -/
def arch (wide : Bool) : String := if wide then "-m64" else "-m32"

/-- `_cppargs`. Models: codecompiler.py:80-83, 102-106. -/
def cpp (wide : Bool) (a : Args) : List String :=
  ["-Wall", "-fPIC", "-std=gnu11"] ++ a.incdirs.map ("-I" ++ ·) ++ (["-g", "-O3"] ++ a.cppargs ++ [arch wide])

/-- `_ldargs`. Models: codecompiler.py:84-91, 107-113. -/
def ld (wide : Bool) (a : Args) : List String :=
  ["-shared"] ++ a.libdirs.map ("-L" ++ ·) ++ (libsAfter a).map ("-l" ++ ·) ++ a.ldargs
    ++ (if a.libdirs.length > 0 then ["-Wl, -rpath=" ++ ":".intercalate a.libdirs] else []) ++ [arch wide]

/-- The command. Models: codecompiler.py:250-254, 271-276. -/
def command (cc : String) (wide : Bool) (a : Args) (src obj : String) : List String := [cc] ++ cpp wide a ++ ["-o", obj, src] ++ ld wide a

end Parcels.CompilerCmd
