import Mathlib.Data.List.Basic

/-!
Model of the list of particle variables and of the memory layout of a particle (parcels/particle.py, class `ParticleType`), and of
the copies that the generated C code makes before a kernel (parcels/compilation/codegenerator.py, `set_particle_backup` and
`get_particle_backup`).
-/

namespace Parcels.Layout

/-- The dtypes that occur; `other` is any other numpy dtype (float16, int16, bool, ...). Models: particle.py:12, 109-116. -/
inductive DType where
  | float32 | float64 | int32 | int64 | uint64 | voidp | other
deriving DecidableEq, Repr

/-- A `Variable`: its name and dtype. Models: particle.py:26-30. -/
structure Var where
  name : String
  dtype : DType
deriving DecidableEq, Repr

/-- `Variable.is64bit`. Models: parcels/particle.py:12, 49-51. -/
def Var.is64 (v : Var) : Bool :=
  match v.dtype with
  | .float64 | .uint64 | .int64 | .voidp => true
  | _ => false

/-- A particle class: the Variables in its own `__dict__`, in order, and those of its base classes that are subclasses of
`ScipyParticle`, in order. Models: particle.py:60-80. -/
inductive Cls where
  | mk (own : List Var) (bases : List Cls)

/-- Why a class is rejected. Models: particle.py:73-79, 96-98. -/
inductive Err where
  | builtin (name : String)
  | nameZ
deriving DecidableEq, Repr

/-- The checks for one base class: the first Variable that fails one. Models: parcels/particle.py:73-79. -/
def clash (inherited : List Var) : List Var → Option Err
  | [] => none
  | v :: vs =>
    if v.name ∈ inherited.map Var.name then some (.builtin v.name)
    else if v.name = "z" then some .nameZ
    else clash inherited vs

/-- The 64-bit variables first. Models: parcels/particle.py:81-83. -/
def sort64 (vs : List Var) : List Var := vs.filter Var.is64 ++ vs.filter fun v => !v.is64

mutual
/-- `ParticleType(pclass).variables`. Models: parcels/particle.py:60-83. -/
def varList : Cls → Except Err (List Var)
  | .mk own bases => (inherit bases own).map sort64

/-- The loop over the base classes. Models: parcels/particle.py:69-80. -/
def inherit : List Cls → List Var → Except Err (List Var)
  | [], acc => .ok acc
  | b :: bs, acc =>
    match varList b with
    | .error e => .error e
    | .ok inherited =>
      match clash inherited acc with
      | some e => .error e
      | none => inherit bs (inherited ++ acc)
end

/-- `ScipyParticle`. Models: parcels/particle.py:175-187. -/
def scipyParticle : Cls := .mk [⟨"lon", .float32⟩, ⟨"lat", .float32⟩, ⟨"depth", .float32⟩, ⟨"time", .float64⟩, ⟨"xi", .int32⟩,
  ⟨"yi", .int32⟩, ⟨"zi", .int32⟩, ⟨"ti", .int32⟩, ⟨"id", .int64⟩, ⟨"fileid", .int32⟩, ⟨"dt", .float64⟩, ⟨"state", .int32⟩,
  ⟨"_next_dt", .float64⟩] []

/-- `JITParticle` adds no Variables. Models: parcels/particle.py:239-252. -/
def jitParticle : Cls := .mk [] [scipyParticle]

/-! ### The C struct -/

/-- `ParticleType.size`. Models: parcels/particle.py:104-107. -/
def size (vs : List Var) : ℕ := (vs.map fun v => if v.is64 then 8 else 4).sum

/-- `supported_dtypes`. Models: parcels/particle.py:109-116. -/
def supported (v : Var) : Bool :=
  match v.dtype with
  | .int32 | .int64 | .float32 | .float64 | .voidp => true
  | _ => false

/-- `ParticleType.dtype`: the fields; none if a dtype is not supported. Models: parcels/particle.py:92-102. -/
def dtype (vs : List Var) : Option (List Var) :=
  if vs.all supported then some (if 0 < size vs % 8 then vs ++ [⟨"pad", .float32⟩] else vs) else none

/-- The number of bytes of a field. Models: particle.py:104-107. -/
def width (v : Var) : ℕ :=
  match v.dtype with
  | .float64 | .uint64 | .int64 | .voidp => 8
  | .float32 | .int32 => 4
  | .other => 2

/-- The offsets numpy gives to the fields of an unaligned structured dtype, and the end. Models: particle.py:102 (`np.dtype(type_list)`). -/
def packed : ℕ → List Var → List (Var × ℕ) × ℕ
  | off, [] => ([], off)
  | off, v :: vs => let r := packed (off + width v) vs; ((v, off) :: r.1, r.2)

/-- The next multiple. Models: the alignment of the struct generated at compilation/codegenerator.py:953-955. -/
def roundUp (off align : ℕ) : ℕ := (off + align - 1) / align * align

/-- The offsets a C compiler gives to the members of a struct: each at the next multiple of its width. Models: the struct generated at compilation/codegenerator.py:953-955. -/
def natural : ℕ → List Var → List (Var × ℕ) × ℕ
  | off, [] => ([], off)
  | off, v :: vs => let o := roundUp off (width v); let r := natural (o + width v) vs; ((v, o) :: r.1, r.2)

/-! ### The copy of a particle -/

/-- The variables that are copied. Models: parcels/compilation/codegenerator.py:963-965, 976-978. -/
def copied (v : Var) : Bool := v.dtype != .uint64 && v.name != "dt" && v.name != "state"

/-- `set_particle_backup`: the copy. Models: parcels/compilation/codegenerator.py:957-968. -/
def setBackup {X : Type} (vs : List Var) (p : String → X) (backup : String → X) : String → X :=
  vs.foldl (fun b v => if copied v then (fun n => if n = v.name then p v.name else b n) else b) backup

/-- `get_particle_backup`. Models: parcels/compilation/codegenerator.py:970-981. -/
def getBackup {X : Type} (vs : List Var) (p : String → X) (backup : String → X) : String → X :=
  vs.foldl (fun q v => if copied v then (fun n => if n = v.name then backup v.name else q n) else q) p

end Parcels.Layout
