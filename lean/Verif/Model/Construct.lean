import Verif.Model.Collection

/-!
Model of the construction of a particle set: `ParticleSet(...)` (parcels/particlesets/particlesetsoa.py:78-151), `ParticleSet.from_list` and
`ParticleSet.from_line` (baseparticleset.py:105-148), `ParticleCollectionSOA.__init__` (collectionsoa.py:70-201) and the list of variables of
a particle class (particle.py:53-87, 146-164).

Simplifications: dates are converted before (C37); no MPI (C23); the arrays xi, yi, zi, ti, which have one entry for each grid, are left out. Rounding to the
type of a variable is an arbitrary function.
-/

namespace Parcels.Construct
open Parcels.Collection (arange maxOr)

/-- A value of a variable; `none`: NaN (or `None`, which numpy turns into NaN). Models: particlesets/collectionsoa.py:140-195 (the arrays). -/
abbrev Val := Option ℚ

/-- Types of variables. Models: particle.py:12-30. -/
inductive DType where
  | f32
  | f64
  | i32
  | i64
deriving DecidableEq, Repr

/-- `is64bit`. Models: particle.py:49-51. -/
def DType.is64 : DType → Bool
  | .f32 => false
  | .f64 => true
  | .i32 => false
  | .i64 => true

/-- Exceptions. Models: particlesetsoa.py:78-151, collectionsoa.py:70-201. -/
inductive Err where
  | assertion
  | runtime
  | index
  | type
  | value
  | sampling
deriving DecidableEq, Repr

/-- `initial` of a variable: a number, a field (its value at time, depth, latitude and longitude; `none`: an error), or
`attrgetter(name)`. Models: particle.py:12-30, collectionsoa.py:176-195. -/
inductive Init where
  | const (v : Val)
  | field (f : ℚ → ℚ → ℚ → ℚ → Option ℚ)
  | copy (name : String)

/-- A variable of the class. Models: particle.py:26-30. -/
structure PVar where
  name : String
  dtype : DType
  init : Init

/-- The built-in variables, with the type of the coordinates. Models: particle.py:175-187, 224-228. -/
def builtin (coord : DType) : List PVar :=
  [⟨"lon", coord, .const (some 0)⟩, ⟨"lat", coord, .const (some 0)⟩, ⟨"depth", coord, .const (some 0)⟩, ⟨"time", .f64, .const (some 0)⟩,
   ⟨"id", .i64, .const (some 0)⟩, ⟨"fileid", .i32, .const (some (-1))⟩, ⟨"dt", .f64, .const (some 0)⟩, ⟨"state", .i32, .const (some 1)⟩,
   ⟨"_next_dt", .f64, .const none⟩]

/-- `ParticleType.variables`: the 64-bit ones first. Models: particle.py:60-83. -/
def classVars (coord : DType) (user : List PVar) : List PVar :=
  let vs := builtin coord ++ user
  (vs.filter fun v => v.dtype.is64) ++ vs.filter fun v => !v.dtype.is64

/-- The arrays of a collection, by name. Models: collectionsoa.py:140-195. -/
abbrev Data := String → Option (List Val)

/-- Assign an array. Models: collectionsoa.py:140-195. -/
def Data.set (d : Data) (k : String) (col : List Val) : Data := fun x => if x = k then some col else d x

/-- The type of the array of a variable. Models: collectionsoa.py:143-147, particle.py:60-83. -/
def dtypeOf (vs : List PVar) (k : String) : DType := ((vs.find? fun v => v.name = k).map (·.dtype)).getD .f32

/-- Rounding to the type of an array. Models: collectionsoa.py:140-195 (assignments into typed arrays). -/
def cast (rnd : DType → ℚ → ℚ) (t : DType) (v : Val) : Val := v.map (rnd t)

/-- `np.empty` for each variable: any contents. Models: collectionsoa.py:143-147. -/
def allocate (junk : String → Nat → Val) (n : Nat) (vs : List PVar) : Data := fun k =>
  if k ∈ vs.map (·.name) then some ((List.range n).map (junk k)) else none

/-- The loop over keyword arguments. Simplification: `hasattr` is also true for methods, where the assignment raises KeyError.
Models: collectionsoa.py:170-174. -/
def setKwargs (rnd : DType → ℚ → ℚ) (vs : List PVar) : List (String × List Val) → Data → Except Err Data
  | [], d => .ok d
  | (k, col) :: rest, d =>
    if k ∈ vs.map (·.name) then setKwargs rnd vs rest (d.set k (col.map (cast rnd (dtypeOf vs k)))) else .error .runtime

/-- Values of a field at the particles. Models: collectionsoa.py:181-188. -/
def sampleAll (f : ℚ → ℚ → ℚ → ℚ → Option ℚ) : List (Val × ℚ × ℚ × ℚ) → Except Err (List Val)
  | [] => .ok []
  | (none, _) :: _ => .error .runtime
  | (some t, z, y, x) :: rest =>
    match f t z y x with
    | none => .error .sampling
    | some v => (sampleAll f rest).map fun l => some v :: l

/-- The initial values of a variable. `collection.name` is `False` for unknown names. Models: collectionsoa.py:180-193, 227-236. -/
def initCol (pts : List (Val × ℚ × ℚ × ℚ)) (d : Data) : Init → Except Err (List Val)
  | .const c => .ok (pts.map fun _ => c)
  | .field f => sampleAll f pts
  | .copy k => match d k with
    | some col => .ok col
    | none => .ok (pts.map fun _ => some 0)

/-- The loop over the variables that were not given. Models: collectionsoa.py:176-195. -/
def initRest (rnd : DType → ℚ → ℚ) (given : List String) (pts : List (Val × ℚ × ℚ × ℚ)) : List PVar → Data → Except Err Data
  | [], d => .ok d
  | v :: vs, d =>
    if v.name ∈ given then initRest rnd given pts vs d
    else match initCol pts d v.init with
      | .error e => .error e
      | .ok col => initRest rnd given pts vs (d.set v.name (col.map (cast rnd v.dtype)))

/-- The arguments `time`: none, one value or a list. Models: particlesetsoa.py:102-112. -/
inductive TimeArg where
  | none
  | one (t : ℚ)
  | many (l : List Val)

/-- The arguments of the constructor. Models: particlesetsoa.py:78. -/
structure Args where
  lon : List ℚ
  lat : List ℚ
  depth : Option (List ℚ)
  time : TimeArg
  repeatdt : Option ℚ
  kwargs : List (String × List Val)

/-- The array of times; an array of size one is repeated. Models: particlesetsoa.py:102-103. -/
def times (n : Nat) : TimeArg → List Val
  | .none => List.replicate n none
  | .one t => List.replicate n (some t)
  | .many [t] => List.replicate n t
  | .many l => l

/-- The array of depths. Models: particlesetsoa.py:94-98. -/
def depths (n : Nat) (mindepth : ℚ) : Option (List ℚ) → List ℚ
  | none => List.replicate n mindepth
  | some d => d

/-- `np.allclose(time, time[0])`. Models: particlesetsoa.py:131, 143. -/
def allClose (ts : List ℚ) (t0 : ℚ) : Bool := ts.all fun t => isclose t t0

/-- The checks for repeated release: `raise('...')` is a TypeError, as is `np.allclose` on a list that contains `None`.
Models: particlesetsoa.py:127-132, 139-145. -/
def checkRepeat (repeatdt : Option ℚ) (ts : List Val) : Except Err Unit :=
  match repeatdt with
  | none => .ok ()
  | some r =>
    if r = 0 then .ok ()
    else if r ≤ 0 then .error .type
    else match ts with
      | [] => .error .index
      | none :: _ => .ok ()
      | some t0 :: _ =>
        if t0 = 0 then .ok ()
        else match ts.mapM id with
          | none => .error .type
          | some l => if allClose l t0 then .ok () else .error .type

/-- The constructor; `lastID` is the counter of the class, `mindepth` the smallest depth of the fieldset; the result holds the arrays and the
new counter. The second check of the times (particlesetsoa.py:139-145) finds nothing new.
Models: particlesetsoa.py:78-151, collectionsoa.py:70-201. -/
def create (rnd : DType → ℚ → ℚ) (junk : String → Nat → Val) (coord : DType) (user : List PVar) (lastID : ℤ) (mindepth : ℚ) (a : Args) :
    Except Err (Data × ℤ) :=
  let n := a.lon.length
  let depth := depths n mindepth a.depth
  if ¬ (n = a.lat.length ∧ n = depth.length) then .error .assertion
  else
    let ts := times n a.time
    if n ≠ ts.length then .error .assertion
    else if ¬ a.kwargs.all (fun k => decide (n = k.2.length)) then .error .assertion
    else match checkRepeat a.repeatdt ts with
      | .error e => .error e
      | .ok _ =>
        let vs := classVars coord user
        let pid := (arange n).map (· + lastID)
        let put := fun (k : String) (col : List Val) (d : Data) => d.set k (col.map (cast rnd (dtypeOf vs k)))
        let d := allocate junk n vs
        let d := put "lat" (a.lat.map some) d
        let d := put "lon" (a.lon.map some) d
        let d := put "depth" (depth.map some) d
        let d := put "time" ts d
        let d := d.set "id" (pid.map fun (p : ℤ) => some (p : ℚ))
        let d := put "fileid" (a.lon.map fun _ => some (-1)) d
        match setKwargs rnd vs a.kwargs d with
        | .error e => .error e
        | .ok d =>
          match initRest rnd (["lat", "lon", "depth", "time", "id"] ++ a.kwargs.map (·.1)) (ts.zip (depth.zip (a.lat.zip a.lon))) vs d with
          | .error e => .error e
          | .ok d => .ok (d, maxOr pid + 1)

/-- `np.linspace(a, b, size)`; a negative size is a ValueError. Models: particlesets/baseparticleset.py:144-145. -/
def linspace (a b : ℚ) (size : ℤ) : Except Err (List ℚ) :=
  if size < 0 then .error .value
  else .ok ((List.range size.toNat).map fun (i : Nat) => if size = 1 then a else a + (i : ℚ) * ((b - a) / (size - 1)))

/-- The argument `depth` of `from_line`: none, a number, or a list. Models: particlesets/baseparticleset.py:125, 144-147. -/
inductive DepthArg where
  | none
  | one (z : ℚ)
  | many (l : List ℚ)

/-- `ParticleSet.from_line`: the arguments for the constructor. Models: baseparticleset.py:125-148. -/
def fromLine (start finish : ℚ × ℚ) (size : ℤ) (depth : DepthArg) (time : TimeArg) (repeatdt : Option ℚ) : Except Err Args :=
  match linspace start.1 finish.1 size, linspace start.2 finish.2 size with
  | .ok lon, .ok lat =>
    let depth := match depth with
      | .none => Option.none
      | .one z => some (List.replicate size.toNat z)
      | .many l => some l
    .ok { lon := lon, lat := lat, depth := depth, time := time, repeatdt := repeatdt, kwargs := [] }
  | .error e, _ => .error e
  | _, .error e => .error e

end Parcels.Construct
