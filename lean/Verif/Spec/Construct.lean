import Verif.Model.Construct

/-!
Specification for C79: which values the particles of a new set have.
-/

namespace Parcels.Construct

/-- The value of variable `k` of particle `i`. -/
def value (d : Data) (k : String) (i : Nat) : Option Val := (d k).bind fun col => col[i]?

/-- The depth given for particle `i`. -/
def depthOf (a : Args) (mindepth : ℚ) (i : Nat) : Option ℚ :=
  match a.depth with
  | none => if i < a.lon.length then some mindepth else none
  | some l => l[i]?

/-- The time given for particle `i` (`some none`: not given). -/
def timeOf (a : Args) (i : Nat) : Option Val :=
  match a.time with
  | .none => some none
  | .one t => some (some t)
  | .many [t] => some t
  | .many l => l[i]?

/-- `u` is declared before `v`. -/
def Before (decl : List PVar) (u v : PVar) : Prop := ∃ l1 l2 l3, decl = l1 ++ u :: l2 ++ v :: l3

/-- Variable `u` has its value when that of `v` is taken from it: `u` was given; or it has 64 bits and `v` has not; or both have the
same number of bits and `u` was declared first. -/
def Ready (given : List String) (decl : List PVar) (u v : PVar) : Prop :=
  u.name ∈ given ∨ (u.dtype.is64 = true ∧ v.dtype.is64 = false) ∨ (u.dtype.is64 = v.dtype.is64 ∧ Before decl u v)

/-- The names of the variables whose values are arguments. -/
def givenNames (a : Args) : List String := ["lat", "lon", "depth", "time", "id"] ++ a.kwargs.map (·.1)

/-- The names of variables are different, and so are those of keyword arguments, none of which is a position or time. -/
structure Named (coord : DType) (user : List PVar) (a : Args) : Prop where
  vars : ((builtin coord ++ user).map (·.name)).Nodup
  kwargs : (a.kwargs.map (·.1)).Nodup
  free : ∀ k ∈ a.kwargs.map (·.1), k ∉ ["lat", "lon", "depth", "time"]

/-- The arrays `d` describe the particles the arguments ask for, up to rounding to the types of the variables. -/
structure Describes (rnd : DType → ℚ → ℚ) (coord : DType) (user : List PVar) (lastID : ℤ) (mindepth : ℚ) (a : Args) (d : Data) : Prop where
  lon : ∀ i (x : ℚ), a.lon[i]? = some x → value d "lon" i = some (some (rnd coord x))
  lat : ∀ i (y : ℚ), a.lat[i]? = some y → value d "lat" i = some (some (rnd coord y))
  depth : ∀ i z, depthOf a mindepth i = some z → value d "depth" i = some (some (rnd coord z))
  time : ∀ i t, i < a.lon.length → timeOf a i = some t → value d "time" i = some (cast rnd .f64 t)
  id : "id" ∉ a.kwargs.map (·.1) → ∀ i, i < a.lon.length → value d "id" i = some (some ((lastID + i : ℤ) : ℚ))
  kwargs : ∀ k col v i w, (k, col) ∈ a.kwargs → v ∈ builtin coord ++ user → v.name = k → col[i]? = some w →
    value d k i = some (cast rnd v.dtype w)
  const : ∀ v ∈ builtin coord ++ user, v.name ∉ givenNames a → ∀ c, v.init = .const c → ∀ i, i < a.lon.length →
    value d v.name i = some (cast rnd v.dtype c)
  field : ∀ v ∈ builtin coord ++ user, v.name ∉ givenNames a → ∀ f, v.init = .field f → ∀ i, i < a.lon.length →
    ∃ t z y x w, timeOf a i = some (some t) ∧ depthOf a mindepth i = some z ∧ a.lat[i]? = some y ∧ a.lon[i]? = some x ∧ f t z y x = some w ∧
      value d v.name i = some (some (rnd v.dtype w))
  copy : ∀ v ∈ builtin coord ++ user, v.name ∉ givenNames a → ∀ u ∈ builtin coord ++ user, v.init = .copy u.name →
    Ready (givenNames a) (builtin coord ++ user) u v → ∀ i, i < a.lon.length →
    ∃ w, value d u.name i = some w ∧ value d v.name i = some (cast rnd v.dtype w)
  /-- no variable has fewer or more entries -/
  size : ∀ v ∈ builtin coord ++ user, ∃ col, d v.name = some col ∧ col.length = a.lon.length

end Parcels.Construct
