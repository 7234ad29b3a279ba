import Verif.Model.XArray
import Verif.Spec.Load

/-!
Vocabulary for C122: what a dataset says, by the names of its dimensions.
-/

namespace Parcels.XArray
open Parcels.Load Parcels.Converters Parcels.FromNetcdf

/-- The value of an array whose axes have these names, at the position `sel` (an index for each name). -/
def pick (dims : List String) (a : ND ℚ) (sel : String → Nat) : ℚ := a.get (dims.map sel)

/-- The kind of values a coordinate means: dates, if its numbers have to be decoded first (attribute `units` missing, `Unit` given). -/
def Coord.means (c : Coord) : Calendar := if c.units = false ∧ c.unit.isSome then .np else c.cal

/-- The time, in seconds, which the value `v` of a coordinate means. -/
def Coord.seconds (c : Coord) (v : ℚ) : ℚ :=
  match c.unit with
  | some dec => if c.units then v / ticks c.cal else dec v / ticks .np
  | none => v / ticks c.cal

/-- At node (t, z, y, x) the field has the value the dataset has at the position `sel`, and the coordinates of the node are those the dataset has
there. `d`: the dimensions of the variable. -/
structure Matches (ds : DS) (d : List (String × String)) (da : DArray) (f : XField) (t z y x : Nat) (sel : String → Nat) : Prop where
  inside : ∀ (i : Nat) n, da.dims[i]? = some n → sel n < da.data.shape.getD i 0
  lon : ∃ n c, d.lookup "lon" = some n ∧ ds.coords n = some c ∧ f.grid.lonAt y x = pick c.dims c.vals sel
  lat : ∃ n c, d.lookup "lat" = some n ∧ ds.coords n = some c ∧ f.grid.latAt y x = pick c.dims c.vals sel
  depth : ∀ n c, d.lookup "depth" = some n → ds.coords n = some c → f.grid.depth.getD z 0 = pick c.dims c.vals sel
  time : ∀ n c, d.lookup "time" = some n → ds.coords n = some c →
    f.cal = c.means ∧ f.origin / ticks f.cal + f.grid.time.getD t 0 = c.seconds (pick c.dims c.vals sel)
  value : nodeValue f.data t z y x = pick da.dims da.data sel

/-- Has the layout a time axis? -/
def hasTime : Layout → Bool
  | .tyx | .tzyx => true
  | _ => false

/-- The names of the axes. -/
def Named (l : Layout) (tN zN yN xN : String) : List String :=
  match l with
  | .yx => [yN, xN]
  | .tyx => [tN, yN, xN]
  | .zyx => [zN, yN, xN]
  | .tzyx => [tN, zN, yN, xN]

/-- The data variable `da` has the axes (time, depth, lat, lon), in this order (or, with `transpose`, in the reverse order), where time and depth
may be missing; its coordinates are vectors along them, or matrices. `size`: the lengths of the axes. -/
structure Ordered (ds : DS) (d : List (String × String)) (da : DArray) (transpose : Bool) (l : Layout) (tN zN yN xN : String)
    (size : String → Nat) : Prop where
  distinct : [tN, zN, yN, xN].Nodup
  dims : da.dims = if transpose then (Named l tN zN yN xN).reverse else Named l tN zN yN xN
  shape : da.data.shape = da.dims.map size
  lonlat : ∃ ln la clon clat, d.lookup "lon" = some ln ∧ d.lookup "lat" = some la ∧ ds.coords ln = some clon ∧ ds.coords la = some clat ∧
    clon.vals.shape = clon.dims.map size ∧ clat.vals.shape = clat.dims.map size ∧
    ((clon.dims = [xN] ∧ clat.dims = [yN]) ∨ (clon.dims = [yN, xN] ∧ clat.dims = [yN, xN]))
  depth : match d.lookup "depth" with
    | some n => l.hasDepth = true ∧ ∃ c, ds.coords n = some c ∧ c.dims = [zN] ∧ c.vals.shape = [size zN]
    | none => l.hasDepth = true → size zN = 1
  time : match d.lookup "time" with
    | some n => hasTime l = true ∧ 0 < size tN ∧ ∃ c, ds.coords n = some c ∧ c.dims = [tN] ∧ c.vals.shape = [size tN]
    | none => hasTime l = true → size tN = 1

/-- `dimensions` gives the dimensions `d` to the variable: in a dictionary of its own, or for all variables. -/
def Given (a : DimArg) (var : String) (d : List (String × String)) : Prop :=
  (∀ p ∈ d, p.1 = "lon" ∨ p.1 = "lat" ∨ p.1 = "depth" ∨ p.1 = "time") ∧
  (a.lookup var = some (.dict d) ∨ (a.lookup var = none ∧ a = d.map fun p => (p.1, .one p.2)))

/-- The numbers of the time coordinate need not be decoded, or the dimensions are given for all variables together, and the other coordinates
have other names. -/
def Decoded (ds : DS) (a : DimArg) (d : List (String × String)) : Prop :=
  (∀ n c, ds.coords n = some c → c.units = true ∨ c.unit = none) ∨
  (∃ n, a.lookup "time" = some (.one n) ∧ d.lookup "time" = some n ∧ ∀ k, k ≠ "time" → d.lookup k ≠ some n)

end Parcels.XArray
