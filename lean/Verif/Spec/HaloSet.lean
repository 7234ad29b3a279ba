import Verif.Model.HaloSet

/-!
Vocabulary for C72: a grid and its data are a periodic continuation of another grid and its data.
-/

namespace Parcels.HaloSet

/-- The length of the period of an axis: from the first node to one step after the last. -/
def period (l : List ℚ) : ℚ := (l.getLastD 0 - l.headD 0) + (l.getD 1 0 - l.headD 0)

/-- The value in row `j`, column `i`. -/
def valueAt (d : Rows) (j i : Nat) : Option ℚ := d[j]?.bind fun r => r[i]?

/-- There is a value for each node, and no other. -/
def Fits (lon lat : List ℚ) (d : Rows) : Prop := d.length = lat.length ∧ ∀ r ∈ d, r.length = lon.length

/-- The grid `lon'`, `lat'` with data `d'` continues the grid `lon`, `lat` with data `d` periodically: there is a value for each node,
and it is the value of a node of the original that lies a whole number of periods away. -/
def Continues (lon lat : List ℚ) (d : Rows) (lon' lat' : List ℚ) (d' : Rows) : Prop :=
  Fits lon' lat' d' ∧ ∀ (j i : Nat) (y x v : ℚ), lat'[j]? = some y → lon'[i]? = some x → valueAt d' j i = some v →
    ∃ (j0 i0 : Nat) (k l : ℤ), lat[j0]? = some (y + k * period lat) ∧ lon[i0]? = some (x + l * period lon) ∧ valueAt d j0 i0 = some v

/-- Every field that is loaded at once is an attribute of the FieldSet, and under one name. -/
structure FSet.Plain (s : FSet) : Prop where
  once : (s.attrs.filterMap fun | .field i => some i | .list _ => none).Nodup
  named : ∀ (i : Nat) (f : HField), s.fields[i]? = some f → f.deferred = false → Attr.field i ∈ s.attrs
  exist : ∀ i, Attr.field i ∈ s.attrs → i < s.fields.length

/-- The fields fit their grids, which have no halo yet, and axes of at least `h` nodes, and at least two. -/
structure FSet.Fresh (s : FSet) (h : Nat) : Prop where
  fits : ∀ f ∈ s.fields, ∃ g, s.grids[f.grid]? = some g ∧ Fits g.lon g.lat f.data
  none : ∀ g ∈ s.grids, g.zonal = 0 ∧ g.meridional = 0
  size : ∀ g ∈ s.grids, 2 ≤ g.lon.length ∧ 2 ≤ g.lat.length ∧ h ≤ g.lon.length ∧ h ≤ g.lat.length

/-- Total size of the zonal, or meridional, halos of some calls. -/
def total (calls : List (Bool × Bool × Nat)) (which : Bool × Bool × Nat → Bool) : Nat := ((calls.filter which).map fun c => c.2.2).sum

end Parcels.HaloSet
