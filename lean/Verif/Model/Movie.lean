import Mathlib.Data.Rat.Floor
import Mathlib.Algebra.Order.Floor.Ring
import Mathlib.Tactic.Linarith
import Mathlib.Tactic.NormNum

/-!
Model of the movies of `plotTrajectoriesFile` (parcels/scripts/plottrajectoriesfile.py:40-131): which records of a particle file are in which frame, and the longitudes at which
they are drawn on a map.

Simplifications: the arrays of the file are one list of records; `none` stands for `nan` and `NaT`; numbers are exact; the drawing itself, titles and colours of the background
are left out.
-/

namespace Parcels.Movie

/-- An entry of the arrays: time, longitude, latitude and the variable for the colour. Models: plottrajectoriesfile.py:44-51. -/
structure Rec where
  time : Option ℚ
  lon : ℚ
  lat : ℚ
  value : ℚ
deriving DecidableEq

/-- Insertion into a sorted list without repetitions. Models: `np.unique`, plottrajectoriesfile.py:94. -/
def insert (x : ℚ) : List ℚ → List ℚ
  | [] => [x]
  | y :: ys => if x < y then x :: y :: ys else if x = y then y :: ys else y :: insert x ys

/-- `np.unique`, and the removal of `nan`. Models: plottrajectoriesfile.py:94, 97-103. -/
def unique (l : List (Option ℚ)) : List ℚ := (l.filterMap id).foldr insert []

/-- `plottimes`. Models: plottrajectoriesfile.py:94-103. -/
def plottimes (forward : Bool) (rs : List Rec) : List ℚ :=
  let u := unique (rs.map Rec.time)
  if forward then u else u.reverse

/-- `animate`: what the frame for one time shows. Models: plottrajectoriesfile.py:122-128. -/
def frame (rs : List Rec) (t : ℚ) : List (ℚ × ℚ × ℚ) := (rs.filter fun r => r.time = some t).map fun r => (r.lon, r.lat, r.value)

/-- All frames. Models: plottrajectoriesfile.py:120, 131. -/
def movie (forward : Bool) (rs : List Rec) : List (ℚ × List (ℚ × ℚ × ℚ)) := (plottimes forward rs).map fun t => (t, frame rs t)

/-- Longitudes on a map. Models: plottrajectoriesfile.py:67-69. -/
def mapLon (ln : ℚ) : ℚ := if ln < 180 then ln else ln - 360

end Parcels.Movie
