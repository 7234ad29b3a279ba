import Verif.Model.Interp
import Verif.Spec.Search

/-!
Vocabulary for C29-C31: reference formulas that do not refer to the search.
-/

namespace Parcels.Interp
open Parcels.Search

/-- Linear interpolation along one axis. -/
def lerp (r a b : ℚ) : ℚ := a + r * (b - a)

/-- Bilinear interpolation of the data of level `k` in the cell `(m, n)` (north, east) at relative position `(s, r)`. -/
def bilinearAt (d : Arr) (k m n : Nat) (s r : ℚ) : ℚ :=
  lerp s (lerp r (d.v k m n) (d.v k m (n + 1))) (lerp r (d.v k (m + 1) n) (d.v k (m + 1) (n + 1)))

/-- Trilinear interpolation in the cell `(k, m, n)`. -/
def trilinearAt (d : Arr) (k m n : Nat) (t s r : ℚ) : ℚ :=
  lerp t (bilinearAt d k m n s r) (bilinearAt d (k + 1) m n s r)

/-- Data with the shape of the grid. -/
def Fits (d : Arr) (g : RGrid) : Prop :=
  d.nx = g.lon.length ∧ d.ny = g.lat.length ∧ d.nz = g.depth.length

/-- Node `i` of the axis is at least as near to `x` as node `j`. -/
def Nearer (l : List ℚ) (x : ℚ) (i j : Nat) : Prop :=
  ∃ a b, l[i]? = some a ∧ l[j]? = some b ∧ |x - a| ≤ |x - b|

end Parcels.Interp

namespace Parcels.Interp

/-- What interpolation near land should do (C31), for the nodes of a cell: `land n` says which are land, `dist n` is
the squared distance to the position, `v n` the data and `value` the result; a position within `eps` of a node counts as
being on it. -/
structure IgnoresLand {N : Type} (nodes : List N) (land : N → Bool) (eps : ℚ) (dist v : N → ℚ) (value : ℚ) : Prop where
  allLand : (∀ n ∈ nodes, land n = true) → value = 0
  oceanNode : ∀ n ∈ nodes, dist n = 0 → land n = false → value = v n
  landNode : ∀ n ∈ nodes, dist n = 0 → land n = true → value = 0
  between : (∀ n ∈ nodes, eps < dist n) → (∃ n ∈ nodes, land n = false) →
    ∀ lo hi, (∀ n ∈ nodes, land n = false → lo ≤ v n ∧ v n ≤ hi) → lo ≤ value ∧ value ≤ hi

/-- The mean of the values of the nodes, weighted by the inverse of `dist`. -/
def weightedMean {N : Type} (nodes : List N) (dist v : N → ℚ) : ℚ :=
  (nodes.map fun n => v n / dist n).sum / (nodes.map fun n => 1 / dist n).sum

end Parcels.Interp
