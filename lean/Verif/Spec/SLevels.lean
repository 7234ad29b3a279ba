import Verif.Model.SLevels
import Verif.Spec.Interp

/-!
Vocabulary for C74: where the levels are at a position and a time, and what a sample should give there.
-/

namespace Parcels.SLevels
open Parcels.Search Parcels.Interp

/-- Snapshot `i` and weight `w` of snapshot `i + 1` belong to time `t`: `t` is at fraction `w` between the times of snapshots `i` and
`i + 1`; or extrapolation is allowed, `t` is not after the first (not before the last) time, and only that snapshot counts. -/
def TimeAt (T : List ℚ) (extrap : Bool) (t : ℚ) (i : Nat) (w : ℚ) : Prop :=
  Locates T t i w ∨
    (extrap = true ∧ T ≠ [] ∧ w = 0 ∧ ((t ≤ T.headD 0 ∧ i = 0) ∨ (T.getLastD 0 ≤ t ∧ i = T.length - 1)))

/-- The depths of snapshot `i`. -/
def SGrid.depths (g : SGrid) (i : Nat) : Arr := if g.z4d then g.dep i else g.dep 0

/-- The depths of the levels at a position in the cell `(m, n)`, at fractions `s` (north) and `r` (east), and at fraction `w` between the
snapshots `i` and `i + 1`. -/
def SGrid.levels (g : SGrid) (i : Nat) (w : ℚ) (m n : Nat) (s r : ℚ) : List ℚ :=
  (List.range g.zdim).map fun k => lerp w (bilinearAt (g.depths i) k m n s r) (bilinearAt (g.depths (i + 1)) k m n s r)

/-- The value between level `k` and level `k + 1`, at fraction `q`. -/
def valueAt (data : Nat → Arr) (i : Nat) (w : ℚ) (m n : Nat) (s r : ℚ) (k : Nat) (q : ℚ) : ℚ :=
  lerp w (trilinearAt (data i) k m n q s r) (trilinearAt (data (i + 1)) k m n q s r)

/-- Sampling at depth `z` between the levels `L`: through-surface before the first level, out-of-bounds beyond the last, the
value `V k q` at fraction `q` between levels `k` and `k + 1`. -/
def Samples (L : List ℚ) (z : ℚ) (V : Nat → ℚ → ℚ) (res : Except Fail ℚ) : Prop :=
  ((Increasing L ∧ z < L.headD 0 ∨ Decreasing L ∧ L.headD 0 < z) → res = .error (.space .throughSurface)) ∧
  ((Increasing L ∧ L.getLastD 0 < z ∨ Decreasing L ∧ z < L.getLastD 0) → res = .error (.space .outOfBounds)) ∧
  ∀ (k : Nat) (q : ℚ), Locates L z k q → res = .ok (V k q)

end Parcels.SLevels
