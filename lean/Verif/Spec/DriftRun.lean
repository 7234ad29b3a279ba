import Verif.Spec.GridRun
import Verif.Spec.AdaptiveRun

/-!
Vocabulary for the statements of C111: bounds of the data, and mean velocities.
-/

namespace Parcels.DriftRun

open GridRun (Fld Prog Body)

variable {V : Type}

/-- All data of the field, at all nodes of its grid and at all its times, lie between `a` and `b`. -/
def Within (f : Fld) (a b : ℚ) : Prop :=
  ∀ i k j l : Nat, i < f.time.length → k < max f.grid.depth.length 1 → j < f.grid.lat.length → l < f.grid.lon.length → a ≤ (f.data i).v k j l ∧ (f.data i).v k j l ≤ b

/-- Between `x` and `x'`, `T` seconds later, the mean velocity was between `a` and `b`. -/
def Mean (a b T x x' : ℚ) : Prop := ∃ c, a ≤ c ∧ c ≤ b ∧ x' = x + c * T

/-- The kernels AdvectionEE, AdvectionRK4 and AdvectionRK4_3D, with the bounds of their vertical velocity: 0 for the first two, those of the third field for the last. -/
def Advects (lo hi : Nat → ℚ) (b : Body (ℚ × ℚ × ℚ)) (zl zh : ℚ) : Prop :=
  ((b = GridRun.ee ∨ b = GridRun.rk4) ∧ zl = 0 ∧ zh = 0) ∨ (b = GridRun.rk4_3D ∧ zl = lo 2 ∧ zh = hi 2)

/-- From one time and position (longitude, latitude, depth) to another, the three mean velocities were within bounds. -/
def Drift (ul uh vl vh zl zh t : ℚ) (p : ℚ × ℚ × ℚ) (t' : ℚ) (p' : ℚ × ℚ × ℚ) : Prop :=
  Mean ul uh (t' - t) p.1 p'.1 ∧ Mean vl vh (t' - t) p.2.1 p'.2.1 ∧ Mean zl zh (t' - t) p.2.2 p'.2.2

end Parcels.DriftRun
