import Mathlib.Data.Rat.Floor
import Mathlib.Algebra.Order.Field.Basic
import Mathlib.Algebra.Order.Field.Rat

/-!
Numbers and status codes shared by the models.

Simplification (whole development): Python/C floats are exact rationals here. NaN and infinities are
modelled explicitly only where the code depends on them.
-/

namespace Parcels

/-- `np.sign` on finite numbers.
Models: uses at parcels/kernel.py:275,296,348 and parcels/particlesets/baseparticleset.py:389,420. -/
def sgn (x : ℚ) : ℚ := if 0 < x then 1 else if x < 0 then -1 else 0

/-- `np.isclose(a, b)` with numpy's default tolerances `rtol = 1e-5`, `atol = 1e-8`
(`|a - b| ≤ atol + rtol * |b|`).
Models: uses at parcels/kernel.py:302,307,322,349,355. -/
def isclose (a b : ℚ) : Bool := decide (|a - b| ≤ 1 / 100000000 + 1 / 100000 * |b|)

/-- Status codes of a particle.
Models: parcels/tools/statuscodes.py:10-26 (`StateCode`, `OperationCode`, `ErrorCode`). Integer codes
that are none of the named ones, which a user kernel may also return, are `other n`. -/
inductive Code where
  | success            -- 0
  | evaluate           -- 1
  | repeat             -- 2
  | delete             -- 3
  | stopExecution      -- 4
  | error              -- 5
  | errorInterpolation -- 51
  | errorOutOfBounds   -- 6
  | errorThroughSurface -- 61
  | errorTimeExtrapolation -- 7
  | other (n : Nat)
deriving DecidableEq, Repr

end Parcels
