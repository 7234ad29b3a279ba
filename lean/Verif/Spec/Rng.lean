import Mathlib.Data.Real.Basic
import Mathlib.Data.Int.Log
import Mathlib.Algebra.Order.Round

/-!
Vocabulary for floating-point rounding: numbers with a significand of `n` bits, and rounding to a nearest one.
-/

namespace Parcels.Rng

/-- A number with a significand of at most `n` bits, with no bound on the exponent. -/
def Rep (n : ℕ) (x : ℝ) : Prop := ∃ m k : ℤ, |m| ≤ 2 ^ n ∧ x = m * (2 : ℝ) ^ k

/-- `rnd` gives a nearest such number (any rule for ties). -/
structure Nearest (n : ℕ) (rnd : ℝ → ℝ) : Prop where
  rep : ∀ x, Rep n (rnd x)
  nearest : ∀ x z, Rep n z → |rnd x - x| ≤ |z - x|

/-- A rounding: it keeps order and keeps 0 and 1. -/
structure Rounding (rnd : ℝ → ℝ) : Prop where
  mono : Monotone rnd
  zero : rnd 0 = 0
  one : rnd 1 = 1

end Parcels.Rng
