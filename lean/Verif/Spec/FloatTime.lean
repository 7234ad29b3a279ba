import Verif.Model.FloatTime
import Verif.Spec.Schedule
import Verif.Spec.KernelLoop

/-!
Vocabulary for C94: floating-point time loops.
-/

namespace Parcels.FloatTime

/-- `fl` rounds as double precision does (whatever it does with ties): the relative error is at most 2^-53, and numbers with at most 53 significant
bits are not changed. -/
structure Double (fl : ℚ → ℚ) : Prop where
  rel : ∀ x, |fl x - x| ≤ |x| / 2 ^ 53
  exact : ∀ k z : ℤ, |z| ≤ 2 ^ 53 → fl (z * 2 ^ k) = z * 2 ^ k

/-- A time that is a multiple of the unit `2^k` seconds, and at most `2^52` units. With `k = 0`: whole seconds, up to 140 million years. -/
def Tick (k : ℤ) (x : ℚ) : Prop := (∃ z : ℤ, x = z * 2 ^ k) ∧ |x| ≤ 2 ^ 52 * 2 ^ k

/-- All times of a call of `execute` are multiples of `2^k` seconds (not below 2^-24), and they and the next times after the end are at most `2^52`
units. -/
structure OnTicks (a : Schedule.Args) (k : ℤ) : Prop where
  unit : -24 ≤ k
  on : Schedule.OnUnit a (2 ^ k)
  size : |a.S| + |a.E| + 2 * |a.rs| ≤ 2 ^ 52 * 2 ^ k
  intervals : ∀ x i, Schedule.interval a x = some i → |a.S| + |a.E| + 2 * |a.rs| + i ≤ 2 ^ 52 * 2 ^ k
  input : ∀ i t q, a.input i t = .fin q → |q| ≤ 2 ^ 52 * 2 ^ k

end Parcels.FloatTime
