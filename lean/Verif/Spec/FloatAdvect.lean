import Verif.Model.FloatAdvect
import Verif.Spec.FloatTime

/-!
Vocabulary for C95: rounding errors of positions.
-/

namespace Parcels.FloatAdvect

open KernelLoop (Exc)
open Advection (Pt Flow Flow3)

/-- A rounding with relative error at most `ε`. -/
def Rounds (fl : ℚ → ℚ) (ε : ℚ) : Prop := ∀ x, |fl x - x| ≤ ε * |x|

/-- All roundings have relative errors at most `ε`, and those of times are double precision. -/
structure Arith.Within (r : Arith) (ε : ℚ) : Prop where
  fl : Rounds r.fl ε
  sm : Rounds r.sm ε
  lo : Rounds r.lo ε
  st : Rounds r.st ε
  double : FloatTime.Double r.fl

/-- The state of a particle after `n` time steps with a kernel: after each call of the kernel the time advances by dt. -/
def after (f : Pt ℚ → Except Exc (Pt ℚ)) : Nat → Pt ℚ → Except Exc (Pt ℚ)
  | 0, p => .ok p
  | n + 1, p =>
    match after f n p with
    | .error e => .error e
    | .ok q =>
      match f q with
      | .error e => .error e
      | .ok q' => .ok { q' with time := q'.time + q'.dt }

/-- A velocity that is defined everywhere: time, depth, latitude, longitude. -/
abbrev Vel := ℚ → ℚ → ℚ → ℚ → ℚ

/-- It changes by at most `L e` over distances `e` (in each horizontal coordinate). -/
def Lipschitz (U : Vel) (L : ℚ) : Prop :=
  ∀ t z y x y' x' e, |y - y'| ≤ e → |x - x'| ≤ e → |U t z y x - U t z y' x'| ≤ L * e

/-- The same in all three coordinates. -/
def Lipschitz3 (U : Vel) (L : ℚ) : Prop :=
  ∀ t z y x z' y' x' e, |z - z'| ≤ e → |y - y'| ≤ e → |x - x'| ≤ e → |U t z y x - U t z' y' x'| ≤ L * e

/-- The samples of the field are within `δ` of the velocities `U`, `V`, and at most `S` in size. -/
def Samples (uv : Flow ℚ) (U V : Vel) (δ S : ℚ) : Prop :=
  ∀ t z y x a b, uv t z y x = .ok (a, b) → (|a - U t z y x| ≤ δ ∧ |a| ≤ S) ∧ (|b - V t z y x| ≤ δ ∧ |b| ≤ S)

/-- The same with three velocities. -/
def Samples3 (uvw : Flow3 ℚ) (U V W : Vel) (δ S : ℚ) : Prop :=
  ∀ t z y x a b c, uvw t z y x = .ok (a, b, c) →
    (|a - U t z y x| ≤ δ ∧ |a| ≤ S) ∧ (|b - V t z y x| ≤ δ ∧ |b| ≤ S) ∧ (|c - W t z y x| ≤ δ ∧ |c| ≤ S)

/-- The flow with exactly these velocities. -/
def flow (U V : Vel) : Flow ℚ := fun t z y x => .ok (U t z y x, V t z y x)
def flow3 (U V W : Vel) : Flow3 ℚ := fun t z y x => .ok (U t z y x, V t z y x, W t z y x)

/-- What the roundings of one step change at most: eight roundings of numbers of size `M + S |dt|`. -/
def perStep (ε M S dt : ℚ) : ℚ := ((1 + ε) ^ 8 - 1) * (M + S * |dt|)

end Parcels.FloatAdvect
