import Mathlib.Analysis.SpecialFunctions.Trigonometric.Basic
import Mathlib.Data.Rat.Floor
import Mathlib.Algebra.Order.Round

/-!
Model of unit and time conversion: parcels/tools/converters.py, and the choice of the converter by the field's
constructor (parcels/field.py:115-121).

Simplifications: real numbers instead of floats; times are numbers of ticks since some fixed date.
-/

namespace Parcels.Converters

/-- The converter classes. Models: tools/converters.py:122-215. -/
inductive Unit' where
  | none
  | geographic
  | geographicPolar
  | geographicSquare
  | geographicPolarSquare
deriving DecidableEq, Repr

noncomputable section

/-- `to_target`. Models: converters.py:129-130, 147-148, 167-168, 185-186, 205-206. -/
def toTarget (c : Unit') (value y : ℝ) : ℝ :=
  match c with
  | .none => value
  | .geographic => value / 1000 / 1.852 / 60
  | .geographicPolar => value / 1000 / 1.852 / 60 / Real.cos (y * Real.pi / 180)
  | .geographicSquare => value / (1000 * 1.852 * 60) ^ 2
  | .geographicPolarSquare => value / (1000 * 1.852 * 60 * Real.cos (y * Real.pi / 180)) ^ 2

/-- `to_source`. Models: converters.py:135-136, 150-151, 170-171, 188-189, 208-209. -/
def toSource (c : Unit') (value y : ℝ) : ℝ :=
  match c with
  | .none => value
  | .geographic => value * 1000 * 1.852 * 60
  | .geographicPolar => value * 1000 * 1.852 * 60 * Real.cos (y * Real.pi / 180)
  | .geographicSquare => value * (1000 * 1.852 * 60) ^ 2
  | .geographicPolarSquare => value * (1000 * 1.852 * 60 * Real.cos (y * Real.pi / 180)) ^ 2

/-- The value of the C expression `ccode_to_target`. Models: converters.py:132-133, 153-154, 173-174, 191-192, 211-212. -/
def cToTarget (c : Unit') (y : ℝ) : ℝ :=
  match c with
  | .none => 1
  | .geographic => 1 / (1000 * 1.852 * 60)
  | .geographicPolar => 1 / (1000 * 1.852 * 60 * Real.cos (y * Real.pi / 180))
  | .geographicSquare => (1 / (1000 * 1.852 * 60)) ^ 2
  | .geographicPolarSquare => (1 / (1000 * 1.852 * 60 * Real.cos (y * Real.pi / 180))) ^ 2

/-- The value of the C expression `ccode_to_source`. Models: converters.py:138-139, 156-157, 176-177, 194-195, 214-215. -/
def cToSource (c : Unit') (y : ℝ) : ℝ :=
  match c with
  | .none => 1
  | .geographic => 1000 * 1.852 * 60
  | .geographicPolar => 1000 * 1.852 * 60 * Real.cos (y * Real.pi / 180)
  | .geographicSquare => (1000 * 1.852 * 60) ^ 2
  | .geographicPolarSquare => (1000 * 1.852 * 60 * Real.cos (y * Real.pi / 180)) ^ 2

end

/-- `unitconverters_map` and the constructor; `Option.none`: ValueError. Models: converters.py:218-220, field.py:115-121. -/
def chooseUnit (mesh fieldtype : String) : Option Unit' :=
  let m := [("U", Unit'.geographicPolar), ("V", .geographic), ("Kh_zonal", .geographicPolarSquare),
    ("Kh_meridional", .geographicSquare)]
  if mesh = "flat" ∨ (m.lookup fieldtype).isNone then some .none
  else if mesh = "spherical" then m.lookup fieldtype
  else Option.none

/-! ### Times -/

/-- The kinds of time origin. Dates count in ticks: `datetime64` in nanoseconds, cftime dates in microseconds. Models: tools/converters.py:27-43. -/
inductive Calendar where
  | number
  | np
  | cf
deriving DecidableEq, Repr

/-- Ticks per second. Models: tools/converters.py:45-92. -/
def ticks : Calendar → ℚ
  | .number => 1
  | .np => 1000000000
  | .cf => 1000000

/-- Dates are whole numbers of ticks; without a calendar, times are arbitrary numbers. Models: tools/converters.py:45-92. -/
def IsTime (c : Calendar) (t : ℚ) : Prop := c = .number ∨ ∃ n : ℤ, t = n

/-- `reltime`. Models: converters.py:45-73. -/
def reltime (c : Calendar) (origin t : ℚ) : ℚ := (t - origin) / ticks c

/-- `int(t)`. Models: tools/converters.py:75-92. -/
def truncInt (r : ℚ) : ℤ := if 0 ≤ r then ⌊r⌋ else ⌈r⌉

/-- `fulltime`; `timedelta(seconds=..)` rounds to microseconds (ties, rounded to even in Python, do not matter below).
Models: converters.py:75-92. -/
def fulltime (c : Calendar) (origin r : ℚ) : ℚ :=
  match c with
  | .number => origin + r
  | .np => origin + truncInt r * ticks .np
  | .cf => origin + round (r * ticks .cf)

end Parcels.Converters
