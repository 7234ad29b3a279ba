import Mathlib.Data.Rat.Defs
import Mathlib.Algebra.Order.Ring.Unbundled.Rat

/-!
Model of dates as times of release: what the constructor of a particle set with a fieldset makes of its argument `time` (parcels/particlesets/particlesetsoa.py:45-51,
102-113), with `reltime` and the comparisons of `TimeConverter` (parcels/tools/converters.py:27-73, 97-119).

Simplifications: dates of Python and NumPy are whole numbers of nanoseconds, those of cftime of microseconds; a list holds Python objects (NumPy turns lists that mix
`np.datetime64` with other values into one type first); an origin that is a number other than the default 0 is a float.
-/

namespace Parcels.ReleaseDates

/-- Values of time: numbers, None, `np.datetime64` (`nat`: Not a Time), `np.timedelta64`, Python's `datetime` and `date`, cftime dates of a calendar; `nan` is a
result only. Models: particlesets/particlesetsoa.py:45-51, 102-110. -/
inductive T where
  | num (q : ℚ)
  | nothing
  | dt (ns : ℤ)
  | nat
  | td (ns : ℤ)
  | py (ns : ℤ)
  | cf (calendar : String) (us : ℤ)
  | nan
deriving DecidableEq

/-- The origin of time of the fieldset. Models: tools/converters.py:34-43. -/
inductive Origin where
  | number (q : ℚ)
  | np (ns : ℤ)
  | tdelta (ns : ℤ)
  | cf (calendar : String) (us : ℤ)
deriving DecidableEq

/-- `_convert_to_reltime`. Models: particlesets/particlesetsoa.py:45-51. -/
def isDate : T → Bool
  | .dt _ => true
  | .nat => true
  | .cf _ _ => true
  | _ => false

/-- `np.datetime64(t)`; `none`: ValueError. Models: particlesets/particlesetsoa.py:105-106. -/
def toDt : T → Option T
  | .py n => some (.dt n)
  | .dt n => some (.dt n)
  | .nat => some .nat
  | .nothing => some .nat
  | _ => none

/-- `reltime`; `none`: TypeError or ValueError. Without a calendar 0 is subtracted, which is nothing for `np.datetime64`. Models: tools/converters.py:45-73. -/
def reltime : Origin → T → Option T
  | .np o, .dt n => some (.num ((n - o : ℤ) / 1000000000))
  | .np _, .nat => some .nan
  | .tdelta o, .td n => some (.num ((n - o : ℤ) / 1000000000))
  | .cf c o, .cf c' n => if c' = c then some (.num ((n - o : ℤ) / 1000000)) else none
  | .number q, .num p => some (.num (p - q))
  | .number q, .dt n => if q = 0 then some (.dt n) else none
  | .number q, .nat => if q = 0 then some .nat else none
  | .number q, .td n => if q = 0 then some (.td n) else none
  | _, _ => none

/-- The times that the particles get; the type of the first one decides whether dates of Python are converted. The test for `np.timedelta64` never holds with a
fieldset: a `TimeConverter` counts as true. Models: particlesets/particlesetsoa.py:105-110. -/
def convert (o : Origin) (ts : List T) : Option (List T) :=
  let ts := match ts with
    | .py _ :: _ => ts.mapM toDt
    | _ => some ts
  ts.bind fun ts => ts.mapM fun t => if isDate t then reltime o t else some t

/-- The origin as a value: `time = time.time_origin`. Models: tools/converters.py:52. -/
def Origin.value : Origin → T
  | .number q => .num q
  | .np n => .dt n
  | .tdelta n => .td n
  | .cf c n => .cf c n

/-- The comparisons. Models: tools/converters.py:97-119. -/
inductive Cmp where
  | eq
  | ne
  | gt
  | lt
  | ge
  | le
deriving DecidableEq

/-- Comparison of two numbers. Models: tools/converters.py:97-119. -/
def Cmp.test (a b : ℚ) : Cmp → Bool
  | .eq => decide (a = b)
  | .ne => decide (a ≠ b)
  | .gt => decide (a > b)
  | .lt => decide (a < b)
  | .ge => decide (a ≥ b)
  | .le => decide (a ≤ b)

/-- Comparison of two `TimeConverter`s; `none`: TypeError. Origins of different kinds are different, but not ordered. Models: tools/converters.py:97-119. -/
def compare (c : Cmp) : Origin → Origin → Option Bool
  | .number a, .number b => some (c.test a b)
  | .np a, .np b => some (c.test a b)
  | .tdelta a, .tdelta b => some (c.test a b)
  | .cf k a, .cf k' b => if k = k' then some (c.test a b) else match c with
    | .eq => some false
    | .ne => some true
    | _ => none
  | _, _ => match c with
    | .eq => some false
    | .ne => some true
    | _ => none

end Parcels.ReleaseDates
