import Verif.Model.ReleaseDates

/-!
Vocabulary for C127.
-/

namespace Parcels.ReleaseDates

/-- Seconds from the origin of the fieldset to a date of the same kind: `datetime`, `date` and `np.datetime64` go with an origin of NumPy, cftime dates with an
origin of their calendar. -/
inductive Seconds : Origin → T → ℚ → Prop
  | python (o n : ℤ) : Seconds (.np o) (.py n) ((n - o) / 1000000000)
  | numpy (o n : ℤ) : Seconds (.np o) (.dt n) ((n - o) / 1000000000)
  | cftime (c : String) (o n : ℤ) : Seconds (.cf c o) (.cf c n) ((n - o) / 1000000)

/-- A date of Python. -/
def IsPy (t : T) : Prop := ∃ n, t = .py n

/-- A time that is no date: a number, None, a duration. -/
def Plain (t : T) : Prop := (∃ q, t = .num q) ∨ t = .nothing ∨ ∃ n, t = .td n

end Parcels.ReleaseDates
