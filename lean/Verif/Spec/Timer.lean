import Verif.Model.Timer

/-!
Vocabulary for C125.
-/

namespace Parcels.Timer

/-- The times of the calls, in the order of the calls, never go back. -/
def Clock (h : List (ℚ × Op)) : Prop := (h.map Prod.fst).Pairwise (· ≤ ·)

/-- `now` is not before any of the calls. -/
def After (h : List (ℚ × Op)) (now : ℚ) : Prop := ∀ p ∈ h, p.1 ≤ now

/-- Timer `i` runs. -/
def Running (s : State) (i : Nat) : Prop := ∃ x a, s[i]? = some x ∧ x.start = some a

/-- No timer is stopped while one of its children runs. -/
def ChildrenFirst (h : List (ℚ × Op)) : Prop :=
  ∀ h1 now i h2, h = h1 ++ (now, .stop i) :: h2 → ∀ j x, (run h1)[j]? = some x → x.parent = some i → ¬ Running (run h1) j

end Parcels.Timer
