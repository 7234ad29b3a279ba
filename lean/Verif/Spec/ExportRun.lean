import Verif.Model.ExportRun
import Verif.Spec.WholeRun
import Verif.Spec.Restart

/-!
Vocabulary for the statements of C105 and C106.
-/

namespace Parcels.ExportRun

open Recovery (TP)
open WholeRun (Scheme record)

variable {V W : Type}

/-- The trajectory of a particle at the given times: where it is at those of them at which it has started and not ended. -/
def row (f : Scheme V) (dt : ℚ) (times : List ℚ) (q : TP V) : List (ℕ × ℚ × V) := times.filterMap fun t => record f dt t q

/-- The trajectories of all particles that have a point at one of the times, in order of the particles. -/
def rows (f : Scheme V) (dt : ℚ) (times : List ℚ) (ps : List (TP V)) : List (List (ℕ × ℚ × V)) := (ps.map (row f dt times)).filter fun r => !r.isEmpty

/-- The length of the longest row. -/
def width (l : List (List (ℕ × ℚ × V))) : ℕ := (l.map List.length).foldr max 0

/-- The rectangular array of one quantity: one row per trajectory, filled up with missing values. -/
def table (g : ℕ × ℚ × V → W) (l : List (List (ℕ × ℚ × V))) : List (List (Option W)) :=
  l.map fun r => r.map (fun c => some (g c)) ++ List.replicate (width l - r.length) none

/-- What the output file stores of a particle. -/
def point (p : Output.P V) : ℕ × ℚ × V := (p.id.toNat, p.time.getD 0, p.vals)

end Parcels.ExportRun
