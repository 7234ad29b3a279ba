import Verif.Model.FloatSample
import Verif.Spec.FloatAdvect
import Verif.Spec.Search

/-!
Vocabulary for C96: what rounding may change when a field is sampled.
-/

namespace Parcels.FloatSample
open Parcels.Search Parcels.Interp Parcels.TimeInterp
open FloatAdvect (Rounds)

/-- The relative change by `n` roundings with relative error `ε`. -/
def err (ε : ℚ) (n : ℕ) : ℚ := (1 + ε) ^ n - 1

/-- A rounding to nearest: relative error at most `ε`, larger numbers are not rounded to smaller ones, 1 is not changed. -/
structure Nearest (fl : ℚ → ℚ) (ε : ℚ) : Prop where
  rounds : Rounds fl ε
  mono : ∀ x y, x ≤ y → fl x ≤ fl y
  one : fl 1 = 1

/-- All roundings have relative errors at most `ε`. -/
structure Arith.Within (r : Arith) (ε : ℚ) : Prop where
  fl : Nearest r.fl ε
  nd : Nearest r.nd ε
  ar : Rounds r.ar ε
  st : Rounds r.st ε
  tm : Rounds r.tm ε
  df : Rounds r.df ε
  bl : Rounds r.bl ε

/-- The width of no cell of the axis is rounded to a smaller number than a coordinate in the cell could be. It is so when coordinates have the precision
of the nodes (`fl = nd`), and when the widths of the cells are single-precision numbers. -/
def Fits (r : Arith) (l : List ℚ) : Prop :=
  ∀ (n : Nat) (a b : ℚ), l[n]? = some a → l[n + 1]? = some b → |r.fl (b - a)| ≤ |r.nd (b - a)|

/-- The same error, or the same cell with relative coordinates in [0, 1] that differ by at most `δ`. -/
def SameCell (δ : ℚ) : Except Err Pos → Except Err Pos → Prop
  | .error e, .error e' => e = e'
  | .ok p, .ok q =>
    q.xi = p.xi ∧ q.yi = p.yi ∧ q.zi = p.zi ∧
    (0 ≤ q.xsi ∧ q.xsi ≤ 1 ∧ |q.xsi - p.xsi| ≤ δ) ∧
    (0 ≤ q.eta ∧ q.eta ≤ 1 ∧ |q.eta - p.eta| ≤ δ) ∧
    (0 ≤ q.zeta ∧ q.zeta ≤ 1 ∧ |q.zeta - p.zeta| ≤ δ)
  | _, _ => False

/-- The same error, or values that differ by at most `η`. -/
def Close {E : Type} (η : ℚ) : Except E ℚ → Except E ℚ → Prop
  | .error e, .error e' => e = e'
  | .ok v, .ok w => |w - v| ≤ η
  | _, _ => False

/-- The sample in exact arithmetic (`linear` always has a value). -/
def exactScipy (g : RGrid) (d : Arr) (x y z : ℚ) : Except Err ℚ :=
  match Interp.sample g .nemo .linear d x y z with
  | .error e => .error e
  | .ok v => .ok (v.getD 0)

def exactJit (g : RGrid) (d : Arr) (x y z : ℚ) (xi yi zi : Nat) : Except Err ℚ :=
  Interp.cSample g .nemo .linear d x y z xi yi zi

/-- An ordinary grid: strictly increasing longitudes and latitudes, depths strictly monotone or a single one, no halo, no MOM5 indexing. -/
structure Ordinary (g : RGrid) : Prop where
  lon : Increasing g.lon ∧ 2 ≤ g.lon.length
  lat : Increasing g.lat ∧ 2 ≤ g.lat.length
  depth : g.depth.length ≤ 1 ∨ Increasing g.depth ∨ Decreasing g.depth
  noHalo : g.zonalPeriodic = false
  notMom5 : g.mom5 = false

/-- Error of a sample of one snapshot with data of size at most `D`. -/
def sampleErr (ε D : ℚ) : ℚ := (err ε 12 + 6 * err ε 4) * D

/-- Error of a sample between two snapshots. -/
def timeErr (ε η D : ℚ) : ℚ := η + 3 * err ε 9 * (D + η)

end Parcels.FloatSample
