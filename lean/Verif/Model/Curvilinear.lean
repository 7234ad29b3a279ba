import Verif.Model.Search
import Mathlib.Algebra.Order.Field.Basic

/-!
Model of the search for the grid cell of a position on curvilinear grids, horizontal part
(parcels/field.py:682-699, 788-864 and parcels/include/index_search.h:141-165, 271-380).

Simplifications: exact arithmetic in any ordered field, with the square root as an argument; the results of a division
by zero are modelled (`Ext`), the sign of zero is not. The vertical part is that of Model/Search.
-/

namespace Parcels.Curvilinear

variable {K : Type} [Field K] [LinearOrder K]

/-- The result of a floating point division: a number, an infinity or NaN. Models: the divisions in field.py:827-837; index_search.h:330-344. -/
inductive Ext (K : Type) where
  | fin (r : K)
  | pinf
  | ninf
  | nan
deriving DecidableEq, Repr

namespace Ext

/-- `e < r`; false for NaN. Models: the comparisons of field.py:838-849; index_search.h:345-356. -/
def lt : Ext K → K → Bool
  | .fin a, r => decide (a < r)
  | .ninf, _ => true
  | _, _ => false

/-- `r < e`; false for NaN. Models: the comparisons of field.py:838-849; index_search.h:345-356. -/
def gt : Ext K → K → Bool
  | .fin a, r => decide (r < a)
  | .pinf, _ => true
  | _, _ => false

/-- `a / b` for numbers. Models: field.py:827-837; index_search.h:333-344. -/
def div (a b : K) : Ext K :=
  if b = 0 then (if a = 0 then .nan else if 0 < a then .pinf else .ninf) else .fin (a / b)

/-- Addition. Models: field.py:827-837; index_search.h:333-344. -/
def add : Ext K → Ext K → Ext K
  | .fin a, .fin b => .fin (a + b)
  | .nan, _ => .nan
  | _, .nan => .nan
  | .pinf, .ninf => .nan
  | .ninf, .pinf => .nan
  | .pinf, _ => .pinf
  | _, .pinf => .pinf
  | .ninf, _ => .ninf
  | _, .ninf => .ninf

/-- Multiplication by 1/2. Models: field.py:827-837; index_search.h:333-344. -/
def half : Ext K → Ext K
  | .fin a => .fin (a / 2)
  | e => e

end Ext

/-- The corners of a cell in the order of the code: (yi, xi), (yi, xi+1), (yi+1, xi+1), (yi+1, xi). Models: field.py:814-820; index_search.h:309-319. -/
structure Cell (K : Type) where
  x0 : K
  x1 : K
  x2 : K
  x3 : K
  y0 : K
  y1 : K
  y2 : K
  y3 : K

/-- A longitude is brought within 180 degrees of the first corner.
Models: field.py:818-819; index_search.h:314-317. -/
def near (p0 p : K) : K :=
  let p := if p - p0 > 180 then p - 360 else p
  if -p + p0 > 180 then p + 360 else p

/-- The first corner is brought near x. Models: field.py:816-817; index_search.h:312-313. -/
def nearX (x p : K) : K :=
  let p := if p < x - 225 then p + 360 else p
  if p > x + 225 then p - 360 else p

/-- On the sphere the corners are brought to one side of the date line. Models: field.py:815-819; index_search.h:310-318. -/
def shift (spherical : Bool) (x : K) (c : Cell K) : Cell K :=
  bif spherical then
    let p0 := nearX x c.x0
    { c with x0 := p0, x1 := near p0 c.x1, x2 := near p0 c.x2, x3 := near p0 c.x3 }
  else c

/-- `a = invA . px`, `b = invA . py`. Models: field.py:797-800, 821-822; index_search.h:321-328. -/
def a1 (c : Cell K) : K := -c.x0 + c.x1
/-- Models: field.py:797-800, 821. -/
def a2 (c : Cell K) : K := -c.x0 + c.x3
/-- Models: field.py:797-800, 821. -/
def a3 (c : Cell K) : K := c.x0 - c.x1 + c.x2 - c.x3
/-- Models: field.py:797-800, 822. -/
def b1 (c : Cell K) : K := -c.y0 + c.y1
/-- Models: field.py:797-800, 822. -/
def b2 (c : Cell K) : K := -c.y0 + c.y3
/-- Models: field.py:797-800, 822. -/
def b3 (c : Cell K) : K := c.y0 - c.y1 + c.y2 - c.y3

/-- The coefficients of the quadratic equation for eta. Models: field.py:824; index_search.h:330. -/
def qa (c : Cell K) : K := a3 c * b2 c - a2 c * b3 c
/-- Models: field.py:825; index_search.h:331. -/
def qb (c : Cell K) (x y : K) : K :=
  a3 c * c.y0 - c.x0 * b3 c + a1 c * b2 c - a2 c * b1 c + x * b3 c - y * a3 c
/-- Models: field.py:826; index_search.h:332. -/
def qc (c : Cell K) (x y : K) : K := a1 c * c.y0 - c.x0 * b1 c + x * b1 c - y * a1 c

/-- The threshold 1e-12. Models: field.py:827, 834; index_search.h:333, 340. -/
def tiny : K := 1 / 1000000000000

/-- The tolerance 1e-10. Models: field.py:803; index_search.h:307. -/
def tol : K := 1 / 10000000000

/-- eta in one cell; `old` is the value of the previous iteration. `jit`: the C code also accepts a determinant
equal to zero. Models: field.py:827-833; index_search.h:333-339. -/
def solveEta (sqrt : K → K) (jit : Bool) (c : Cell K) (x y : K) (old : Ext K) : Ext K :=
  let aa := qa c
  let bb := qb c x y
  let cc := qc c x y
  if |aa| < tiny then Ext.div (-cc) bb
  else
    let det2 := bb * bb - 4 * aa * cc
    if 0 < det2 ∨ (jit = true ∧ det2 = 0) then .fin ((-bb + sqrt det2) / (2 * aa)) else old

/-- xsi in one cell. If eta is not a number, neither is xsi: the denominator or the numerator is NaN, or both are
infinite. Models: field.py:834-837; index_search.h:340-344. -/
def solveXsi (c : Cell K) (x y : K) : Ext K → Ext K
  | .fin eta =>
    if |a1 c + a3 c * eta| < tiny then
      (Ext.add (Ext.div (y - c.y0) (c.y1 - c.y0)) (Ext.div (y - c.y3) (c.y2 - c.y3))).half
    else .fin ((x - c.x0 - a2 c * eta) / (a1 c + a3 c * eta))
  | _ => .nan

/-- A curvilinear grid: `lon j i` and `lat j i` for row j < ydim and column i < xdim. Models: grid.py:386-400. -/
structure CGrid (K : Type) where
  xdim : Nat
  ydim : Nat
  lon : Nat → Nat → K
  lat : Nat → Nat → K
  spherical : Bool
  zonalPeriodic : Bool

/-- All entries of an array of the grid, and the smallest and largest one. Models: grid.py:62. -/
def entries (g : CGrid K) (v : Nat → Nat → K) : List K :=
  (List.range g.ydim).flatMap fun j => (List.range g.xdim).map fun i => v j i
/-- Models: grid.py:62. -/
def minOf (g : CGrid K) (v : Nat → Nat → K) : K := (entries g v).foldl min (v 0 0)
/-- Models: grid.py:62. -/
def maxOf (g : CGrid K) (v : Nat → Nat → K) : K := (entries g v).foldl max (v 0 0)

/-- The corners of cell (yi, xi). `none`: Python raises IndexError, C reads outside the row or the array.
(Negative indices, which Python would count from the end, do not occur.)
Models: field.py:814, 820; index_search.h:309, 319. -/
def cellAt (g : CGrid K) (xi yi : ℤ) : Option (Cell K) :=
  if 0 ≤ xi ∧ xi + 1 < g.xdim ∧ 0 ≤ yi ∧ yi + 1 < g.ydim then
    let i := xi.toNat
    let j := yi.toNat
    some { x0 := g.lon j i, x1 := g.lon j (i + 1), x2 := g.lon (j + 1) (i + 1), x3 := g.lon (j + 1) i,
           y0 := g.lat j i, y1 := g.lat j (i + 1), y2 := g.lat (j + 1) (i + 1), y3 := g.lat (j + 1) i }
  else none

/-- `reconnect_bnd_indices`. Models: field.py:682-699; index_search.h:141-165. -/
def reconnect (xdim ydim : ℤ) (sphere : Bool) (xi yi : ℤ) : ℤ × ℤ :=
  let xi := if xi < 0 then (bif sphere then xdim - 2 else 0) else xi
  let xi := if xi > xdim - 2 then (bif sphere then 0 else xdim - 2) else xi
  let yi := if yi < 0 then 0 else yi
  if yi > ydim - 2 then (bif sphere then xdim - xi else xi, ydim - 2) else (xi, yi)

/-- The flag given to `reconnect_bnd_indices`: Python passes `grid.mesh`, a string that is never empty, so the test
`if sphere_mesh` always holds; C passes the flag of the grid. Models: field.py:850; index_search.h:357. -/
def sphereFlag (g : CGrid K) (jit : Bool) : Bool := !jit || g.spherical

/-- The variables of the loop. Models: field.py:788-812; index_search.h:271-308. -/
structure St (K : Type) where
  xi : ℤ
  yi : ℤ
  xsi : Ext K
  eta : Ext K
deriving DecidableEq

/-- The condition of the loop. Models: field.py:813; index_search.h:308. -/
def searching (s : St K) : Bool :=
  s.xsi.lt (-tol) || s.xsi.gt (1 + tol) || s.eta.lt (-tol) || s.eta.gt (1 + tol)

/-- The next cell. Models: field.py:842-850; index_search.h:349-357. -/
def move (g : CGrid K) (jit : Bool) (xi yi : ℤ) (xsi eta : Ext K) : ℤ × ℤ :=
  let xi' := if xsi.lt (-tol) then xi - 1 else if xsi.gt (1 + tol) then xi + 1 else xi
  let yi' := if eta.lt (-tol) then yi - 1 else if eta.gt (1 + tol) then yi + 1 else yi
  reconnect g.xdim g.ydim (sphereFlag g jit) xi' yi'

/-- One iteration. Models: field.py:814-850; index_search.h:309-357. -/
def step (sqrt : K → K) (jit : Bool) (g : CGrid K) (x y : K) (s : St K) : Except Search.Err (St K) :=
  match cellAt g s.xi s.yi with
  | none => .error .index
  | some c =>
    let c := shift g.spherical x c
    let eta := solveEta sqrt jit c x y s.eta
    let xsi := solveXsi c x y eta
    if xsi.lt 0 ∧ eta.lt 0 ∧ s.xi = 0 ∧ s.yi = 0 then .error .outOfBounds
    else if xsi.gt 1 ∧ eta.gt 1 ∧ s.xi = g.xdim - 1 ∧ s.yi = g.ydim - 1 then .error .outOfBounds
    else
      let m := move g jit s.xi s.yi xsi eta
      .ok { xi := m.1, yi := m.2, xsi := xsi, eta := eta }

/-- The loop, with at most `n` more iterations. Models: field.py:813-854; index_search.h:308-367. -/
def walk (sqrt : K → K) (jit : Bool) (g : CGrid K) (x y : K) : Nat → St K → Except Search.Err (St K)
  | 0, s => if searching s then .error .outOfBounds else .ok s
  | n + 1, s =>
    if searching s then
      match step sqrt jit g x y s with
      | .error e => .error e
      | .ok s' => walk sqrt jit g x y n s'
    else .ok s

/-- Before the loop: is the position outside the range of the coordinates? Models: field.py:804-811; index_search.h:294-301. -/
def rejected (g : CGrid K) (x y : K) : Bool :=
  (!g.zonalPeriodic && decide (x < minOf g g.lon ∨ maxOf g g.lon < x) &&
    (decide (g.lon 0 0 < g.lon 0 (g.xdim - 1)) ||
      decide (x < g.lon 0 0 ∧ g.lon 0 (g.xdim - 1) < x))) ||
  decide (y < minOf g g.lat ∨ maxOf g g.lat < y)

/-- Limited to [0, 1]. In Python NaN becomes 0 (`max(0., nan)` is 0); in C NaN is an error.
Models: field.py:855-858; index_search.h:368-379. -/
def clamp (jit : Bool) : Ext K → Except Search.Err K
  | .fin r => .ok (min 1 (max 0 r))
  | .pinf => .ok 1
  | .ninf => .ok 0
  | .nan => bif jit then .error .outOfBounds else .ok 0

/-- The result: relative coordinates and cell. Models: field.py:855-858, 875-880; index_search.h:376-379. -/
structure Found (K : Type) where
  xsi : K
  eta : K
  xi : ℤ
  yi : ℤ
deriving DecidableEq

/-- The search from cell (xi, yi), horizontal part; `maxIter` is 1e6 in the code.
Models: field.py:788-858; index_search.h:271-379. -/
def search (sqrt : K → K) (jit : Bool) (maxIter : Nat) (g : CGrid K) (x y : K) (xi yi : ℤ) :
    Except Search.Err (Found K) :=
  if rejected g x y then .error .outOfBounds
  else
    match walk sqrt jit g x y maxIter { xi := xi, yi := yi, xsi := .fin (-1), eta := .fin (-1) } with
    | .error e => .error e
    | .ok s =>
      match clamp jit s.xsi, clamp jit s.eta with
      | .ok a, .ok b => .ok { xsi := a, eta := b, xi := s.xi, yi := s.yi }
      | _, _ => .error .outOfBounds

/-- Sampling a two-dimensional field with linear interpolation in space.
Models: field.py:888-894 with spatial_interpolation 1036-1046; parcels.h:66-73. -/
def sample2D (sqrt : K → K) (jit : Bool) (maxIter : Nat) (g : CGrid K) (d : Nat → Nat → K) (x y : K) (xi yi : ℤ) :
    Except Search.Err K :=
  match search sqrt jit maxIter g x y xi yi with
  | .error e => .error e
  | .ok r =>
    let i := r.xi.toNat
    let j := r.yi.toNat
    .ok ((1 - r.xsi) * (1 - r.eta) * d j i + r.xsi * (1 - r.eta) * d j (i + 1) +
      r.xsi * r.eta * d (j + 1) (i + 1) + (1 - r.xsi) * r.eta * d (j + 1) i)

/-- The first guess when there is no particle. Models: field.py:793-794. -/
def firstGuess (n : Nat) : ℤ := (n : ℤ) / 2 - 1

end Parcels.Curvilinear
