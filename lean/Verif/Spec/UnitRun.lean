import Verif.Spec.GridRun

/-!
Vocabulary for C116: other origins and units of coordinates and time.
-/

namespace Parcels.UnitRun

open Search Interp
open WholeRun (Scheme)
open Recovery (TP)
open GridRun (Fld Prog Body)

variable {V : Type}

/-- Another origin and unit of a coordinate: `x` becomes `scale * x + shift`. -/
structure Axis where
  scale : ℚ
  shift : ℚ
  pos : 0 < scale

/-- The new coordinate. -/
def Axis.to (a : Axis) (x : ℚ) : ℚ := a.scale * x + a.shift

/-- Other origins and units of longitude, latitude, depth and time, each of its own, on flat meshes. -/
structure Units where
  x : Axis
  y : Axis
  z : Axis
  t : Axis

/-- The same field in the other units; its values are multiplied by `c`. -/
def change (u : Units) (c : ℚ) (f : Fld) : Fld :=
  { f with
    grid := { f.grid with lon := f.grid.lon.map u.x.to, lat := f.grid.lat.map u.y.to, depth := f.grid.depth.map u.z.to }
    time := f.time.map u.t.to
    data := fun i => { f.data i with v := fun k j l => c * (f.data i).v k j l } }

/-- The same samples in the other units: field `i` has values multiplied by `c i`, and `g` gives the variables of the particle in the other units. -/
def convert (u : Units) (c : Nat → ℚ) (g : V → V) : Prog V → Prog V
  | .ret v => .ret (g v)
  | .fail e => .fail e
  | .get f t z y x k => .get f (u.t.to t) (u.z.to z) (u.y.to y) (u.x.to x) fun w => convert u c g (k (w / c f))

/-- The kernel computes the same in all units: with time, step and variables in the other units, it takes the same samples and has the same result, in the other units. -/
def Covariant (u : Units) (c : Nat → ℚ) (g : V → V) (b : Body V) : Prop :=
  ∀ t dt v, b (u.t.to t) (u.t.scale * dt) (g v) = convert u c g (b t dt v)

/-- The same particle in the other units. -/
def moved (u : Units) (g : V → V) (q : TP V) : TP V := (q.1, { q.2 with time := u.t.to q.2.time, vars := g q.2.vars })

/-- Identifier, time and variables, in the other units. -/
def read (u : Units) (g : V → V) (q : Nat × ℚ × V) : Nat × ℚ × V := (q.1, u.t.to q.2.1, g q.2.2)

/-- Positions (lon, lat, depth) in the other units. -/
def position (u : Units) (p : ℚ × ℚ × ℚ) : ℚ × ℚ × ℚ := (u.x.to p.1, u.y.to p.2.1, u.z.to p.2.2)

/-- Velocities (fields 0, 1 and 2 are U, V and W) in the other units: length per time. Other fields have the units they had. -/
def velocity (u : Units) : Nat → ℚ
  | 0 => u.x.scale / u.t.scale
  | 1 => u.y.scale / u.t.scale
  | 2 => u.z.scale / u.t.scale
  | _ => 1

end Parcels.UnitRun
