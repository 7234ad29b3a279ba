import Verif.Model.Advection
import Verif.Model.FloatTime

/-!
The advection kernels `AdvectionRK4`, `AdvectionRK4_3D` and `AdvectionEE` again (Model/Advection in exact arithmetic), with a rounding after every
operation.

Which precision an operation has depends on the mode and on the types of the particle's coordinates (collectionsoa.py:130-147): an addition of samples
is in single precision in JIT mode (samples are `float`), products with dt are in double precision, local variables are `float` in JIT mode
(codegenerator.py:453) and are not rounded again in Scipy mode, positions are stored in single or double precision (particle.py:175-177). The model has
one rounding for each of the four.

Simplifications: no overflow, underflow or NaN; the evaluation of fields is any function, see Model/Advection.
-/

namespace Parcels.FloatAdvect

open KernelLoop (Exc)
open Advection (Pt Flow Flow3)

/-- Rounding to 24 significant bits. Models: particle.py:175-177 (`np.float32`), codegenerator.py:453 (`float`): the result of a float32 operation in
the absence of overflow and underflow. -/
def f32 (q : ℚ) : ℚ :=
  if q = 0 then 0 else (FloatTime.nearest (q / 2 ^ (FloatTime.ilog2 q - 23)) : ℚ) * 2 ^ (FloatTime.ilog2 q - 23)

/-- The roundings: of operations with dt (`fl`), of operations between samples (`sm`), of assignments to local variables (`lo`), of assignments to
positions (`st`). Models: codegenerator.py:453, 951-954; particle.py:175-185. -/
structure Arith where
  fl : ℚ → ℚ
  sm : ℚ → ℚ
  lo : ℚ → ℚ
  st : ℚ → ℚ

/-- JIT mode with positions in single precision (the default, except on C grids). Models: codegenerator.py:453; particle.py:175-177. -/
def jit32 : Arith := ⟨FloatTime.f64, f32, f32, f32⟩

/-- Scipy mode with everything in double precision. Models: particle.py:224-228 (`lonlatdepth_dtype=np.float64`). -/
def scipy64 : Arith := ⟨FloatTime.f64, FloatTime.f64, id, FloatTime.f64⟩

/-- `x + u*.5*particle.dt`, assigned to a local variable. Models: kernels/advection.py:16, 18, 31-33, 35-37. -/
def half (r : Arith) (x u dt : ℚ) : ℚ := r.lo (r.fl (x + r.fl (r.fl (u * (1 / 2)) * dt)))

/-- `x + u*particle.dt`, assigned to a local variable. Models: kernels/advection.py:20, 39-41. -/
def whole (r : Arith) (x u dt : ℚ) : ℚ := r.lo (r.fl (x + r.fl (u * dt)))

/-- `x += (u1 + 2*u2 + 2*u3 + u4) / 6. * particle.dt`. Models: kernels/advection.py:22-23, 43-45. -/
def last (r : Arith) (x u1 u2 u3 u4 dt : ℚ) : ℚ :=
  r.st (r.fl (x + r.fl (r.fl (r.sm (r.sm (r.sm (u1 + r.sm (2 * u2)) + r.sm (2 * u3)) + u4) / 6) * dt)))

/-- `x += u1 * particle.dt`. Models: kernels/advection.py:53-54. -/
def euler (r : Arith) (x u dt : ℚ) : ℚ := r.st (r.fl (x + r.fl (u * dt)))

/-- `AdvectionEE`. Models: kernels/advection.py:48-54. -/
def ee (r : Arith) (uv : Flow ℚ) (p : Pt ℚ) : Except Exc (Pt ℚ) :=
  match uv p.time p.depth p.lat p.lon with
  | .error e => .error e
  | .ok (u1, v1) => .ok { p with lon := euler r p.lon u1 p.dt, lat := euler r p.lat v1 p.dt }

/-- `AdvectionRK4`. Models: kernels/advection.py:11-23. -/
def rk4 (r : Arith) (uv : Flow ℚ) (p : Pt ℚ) : Except Exc (Pt ℚ) :=
  match uv p.time p.depth p.lat p.lon with
  | .error e => .error e
  | .ok (u1, v1) =>
    match uv (r.fl (p.time + r.fl (1 / 2 * p.dt))) p.depth (half r p.lat v1 p.dt) (half r p.lon u1 p.dt) with
    | .error e => .error e
    | .ok (u2, v2) =>
      match uv (r.fl (p.time + r.fl (1 / 2 * p.dt))) p.depth (half r p.lat v2 p.dt) (half r p.lon u2 p.dt) with
      | .error e => .error e
      | .ok (u3, v3) =>
        match uv (r.fl (p.time + p.dt)) p.depth (whole r p.lat v3 p.dt) (whole r p.lon u3 p.dt) with
        | .error e => .error e
        | .ok (u4, v4) => .ok { p with lon := last r p.lon u1 u2 u3 u4 p.dt, lat := last r p.lat v1 v2 v3 v4 p.dt }

/-- `AdvectionRK4_3D`. Models: kernels/advection.py:26-45. -/
def rk4_3D (r : Arith) (uvw : Flow3 ℚ) (p : Pt ℚ) : Except Exc (Pt ℚ) :=
  match uvw p.time p.depth p.lat p.lon with
  | .error e => .error e
  | .ok (u1, v1, w1) =>
    match uvw (r.fl (p.time + r.fl (1 / 2 * p.dt))) (half r p.depth w1 p.dt) (half r p.lat v1 p.dt) (half r p.lon u1 p.dt) with
    | .error e => .error e
    | .ok (u2, v2, w2) =>
      match uvw (r.fl (p.time + r.fl (1 / 2 * p.dt))) (half r p.depth w2 p.dt) (half r p.lat v2 p.dt) (half r p.lon u2 p.dt) with
      | .error e => .error e
      | .ok (u3, v3, w3) =>
        match uvw (r.fl (p.time + p.dt)) (whole r p.depth w3 p.dt) (whole r p.lat v3 p.dt) (whole r p.lon u3 p.dt) with
        | .error e => .error e
        | .ok (u4, v4, w4) =>
          .ok { p with lon := last r p.lon u1 u2 u3 u4 p.dt, lat := last r p.lat v1 v2 v3 v4 p.dt
                       depth := last r p.depth w1 w2 w3 w4 p.dt }

end Parcels.FloatAdvect
