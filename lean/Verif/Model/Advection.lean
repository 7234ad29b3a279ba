import Verif.Model.KernelLoop
import Mathlib.Data.Real.Sqrt

/-!
Model of the pre-built advection kernels (parcels/kernels/advection.py, without `AdvectionAnalytical`) and advection-diffusion
kernels (parcels/kernels/advectiondiffusion.py). Numbers are exact, in any ordered field `K` (the real numbers where square
roots occur).

A velocity field is any function of time, depth, latitude and longitude that gives the velocities in units of the
coordinates per second, or an exception. (The evaluation of fields is modelled elsewhere.) Simplification: the search indices
that evaluations leave in the particle are not modelled.
-/

namespace Parcels.Advection

open KernelLoop (Exc KRes KOut Kern Particle)

/-- The variables of a particle that advection uses. Models: the attributes used in kernels/advection.py:11-103 and kernels/advectiondiffusion.py:12-111. -/
structure Pt (K : Type) where
  time : K
  dt : K
  lon : K
  lat : K
  depth : K
deriving DecidableEq, Repr

/-- `fieldset.UV[time, depth, lat, lon]`. Models: kernels/advection.py:15-21 (the samples), field.py:1673-1677. -/
abbrev Flow (K : Type) := (time depth lat lon : K) → Except Exc (K × K)

/-- `fieldset.UVW[time, depth, lat, lon]`. Models: kernels/advection.py:30-42 (the samples), field.py:1673-1677. -/
abbrev Flow3 (K : Type) := (time depth lat lon : K) → Except Exc (K × K × K)

/-- A field of numbers. Models: kernels/advectiondiffusion.py:32-44, 69-79, 107-108 (the samples), field.py:567-571. -/
abbrev Scal (K : Type) := (time depth lat lon : K) → Except Exc K

section
variable {K : Type} [Field K]

/-- `AdvectionRK4`. `fieldset.UV[particle]` evaluates at the particle (parcels/field.py:1673-1677).
Models: parcels/kernels/advection.py:11-23. -/
def rk4 (uv : Flow K) (p : Pt K) : Except Exc (Pt K) :=
  match uv p.time p.depth p.lat p.lon with
  | .error e => .error e
  | .ok (u1, v1) =>
    let lon1 := p.lon + u1 * (1 / 2) * p.dt
    let lat1 := p.lat + v1 * (1 / 2) * p.dt
    match uv (p.time + 1 / 2 * p.dt) p.depth lat1 lon1 with
    | .error e => .error e
    | .ok (u2, v2) =>
      let lon2 := p.lon + u2 * (1 / 2) * p.dt
      let lat2 := p.lat + v2 * (1 / 2) * p.dt
      match uv (p.time + 1 / 2 * p.dt) p.depth lat2 lon2 with
      | .error e => .error e
      | .ok (u3, v3) =>
        let lon3 := p.lon + u3 * p.dt
        let lat3 := p.lat + v3 * p.dt
        match uv (p.time + p.dt) p.depth lat3 lon3 with
        | .error e => .error e
        | .ok (u4, v4) =>
          .ok { p with lon := p.lon + (u1 + 2 * u2 + 2 * u3 + u4) / 6 * p.dt
                       lat := p.lat + (v1 + 2 * v2 + 2 * v3 + v4) / 6 * p.dt }

/-- `AdvectionRK4_3D`. Models: parcels/kernels/advection.py:26-45. -/
def rk4_3D (uvw : Flow3 K) (p : Pt K) : Except Exc (Pt K) :=
  match uvw p.time p.depth p.lat p.lon with
  | .error e => .error e
  | .ok (u1, v1, w1) =>
    let lon1 := p.lon + u1 * (1 / 2) * p.dt
    let lat1 := p.lat + v1 * (1 / 2) * p.dt
    let dep1 := p.depth + w1 * (1 / 2) * p.dt
    match uvw (p.time + 1 / 2 * p.dt) dep1 lat1 lon1 with
    | .error e => .error e
    | .ok (u2, v2, w2) =>
      let lon2 := p.lon + u2 * (1 / 2) * p.dt
      let lat2 := p.lat + v2 * (1 / 2) * p.dt
      let dep2 := p.depth + w2 * (1 / 2) * p.dt
      match uvw (p.time + 1 / 2 * p.dt) dep2 lat2 lon2 with
      | .error e => .error e
      | .ok (u3, v3, w3) =>
        let lon3 := p.lon + u3 * p.dt
        let lat3 := p.lat + v3 * p.dt
        let dep3 := p.depth + w3 * p.dt
        match uvw (p.time + p.dt) dep3 lat3 lon3 with
        | .error e => .error e
        | .ok (u4, v4, w4) =>
          .ok { p with lon := p.lon + (u1 + 2 * u2 + 2 * u3 + u4) / 6 * p.dt
                       lat := p.lat + (v1 + 2 * v2 + 2 * v3 + v4) / 6 * p.dt
                       depth := p.depth + (w1 + 2 * w2 + 2 * w3 + w4) / 6 * p.dt }

/-- `AdvectionEE`. Models: parcels/kernels/advection.py:48-54. -/
def ee (uv : Flow K) (p : Pt K) : Except Exc (Pt K) :=
  match uv p.time p.depth p.lat p.lon with
  | .error e => .error e
  | .ok (u1, v1) => .ok { p with lon := p.lon + u1 * p.dt, lat := p.lat + v1 * p.dt }

/-- The two solutions of `AdvectionRK45`: (lon_4th, lat_4th, lon_5th, lat_5th).
Models: parcels/kernels/advection.py:64-93. -/
def rk45Sol (uv : Flow K) (p : Pt K) : Except Exc (K × K × K × K) :=
  match uv p.time p.depth p.lat p.lon with
  | .error e => .error e
  | .ok (u1, v1) =>
    let lon1 := p.lon + u1 * (1 / 4) * p.dt
    let lat1 := p.lat + v1 * (1 / 4) * p.dt
    match uv (p.time + 1 / 4 * p.dt) p.depth lat1 lon1 with
    | .error e => .error e
    | .ok (u2, v2) =>
      let lon2 := p.lon + (u1 * (3 / 32) + u2 * (9 / 32)) * p.dt
      let lat2 := p.lat + (v1 * (3 / 32) + v2 * (9 / 32)) * p.dt
      match uv (p.time + 3 / 8 * p.dt) p.depth lat2 lon2 with
      | .error e => .error e
      | .ok (u3, v3) =>
        let lon3 := p.lon + (u1 * (1932 / 2197) + u2 * (-7200 / 2197) + u3 * (7296 / 2197)) * p.dt
        let lat3 := p.lat + (v1 * (1932 / 2197) + v2 * (-7200 / 2197) + v3 * (7296 / 2197)) * p.dt
        match uv (p.time + 12 / 13 * p.dt) p.depth lat3 lon3 with
        | .error e => .error e
        | .ok (u4, v4) =>
          let lon4 := p.lon + (u1 * (439 / 216) + u2 * (-8) + u3 * (3680 / 513) + u4 * (-845 / 4104)) * p.dt
          let lat4 := p.lat + (v1 * (439 / 216) + v2 * (-8) + v3 * (3680 / 513) + v4 * (-845 / 4104)) * p.dt
          match uv (p.time + 1 * p.dt) p.depth lat4 lon4 with
          | .error e => .error e
          | .ok (u5, v5) =>
            let lon5 := p.lon + (u1 * (-8 / 27) + u2 * 2 + u3 * (-3544 / 2565) + u4 * (1859 / 4104) + u5 * (-11 / 40)) * p.dt
            let lat5 := p.lat + (v1 * (-8 / 27) + v2 * 2 + v3 * (-3544 / 2565) + v4 * (1859 / 4104) + v5 * (-11 / 40)) * p.dt
            match uv (p.time + 1 / 2 * p.dt) p.depth lat5 lon5 with
            | .error e => .error e
            | .ok (u6, v6) =>
              .ok (p.lon + (u1 * (25 / 216) + u2 * 0 + u3 * (1408 / 2565) + u4 * (2197 / 4104) + u5 * (-1 / 5)) * p.dt,
                   p.lat + (v1 * (25 / 216) + v2 * 0 + v3 * (1408 / 2565) + v4 * (2197 / 4104) + v5 * (-1 / 5)) * p.dt,
                   p.lon + (u1 * (16 / 135) + u2 * 0 + u3 * (6656 / 12825) + u4 * (28561 / 56430) + u5 * (-9 / 50)
                     + u6 * (2 / 55)) * p.dt,
                   p.lat + (v1 * (16 / 135) + v2 * 0 + v3 * (6656 / 12825) + v4 * (28561 / 56430) + v5 * (-9 / 50)
                     + v6 * (2 / 55)) * p.dt)

/-- What a kernel did: the particle, what it gave to `update_next_dt`, how it ended. Models: kernels/advection.py:96-103, particle.py:218-226. -/
structure Res (K : Type) where
  p : Pt K
  nextDt : Option K
  res : KRes
deriving DecidableEq

/-- A kernel that ends without `return`, or with an exception, in which case it has not changed the particle. Models: kernels/advection.py:11-54. -/
def plain (f : Pt K → Except Exc (Pt K)) (p : Pt K) : Res K :=
  match f p with
  | .error e => ⟨p, none, .exc e⟩
  | .ok p' => ⟨p', none, .ret none⟩

/-- `math.pow(x, 2)`. Models: kernels/advection.py:95-99. -/
def sq (x : K) : K := x * x

/-- `AdvectionRK45`. Models: parcels/kernels/advection.py:57-103. -/
def rk45 [LinearOrder K] (uv : Flow K) (p : Pt K) : Res K :=
  match rk45Sol uv p with
  | .error e => ⟨p, none, .exc e⟩
  | .ok (lon4, lat4, lon5, lat5) =>
    let tol : K := 1 / 100000
    let kappa2 := sq (lon5 - lon4) + sq (lat5 - lat4)
    if kappa2 ≤ sq |p.dt * tol| then
      let p' := { p with lon := lon4, lat := lat4 }
      if kappa2 ≤ sq |p.dt * tol / 10| then ⟨p', some (p.dt * 2), .ret none⟩ else ⟨p', none, .ret none⟩
    else ⟨{ p with dt := p.dt / 2 }, none, .ret (some .repeat)⟩

end

/-- A kernel of this file as a kernel of the loops; the other variables are longitude, latitude and depth.
Models: `self._pyfunc(p, pset.fieldset, p.time)`, parcels/kernel.py:315. -/
def toKern (f : Pt ℚ → Res ℚ) : Kern Unit (ℚ × ℚ × ℚ) := fun _ p =>
  let r := f ⟨p.time, p.dt, p.vars.1, p.vars.2.1, p.vars.2.2⟩
  ((), ⟨⟨r.p.time, r.p.dt, p.state, (r.p.lon, r.p.lat, r.p.depth)⟩, r.nextDt, r.res⟩)

/-! ### Diffusion -/

noncomputable section

/-- `AdvectionDiffusionM1`; `dWx`, `dWy` are the random increments. Models: parcels/kernels/advectiondiffusion.py:12-48. -/
def diffM1 (U V Kx Ky : Scal ℝ) (dres dWx dWy : ℝ) (p : Pt ℝ) : Except Exc (Pt ℝ) := do
  let Kxp1 ← Kx p.time p.depth p.lat (p.lon + dres)
  let Kxm1 ← Kx p.time p.depth p.lat (p.lon - dres)
  let dKdx := (Kxp1 - Kxm1) / (2 * dres)
  let u ← U p.time p.depth p.lat p.lon
  let bx := Real.sqrt (2 * (← Kx p.time p.depth p.lat p.lon))
  let Kyp1 ← Ky p.time p.depth (p.lat + dres) p.lon
  let Kym1 ← Ky p.time p.depth (p.lat - dres) p.lon
  let dKdy := (Kyp1 - Kym1) / (2 * dres)
  let v ← V p.time p.depth p.lat p.lon
  let by' := Real.sqrt (2 * (← Ky p.time p.depth p.lat p.lon))
  return { p with lon := p.lon + (u * p.dt + 1 / 2 * dKdx * (dWx ^ 2 + p.dt) + bx * dWx)
                  lat := p.lat + (v * p.dt + 1 / 2 * dKdy * (dWy ^ 2 + p.dt) + by' * dWy) }

/-- `AdvectionDiffusionEM`. Models: parcels/kernels/advectiondiffusion.py:51-83. -/
def diffEM (U V Kx Ky : Scal ℝ) (dres dWx dWy : ℝ) (p : Pt ℝ) : Except Exc (Pt ℝ) := do
  let Kxp1 ← Kx p.time p.depth p.lat (p.lon + dres)
  let Kxm1 ← Kx p.time p.depth p.lat (p.lon - dres)
  let dKdx := (Kxp1 - Kxm1) / (2 * dres)
  let ax := (← U p.time p.depth p.lat p.lon) + dKdx
  let bx := Real.sqrt (2 * (← Kx p.time p.depth p.lat p.lon))
  let Kyp1 ← Ky p.time p.depth (p.lat + dres) p.lon
  let Kym1 ← Ky p.time p.depth (p.lat - dres) p.lon
  let dKdy := (Kyp1 - Kym1) / (2 * dres)
  let ay := (← V p.time p.depth p.lat p.lon) + dKdy
  let by' := Real.sqrt (2 * (← Ky p.time p.depth p.lat p.lon))
  return { p with lon := p.lon + (ax * p.dt + bx * dWx), lat := p.lat + (ay * p.dt + by' * dWy) }

/-- `DiffusionUniformKh`. Models: parcels/kernels/advectiondiffusion.py:86-111. -/
def diffUniform (Kx Ky : Scal ℝ) (dWx dWy : ℝ) (p : Pt ℝ) : Except Exc (Pt ℝ) := do
  let bx := Real.sqrt (2 * (← Kx p.time p.depth p.lat p.lon))
  let by' := Real.sqrt (2 * (← Ky p.time p.depth p.lat p.lon))
  return { p with lon := p.lon + bx * dWx, lat := p.lat + by' * dWy }

end

end Parcels.Advection
