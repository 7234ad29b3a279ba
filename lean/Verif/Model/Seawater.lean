import Mathlib.Analysis.SpecialFunctions.Pow.Real
import Mathlib.Analysis.SpecialFunctions.Trigonometric.Basic

/-!
Model of the seawater kernels (parcels/kernels/EOSseawaterproperties.py and parcels/kernels/TEOSseawaterdensity.py), statement by statement.

Simplifications: real numbers, so no rounding; every field and variable that a kernel names exists; a field is a function of time, depth,
latitude and longitude (sampling is C21 to C25); the index of a list of coefficients is written as a number (`a0` for `a[0]`). `none` is the
ValueError of `math.pow` and `math.sqrt` for a negative number, or a division by zero; in compiled kernels the result is then not a number.
-/

namespace Parcels.Seawater

noncomputable section

/-- A particle: position and the other variables by name. Models: kernels/EOSseawaterproperties.py:7-28, 31-74, 77-167, 263-348 (the attributes used). -/
structure Part where
  lon : ℝ
  lat : ℝ
  depth : ℝ
  var : String → ℝ

/-- `particle.name = x`. Models: kernels/EOSseawaterproperties.py:28, 70, 167, 260, 348. -/
def Part.set (p : Part) (name : String) (x : ℝ) : Part := { p with var := fun n => if n = name then x else p.var n }

/-- A field in brackets: `field[time, depth, lat, lon]`. Models: field.py:567-571. -/
abbrev Fld := ℝ → ℝ → ℝ → ℝ → ℝ

/-- The fields and the constant used by the kernels. Models: kernels/EOSseawaterproperties.py:110-112, 203-205, 277-279; kernels/TEOSseawaterdensity.py:24-25. -/
structure Fset where
  psu_salinity : Fld
  temperature : Fld
  potemperature : Fld
  cons_temperature : Fld
  cons_pressure : Fld
  abs_salinity : Fld
  refpressure : ℝ

/-- `math.pow(x, y)` for a `y` that is no whole number; `math.sqrt` is the case of one half.
Models: kernels/EOSseawaterproperties.py:28, 299, 320, 342; kernels/TEOSseawaterdensity.py:83. -/
def fpow (x y : ℝ) : Option ℝ := if x < 0 then none else some (x ^ y)

/-- `PressureFromLatDepth` (EOSseawaterproperties.py:7-28). -/
def pressureFromLatDepth (p : Part) : Option Part :=
  let deg2rad := Real.pi / 180.0
  let X := Real.sin (max (p.lat * deg2rad) (-1 * p.lat * deg2rad))
  let C1 := 5.92e-3 + X ^ 2 * 5.25e-3
  (fpow ((1 - C1) ^ 2 - 8.84e-6 * p.depth) 0.5).map fun r => p.set "pressure" (((1 - C1) - r) / 4.42e-6)

/-- The expression for `adtg`, which the file repeats nine times with other names in place of `t` and `pres`: `T68` and `pres`
(EOSseawaterproperties.py:65-74, 118-127, 210-219), `th` and `pprime` (:136-140, :148-152, :160-164, :228-232, :240-244, :252-256). All nine
copies have the same coefficients and the same shape; this was checked with a text comparison. -/
def adtg (s t pres : ℝ) : ℝ :=
  let a0 := 3.5803e-5; let a1 := 8.5258e-6; let a2 := -6.836e-8; let a3 := 6.6228e-10
  let b0 := 1.8932e-6; let b1 := -4.2393e-8
  let c0 := 1.8741e-8; let c1 := -6.7795e-10; let c2 := 8.733e-12; let c3 := -5.4481e-14
  let d0 := -1.1351e-10; let d1 := 2.7759e-12
  let e0 := -4.6206e-13; let e1 := 1.8676e-14; let e2 := -2.1687e-16
  a0 + (a1 + (a2 + a3 * t) * t) * t
    + (b0 + b1 * t) * (s - 35)
    + ((c0 + (c1 + (c2 + c3 * t) * t) * t)
    + (d0 + d1 * t) * (s - 35)) * pres
    + (e0 + (e1 + e2 * t) * t) * pres * pres

/-- `AdiabticTemperatureGradient` (EOSseawaterproperties.py:31-74). -/
def adiabaticGradient (p : Part) : Part :=
  let s := p.var "S"
  let t := p.var "T"
  let pres := p.var "pressure"
  let T68 := t * 1.00024
  p.set "adtg" (adtg s T68 pres)

/-- The common part of `PtempFromTemp` (EOSseawaterproperties.py:114-167) and `TempFromPtemp` (:207-260): from the salinity, the
temperature at pressure `pres`, to the temperature at pressure `pr`. `2 ** 0.5` is the square root. -/
def fromTo (s t pres pr : ℝ) : ℝ :=
  let T68 := t * 1.00024
  let ad := adtg s T68 pres
  -- Theta1
  let del_P := pr - pres
  let del_th := del_P * ad
  let th := T68 + 0.5 * del_th
  let q := del_th
  let pprime := pres + 0.5 * del_P
  let ad := adtg s th pprime
  -- Theta2
  let del_th := del_P * ad
  let th := th + (1 - 1 / Real.sqrt 2) * (del_th - q)
  let q := (2 - Real.sqrt 2) * del_th + (-2 + 3 / Real.sqrt 2) * q
  -- Theta3
  let ad := adtg s th pprime
  let del_th := del_P * ad
  let th := th + (1 + 1 / Real.sqrt 2) * (del_th - q)
  let q := (2 + Real.sqrt 2) * del_th + (-2 - 3 / Real.sqrt 2) * q
  -- Theta4
  let pprime := pres + del_P
  let ad := adtg s th pprime
  let del_th := del_P * ad
  (th + (del_th - 2 * q) / 6) / 1.00024

/-- `PtempFromTemp` (EOSseawaterproperties.py:77-167). -/
def ptempFromTemp (fs : Fset) (time : ℝ) (p : Part) : Part :=
  let s := fs.psu_salinity time p.depth p.lat p.lon
  let t := fs.temperature time p.depth p.lat p.lon
  let pres := p.var "pressure"
  let pr := fs.refpressure
  p.set "potemp" (fromTo s t pres pr)

/-- `TempFromPtemp` (EOSseawaterproperties.py:170-260). -/
def tempFromPtemp (fs : Fset) (time : ℝ) (p : Part) : Part :=
  let s := fs.psu_salinity time p.depth p.lat p.lon
  let t := fs.potemperature time p.depth p.lat p.lon
  let pres := fs.refpressure
  let pr := p.var "pressure"
  p.set "temp" (fromTo s t pres pr)

/-- The density at a pressure of zero, `rho_st0` (EOSseawaterproperties.py:270-299); `S15` is `math.pow(S, 1.5)`. -/
def rhoSt0 (S T S15 : ℝ) : ℝ :=
  let a0 := 999.842594; let a1 := 0.06793953; let a2 := -0.009095290; let a3 := 0.0001001685; let a4 := -0.000001120083
  let a5 := 0.000000006536332
  let rsmow := a0 + a1 * T + a2 * T ^ 2 + a3 * T ^ 3 + a4 * T ^ 4 + a5 * T ^ 5
  let b0 := 0.82449; let b1 := -0.0040899; let b2 := 0.000076438; let b3 := -0.00000082467; let b_four := 0.0000000053875
  let c0 := -0.0057246; let c1 := 0.00010227; let c2 := -0.0000016546
  let d0 := 0.00048314
  let B1 := b0 + b1 * T + b2 * T ^ 2 + b3 * T ^ 3 + b_four * T ^ 4
  let C1 := c0 + c1 * T + c2 * T ^ 2
  rsmow + B1 * S + C1 * S15 + d0 * S ^ 2

/-- The secant bulk modulus at a pressure of zero, `K_ST0` (EOSseawaterproperties.py:301-320). -/
def kSt0 (S T S15 : ℝ) : ℝ :=
  let e0 := 19652.21; let e1 := 148.4206; let e2 := -2.327105; let e3 := 0.01360477; let e4 := -0.00005155288
  let f0 := 54.6746; let f1 := -0.603459; let f2 := 0.01099870; let f3 := -0.00006167
  let g0 := 0.07944; let g1 := 0.016483; let g2 := -0.00053009
  let Kw := e0 + e1 * T + e2 * T ^ 2 + e3 * T ^ 3 + e4 * T ^ 4
  let F1 := f0 + f1 * T + f2 * T ^ 2 + f3 * T ^ 3
  let G1 := g0 + g1 * T + g2 * T ^ 2
  Kw + F1 * S + G1 * S15

/-- `A1` (EOSseawaterproperties.py:322-342). -/
def bulkA (S T S15 : ℝ) : ℝ :=
  let h0 := 3.2399; let h1 := 0.00143713; let h2 := 0.000116092; let h3 := -0.000000577905
  let i0 := 0.0022838; let i1 := -0.000010981; let i2 := -0.0000016078
  let j0 := 0.000191075
  let Aw := h0 + h1 * T + h2 * T ^ 2 + h3 * T ^ 3
  Aw + (i0 + i1 * T + i2 * T ^ 2) * S + j0 * S15

/-- `B2` (EOSseawaterproperties.py:333-344). -/
def bulkB (S T : ℝ) : ℝ :=
  let k0 := 0.0000850935; let k1 := -0.00000612293; let k2 := 0.000000052787
  let m0 := -0.00000099348; let m1 := 0.000000020816; let m2 := 0.00000000091697
  let Bw := k0 + k1 * T + k2 * T ^ 2
  Bw + (m0 + m1 * T + m2 * T ^ 2) * S

/-- `UNESCODensity` (EOSseawaterproperties.py:263-348). The last term of `K_STp` is `B2*math.pow(T, 2)`, with the temperature. -/
def unescoDensity (fs : Fset) (time : ℝ) (p : Part) : Option Part :=
  let S := fs.psu_salinity time p.depth p.lat p.lon
  let T := fs.cons_temperature time p.depth p.lat p.lon
  let P := fs.cons_pressure time p.depth p.lat p.lon
  (fpow S 1.5).bind fun S15 =>
    let rho_st0 := rhoSt0 S T S15
    let K_ST0 := kSt0 S T S15
    let A1 := bulkA S T S15
    let B2 := bulkB S T
    let K_STp := K_ST0 + A1 * P + B2 * T ^ 2
    if K_STp = 0 then none
    else if 1 - P / K_STp = 0 then none
    else some (p.set "density" (rho_st0 / (1 - P / K_STp)))

/-- `PolyTEOS10_bsq` (TEOSseawaterdensity.py:8-90). -/
def polyTEOS10 (fs : Fset) (time : ℝ) (p : Part) : Option Part :=
  let Z := -p.depth
  let SA := fs.abs_salinity time p.depth p.lat p.lon
  let CT := fs.cons_temperature time p.depth p.lat p.lon
  let SAu := 40 * 35.16504 / 35
  let CTu := 40
  let Zu := 1e4
  let deltaS := 32
  let R000 := 8.0189615746e+02
  let R100 := 8.6672408165e+02
  let R200 := -1.7864682637e+03
  let R300 := 2.0375295546e+03
  let R400 := -1.2849161071e+03
  let R500 := 4.3227585684e+02
  let R600 := -6.0579916612e+01
  let R010 := 2.6010145068e+01
  let R110 := -6.5281885265e+01
  let R210 := 8.1770425108e+01
  let R310 := -5.6888046321e+01
  let R410 := 1.7681814114e+01
  let R510 := -1.9193502195e+00
  let R020 := -3.7074170417e+01
  let R120 := 6.1548258127e+01
  let R220 := -6.0362551501e+01
  let R320 := 2.9130021253e+01
  let R420 := -5.4723692739e+00
  let R030 := 2.1661789529e+01
  let R130 := -3.3449108469e+01
  let R230 := 1.9717078466e+01
  let R330 := -3.1742946532e+00
  let R040 := -8.3627885467e+00
  let R140 := 1.1311538584e+01
  let R240 := -5.3563304045e+00
  let R050 := 5.4048723791e-01
  let R150 := 4.8169980163e-01
  let R060 := -1.9083568888e-01
  let R001 := 1.9681925209e+01
  let R101 := -4.2549998214e+01
  let R201 := 5.0774768218e+01
  let R301 := -3.0938076334e+01
  let R401 := 6.6051753097e+00
  let R011 := -1.3336301113e+01
  let R111 := -4.4870114575e+00
  let R211 := 5.0042598061e+00
  let R311 := -6.5399043664e-01
  let R021 := 6.7080479603e+00
  let R121 := 3.5063081279e+00
  let R221 := -1.8795372996e+00
  let R031 := -2.4649669534e+00
  let R131 := -5.5077101279e-01
  let R041 := 5.5927935970e-01
  let R002 := 2.0660924175e+00
  let R102 := -4.9527603989e+00
  let R202 := 2.5019633244e+00
  let R012 := 2.0564311499e+00
  let R112 := -2.1311365518e-01
  let R022 := -1.2419983026e+00
  let R003 := -2.3342758797e-02
  let R103 := -1.8507636718e-02
  let R013 := 3.7969820455e-01
  (fpow ((SA + deltaS) / SAu) 0.5).map fun ss =>
    let tt := CT / CTu
    let zz := -Z / Zu
    let rz3 := R013 * tt + R103 * ss + R003
    let rz2 := (R022 * tt + R112 * ss + R012) * tt + (R202 * ss + R102) * ss + R002
    let rz1 := (((R041 * tt + R131 * ss + R031) * tt + (R221 * ss + R121) * ss + R021) * tt + ((R311 * ss + R211) * ss + R111) * ss + R011) * tt
      + (((R401 * ss + R301) * ss + R201) * ss + R101) * ss + R001
    let rz0 := (((((R060 * tt + R150 * ss + R050) * tt + (R240 * ss + R140) * ss + R040) * tt
      + ((R330 * ss + R230) * ss + R130) * ss + R030) * tt
      + (((R420 * ss + R320) * ss + R220) * ss + R120) * ss + R020) * tt
      + ((((R510 * ss + R410) * ss + R310) * ss + R210) * ss + R110) * ss + R010) * tt
      + (((((R600 * ss + R500) * ss + R400) * ss + R300) * ss + R200) * ss + R100) * ss + R000
    p.set "density" (((rz3 * zz + rz2) * zz + rz1) * zz + rz0)

end

end Parcels.Seawater
