import Mathlib.Analysis.SpecialFunctions.Trigonometric.Basic
import Mathlib.Analysis.SpecialFunctions.Sqrt

/-!
What the seawater kernels should compute (C80), from the publications they cite. Nothing here refers to the model.
-/

namespace Parcels.Seawater

noncomputable section

/-- The polynomial with the given coefficients, from the constant term on. -/
def poly : List ℝ → ℝ → ℝ
  | [], _ => 0
  | c :: cs, x => c + x * poly cs x

/-- Saunders (1981): the depth in metres at latitude `lat` (degrees) and pressure `p` (decibar). -/
def saundersDepth (lat p : ℝ) : ℝ := (1 - (5.92e-3 + 5.25e-3 * Real.sin (lat * Real.pi / 180) ^ 2)) * p - 2.21e-6 * p ^ 2

/-- Bryden (1973), UNESCO (1983): the adiabatic temperature gradient at salinity `s`, temperature `t` (IPTS-68) and pressure `p` (decibar). -/
def lapse (s t p : ℝ) : ℝ :=
  poly [3.5803e-5, 8.5258e-6, -6.836e-8, 6.6228e-10] t + poly [1.8932e-6, -4.2393e-8] t * (s - 35)
    + p * (poly [1.8741e-8, -6.7795e-10, 8.733e-12, -5.4481e-14] t + poly [-1.1351e-10, 2.7759e-12] t * (s - 35))
    + p ^ 2 * poly [-4.6206e-13, 1.8676e-14, -2.1687e-16] t

/-- An explicit Runge–Kutta method with four stages: nodes, weights and coefficients. -/
structure Tableau where
  c2 : ℝ
  c3 : ℝ
  c4 : ℝ
  a21 : ℝ
  a31 : ℝ
  a32 : ℝ
  a41 : ℝ
  a42 : ℝ
  a43 : ℝ
  b1 : ℝ
  b2 : ℝ
  b3 : ℝ
  b4 : ℝ

/-- One step of the method for `dy/dx = f x y`, from `x` to `x + h`. -/
def Tableau.step (m : Tableau) (f : ℝ → ℝ → ℝ) (x y h : ℝ) : ℝ :=
  let k1 := f x y
  let k2 := f (x + m.c2 * h) (y + h * (m.a21 * k1))
  let k3 := f (x + m.c3 * h) (y + h * (m.a31 * k1 + m.a32 * k2))
  let k4 := f (x + m.c4 * h) (y + h * (m.a41 * k1 + m.a42 * k2 + m.a43 * k3))
  y + h * (m.b1 * k1 + m.b2 * k2 + m.b3 * k3 + m.b4 * k4)

/-- Gill's method. -/
def gill : Tableau where
  c2 := 1 / 2
  c3 := 1 / 2
  c4 := 1
  a21 := 1 / 2
  a31 := (Real.sqrt 2 - 1) / 2
  a32 := (2 - Real.sqrt 2) / 2
  a41 := 0
  a42 := -(Real.sqrt 2 / 2)
  a43 := (2 + Real.sqrt 2) / 2
  b1 := 1 / 6
  b2 := (2 - Real.sqrt 2) / 6
  b3 := (2 + Real.sqrt 2) / 6
  b4 := 1 / 6

/-- Butcher's conditions: the method has order four (its error in one step is of fifth order in `h`). -/
structure Tableau.OrderFour (m : Tableau) : Prop where
  row2 : m.a21 = m.c2
  row3 : m.a31 + m.a32 = m.c3
  row4 : m.a41 + m.a42 + m.a43 = m.c4
  one : m.b1 + m.b2 + m.b3 + m.b4 = 1
  two : m.b2 * m.c2 + m.b3 * m.c3 + m.b4 * m.c4 = 1 / 2
  three : m.b2 * m.c2 ^ 2 + m.b3 * m.c3 ^ 2 + m.b4 * m.c4 ^ 2 = 1 / 3
  three' : m.b3 * (m.a32 * m.c2) + m.b4 * (m.a42 * m.c2 + m.a43 * m.c3) = 1 / 6
  four : m.b2 * m.c2 ^ 3 + m.b3 * m.c3 ^ 3 + m.b4 * m.c4 ^ 3 = 1 / 4
  four' : m.b3 * m.c3 * (m.a32 * m.c2) + m.b4 * m.c4 * (m.a42 * m.c2 + m.a43 * m.c3) = 1 / 8
  four'' : m.b3 * (m.a32 * m.c2 ^ 2) + m.b4 * (m.a42 * m.c2 ^ 2 + m.a43 * m.c3 ^ 2) = 1 / 12
  four''' : m.b4 * (m.a43 * (m.a32 * m.c2)) = 1 / 24

/-- UNESCO (1983), one-atmosphere density; coefficients as rounded in the kernel. -/
def density0 (S T : ℝ) : ℝ :=
  poly [999.842594, 6.793953e-2, -9.095290e-3, 1.001685e-4, -1.120083e-6, 6.536332e-9] T
    + poly [8.2449e-1, -4.0899e-3, 7.6438e-5, -8.2467e-7, 5.3875e-9] T * S
    + poly [-5.7246e-3, 1.0227e-4, -1.6546e-6] T * (S * Real.sqrt S) + 4.8314e-4 * S ^ 2

/-- UNESCO (1983), the three coefficients of the secant bulk modulus in powers of the pressure (bar). -/
def modulus0 (S T : ℝ) : ℝ :=
  poly [19652.21, 148.4206, -2.327105, 1.360477e-2, -5.155288e-5] T + poly [54.6746, -0.603459, 1.09987e-2, -6.1670e-5] T * S
    + poly [7.944e-2, 1.6483e-2, -5.3009e-4] T * (S * Real.sqrt S)

def modulus1 (S T : ℝ) : ℝ :=
  poly [3.2399, 1.43713e-3, 1.16092e-4, -5.77905e-7] T + poly [2.2838e-3, -1.0981e-5, -1.6078e-6] T * S + 1.91075e-4 * (S * Real.sqrt S)

def modulus2 (S T : ℝ) : ℝ := poly [8.50935e-5, -6.12293e-6, 5.2787e-8] T + poly [-9.9348e-7, 2.0816e-8, 9.1697e-10] T * S

/-- UNESCO (1983): the density at salinity `S`, temperature `T` and pressure `P` (bar). -/
def density (S T P : ℝ) : ℝ := density0 S T / (1 - P / (modulus0 S T + modulus1 S T * P + modulus2 S T * P ^ 2))

/-- Roquet et al. (2015): the coefficients of the powers of the reduced salinity, temperature and depth. -/
def teosTable : List ((Nat × Nat × Nat) × ℝ) :=
  [((0, 0, 0), 801.89615746), ((1, 0, 0), 866.72408165), ((2, 0, 0), -1786.4682637), ((3, 0, 0), 2037.5295546), ((4, 0, 0), -1284.9161071),
   ((5, 0, 0), 432.27585684), ((6, 0, 0), -60.579916612), ((0, 1, 0), 26.010145068), ((1, 1, 0), -65.281885265), ((2, 1, 0), 81.770425108),
   ((3, 1, 0), -56.888046321), ((4, 1, 0), 17.681814114), ((5, 1, 0), -1.9193502195), ((0, 2, 0), -37.074170417), ((1, 2, 0), 61.548258127),
   ((2, 2, 0), -60.362551501), ((3, 2, 0), 29.130021253), ((4, 2, 0), -5.4723692739), ((0, 3, 0), 21.661789529), ((1, 3, 0), -33.449108469),
   ((2, 3, 0), 19.717078466), ((3, 3, 0), -3.1742946532), ((0, 4, 0), -8.3627885467), ((1, 4, 0), 11.311538584), ((2, 4, 0), -5.3563304045),
   ((0, 5, 0), 0.54048723791), ((1, 5, 0), 0.48169980163), ((0, 6, 0), -0.19083568888), ((0, 0, 1), 19.681925209), ((1, 0, 1), -42.549998214),
   ((2, 0, 1), 50.774768218), ((3, 0, 1), -30.938076334), ((4, 0, 1), 6.6051753097), ((0, 1, 1), -13.336301113), ((1, 1, 1), -4.4870114575),
   ((2, 1, 1), 5.0042598061), ((3, 1, 1), -0.65399043664), ((0, 2, 1), 6.7080479603), ((1, 2, 1), 3.5063081279), ((2, 2, 1), -1.8795372996),
   ((0, 3, 1), -2.4649669534), ((1, 3, 1), -0.55077101279), ((0, 4, 1), 0.55927935970), ((0, 0, 2), 2.0660924175), ((1, 0, 2), -4.9527603989),
   ((2, 0, 2), 2.5019633244), ((0, 1, 2), 2.0564311499), ((1, 1, 2), -0.21311365518), ((0, 2, 2), -1.2419983026), ((0, 0, 3), -0.023342758797),
   ((1, 0, 3), -0.018507636718), ((0, 1, 3), 0.37969820455)]

/-- The polynomial at absolute salinity `sa`, conservative temperature `ct` and depth `z` (metres, positive downwards). -/
def teos (sa ct z : ℝ) : ℝ :=
  (teosTable.map fun e => e.2 * Real.sqrt ((sa + 32) * 35 / (40 * 35.16504)) ^ e.1.1 * (ct / 40) ^ e.1.2.1 * (z / 10000) ^ e.1.2.2).sum

end

end Parcels.Seawater
