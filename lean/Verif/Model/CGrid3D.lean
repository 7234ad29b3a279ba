import Verif.Model.CGrid

/-!
Model of the interpolation of velocities on C-grids with s-levels, for one cell: `VectorField.spatial_c_grid_interpolation3D_full` and
`VectorField.eval` (parcels/field.py:1505-1607, 1632-1671), tools/interpolation_utils.py, and
`spatial_interpolation_UVW_c_grid`, `temporal_interpolationUVW_c_grid` (include/parcels.h:768-955, include/interpolation_utils.h).

Simplifications as in Model/CGrid: exact arithmetic in any ordered field, square root and cosine as arguments; the relative coordinates are
arguments (they come from the search); a division by zero gives 0, so theorems assume that the Jacobians are not zero.
-/

namespace Parcels.CGrid3D
open Parcels.Curvilinear Parcels.CGrid

variable {K : Type} [Field K] [LinearOrder K]

/-- One coordinate of the eight corners: 0 to 3 around the lower face, 4 to 7 around the upper one. Models: field.py:1524-1531; parcels.h:808-826 (`px`, `py`, `pz`). -/
structure V8 (K : Type) where
  a0 : K
  a1 : K
  a2 : K
  a3 : K
  a4 : K
  a5 : K
  a6 : K
  a7 : K
deriving DecidableEq

/-- The corners of a cell. Models: field.py:1509-1531; parcels.h:808-826. -/
structure Hexa (K : Type) where
  x : V8 K
  y : V8 K
  z : V8 K

/-- A vector. Models: the results of tools/interpolation_utils.py:71-97. -/
structure V3 (K : Type) where
  x : K
  y : K
  z : K
deriving DecidableEq

/-- `np.dot(p, dphidxsi)`. Models: tools/interpolation_utils.py:42-50; interpolation_utils.h:30-37. -/
def dXsi (p : V8 K) (_xsi eta zet : K) : K :=
  -(1 - eta) * (1 - zet) * p.a0 + (1 - eta) * (1 - zet) * p.a1 + eta * (1 - zet) * p.a2 + -eta * (1 - zet) * p.a3 +
    -(1 - eta) * zet * p.a4 + (1 - eta) * zet * p.a5 + eta * zet * p.a6 + -eta * zet * p.a7

/-- `np.dot(p, dphideta)`. Models: tools/interpolation_utils.py:51-58; interpolation_utils.h:39-46. -/
def dEta (p : V8 K) (xsi _eta zet : K) : K :=
  -(1 - xsi) * (1 - zet) * p.a0 + -xsi * (1 - zet) * p.a1 + xsi * (1 - zet) * p.a2 + (1 - xsi) * (1 - zet) * p.a3 +
    -(1 - xsi) * zet * p.a4 + -xsi * zet * p.a5 + xsi * zet * p.a6 + (1 - xsi) * zet * p.a7

/-- `np.dot(p, dphidzet)`. Models: tools/interpolation_utils.py:59-66; interpolation_utils.h:48-55. -/
def dZet (p : V8 K) (xsi eta _zet : K) : K :=
  -(1 - xsi) * (1 - eta) * p.a0 + -xsi * (1 - eta) * p.a1 + -xsi * eta * p.a2 + -(1 - xsi) * eta * p.a3 +
    (1 - xsi) * (1 - eta) * p.a4 + xsi * (1 - eta) * p.a5 + xsi * eta * p.a6 + (1 - xsi) * eta * p.a7

/-- Metres per unit of longitude and of latitude. Models: tools/interpolation_utils.py:74-85; interpolation_utils.h:67-74. -/
def jacLon (m : Metric K) (sph : Bool) (h : Hexa K) (xsi eta : K) : K :=
  bif sph then deg2m * m.cos (dotPhi xsi eta h.y.a0 h.y.a1 h.y.a2 h.y.a3) else 1
/-- The factor of the column of latitudes. Models: tools/interpolation_utils.py:74-85; interpolation_utils.h:67-74. -/
def jacLat (sph : Bool) : K := bif sph then deg2m else 1

/-- The columns of the Jacobian matrix. Models: tools/interpolation_utils.py:71-97; interpolation_utils.h:58-87. -/
def colXsi (m : Metric K) (sph : Bool) (h : Hexa K) (xsi eta zet : K) : V3 K :=
  ⟨dXsi h.x xsi eta zet * jacLon m sph h xsi eta, dXsi h.y xsi eta zet * jacLat sph, dXsi h.z xsi eta zet⟩
/-- The column of derivatives with respect to eta. Models: tools/interpolation_utils.py:71-97; interpolation_utils.h:58-87. -/
def colEta (m : Metric K) (sph : Bool) (h : Hexa K) (xsi eta zet : K) : V3 K :=
  ⟨dEta h.x xsi eta zet * jacLon m sph h xsi eta, dEta h.y xsi eta zet * jacLat sph, dEta h.z xsi eta zet⟩
/-- The column of derivatives with respect to zeta. Models: tools/interpolation_utils.py:71-97; interpolation_utils.h:58-87. -/
def colZet (m : Metric K) (sph : Bool) (h : Hexa K) (xsi eta zet : K) : V3 K :=
  ⟨dZet h.x xsi eta zet * jacLon m sph h xsi eta, dZet h.y xsi eta zet * jacLat sph, dZet h.z xsi eta zet⟩

/-- `jacobian3D_lin`. Models: tools/interpolation_utils.py:100-106; interpolation_utils.h:115-126. -/
def jac3 (m : Metric K) (sph : Bool) (h : Hexa K) (xsi eta zet : K) : K :=
  let a := colXsi m sph h xsi eta zet
  let b := colEta m sph h xsi eta zet
  let c := colZet m sph h xsi eta zet
  a.x * (b.y * c.z - b.z * c.y) - b.x * (a.y * c.z - a.z * c.y) + c.x * (a.y * b.z - a.z * b.y)

/-- Orientation of a face. Models: tools/interpolation_utils.py:109-126 (orientation); interpolation_utils.h:5-8. -/
inductive Face where
  | zonal | meridional | vertical

/-- `jacobian3D_lin_face`. Models: tools/interpolation_utils.py:109-126; interpolation_utils.h:89-113. -/
def face (m : Metric K) (sph : Bool) (h : Hexa K) (xsi eta zet : K) (o : Face) : K :=
  let a := colXsi m sph h xsi eta zet
  let b := colEta m sph h xsi eta zet
  let c := colZet m sph h xsi eta zet
  let j : V3 K := match o with
    | .zonal => ⟨b.y * c.z - c.y * b.z, -b.x * c.z + c.x * b.z, b.x * c.y - c.x * b.y⟩
    | .meridional => ⟨a.y * c.z - c.y * a.z, -a.x * c.z + c.x * a.z, a.x * c.y - c.x * a.y⟩
    | .vertical => ⟨a.y * b.z - b.y * a.z, -a.x * b.z + b.x * a.z, a.x * b.y - b.x * a.y⟩
  m.sqrt (j.x * j.x + j.y * j.y + j.z * j.z)

/-- `interpolate(phi1D_quad, [f0, f05, f1], s)`. Models: tools/interpolation_utils.py:12-17; interpolation_utils.h:20-25. -/
def quad (f0 f05 f1 s : K) : K := (2 * (s * s) - 3 * s + 1) * f0 + (-4 * (s * s) + 4 * s) * f05 + (2 * (s * s) - s) * f1

/-- The half cells. Models: field.py:1547-1550, 1558-1561, 1569-1572; parcels.h:835-838, 846-849, 857-860. -/
def leftHalf (p : V8 K) : V8 K :=
  ⟨p.a0, (p.a0 + p.a1) / 2, (p.a2 + p.a3) / 2, p.a3, p.a4, (p.a4 + p.a5) / 2, (p.a6 + p.a7) / 2, p.a7⟩
/-- The half of a cell towards the front. Models: field.py:1558-1567; parcels.h:846-855. -/
def frontHalf (p : V8 K) : V8 K :=
  ⟨p.a0, p.a1, (p.a1 + p.a2) / 2, (p.a0 + p.a3) / 2, p.a4, p.a5, (p.a5 + p.a6) / 2, (p.a4 + p.a7) / 2⟩
/-- The lower half of a cell. Models: field.py:1569-1578; parcels.h:857-866. -/
def lowerHalf (p : V8 K) : V8 K :=
  ⟨p.a0, p.a1, p.a2, p.a3, (p.a0 + p.a4) / 2, (p.a1 + p.a5) / 2, (p.a2 + p.a6) / 2, (p.a3 + p.a7) / 2⟩
/-- The same half in all three coordinates. Models: field.py:1547-1579; parcels.h:835-867. -/
def Hexa.map (g : V8 K → V8 K) (h : Hexa K) : Hexa K := ⟨g h.x, g h.y, g h.z⟩

/-- The velocities on the six faces. Models: field.py:1533-1538 (u0, u1, v0, v1, w0, w1); parcels.h:801-806. -/
structure Faces3 (K : Type) where
  u0 : K
  u1 : K
  v0 : K
  v1 : K
  w0 : K
  w1 : K

/-- The data of both modes, whatever `gridindexingtype` is. Models: field.py:1533-1538; parcels.h:801-806. -/
def faces3 (U V W : Nat → Nat → Nat → K) (k j i : Nat) : Faces3 K where
  u0 := U k (j + 1) i
  u1 := U k (j + 1) (i + 1)
  v0 := V k j (i + 1)
  v1 := V k (j + 1) (i + 1)
  w0 := W k (j + 1) (i + 1)
  w1 := W (k + 1) (j + 1) (i + 1)

/-- Transports through the three surfaces in the middle. Models: field.py:1547-1578; parcels.h:835-866. -/
def fluxU05 (m : Metric K) (sph : Bool) (h : Hexa K) (f : Faces3 K) : K :=
  let l := h.map leftHalf
  f.u0 * face m sph l 0 (1/2) (1/2) .zonal + f.v0 * face m sph l (1/2) 0 (1/2) .meridional - f.v1 * face m sph l (1/2) 1 (1/2) .meridional +
    f.w0 * face m sph l (1/2) (1/2) 0 .vertical - f.w1 * face m sph l (1/2) (1/2) 1 .vertical
/-- Flux through the middle of the cell in the second direction. Models: field.py:1558-1567; parcels.h:846-855. -/
def fluxV05 (m : Metric K) (sph : Bool) (h : Hexa K) (f : Faces3 K) : K :=
  let l := h.map frontHalf
  f.u0 * face m sph l 0 (1/2) (1/2) .zonal - f.u1 * face m sph l 1 (1/2) (1/2) .zonal + f.v0 * face m sph l (1/2) 0 (1/2) .meridional +
    f.w0 * face m sph l (1/2) (1/2) 0 .vertical - f.w1 * face m sph l (1/2) (1/2) 1 .vertical
/-- Flux through the middle of the cell in the third direction. Models: field.py:1569-1578; parcels.h:857-866. -/
def fluxW05 (m : Metric K) (sph : Bool) (h : Hexa K) (f : Faces3 K) : K :=
  let l := h.map lowerHalf
  f.u0 * face m sph l 0 (1/2) (1/2) .zonal - f.u1 * face m sph l 1 (1/2) (1/2) .zonal + f.v0 * face m sph l (1/2) 0 (1/2) .meridional -
    f.v1 * face m sph l (1/2) 1 (1/2) .meridional + f.w0 * face m sph l (1/2) (1/2) 0 .vertical

/-- The interpolated transports per unit of the two other relative coordinates. Models: field.py:1540-1545, 1580-1595; parcels.h:828-833, 868-891. -/
def transU (m : Metric K) (sph : Bool) (h : Hexa K) (f : Faces3 K) (xsi eta zet : K) : K :=
  quad (f.u0 * face m sph h 0 eta zet .zonal)
    (fluxU05 m sph h f / face m sph h (1/2) (1/2) (1/2) .zonal * face m sph h (1/2) eta zet .zonal) (f.u1 * face m sph h 1 eta zet .zonal) xsi
/-- The same for the second direction. Models: field.py:1540-1545, 1580-1595; parcels.h:828-833, 868-891. -/
def transV (m : Metric K) (sph : Bool) (h : Hexa K) (f : Faces3 K) (xsi eta zet : K) : K :=
  quad (f.v0 * face m sph h xsi 0 zet .meridional)
    (fluxV05 m sph h f / face m sph h (1/2) (1/2) (1/2) .meridional * face m sph h xsi (1/2) zet .meridional) (f.v1 * face m sph h xsi 1 zet .meridional) eta
/-- The same for the third direction. Models: field.py:1540-1545, 1580-1595; parcels.h:828-833, 868-891. -/
def transW (m : Metric K) (sph : Bool) (h : Hexa K) (f : Faces3 K) (xsi eta zet : K) : K :=
  quad (f.w0 * face m sph h xsi eta 0 .vertical)
    (fluxW05 m sph h f / face m sph h (1/2) (1/2) (1/2) .vertical * face m sph h xsi eta (1/2) .vertical) (f.w1 * face m sph h xsi eta 1 .vertical) zet

/-- The velocity. Models: field.py:1592-1601; parcels.h:880-898. -/
def velocity3 (m : Metric K) (sph : Bool) (h : Hexa K) (f : Faces3 K) (xsi eta zet : K) : V3 K :=
  let j := jac3 m sph h xsi eta zet
  let dxsidt := transU m sph h f xsi eta zet / j
  let detadt := transV m sph h f xsi eta zet / j
  let dzetdt := transW m sph h f xsi eta zet / j
  ⟨dXsi h.x xsi eta zet * dxsidt + dEta h.x xsi eta zet * detadt + dZet h.x xsi eta zet * dzetdt,
   dXsi h.y xsi eta zet * dxsidt + dEta h.y xsi eta zet * detadt + dZet h.y xsi eta zet * dzetdt,
   dXsi h.z xsi eta zet * dxsidt + dEta h.z xsi eta zet * detadt + dZet h.z xsi eta zet * dzetdt⟩

/-- The corners: the horizontal positions are those of the cell, twice. Models: field.py:1524-1525; parcels.h:808-811. -/
def hexa (c : Cell K) (z : V8 K) : Hexa K :=
  ⟨⟨c.x0, c.x1, c.x2, c.x3, c.x0, c.x1, c.x2, c.x3⟩, ⟨c.y0, c.y1, c.y2, c.y3, c.y0, c.y1, c.y2, c.y3⟩, z⟩

/-- Scipy mode. `none`: the assertion fails. Models: field.py:1505-1607. -/
def pyVelocity3 (m : Metric K) (sph : Bool) (cell : Cell K) (z : V8 K) (xsi eta zet x : K) (f : Faces3 K) : Option (V3 K) :=
  let c := shift sph x cell
  let xx := dotPhi xsi eta c.x0 c.x1 c.x2 c.x3
  if |xx - x| < 1 / 10000 then some (velocity3 m sph (hexa c z) f xsi eta zet) else none

/-- JIT mode. Models: parcels.h:768-901. -/
def cVelocity3 (m : Metric K) (sph : Bool) (cell : Cell K) (z : V8 K) (xsi eta zet : K) (f : Faces3 K) : V3 K :=
  velocity3 m sph (hexa (cShift cell) z) f xsi eta zet

/-- Linear interpolation in time of a velocity. Models: field.py:1654, 1658-1659; parcels.h:937-939. -/
def between (a b : V3 K) (s : K) : V3 K := ⟨a.x + (b.x - a.x) * s, a.y + (b.y - a.y) * s, a.z + (b.z - a.z) * s⟩

/-- A cell over time: the depths of the corners at each snapshot in memory, one for all times if they do not move, and the face velocities.
Models: field.py:1526-1531 (`grid.z4d`), 1645-1671; parcels.h:812-826. -/
structure InTime (K : Type) where
  cell : Cell K
  fixed : V8 K
  moving : Option (Nat → V8 K)
  faces : Nat → Faces3 K

/-- `VectorField.eval` in Scipy mode, between snapshots `ti` and `ti + 1` at the fraction `s` (0: at snapshot `ti`). Moving depths are those of
the first snapshot in memory. Models: field.py:1526-1531, 1645-1671. -/
def InTime.py (q : InTime K) (m : Metric K) (sph : Bool) (ti : Nat) (s xsi eta zet x : K) : Option (V3 K) :=
  let z := match q.moving with | none => q.fixed | some d => d 0
  if 0 < s then
    (pyVelocity3 m sph q.cell z xsi eta zet x (q.faces ti)).bind fun a =>
    (pyVelocity3 m sph q.cell z xsi eta zet x (q.faces (ti + 1))).bind fun b => some (between a b s)
  else pyVelocity3 m sph q.cell z xsi eta zet x (q.faces ti)

/-- JIT mode: the depths of the snapshot of the velocities. Models: parcels.h:812-826, 923-954. -/
def InTime.c (q : InTime K) (m : Metric K) (sph : Bool) (ti : Nat) (s xsi eta zet : K) : V3 K :=
  let z := fun i => match q.moving with | none => q.fixed | some d => d i
  if 0 < s then
    between (cVelocity3 m sph q.cell (z ti) xsi eta zet (q.faces ti)) (cVelocity3 m sph q.cell (z (ti + 1)) xsi eta zet (q.faces (ti + 1))) s
  else cVelocity3 m sph q.cell (z ti) xsi eta zet (q.faces ti)

/-- `gridindexingtype`. Models: field.py:1464-1484; index_search.h:24-27. -/
inductive Indexing where
  | nemo | mitgcm | mom5 | pop
deriving DecidableEq

/-- `GridCode`. Models: grid.py:20-24. -/
inductive GType where
  | rectilinearZ | rectilinearS | curvilinearZ | curvilinearS
deriving DecidableEq

/-- The check of indexing and grid type in `FieldSet.check_complete`: curvilinear z-grids, named twice, are refused. Models: fieldset.py:213-214. -/
def accepted (ix : Indexing) (g : GType) : Bool := !(ix == .mitgcm && (g == .curvilinearZ || g == .curvilinearZ))

/-- `spatial_c_grid_interpolation3D`: whether the three-dimensional interpolation is used. Models: field.py:1624-1629; parcels.h:998-1005. -/
def uses3 (g : GType) : Bool := g == .rectilinearS || g == .curvilinearS

end Parcels.CGrid3D
