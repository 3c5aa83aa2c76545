import Mathlib.Analysis.Real.Sqrt
import Verif.Py.Err
/-!
# Shapes of surfaces

Models the shapes that stand for surfaces in a drawing (src/pymcnp/_show/pyvista/*.py) and the `to_show` methods of the surfaces
(src/pymcnp/inp/surface/*.py).  A shape has a mesh, the points that are drawn, and a function `cell` from the points of a grid to truth
values, from which the cells are drawn.

Simplifications: the arithmetic of `float` is that of the real numbers; meshes, which are made of small polygons, are the smooth sets they
approximate; the square of side 100 that pyvista draws for a plane is the plane.
-/
namespace Show
open Py

/-- A point or a vector: `numpy.array((x, y, z))`. -/
@[ext] structure Vec where
  x : ℝ
  y : ℝ
  z : ℝ

namespace Vec

def add (a b : Vec) : Vec := ⟨a.x + b.x, a.y + b.y, a.z + b.z⟩
def sub (a b : Vec) : Vec := ⟨a.x - b.x, a.y - b.y, a.z - b.z⟩
def smul (t : ℝ) (a : Vec) : Vec := ⟨t * a.x, t * a.y, t * a.z⟩
def dot (a b : Vec) : ℝ := a.x * b.x + a.y * b.y + a.z * b.z
/-- `numpy.cross(a, b)` -/
def cross (a b : Vec) : Vec := ⟨a.y * b.z - a.z * b.y, a.z * b.x - a.x * b.z, a.x * b.y - a.y * b.x⟩
/-- `numpy.linalg.norm(a)` -/
noncomputable def norm (a : Vec) : ℝ := Real.sqrt (dot a a)
def zero : Vec := ⟨0, 0, 0⟩

end Vec

/-- What `shape.cell(grid.points)` gives: a truth value for every point, or numbers, or an exception. -/
inductive Region where
  | truth (f : Vec → Prop)
  | numbers
  | raises

/-- `PyvistaShape` (src/pymcnp/_show/_shape.py:15-28): the points drawn, and `cell`.  The points are `none` where they are not modelled. -/
structure Shape where
  surface : Option (Vec → Prop)
  cell : Region

/-- `BOUND` (src/pymcnp/_show/pyvista/_shape.py:9) -/
def bound : ℝ := 100

/-- `cell` at another point. -/
def Region.map (f : Vec → Vec) : Region → Region
  | .truth g => .truth fun p => g (f p)
  | .numbers => .numbers
  | .raises => .raises

/-- Where a point was before it was rotated about the axis `k` (of length one) by an angle with this cosine and sine. -/
def rotBack (k : Vec) (cos sin : ℝ) (p : Vec) : Vec :=
  ((p.smul cos).sub ((k.cross p).smul sin)).add (k.smul (k.dot p * (1 - cos)))

open Classical in
/-- `PyvistaShape.rotate` about the origin (src/pymcnp/_show/pyvista/_shape.py:70-86), by an angle between 0 and 180 degrees with this
cosine (and so this sine).  The mesh is rotated, `cell` is not. -/
noncomputable def Shape.rotate (s : Shape) (axis : Vec) (cos : ℝ) : Shape :=
  if cos ≠ 1 ∧ axis ≠ Vec.zero then
    { s with surface := s.surface.map fun f p => f (rotBack (axis.smul axis.norm⁻¹) cos (Real.sqrt (1 - cos ^ 2)) p) }
  else s

/-- `PyvistaShape.translate` (src/pymcnp/_show/pyvista/_shape.py:88-99) -/
def Shape.translate (s : Shape) (v : Vec) : Shape := ⟨s.surface.map fun f p => f (p.sub v), s.cell.map fun p => p.sub v⟩

open Classical in
/-- The centre of the square (src/pymcnp/_show/pyvista/Plane.py:22-35); dividing by zero raises. -/
noncomputable def planePoint (a b c d : ℝ) : Res Vec :=
  if c = 0 ∧ b = 0 then if a = 0 then .error .value else .ok ⟨d / a, 0, 0⟩
  else if c = 0 ∧ a = 0 then .ok ⟨0, d / b, 0⟩
  else if a = 0 ∧ b = 0 then .ok ⟨0, 0, d / c⟩
  else if a = 0 then .ok ⟨0, 0, d / c⟩
  else if b = 0 then .ok ⟨0, 0, d / c⟩
  else if c = 0 then .ok ⟨0, d / b, 0⟩
  else .ok ⟨0, 0, d⟩

/-- `Plane` (src/pymcnp/_show/pyvista/Plane.py:11-40).  (With the numbers of numpy, dividing by zero gives no exception but no point either.) -/
noncomputable def plane (a b c d : ℝ) : Res Shape :=
  match planePoint a b c d with
  | .error e => .error e
  | .ok q => .ok ⟨some fun p => Vec.dot ⟨a, b, c⟩ (p.sub q) = 0, .truth fun p => a * p.x + b * p.y + c * p.z - d > 0⟩

/-- `Sphere` (src/pymcnp/_show/pyvista/Sphere.py:11-19) -/
def sphere (r : ℝ) : Shape :=
  ⟨some fun p => p.x ^ 2 + p.y ^ 2 + p.z ^ 2 = r ^ 2, .truth fun p => ¬ (p.x ^ 2 + p.y ^ 2 + p.z ^ 2 ≤ r ^ 2)⟩

/-- `CylinderUnbounded` (src/pymcnp/_show/pyvista/CylinderUnbounded.py:11-22): the mesh is centred at the origin. -/
def cylinderUnbounded (r : ℝ) : Shape :=
  ⟨some fun p => p.x ^ 2 + p.y ^ 2 = r ^ 2 ∧ -(bound / 2) ≤ p.z ∧ p.z ≤ bound / 2, .truth fun p => p.x ^ 2 + p.y ^ 2 ≤ r ^ 2⟩

/-- `CylinderCircular` (src/pymcnp/_show/pyvista/CylinderCircular.py:11-20): the mesh is centred at the origin. -/
def cylinderCircular (h r : ℝ) : Shape :=
  ⟨some fun p => (p.x ^ 2 + p.y ^ 2 = r ^ 2 ∧ -(h / 2) ≤ p.z ∧ p.z ≤ h / 2) ∨ (p.x ^ 2 + p.y ^ 2 ≤ r ^ 2 ∧ (p.z = -(h / 2) ∨ p.z = h / 2)),
    .truth fun p => ¬ (p.z ≥ 0 ∧ p.z ≤ h ∧ p.x ^ 2 + p.y ^ 2 ≤ r ^ 2)⟩

/-- The faces of a box: within the bounds, and on one of them. -/
def faces (x0 x1 y0 y1 z0 z1 : ℝ) (p : Vec) : Prop :=
  (x0 ≤ p.x ∧ p.x ≤ x1 ∧ y0 ≤ p.y ∧ p.y ≤ y1 ∧ z0 ≤ p.z ∧ p.z ≤ z1) ∧
    (p.x = x0 ∨ p.x = x1 ∨ p.y = y0 ∨ p.y = y1 ∨ p.z = z0 ∨ p.z = z1)

/-- `Parallelipiped` (src/pymcnp/_show/pyvista/Parallelipiped.py:12-28) -/
def parallelipiped (x0 x1 y0 y1 z0 z1 : ℝ) : Shape :=
  ⟨some (faces x0 x1 y0 y1 z0 z1), .truth fun p => ¬ ((p.x ≥ x0 ∧ p.x ≤ x1) ∧ (p.y ≥ y0 ∧ p.y ≤ y1) ∧ (p.z ≥ z0 ∧ p.z ≤ z1))⟩

/-- `Box` (src/pymcnp/_show/pyvista/Box.py:12-25) -/
def box (a b c : ℝ) : Shape :=
  ⟨some (faces 0 a 0 b 0 c), .truth fun p => ¬ ((p.x ≥ 0 ∧ p.x ≤ a) ∧ (p.y ≥ 0 ∧ p.y ≤ b) ∧ (p.z ≥ 0 ∧ p.z ≤ c))⟩

/-- `ConeUnbounded` (src/pymcnp/_show/pyvista/ConeUnbounded.py:11-25): a segment from the origin is rotated about the third axis. -/
noncomputable def coneUnbounded (m sign : ℝ) : Shape :=
  ⟨some fun p => ∃ t, 0 ≤ t ∧ t ≤ 1 ∧ p.x ^ 2 + p.y ^ 2 = (t * bound) ^ 2 ∧ p.z = t * (bound * sign / m),
    .truth fun p => ¬ (p.x ^ 2 + p.y ^ 2 = sign * m ^ 2 * p.z ^ 2)⟩

/-- `ConeTruncated` (src/pymcnp/_show/pyvista/ConeTruncated.py:11-26): `~` binds closer than `&`. -/
noncomputable def coneTruncated (h r1 r2 : ℝ) : Shape :=
  ⟨some fun p => (p.x ^ 2 + p.y ^ 2 = (r1 + p.z / h * (r2 - r1)) ^ 2 ∧ 0 ≤ p.z ∧ p.z ≤ h) ∨ (p.x ^ 2 + p.y ^ 2 ≤ r1 ^ 2 ∧ p.z = 0) ∨
      (p.x ^ 2 + p.y ^ 2 ≤ r2 ^ 2 ∧ p.z = h),
    .truth fun p => ¬ (p.z ≤ h) ∧ p.z ≥ 0 ∧ p.x ^ 2 + p.y ^ 2 ≤ (r1 + p.z / h * (r2 - r1)) ^ 2⟩

/-- `Torus` (src/pymcnp/_show/pyvista/Torus.py:13-33): an ellipse is rotated about the third axis; `cell` gives numbers. -/
def torus (a b r : ℝ) : Shape :=
  ⟨some fun p => ∃ u v, u ^ 2 + v ^ 2 = 1 ∧ p.x ^ 2 + p.y ^ 2 = (a * u + r) ^ 2 ∧ p.z = b * v, .numbers⟩

/-- `Ellipsoid` (src/pymcnp/_show/pyvista/Ellipsoid.py:11-20) -/
noncomputable def ellipsoid (a b : ℝ) : Shape :=
  ⟨some fun p => (p.x / a) ^ 2 + (p.y / b) ^ 2 + (p.z / b) ^ 2 = 1, .truth fun p => (p.x / a) ^ 2 + (p.y / b) ^ 2 + (p.z / b) ^ 2 ≤ 1⟩

/-- `CylinderElliptical` (src/pymcnp/_show/pyvista/CylinderElliptical.py:11-24): the mesh reaches from `-h` to `h`. -/
noncomputable def cylinderElliptical (h a b : ℝ) : Shape :=
  ⟨some fun p => ((p.x / a) ^ 2 + (p.y / b) ^ 2 = 1 ∧ -h ≤ p.z ∧ p.z ≤ h) ∨ ((p.x / a) ^ 2 + (p.y / b) ^ 2 ≤ 1 ∧ (p.z = -h ∨ p.z = h)),
    .truth fun p => ¬ (p.z ≥ 0 ∧ p.z ≤ h ∧ (p.x / a) ^ 2 + (p.y / b) ^ 2 ≤ 1)⟩

/-- `CylinderHexagonal` (src/pymcnp/_show/pyvista/CylinderHexagonal.py:13-43) and `Wedge` (src/pymcnp/_show/pyvista/Wedge.py:11-33):
chained comparisons of arrays raise `ValueError`; the meshes are not modelled. -/
def chained : Shape := ⟨none, .raises⟩

/-- The surfaces of an input file with numbers as entries, in the order of their classes' attributes (`_ATTRS` of
src/pymcnp/inp/surface/*.py). -/
inductive Surf where
  | px (d : ℝ) | py (d : ℝ) | pz (d : ℝ)
  | p (a b c d : ℝ)
  | points (a b c : Vec)
  | so (r : ℝ) | s (c : Vec) (r : ℝ) | sx (x r : ℝ) | sy (y r : ℝ) | sz (z r : ℝ)
  | cx (r : ℝ) | cy (r : ℝ) | cz (r : ℝ)
  | c_x (y z r : ℝ) | c_y (x z r : ℝ) | c_z (x y r : ℝ)
  | kx (x t sign : ℝ) | ky (y t sign : ℝ) | kz (z t sign : ℝ)
  | k_x (c : Vec) (t sign : ℝ) | k_y (c : Vec) (t sign : ℝ) | k_z (c : Vec) (t sign : ℝ)
  | tx (c : Vec) (a b d : ℝ) | ty (c : Vec) (a b d : ℝ) | tz (c : Vec) (a b d : ℝ)
  | rpp (x0 x1 y0 y1 : ℝ) (z0 z1 : Option ℝ)
  | box (v a1 a2 a3 : Vec)
  | sph (v : Vec) (r : ℝ)
  | rcc (v h : Vec) (r : ℝ)
  | trc (v h : Vec) (r1 r2 : ℝ)
  | recc (v h v1 v2 : Vec)
  | ell (v1 v2 : Vec) (rm : ℝ)
  | rhp | wed | arb | gq | sq | xs | ys | zs

open Classical in
/-- A cone for the `k` surfaces (e.g. src/pymcnp/inp/surface/Kz.py:168): the root of a negative number is complex, which pyvista does not
take, and dividing by zero raises. -/
noncomputable def cone (t sign : ℝ) : Res Shape :=
  if t < 0 then .error .typeErr else if t = 0 then .error .value else .ok (coneUnbounded (Real.sqrt t) sign)

open Classical in
/-- `to_show` of the surfaces (src/pymcnp/inp/surface/*.py; the lines are given for each). -/
noncomputable def Surf.toShow : Surf → Res Shape
  /- Px.py:73-86, Py.py:73-86, Pz.py:73-86 -/
  | .px d => plane 1 0 0 d
  | .py d => plane 0 1 0 d
  | .pz d => plane 0 0 1 d
  /- P_0.py:196-209 -/
  | .p a b c d => plane a b c d
  /- P_1.py:570-587 -/
  | .points a b c =>
    let n := (b.sub a).cross (c.sub a)
    plane n.x n.y n.z (n.x * a.x + n.y * a.y + n.z * a.z)
  /- So.py:73-86, S.py:198-212, Sx.py:116-130, Sy.py:116-131, Sz.py:116-130 -/
  | .so r => .ok (sphere r)
  | .s c r => .ok ((sphere r).translate c)
  | .sx x r => .ok ((sphere r).translate ⟨x, 0, 0⟩)
  | .sy y r => .ok (((sphere r).rotate ⟨1, 0, 0⟩ 0).translate ⟨0, y, 0⟩)
  | .sz z r => .ok ((sphere r).translate ⟨0, 0, z⟩)
  /- Cx.py:75-89, Cy.py:75-89, Cz.py:73-86 -/
  | .cx r => .ok ((cylinderUnbounded r).rotate ⟨0, 1, 0⟩ 0)
  | .cy r => .ok ((cylinderUnbounded r).rotate ⟨1, 0, 0⟩ 0)
  | .cz r => .ok (cylinderUnbounded r)
  /- C_x.py:157-172, C_y.py:157-172, C_z.py:157-172 -/
  | .c_x y z r => .ok (((cylinderUnbounded r).rotate ⟨0, 1, 0⟩ 0).translate ⟨0, y, z⟩)
  | .c_y x z r => .ok (((cylinderUnbounded r).rotate ⟨1, 0, 0⟩ 0).translate ⟨x, 0, z⟩)
  | .c_z x y r => .ok (((cylinderUnbounded r).rotate ⟨0, 1, 0⟩ 0).translate ⟨x, y, 0⟩)
  /- Kx.py:157-172, Ky.py:157-172, Kz.py:157-171 -/
  | .kx x t sign => (cone t sign).map fun s => (s.rotate ⟨0, 1, 0⟩ 0).translate ⟨x, 0, 0⟩
  | .ky y t sign => (cone t sign).map fun s => (s.rotate ⟨1, 0, 0⟩ 0).translate ⟨0, y, 0⟩
  | .kz z t sign => (cone t sign).map fun s => s.translate ⟨0, 0, z⟩
  /- K_x.py:249-264, K_y.py:249-264, K_z.py:249-263 -/
  | .k_x c t sign => (cone t sign).map fun s => (s.rotate ⟨0, 1, 0⟩ 0).translate c
  | .k_y c t sign => (cone t sign).map fun s => (s.rotate ⟨1, 0, 0⟩ 0).translate c
  | .k_z c t sign => (cone t sign).map fun s => s.translate c
  /- Tx.py:291-306, Ty.py:291-306, Tz.py:291-305 -/
  | .tx c a b d => .ok (((torus b d a).rotate ⟨0, 1, 0⟩ 0).translate c)
  | .ty c a b d => .ok (((torus b d a).rotate ⟨1, 0, 0⟩ 0).translate c)
  | .tz c a b d => .ok ((torus b d a).translate c)
  /- Rpp.py:283-303: `float(None)` raises -/
  | .rpp x0 x1 y0 y1 (some z0) (some z1) => .ok (parallelipiped x0 x1 y0 y1 z0 z1)
  | .rpp _ _ _ _ _ _ => .error .typeErr
  /- Box.py:543-566 -/
  | .box v a1 a2 a3 =>
    .ok (((Show.box a1.norm a2.norm a3.norm).rotate ((Vec.mk 1 0 0).cross a1) (a1.x / a1.norm)).translate v)
  /- Sph.py:198-212 -/
  | .sph v r => .ok ((sphere r).translate v)
  /- Rcc.py:333-360 -/
  | .rcc v h r =>
    let s := cylinderCircular h.norm r
    let u := h.smul h.norm⁻¹
    let k := (Vec.mk 0 0 1).cross u
    .ok ((if h.norm > 0 ∧ k.norm > 1 / 10 ^ 10 then s.rotate k (max (-1) (min 1 u.z)) else s).translate v)
  /- Trc.py:375-395 -/
  | .trc v h r1 r2 => .ok (((coneTruncated h.norm r1 r2).rotate (h.cross ⟨0, 0, 1⟩) (h.z / h.norm)).translate v)
  /- Rec.py:537-560 -/
  | .recc v h v1 v2 => .ok (((cylinderElliptical h.norm v1.norm v2.norm).rotate (v.cross ⟨0, 0, 1⟩) (v.z / v.norm)).translate v)
  /- Ell.py:333-370: nothing is assigned for zero; the root of a negative number, which numpy takes for no number, is not modelled -/
  | .ell v1 v2 rm =>
    let w := v2.sub v1
    if rm > 0 then
      let s := ellipsoid rm (2 * Real.sqrt ((rm / 2) ^ 2 - (w.norm / 2) ^ 2))
      .ok ((if w.norm ≠ 0 then s.rotate (w.cross ⟨1, 0, 0⟩) (w.x / w.norm) else s).translate ⟨w.x / 2 + v1.x, w.y / 2 + v1.y, w.z / 2 + v1.z⟩)
    else if rm < 0 then .ok (((ellipsoid v2.norm (-rm)).rotate (v2.cross ⟨1, 0, 0⟩) (v2.x / v2.norm)).translate v1)
    else .error .name
  /- Rhp.py:652-679, Wed.py:543-566 -/
  | .rhp => .ok chained
  | .wed => .ok chained
  /- no such method in Arb.py, Gq.py, Sq.py, X.py, Y.py, Z.py -/
  | .arb | .gq | .sq | .xs | .ys | .zs => .error .attribute

end Show
