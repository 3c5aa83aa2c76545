import Verif.Show.Shape
/-!
# The grid on which cells are sampled

Models `Visualize._grid` (src/pymcnp/Visualize.py:38-50), over the real numbers.  `pyvista.ImageData` has the points `origin + (i, j, k) * spacing`
for `i`, `j`, `k` below its dimensions.
-/
namespace Show

/-- `surfaces.bounds`: the least and the greatest coordinates of what is drawn. -/
structure Bounds where
  x0 : ℝ
  x1 : ℝ
  y0 : ℝ
  y1 : ℝ
  z0 : ℝ
  z1 : ℝ

/-- `RESOLUTION` (src/pymcnp/_show/pyvista/_shape.py:10) -/
def resolution : Nat := 256

/-- `spacing` (src/pymcnp/Visualize.py:44-48) -/
noncomputable def Bounds.spacing (b : Bounds) : Vec :=
  ⟨(b.x1 - b.x0) / resolution, (b.y1 - b.y0) / resolution, (b.z1 - b.z0) / resolution⟩

/-- `origin` (src/pymcnp/Visualize.py:49) -/
noncomputable def Bounds.origin (b : Bounds) : Vec := ⟨-(b.x1 - b.x0) / 2, -(b.y1 - b.y0) / 2, -(b.z1 - b.z0) / 2⟩

/-- The points of the grid (src/pymcnp/Visualize.py:42-50). -/
def Bounds.Sample (b : Bounds) (p : Vec) : Prop :=
  ∃ i j k : Nat, (i < resolution ∧ j < resolution ∧ k < resolution) ∧
    p = ⟨b.origin.x + i * b.spacing.x, b.origin.y + j * b.spacing.y, b.origin.z + k * b.spacing.z⟩

end Show
