import Verif.Show.Shape
import Verif.Types.Geometry
/-!
# Drawing cells

Models how the regions of cells are put together from the shapes of surfaces (src/pymcnp/types/Geometry.py, src/pymcnp/Visualize.py:52-78).  What
pyvista makes of a region is not modelled.
-/
namespace Show
open Py Types

/-- `a & b` (src/pymcnp/_show/pyvista/_shape.py:31-44): arrays of numbers have no `&`. -/
def Region.inter : Region → Region → Region
  | .truth f, .truth g => .truth fun p => f p ∧ g p
  | _, _ => .raises

/-- `a | b` (src/pymcnp/_show/pyvista/_shape.py:46-58) -/
def Region.union : Region → Region → Region
  | .truth f, .truth g => .truth fun p => f p ∨ g p
  | _, _ => .raises

/-- `~a` (src/pymcnp/_show/pyvista/_shape.py:60-68) -/
def Region.invert : Region → Region
  | .truth f => .truth fun p => ¬ f p
  | _ => .raises

/-- `to_show` of geometries (src/pymcnp/types/Geometry.py:75-87, 167-179, 247-272, 335-347, 407-422), for the `cell` of the shapes. -/
def region (surf cells : Str → Option Region) : Ast → Res Region
  | .inter l r =>
    match region surf cells l, region surf cells r with
    | .error e, _ => .error e
    | _, .error e => .error e
    | .ok a, .ok b => .ok (a.inter b)
  | .union l r =>
    match region surf cells l, region surf cells r with
    | .error e, _ => .error e
    | _, .error e => .error e
    | .ok a, .ok b => .ok (a.union b)
  | .unary .plus e => region surf cells e
  | .unary .minus e => (region surf cells e).map Region.invert
  | .unary .hash (.digit d) =>
    match cells d with
    | some a => .ok a
    | none => match surf d with
      | some a => .ok a
      | none => .error .types
  | .unary .hash e => (region surf cells e).map Region.invert
  | .paren e => region surf cells e
  | .digit d =>
    match surf d with
    | some a => .ok a
    | none => .error .types

/-- `{str(surface.number): surface.to_show() for …}` (src/pymcnp/Visualize.py:60): a surface that cannot be drawn raises; `Surface.to_show`
(src/pymcnp/inp/Surface.py:71-79) does not look at the transformation of the surface, the second entry. -/
noncomputable def surfaceDict : List (Str × Option Nat × Surf) → Res (List (Str × Region))
  | [] => .ok []
  | (n, _, s) :: l =>
    match s.toShow with
    | .error e => .error e
    | .ok a =>
      match surfaceDict l with
      | .error e => .error e
      | .ok d => .ok ((n, a.cell) :: d)

/-- Looking up a dictionary made from pairs: the last one counts. -/
def dictGet (d : List (Str × Region)) (n : Str) : Option Region := (d.reverse.find? fun x => x.1 == n).map (·.2)

/-- An item of the block of cells; the last entry is the transformation of the cell (`trcl`), if there is one. -/
inductive CellItem where
  | cell (number : Str) (g : Ast) (trcl : Option Nat)
  | like (number base : Str) (trcl : Option Nat)
  | comment

/-- `shape.cell(grid.points).astype(numpy.float32)` (src/pymcnp/Visualize.py:74): numbers will do. -/
def Region.eval : Region → Res Region
  | .raises => .error .typeErr
  | a => .ok a

/-- The loop over the cells (src/pymcnp/Visualize.py:63-76), with the cells that are skipped: the numbers and regions that are drawn, in
order.  `Cell.to_show` (src/pymcnp/inp/Cell.py:74-86) looks at the geometry only. -/
def drawCells (surf : Str → Option Region) (skip : Str → Bool) : List CellItem → List (Str × Region) → Res (List (Str × Region))
  | [], done => .ok done
  | .comment :: l, done => drawCells surf skip l done
  | .cell n g _ :: l, done =>
    if skip n then drawCells surf skip l done
    else
      match region surf (dictGet done) g with
      | .error e => .error e
      | .ok a =>
        match a.eval with
        | .error e => .error e
        | .ok a => drawCells surf skip l (done ++ [(n, a)])
  | .like n b _ :: l, done =>
    if skip n then drawCells surf skip l done
    else
      match dictGet done b with
      | none => .error .key
      | some a =>
        match a.eval with
        | .error e => .error e
        | .ok a => drawCells surf skip l (done ++ [(n, a)])

/-- `Visualize.to_show_cells` (src/pymcnp/Visualize.py:52-78) -/
noncomputable def showCells (surfs : List (Str × Option Nat × Surf)) (items : List CellItem) (skip : Str → Bool) : Res (List (Str × Region)) :=
  match surfaceDict surfs with
  | .error e => .error e
  | .ok d => drawCells (dictGet d) skip items []

end Show
