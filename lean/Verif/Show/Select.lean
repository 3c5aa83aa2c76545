import Verif.Show.Cells
/-!
# Drawing some of the cells and surfaces

Models the drawings of selected cells and surfaces (src/pymcnp/Visualize.py:80-151).
-/
namespace Show
open Py Types

/-- The loop of `Visualize.to_show_cell` (src/pymcnp/Visualize.py:112-128): every cell is put together, those that are listed are drawn. The
first list has the cells put together so far, the second those that are drawn. -/
def drawListed (surf : Str → Option Region) (listed : Str → Bool) :
    List CellItem → List (Str × Region) → List (Str × Region) → Res (List (Str × Region))
  | [], _, drawn => .ok drawn
  | .comment :: l, done, drawn => drawListed surf listed l done drawn
  | .cell n g _ :: l, done, drawn =>
    match region surf (dictGet done) g with
    | .error e => .error e
    | .ok a =>
      if listed n then
        match a.eval with
        | .error e => .error e
        | .ok a => drawListed surf listed l (done ++ [(n, a)]) (drawn ++ [(n, a)])
      else drawListed surf listed l (done ++ [(n, a)]) drawn
  | .like n b _ :: l, done, drawn =>
    match dictGet done b with
    | none => .error .key
    | some a =>
      if listed n then
        match a.eval with
        | .error e => .error e
        | .ok a => drawListed surf listed l (done ++ [(n, a)]) (drawn ++ [(n, a)])
      else drawListed surf listed l (done ++ [(n, a)]) drawn

/-- `Visualize.to_show_cell` (src/pymcnp/Visualize.py:98-130), with the test whether a number is listed. -/
noncomputable def showListed (surfs : List (Str × Option Nat × Surf)) (items : List CellItem) (listed : Str → Bool) : Res (List (Str × Region)) :=
  match surfaceDict surfs with
  | .error e => .error e
  | .ok d => drawListed (dictGet d) listed items [] []

/-- `str(cell.number) not in number` for a list or tuple of texts (src/pymcnp/Visualize.py:122, 148) -/
def inList (l : List Str) (n : Str) : Bool := l.contains n

/-- The same for a text: the number is looked for within it. -/
def inText (t : Str) (n : Str) : Bool := t.tails.any fun u => n.isPrefixOf u

/-- The loops of `Visualize.to_show_surfaces` and `to_show_surface` (src/pymcnp/Visualize.py:80-96, 132-151), with the test whether a surface is
drawn: the numbers and the meshes.  That pyvista can draw the mesh is taken for granted. -/
noncomputable def showSurfaces (keep : Str → Bool) : List (Str × Option Nat × Surf) → Res (List (Str × Option (Vec → Prop)))
  | [] => .ok []
  | (n, _, s) :: l =>
    if keep n then
      match s.toShow with
      | .error e => .error e
      | .ok a =>
        match showSurfaces keep l with
        | .error e => .error e
        | .ok d => .ok ((n, a.surface) :: d)
    else showSurfaces keep l

end Show
