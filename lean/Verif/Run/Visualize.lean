import Verif.Run.Cli
import Verif.Py.Str
/-!
# The command `pymcnp visualize`

The command after its arguments are read (docopt is not modelled) and the input file is read.
-/
namespace Cli
open Py

/-- What is drawn: all cells or surfaces but those left out, or those that are listed (src/pymcnp/Visualize.py:52-151). -/
inductive Drawing where
  | cells (skip : List Int)
  | surfaces (skip : List Int)
  | cell (numbers : List Str)
  | surface (numbers : List Str)
deriving DecidableEq

/-- What the command does: opens a window or writes a file. -/
inductive Act where
  | window (d : Drawing)
  | pdf (d : Drawing) (path : Str)
deriving DecidableEq

/-- The options (src/pymcnp/_cli/visualize.py:5-12): flags, and for each of the others the texts given. -/
structure VArgs where
  cells : Bool
  surfaces : Bool
  cellsSkip : List Str
  surfacesSkip : List Str
  cell : List Str
  surface : List Str
  pdf : Bool

/-- `int(text)`: blanks, a sign and digits.  Underlines between digits are not modelled. -/
def intText (t : Str) : Res Int :=
  let digits (s : Str) : Res Nat := if s ≠ [] ∧ s.all isDigit then .ok (strNat s) else .error .value
  match strip t with
  | '-' :: s => (digits s).map fun n => -(n : Int)
  | '+' :: s => (digits s).map fun n => (n : Int)
  | s => (digits s).map fun n => (n : Int)

/-- `tuple(map(int, number.split(',')))` (src/pymcnp/_cli/visualize.py:76, 87) -/
def intTexts (t : Str) : Res (List Int) := (splitC ',' t).mapM intText

/-- `visualize.to_show_…(…)`, then `plot.show()`; `can` tells whether the drawing can be made. -/
def window (can : Drawing → Res Unit) (d : Drawing) (acts : List Act) : List Act × Res Unit :=
  match can d with
  | .error e => (acts, .error e)
  | .ok () => (acts ++ [.window d], .ok ())

/-- `visualize.to_pdf_…(…)`; the name of the file is made first. -/
def topdf (can : Drawing → Res Unit) (d : Drawing) (name : Res Str) (acts : List Act) : List Act × Res Unit :=
  match name with
  | .error e => (acts, .error e)
  | .ok p =>
    match can d with
    | .error e => (acts, .error e)
    | .ok () => (acts ++ [.pdf d p], .ok ())

/-- Doing one thing after the other, until one fails. -/
def andThen (f g : List Act → List Act × Res Unit) (acts : List Act) : List Act × Res Unit :=
  match f acts with
  | (acts, .error e) => (acts, .error e)
  | (acts, .ok ()) => g acts

/-- A loop over texts. -/
def forEach (f : Str → List Act → List Act × Res Unit) : List Str → List Act → List Act × Res Unit
  | [], acts => (acts, .ok ())
  | t :: l, acts => andThen (f t) (forEach f l) acts

/-- `f'cell_{number}'` for the list of texts: the representation of a list (src/pymcnp/_cli/visualize.py:101).  Quotes and backslashes in
the texts are not modelled. -/
def listRepr (l : List Str) : Str :=
  '[' :: ((l.map fun s => '\'' :: s ++ ['\'']).intersperse c!", ").flatten ++ [']']

/-- The step for `--cells` (src/pymcnp/_cli/visualize.py:57-64) -/
def stepCells (can : Drawing → Res Unit) (path : Str) (a : VArgs) (acts : List Act) : List Act × Res Unit :=
  if a.cells then
    if a.pdf then topdf can (.cells []) (getOutfile path c!"pdf" (some c!"cells")) acts else window can (.cells []) acts
  else (acts, .ok ())

/-- The step for `--surfaces` (src/pymcnp/_cli/visualize.py:66-73) -/
def stepSurfaces (can : Drawing → Res Unit) (path : Str) (a : VArgs) (acts : List Act) : List Act × Res Unit :=
  if a.surfaces then
    if a.pdf then topdf can (.surfaces []) (getOutfile path c!"pdf" (some c!"surfaces")) acts else window can (.surfaces []) acts
  else (acts, .ok ())

/-- The loop for `--cells-skip` (src/pymcnp/_cli/visualize.py:75-84): the file gets all cells. -/
def stepCellsSkip (can : Drawing → Res Unit) (path : Str) (pdf : Bool) (t : Str) (acts : List Act) : List Act × Res Unit :=
  match intTexts t with
  | .error e => (acts, .error e)
  | .ok l => if pdf then topdf can (.cells []) (getOutfile path c!"pdf" (some c!"cells")) acts else window can (.cells l) acts

/-- The loop for `--surfaces-skip` (src/pymcnp/_cli/visualize.py:86-95): the file gets all surfaces. -/
def stepSurfacesSkip (can : Drawing → Res Unit) (path : Str) (pdf : Bool) (t : Str) (acts : List Act) : List Act × Res Unit :=
  match intTexts t with
  | .error e => (acts, .error e)
  | .ok l => if pdf then topdf can (.surfaces []) (getOutfile path c!"pdf" (some c!"surfaces")) acts else window can (.surfaces l) acts

/-- The loop for `--cell` (src/pymcnp/_cli/visualize.py:97-106): the window is opened also when a file was written, for a `plot` that is not
assigned with `--pdf`. -/
def stepCell (can : Drawing → Res Unit) (path : Str) (pdf : Bool) (t : Str) (acts : List Act) : List Act × Res Unit :=
  let l := splitC ',' t
  if pdf then
    andThen (topdf can (.cell l) (getOutfile path c!"pdf" (some (c!"cell_" ++ listRepr l)))) (fun acts => (acts, .error .name)) acts
  else window can (.cell l) acts

/-- The loop for `--surface` (src/pymcnp/_cli/visualize.py:108-117): with `--pdf` it calls `to_pdf_cells` with two arguments, which takes one. -/
def stepSurface (can : Drawing → Res Unit) (path : Str) (pdf : Bool) (t : Str) (acts : List Act) : List Act × Res Unit :=
  let l := splitC ',' t
  if pdf then
    match getOutfile path c!"pdf" (some (c!"surface_" ++ listRepr l)) with
    | .error e => (acts, .error e)
    | .ok _ => (acts, .error .typeErr)
  else window can (.surface l) acts

/-- `pymcnp visualize` after the input file is read (src/pymcnp/_cli/visualize.py:51-122): what it did, and how it ended. -/
def visualize (can : Drawing → Res Unit) (path : Str) (args : VArgs) : List Act × Res Unit :=
  let a : VArgs :=
    if args.cellsSkip = [] ∧ args.surfacesSkip = [] ∧ ¬ args.cells ∧ ¬ args.surfaces ∧ args.cell = [] ∧ args.surface = [] then
      { args with cells := true, surfaces := true }
    else args
  andThen (stepCells can path a) (andThen (stepSurfaces can path a) (andThen (forEach (stepCellsSkip can path a.pdf) a.cellsSkip)
    (andThen (forEach (stepSurfacesSkip can path a.pdf) a.surfacesSkip) (andThen (forEach (stepCell can path a.pdf) a.cell)
      (forEach (stepSurface can path a.pdf) a.surface))))) []

end Cli
