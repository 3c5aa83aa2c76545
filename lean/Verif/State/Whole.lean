import Verif.State.Cell
import Verif.Inp.File
import Verif.Inp.DataUnion
/-!
# Whole input files

Puts together the cutting of a file into lines (`Verif/Inp/File.lean`), the unions of cards
(src/pymcnp/Inp.py:10-165) and the check of the cells (`setCells`).
-/
namespace State
open Py Types Inp

/-- The classes of `Cell` in the order of the union (src/pymcnp/Inp.py:10). -/
def cellCards : List Cls := [Tab.Cell, Tab.Like, Tab.Comment]

/-- The classes of `Surface` in the order of the union (src/pymcnp/Inp.py:11). -/
def surfaceCards : List Cls := [Tab.Surface, Tab.Comment]

/-- `Union.from_mcnp` of card classes (src/pymcnp/types/Union.py:28-50), without the comments of the card: they
are not printed. -/
def unionRead (cs : List Cls) (s : Str) : Res Val := (cardUnion cs s).map (·.1)

/-- An input file whose blocks are cards. -/
abbrev File := InpFile Val Val Val

/-- `Inp.from_mcnp` (src/pymcnp/Inp.py:209-244) with the constructor (src/pymcnp/Inp.py:202-207): the title is
checked, then the cells (src/pymcnp/Inp.py:384-428).  The setters of surfaces, data, message and trailing text keep what
the reader made. -/
def inpRead (s : Str) : Res File :=
  match fileRead (unionRead cellCards) (unionRead surfaceCards) (unionRead dataCards) s with
  | .error e => .error e
  | .ok f =>
    match setCells none (some (f.cells.map .obj)) with
    | .error e => .error e
    | .ok cs => .ok { f with cells := cs }

/-- `Inp.to_mcnp` (src/pymcnp/Inp.py:246-270). -/
def inpPrint (f : File) : Str := filePrint Val.str Val.str Val.str f

end State
