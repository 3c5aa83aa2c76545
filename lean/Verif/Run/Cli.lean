import Verif.Outp.File
import Verif.Py.Str
/-!
# Files written by the command line

The files of a system are the list of their paths and contents (the first entry counts).  Simplifications: paths are compared as
texts; every directory can be written to; the environment variable `PYTEST_CURRENT_TEST` is not set; what pandas makes of a table
is given by a function.
-/
namespace Cli
open Py Outp

/-- `s.rsplit('.', maxsplit=1)[0]`, when there is a point. -/
def beforeDot : Str → Option Str
  | [] => none
  | c :: s =>
    match beforeDot s with
    | some p => some (c :: p)
    | none => if c = '.' then some [] else none

/-- `f"{i:05}"` for a text: filled with zeros on the right (Python 3.10 and later; pyproject.toml:16). -/
def fmt5 (s : Str) : Str := s ++ List.replicate (5 - s.length) '0'

/-- `f"-{i:05}" if i else ""` (_cli/_io.py:11) -/
def suffix : Option Str → Str
  | none => []
  | some s => if s = [] then [] else '-' :: fmt5 s

/-- `_io.get_outfile(path, ext, i)` (_cli/_io.py:7-11): without a point the unpacking raises `ValueError`. The commands give `i` as a
text (_cli/convert.py:52-54, _cli/visualize.py). -/
def getOutfile (path ext : Str) (i : Option Str) : Res Str :=
  match beforeDot path with
  | none => .error .value
  | some p => .ok (p ++ suffix i ++ '.' :: ext)

/-- The file of `pymcnp convert <outp> <number> --csv` (_cli/convert.py:52) -/
def convertFile (path number : Str) : Res Str := getOutfile path c!"csv" (some number)

/-- The file of `pymcnp plot <outp> <number> --pdf` (_cli/plot.py:41) -/
def plotFile (path : Str) (_number : Str) : Res Str := getOutfile path c!"pdf" none

/-- The files. -/
abbrev World := List (Str × Str)

/-- The contents of a file. -/
def World.get (w : World) (p : Str) : Option Str := (w.find? fun x => x.1 == p).map (·.2)

/-- Writing a file. -/
def World.put (w : World) (p s : Str) : World := (p, s) :: w

/-- `tallies[number]` -/
def lookup (d : List (Str × Table)) (n : Str) : Option Table := (d.find? fun x => x.1 == n).map (·.2)

/-- `Convert.to_csv` (Convert.py:33-46; `to_parquet`, 48-61, is the same with another conversion): the file is opened, which empties
it, before the tally is looked up. -/
def toCsv (conv : Table → Str) (f : Outp.File) (number path : Str) (w : World) : Res Unit × World :=
  match tables f.blocks [] with
  | .error e => (.error e, w)
  | .ok d =>
    let w := w.put path []
    match lookup d number with
    | none => (.error .key, w)
    | some t => (.ok (), w.put path (conv t))

/-- `File.to_file` (_file.py:34-43), given what `to_mcnp` gives: the text is made before the file is opened. -/
def toFile (text : Res Str) (path : Str) (w : World) : Res Unit × World :=
  match text with
  | .error e => (.error e, w)
  | .ok s => (.ok (), w.put path s)

/-- `File.from_file` (_file.py:14-32) -/
def fromFile {α : Type} (parse : Str → Res α) (path : Str) (w : World) : Res α :=
  match w.get path with
  | none => .error .cli
  | some s => parse s

/-- `Check.fix` (Check.py:48-56) -/
def fix {α : Type} (parse : Str → Res α) (print : α → Res Str) (path : Str) (w : World) : Res Unit × World :=
  match fromFile parse path w with
  | .error e => (.error e, w)
  | .ok x => toFile (print x) path w

end Cli
