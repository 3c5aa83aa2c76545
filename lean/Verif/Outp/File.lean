import Verif.Outp.Tally
import Verif.Py.Float
/-!
# Output files

`Outp.from_mcnp` (Outp.py:49-94) cuts a file into pieces and reads every piece with the first block class that accepts it; a
piece no class accepts is dropped.  `\d` is a decimal digit (0-9), as everywhere in this model.
-/
namespace Outp
open Py Ptrac

/-- One after the other. -/
def cat : List Re → Re
  | [] => .eps
  | r :: rs => .seq r (cat rs)

/-- `\s+` -/
def ws : Re := Re.plus true Re.space
/-- `\s+?` -/
def wsLazy : Re := Re.plus false Re.space

/-- The five lines of the logo (outp/Header.py:20): `\s+` stands between the strokes. -/
def logoRe : Re := cat [
  cat [ws, litC c!"_/", ws, litC c!"_/", ws, litC c!"_/_/_/", ws, litC c!"_/", ws, litC c!"_/", ws, litC c!"_/_/_/", ws, litC c!"_/_/_/",
    .opt true (Re.chr ' '), Re.chr '\n'],
  cat [ws, litC c!"_/_/  _/_/", ws, litC c!"_/", ws, litC c!"_/_/", ws, litC c!"_/", ws, litC c!"_/", ws, litC c!"_/", ws, litC c!"_/",
    wsLazy, Re.chr '\n'],
  cat [ws, litC c!"_/  _/  _/", ws, litC c!"_/", ws, litC c!"_/  _/  _/", ws, litC c!"_/_/_/", ws, litC c!"_/_/_/", wsLazy, Re.chr '\n'],
  cat [litC c!"  _/", ws, litC c!"_/", ws, litC c!"_/", ws, litC c!"_/", ws, litC c!"_/_/", ws, litC c!"_/", ws, litC c!"_/", ws, litC c!"_/",
    wsLazy, Re.chr '\n'],
  cat [litC c!" _/", ws, litC c!"_/", ws, litC c!"_/_/_/", ws, litC c!"_/", ws, litC c!"_/", ws, litC c!"_/", ws, litC c!"_/_/", wsLazy,
    Re.chr '\n']]

/-- A rule of the box: `  [+]---...(?:--)?[+]\n` (outp/Header.py:22) -/
def ruleRe : Re :=
  cat [litC c!"  +---------------------------------------------------------------------", .opt true (litC c!"--"), litC c!"+\n"]

/-- The box (outp/Header.py:22) -/
def boxRe : Re := cat [ruleRe, Re.plus true dotLine, ruleRe]

/-- `Header._REGEX` between its anchors (outp/Header.py:17-24) -/
def headerRe : Re :=
  cat [ws, litC c!"Code Name & Version = ", .grp 1 (Re.plus true .dot), litC c!"\n  \n", .grp 2 logoRe, litC c!"  \n", .grp 3 boxRe,
    litC c!"  \n"]

/-- The header of a file (outp/Header.py:49-51) -/
structure Header where
  name : Str
  logo : Str
  box : Str
deriving DecidableEq

/-- `Header.from_mcnp` (outp/Header.py:54-82) -/
def headerParse (s : Str) : Res Header :=
  match reMatch (whole headerRe) s with
  | none => .error .outp
  | some m => .ok ⟨tok m 1, tok m 2, tok m 3⟩

/-- `Header.to_mcnp` (outp/Header.py:92-98) -/
def Header.str (h : Header) : Str :=
  c!"          Code Name & Version = " ++ h.name ++ c!"\n  \n" ++ h.logo ++ c!"  \n" ++ h.box ++ c!"  \n"

/-- The block classes without subtallies. -/
inductive PlainKind where
  | mcnp | neutron | photon | fluctuation | summary | mcrun | density
deriving DecidableEq

/-- The tally classes. -/
inductive TallyKind where
  | t1A | t1B | t2 | t4 | t8A | t8B
deriving DecidableEq

/-- The tables of a class. -/
def PlainKind.table : PlainKind → BlockDef
  | .mcnp => Outp.mcnp
  | .neutron => neutronActivity
  | .photon => photonActivity
  | .fluctuation => analysisTallyFluctuation
  | .summary => problemSummary
  | .mcrun => startingMcrun
  | .density => unnormedTallyDensity

/-- The tables of a tally class. -/
def TallyKind.table : TallyKind → TallyDef
  | .t1A => tally1A
  | .t1B => tally1B
  | .t2 => tally2
  | .t4 => tally4
  | .t8A => tally8A
  | .t8B => tally8B

/-- The classes of blocks. -/
inductive Kind where
  | header
  | plain (k : PlainKind)
  | tally (k : TallyKind)
deriving DecidableEq

/-- A block of one of the classes. -/
inductive Block where
  | header (h : Header)
  | plain (k : PlainKind) (b : List Str)
  | tally (k : TallyKind) (t : Tally)
deriving DecidableEq

/-- `outp.Block.__subclasses__()`: the classes in the order of their definition (outp/__init__.py:1-16; `Tally_8.py` is not
imported). -/
def classes : List Kind :=
  [.header, .plain .mcnp, .plain .neutron, .plain .photon, .plain .fluctuation, .plain .summary, .plain .mcrun, .tally .t1A, .tally .t1B,
    .tally .t2, .tally .t4, .tally .t8A, .tally .t8B, .plain .density]

/-- `subclass.from_mcnp(subsource)` -/
def readAs : Kind → Str → Res Block
  | .header, s => (headerParse s).map .header
  | .plain k, s => (blockParse k.table s).map (.plain k)
  | .tally k, s => (tallyParse k.table s).map (.tally k)

/-- `str(block)` -/
def Block.str : Block → Str
  | .header h => h.str
  | .plain k b => blockStr k.table b
  | .tally k t => t.str k.table

/-- The first class that reads the text (Outp.py:77-84; any exception means the next class). -/
def readBlock (s : Str) : Option Block := classes.findSome? fun k => (readAs k s).toOption

/-- `tokens[0]` and the rest of `re.split(r'(\n\d)', source)` (Outp.py:61-65): the text before the first line that begins with a
digit, and the text from the end of the line before. -/
def cutDigit : Str → Option (Str × Str)
  | [] => none
  | c :: s =>
    match c, s with
    | '\n', d :: t => if isDigit d then some ([], '\n' :: d :: t) else (cutDigit s).map fun p => ('\n' :: p.1, p.2)
    | _, _ => (cutDigit s).map fun p => (c :: p.1, p.2)

/-- `re.split(r'\n1', text)` (Outp.py:71) -/
def splitOne : Str → List Str
  | [] => [[]]
  | '\n' :: '1' :: s => [] :: splitOne s
  | c :: s =>
    match splitOne s with
    | [] => [[c]]
    | p :: ps => (c :: p) :: ps

/-- An output file (Outp.py:46-47) -/
structure File where
  header : Header
  blocks : List Block
deriving DecidableEq

/-- The blocks of the text after the header (Outp.py:69-88) -/
def readBlocks (t : Str) : List Block := (splitOne t).filterMap fun p => if p = [] then none else readBlock ('1' :: p)

/-- `Outp.from_mcnp` (Outp.py:49-94) -/
def outpParse (s : Str) : Res File :=
  match cutDigit s with
  | some (a, t) => (headerParse (a ++ ['\n'])).map fun h => ⟨h, readBlocks t⟩
  | none => (headerParse s).map fun h => ⟨h, []⟩

/-- `'\n'.join(...)` -/
def joinLines : List Str → Str
  | [] => []
  | [s] => s
  | s :: t => s ++ '\n' :: joinLines t

/-- `Outp.to_mcnp` (Outp.py:96-104) -/
def File.str (f : File) : Str := f.header.str ++ joinLines (f.blocks.map Block.str)

/-- A row of a table: the line it comes from, its numbers `bins`, `counts`, `errors` (outp/tally/subtally/Line.py:97-103), and what the
subtally adds. -/
structure Row where
  line : TLine
  cells : List DecVal
  place : List Str
deriving DecidableEq

/-- `Line.to_dataframe` (outp/tally/subtally/Line.py:89-103): `float` of the three texts; `none` is `ValueError`. -/
def TLine.cells (l : TLine) : Option (List DecVal) :=
  match floatParse l.bucket, floatParse l.count, floatParse l.error with
  | some b, some c, some e => some [b, c, e]
  | _, _, _ => none

/-- The attributes a subtally adds to its rows (outp/tally/Subtally_4.py:104, Subtally_2.py:104, Subtally_1.py:121-123) -/
def Sub.place (k : TallyKind) (x : Sub) : List Str :=
  match k with
  | .t1A | .t1B => [strip (x.vals.getD 0 []), strip (x.vals.getD 1 []), strip (x.vals.getD 2 [])]
  | _ => [strip (x.vals.getD 0 [])]

/-- The rows of lines, in order; the first text that is not a number raises `ValueError`. -/
def lineRows (place : List Str) : List TLine → Res (List Row)
  | [] => .ok []
  | l :: ls =>
    match l.cells with
    | none => .error .value
    | some c =>
      match lineRows place ls with
      | .error e => .error e
      | .ok rs => .ok (⟨l, c, place⟩ :: rs)

/-- `to_dataframe` of a subtally (outp/tally/Subtally_4.py:95-105): `pandas.concat` raises `ValueError` when there is nothing to concatenate. -/
def Sub.rows (k : TallyKind) (x : Sub) : Res (List Row) :=
  if x.lines = [] then .error .value else lineRows (x.place k) x.lines

/-- A table: the rows, and what is the same in every row (number, type, particles, nps; outp/Tally_8A.py:208-213) -/
structure Table where
  rows : List Row
  common : List Str
deriving DecidableEq

/-- `to_dataframe` of a tally -/
def Tally.table (k : TallyKind) (t : Tally) : Res Table := do
  let rs ← t.subs.mapM (Sub.rows k)
  if rs = [] then .error .value
  else .ok ⟨rs.flatten, [strip (t.vals.getD 0 []), strip (t.vals.getD 2 []), strip (t.vals.getD 3 []), strip (t.vals.getD 1 [])]⟩

/-- `d[key] = value` on the items of a dictionary, in order. -/
def insert {β : Type} (d : List (Str × β)) (k : Str) (v : β) : List (Str × β) :=
  if d.any (fun p => p.1 == k) then d.map fun p => if p.1 == k then (k, v) else p else d ++ [(k, v)]

/-- `Outp.to_dataframe` (Outp.py:106-120): the tables by number. -/
def tables : List Block → List (Str × Table) → Res (List (Str × Table))
  | [], d => .ok d
  | .tally k t :: bs, d => do
    let x ← t.table k
    tables bs (insert d (strip (t.vals.getD 0 [])) x)
  | _ :: bs, d => tables bs d

end Outp
