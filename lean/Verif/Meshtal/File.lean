import Verif.Ptrac.Line
import Verif.Inp.Card
import Verif.Types.Lazy
import Verif.Py.Lit
import Verif.Py.Tmpl
/-!
# MESHTAL files

`meshtal/Tally.py`, `meshtal/Header.py` and `Meshtal.py`.  Texts (`types/String.py`) accept every text and print it
unchanged (types/String.py:42-67), so they are modelled as texts.
-/
namespace Meshtal
open Py Types Ptrac

/-! ## Rows -/

/-- `(.{w})?` for the widths `ws` with groups numbered from `n`, then `r`. -/
def optFields : Nat → List Nat → Re → Re
  | _, [], r => r
  | n, w :: ws, r => .seq (.opt true (.grp n (Re.rep w .dot))) (optFields (n + 1) ws r)

/-- `Tally._REGEX` without its anchors (meshtal/Tally.py:23); `[^\n]` is the class of `.`. -/
def rowBody : Re :=
  .seq (Re.chr ' ') (.seq (Re.chr ' ')
    (optFields 1 [9, 11, 9, 10, 10] (.seq (fieldsRe 6 [12, 12]) (.opt true (Re.chr '\n')))))

/-- `Tally._REGEX` (meshtal/Tally.py:23) -/
def rowRe : Re := .seq .bos (.seq rowBody .eos)

/-- A `Tally` object (meshtal/Tally.py:25-60). -/
structure Row where
  energy : Option Str
  time : Option Str
  x : Option Str
  y : Option Str
  z : Option Str
  result : Str
  error : Str
deriving DecidableEq, Repr

/-- `types.String.from_mcnp(tokens[n]) if tokens[n] else None` (meshtal/Tally.py:77-81) -/
def optTok (m : List (Nat × Str)) (n : Nat) : Option Str :=
  match cap m n with
  | none => none
  | some s => if s = [] then none else some s

/-- `Tally.from_mcnp` (meshtal/Tally.py:62-93) -/
def rowParse (s : Str) : Res Row :=
  match reMatch rowRe s with
  | none => .error .meshtal
  | some m => .ok ⟨optTok m 1, optTok m 2, optTok m 3, optTok m 4, optTok m 5, tok m 6, tok m 7⟩

/-- `x if x is not None else ""` -/
def orBlank : Option Str → Str
  | none => []
  | some s => s

/-- `Tally.to_mcnp` (meshtal/Tally.py:95-103) -/
def Row.str (t : Row) : Str :=
  ' ' :: ' ' :: (orBlank t.energy ++ orBlank t.time ++ orBlank t.x ++ orBlank t.y ++ orBlank t.z ++ t.result ++ t.error)

/-! ## Headers -/

/-- One line of bin boundaries, `    .+\n` -/
def binLine : Re := .seq (litC c!"    ") (.seq (Re.plus true .dot) (Re.chr '\n'))

/-- `Header._REGEX` between its anchors (meshtal/Header.py:31-34) and, with `g` false, the same pattern without its
groups in `Meshtal._REGEX` (Meshtal.py:19-22). -/
def headItems (g : Bool) : List Item :=
  [.fix g 1 7, .ilit c!"version ", .fix g 2 6, .ilit c!"ld=", .fix g 3 10, .ilit c!"probid =", .fix g 4 20, .lit c!"\n", .sp,
   .line g 5 [], .sp, .ilit c!"Number of histories used for normalizing tallies =", .fix g 6 17, .lit c!"\n\n", .sp,
   .ilit c!"Mesh Tally Number", .fix g 7 10, .lit c!"\n", .sp, .fix g 8 8, .ilit c!" mesh tally.\n\n Tally bin boundaries:\n",
   .many g 9 binLine, .line g 10 []]

/-- `Header._REGEX` (meshtal/Header.py:31-34) -/
def headRe : Re := .seq .bos (.seq (tmplRe (headItems true)) .eos)

/-- A `Header` object (meshtal/Header.py:36-116); `histories` and `number` are `Integer` objects. -/
structure Header where
  code : Str
  version : Str
  ld : Str
  probid : Str
  title : Str
  histories : IntVal
  number : IntVal
  particle : Str
  columns : Str
  bx : Option Str
  by' : Option Str
  bz : Option Str
  energy : Option Str
  time : Option Str
deriving DecidableEq, Repr

/-- The five sorts of bins. -/
structure Bins where
  x : Option Str
  y : Option Str
  z : Option Str
  energy : Option Str
  time : Option Str
deriving DecidableEq, Repr

/-- The pattern of one line of bins, `\s+([^\n:]+):([^\n]+)(?:\n|\Z)` (meshtal/Header.py:152). -/
def binRe : Re :=
  .seq (Re.plus true .space) (.seq (.grp 1 (Re.plus true (.cls fun c => c != '\n' && c != ':'))) (.seq (Re.chr ':')
    (.seq (.grp 2 (Re.plus true .dot)) (.alt (Re.chr '\n') .eos))))

/-- `re.findall(binRe, s)` -/
def findBins (s : Str) : List (Str × Str) :=
  (finditerAux binRe s.length [] s).filterMap fun | .inl _ => none | .inr (_, m) => some (tok m 1, tok m 2)

/-- The loop over the lines of bins (meshtal/Header.py:147-164): a later line replaces an earlier one. -/
def readBins : Bins → List (Str × Str) → Res Bins
  | b, [] => .ok b
  | b, (k, v) :: ls =>
    if k = c!"X direction" then readBins { b with x := some v } ls
    else if k = c!"Y direction" then readBins { b with y := some v } ls
    else if k = c!"Z direction" then readBins { b with z := some v } ls
    else if k = c!"Energy bin boundaries" then readBins { b with energy := some v } ls
    else if k = c!"Time bin boundaries" then readBins { b with time := some v } ls
    else .error .meshtal

/-- `Header.from_mcnp` (meshtal/Header.py:118-183) -/
def headParse (s : Str) : Res Header :=
  match reMatch headRe s with
  | none => .error .meshtal
  | some m => do
    let histories ← intParse (tok m 6)
    let number ← intParse (tok m 7)
    let b ← readBins ⟨none, none, none, none, none⟩ (findBins (tok m 9))
    .ok ⟨tok m 1, tok m 2, tok m 3, tok m 4, tok m 5, histories, number, tok m 8, tok m 10, b.x, b.y, b.z, b.energy, b.time⟩

/-- One line of bins of `Header.to_mcnp` (meshtal/Header.py:193-198). -/
def binStr (name : Str) : Option Str → Str
  | none => []
  | some v => if v = [] then [] else c!"    " ++ (name ++ ':' :: (v ++ ['\n']))

/-- `f'{n:>17.2F}'` of a whole number (meshtal/Header.py:200): the number is turned into a double, so only
numbers that doubles represent are modelled.  Shorthands have no such format. -/
def fmtF : IntVal → Res Str
  | .num n => if n.natAbs ≤ 2 ^ 53 then .ok (rjust 17 (intStr n ++ c!".00")) else .error .unmodelled
  | .hor _ => .error .typeErr

/-- `f'{n:>10}'` (meshtal/Header.py:200) -/
def fmtD : IntVal → Res Str
  | .num n => .ok (rjust 10 (intStr n))
  | .hor _ => .error .typeErr

/-- `Header.to_mcnp` (meshtal/Header.py:185-200) -/
def Header.str (h : Header) : Res Str := do
  let hs ← fmtF h.histories
  let ns ← fmtD h.number
  .ok (rjust 7 h.code ++ (c!"version " ++ (rjust 6 h.version ++ (c!"ld=" ++ (rjust 10 h.ld ++ (c!"probid =" ++ (rjust 20 h.probid ++
    (c!"\n " ++ (h.title ++ (c!"\n Number of histories used for normalizing tallies =" ++ (hs ++
    (c!"\n\n Mesh Tally Number" ++ (ns ++ (c!"\n " ++ (rjust 8 h.particle ++ (c!" mesh tally.\n\n Tally bin boundaries:\n" ++
    (binStr c!"X direction" h.bx ++ (binStr c!"Y direction" h.by' ++ (binStr c!"Z direction" h.bz ++
    (binStr c!"Time bin boundaries" h.time ++ (binStr c!"Energy bin boundaries" h.energy ++
    ('\n' :: (h.columns ++ ['\n'])))))))))))))))))))))))

/-! ## Files -/

/-- `Meshtal._REGEX` (Meshtal.py:19-22) -/
def fileRe : Re := .seq .bos (.seq (.grp 1 (tmplRe (headItems false))) (.seq (.grp 2 (Re.plus true .any)) .eos))

/-- A `Meshtal` object (Meshtal.py:24-47); the tallies are read on demand. -/
structure File where
  header : Header
  tallies : LazySeq Row

/-- `Meshtal.from_mcnp` (Meshtal.py:49-70), with `Generator(Tally).from_mcnp` (types/Generator.py:47-64). -/
def fileParse (s : Str) : Res File :=
  match reMatch fileRe s with
  | none => .error .meshtal
  | some m => do
    let h ← headParse (tok m 1)
    .ok ⟨h, .new ((finditer rowBody (tok m 2)).map rowParse)⟩

/-- `'\n'.join(parts)` -/
def joinNl : List Str → Str
  | [] => []
  | [s] => s
  | s :: ss => s ++ '\n' :: joinNl ss

/-- `Meshtal.to_mcnp` (Meshtal.py:71-79) for the rows a pass over the tallies gives. -/
def fileStr (h : Header) (rows : List Row) : Res Str := do
  let t ← h.str
  .ok (t ++ joinNl (rows.map Row.str))

end Meshtal
