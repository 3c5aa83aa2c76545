import Verif.Ptrac.Event
import Verif.Inp.Card
/-!
# PTRAC files: headers

`ptrac/header/V.py`, `N.py`, `L.py`, `ptrac/Header.py` and `Ptrac.py`.
-/
namespace Ptrac
open Py Types

/-- `r{0,n}?` -/
def upTo (r : Re) : Nat → Re
  | 0 => .eps
  | n + 1 => .opt false (.seq r (upTo r n))

/-! ## V blocks -/

/-- `V._REGEX` (ptrac/header/V.py:17) -/
def vRe : Re :=
  .seq .bos (.seq (.grp 1 (Re.plus true (.seq (Re.rep 5 .dot) (.seq (upTo .dot 116) (Re.chr '\n'))))) .eos)

/-- `V.from_mcnp` (ptrac/header/V.py:34-58), with `Tuple(Real).from_mcnp` (types/Tuple.py:46-63).  Comparing
numbers with `None` does not raise (types/Real.py:173-179). -/
def vParse (s : Str) : Res (List RealVal) :=
  match reMatch vRe s with
  | none => .error .ptrac
  | some m => each realParse (finditer Inp.numRe (tok m 1))

/-- The loop of `V.to_mcnp` (ptrac/header/V.py:70-73), from index `i`. -/
def vItems : Nat → List RealVal → Res Str
  | _, [] => .ok []
  | i, v :: vs => do
    let t ← realFmt 4 0 v
    let rest ← vItems (i + 1) vs
    .ok (' ' :: (t ++ (if (i + 1) % 10 = 0 ∧ i ≠ 0 then '\n' :: ' ' :: rest else rest)))

/-- `V.to_mcnp` (ptrac/header/V.py:60-77): the last character is dropped. -/
def vStr (vs : List RealVal) : Res Str := do
  let t ← vItems 0 vs
  .ok ((' ' :: t).dropLast)

/-! ## N blocks -/

/-- `N._REGEX` (ptrac/header/N.py:36) -/
def nRe : Re := .seq .bos (.seq .space (.seq (fieldsRe 1 (List.replicate 20 5)) (.seq (Re.chr '\n') .eos)))

/-- Fields `n`, `n + 1`, … as integers. -/
def readInts (m : List (Nat × Str)) : Nat → Nat → Res (List IntVal)
  | _, 0 => .ok []
  | n, k + 1 => do
    let v ← intParse (tok m n)
    let vs ← readInts m (n + 1) k
    .ok (v :: vs)

/-- `N.from_mcnp` (ptrac/header/N.py:170-232): twenty numbers. -/
def nParse (s : Str) : Res (List IntVal) :=
  match reMatch nRe s with
  | none => .error .ptrac
  | some m => readInts m 1 20

/-- `N.to_mcnp` (ptrac/header/N.py:234-267) -/
def nStr (vs : List IntVal) : Str := ' ' :: (vs.flatMap (fun v => rjust 5 v.str) ++ ['\n'])

/-! ## L blocks -/

/-- `L._REGEX` (ptrac/header/L.py:17) -/
def lRe : Re :=
  .seq .bos (.seq (.grp 1 (Re.plus true (.seq .space (.seq (Re.plus true (Re.rep 4 .dot)) (Re.chr '\n'))))) .eos)

/-- `L.from_mcnp` (ptrac/header/L.py:34-58), with `Tuple(Integer).from_mcnp` (types/Tuple.py:46-63). -/
def lParse (s : Str) : Res (List IntVal) :=
  match reMatch lRe s with
  | none => .error .ptrac
  | some m => each intParse (finditer Inp.numRe (tok m 1))

/-- The loop of `L.to_mcnp` (ptrac/header/L.py:71-74), from index `i`. -/
def lItems : Nat → List IntVal → Str
  | _, [] => []
  | i, v :: vs => rjust 4 v.str ++ (if (i + 1) % 30 = 0 ∧ i ≠ 0 then '\n' :: ' ' :: lItems (i + 1) vs else lItems (i + 1) vs)

/-- `L.to_mcnp` (ptrac/header/L.py:60-76) -/
def lStr (vs : List IntVal) : Str := ' ' :: (lItems 0 vs ++ ['\n'])

/-! ## Headers -/

/-- A `Header` object (ptrac/Header.py:12-88). -/
structure Header where
  code : Str
  version : Str
  codeDate : Str
  runDate : Str
  title : Str
  v : List RealVal
  n : List IntVal
  l : List IntVal
deriving DecidableEq

/-- `Header._REGEX` (ptrac/Header.py:27) -/
def headerRe : Re :=
  .seq .bos (.seq (Inp.litRe c!"   -1\n") (.seq (fieldsRe 1 [8, 25, 9, 18]) (.seq (Re.chr '\n') (.seq (fieldsRe 5 [80])
    (.seq (Re.chr '\n')
      (.seq (.grp 6 (Re.plus true (.seq .space (.seq (Re.rep 120 .dot) (Re.chr '\n')))))
        (.seq (.grp 7 (.seq .space (.seq (Re.rep 100 .dot) (Re.chr '\n'))))
          (.seq (.grp 8 (Re.plus true (.seq .space (.seq (Re.plus true (Re.rep 4 .dot)) (Re.chr '\n'))))) .eos))))))))

/-- `Header.from_mcnp` (ptrac/Header.py:90-119) -/
def headerParse (s : Str) : Res Header :=
  match reMatch headerRe s with
  | none => .error .ptrac
  | some m => do
    let v ← vParse (tok m 6)
    let n ← nParse (tok m 7)
    let l ← lParse (tok m 8)
    .ok ⟨tok m 1, tok m 2, tok m 3, tok m 4, tok m 5, v, n, l⟩

/-- `f'{s:<w}'` -/
def ljust (w : Nat) (s : Str) : Str := s ++ List.replicate (w - s.length) ' '

/-- `Header.to_mcnp` (ptrac/Header.py:121-129) -/
def Header.str (h : Header) : Res Str := do
  let v ← vStr h.v
  .ok (c!"   -1\n" ++ ljust 8 h.code ++ ljust 25 h.version ++ ljust 9 h.codeDate ++ ljust 18 h.runDate ++
    '\n' :: (ljust 80 h.title ++ '\n' :: (v ++ nStr h.n ++ lStr h.l)))

/-! ## Files -/

/-- One event in `Ptrac._REGEX` (Ptrac.py:20): the alternation takes in the J line and the first kind of P line on
one side and only the second kind of P line on the other. -/
def fileEventRe : Re :=
  .seq (.alt
      (.seq (Re.alts ([50, 60, 60, 70, 60, 70, 70, 80].map fun w => .seq .space (Re.rep w .dot)))
        (.seq (Re.chr '\n') (.seq .space (Re.rep 39 .dot))))
      (.seq .space (Re.rep 117 .dot)))
    (Re.chr '\n')

/-- The header in `Ptrac._REGEX` (Ptrac.py:20). -/
def fileHead : Re :=
  .seq (Inp.litRe c!"   -1\n") (.seq (Re.rep 60 .dot) (.seq (Re.chr '\n') (.seq (Re.rep 80 .dot) (.seq (Re.chr '\n')
    (.seq (Re.plus true (.seq .space (.seq (Re.rep 120 .dot) (Re.chr '\n'))))
      (.seq (.seq .space (.seq (Re.rep 100 .dot) (Re.chr '\n')))
        (Re.plus false (.seq .space (.seq (Re.plus true (Re.rep 4 .dot)) (Re.chr '\n'))))))))))

/-- `Ptrac._REGEX` (Ptrac.py:19-22) -/
def fileRe : Re :=
  .seq .bos (.seq (.grp 1 fileHead) (.seq (.grp 2 (Re.plus true (.seq (Re.plus true .dot) (.seq (Re.chr '\n') (Re.plus true fileEventRe))))) .eos))

/-- `History._REGEX` without anchors. -/
def historyBody : Re :=
  .seq (.grp 1 (Re.plus true .dot)) (.seq (Re.chr '\n') (.grp 2 (Re.plus true (eventBody 3))))

/-- A `Ptrac` object (Ptrac.py:10-45). -/
structure File where
  header : Header
  histories : List History
deriving DecidableEq

/-- `Ptrac.from_mcnp` (Ptrac.py:48-71): all histories are read before the first is
compared with `None`, which prints it (types/Tuple.py:41, _symbol.py:62-63). -/
def fileParse (s : Str) : Res File :=
  match reMatch fileRe s with
  | none => .error .ptrac
  | some m => do
    let h ← headerParse (tok m 1)
    let hs ← each histParse (finditer historyBody (tok m 2))
    let _ ← each History.str hs
    .ok ⟨h, hs⟩

/-- `Ptrac.to_mcnp` (Ptrac.py:73-81) -/
def File.str (f : File) : Res Str := do
  let h ← f.header.str
  let hs ← each History.str f.histories
  .ok (h ++ hs.flatten)

end Ptrac
