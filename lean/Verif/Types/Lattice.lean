import Verif.Py.Regex
import Verif.Py.Err
/-!
# `types/Lattice.py`
-/
namespace Types
open Py

/-- Abstract syntax trees of types/Lattice.py: `_Embedded` (8-36), `_Range` (89-125),
`_Paren` (177-201), `_Index` (237-267), `_Digit` (303-329).  The code stores the parts of a
range as `_Nonterminal`s without checking their classes, hence one type for all of them. -/
inductive Lat where
  | emb (l r : Lat)
  | range (cell i j k : Lat)
  | paren (e : Lat)
  | index (lo hi : Lat)
  | digit (s : Str)
deriving DecidableEq, Repr

/-- `_Digit._REGEX` (types/Lattice.py:311): `\A([+-]?\d+?)\Z`. -/
def ldigitRe : Re :=
  .seq .bos (.seq (.grp 1 (.seq (.opt true (.oneOf "+-")) (.plus false .digit))) .eos)

/-- `_Digit.from_mcnp` (types/Lattice.py:332-349); `value[0]` is the whole token, and the
`assert` of `_Digit.__init__` (line 327) repeats the same match. -/
def lDigit : List Str → Res (Lat × List Str)
  | [] => .error .syntaxErr
  | t :: r => if (reMatch ldigitRe t).isSome then .ok (.digit t, r) else .error .syntaxErr

/-- `_Index.from_mcnp` (types/Lattice.py:270-290): `tokens[0]` on an empty list is an
`IndexError`, a failing `assert` an `AssertionError`. -/
def lIndex (ts : List Str) : Res (Lat × List Str) :=
  match lDigit ts with
  | .error e => .error e
  | .ok (_, []) => .error .index
  | .ok (lo, t :: r) =>
    if t = [':'] then
      match lDigit r with
      | .error e => .error e
      | .ok (hi, r) => .ok (.index lo hi, r)
    else .error .assertion

/-- One of the tests `(tokens[1:] and tokens[1] == ':') or (tokens[2:] and tokens[2] == ':')` of
`_Range.from_mcnp` (types/Lattice.py:146, 151, 156). -/
def colonAhead (ts : List Str) : Bool := ts[1]? == some [':'] || ts[2]? == some [':']

/-- `_Range.from_mcnp` (types/Lattice.py:128-164). -/
def lRange (ts : List Str) : Res (Lat × List Str) :=
  match lDigit ts with
  | .error e => .error e
  | .ok (c, ts) =>
    if ts.head? ≠ some ['['] then .error .assertion else
    match (if colonAhead ts then lIndex ts.tail else lDigit ts.tail) with
    | .error e => .error e
    | .ok (i, ts) =>
      match (if colonAhead ts then lIndex ts else lDigit ts) with
      | .error e => .error e
      | .ok (j, ts) =>
        match (if colonAhead ts then lIndex ts else lDigit ts) with
        | .error e => .error e
        | .ok (k, ts) =>
          if ts.head? = some [']'] then .ok (.range c i j k, ts.tail) else .error .syntaxErr

mutual
/-- The three-way choice of `_Embedded.from_mcnp` (types/Lattice.py:57-62 and 67-72) with
`_Paren.from_mcnp` (types/Lattice.py:204-224; `tokens[0]` is an `IndexError` when nothing
follows the inner expression).  The first argument bounds the recursion depth (`unmodelled`
when exhausted; shown unreachable). -/
def lItem : Nat → List Str → Res (Lat × List Str)
  | 0, _ => .error .unmodelled
  | n + 1, ts =>
    if ts.head? = some ['('] then
      match lEmb n ts.tail with
      | .error e => .error e
      | .ok (_, []) => .error .index
      | .ok (e, t :: r) => if t = [')'] then .ok (.paren e, r) else .error .assertion
    else if ts[1]? = some ['['] then lRange ts
    else lDigit ts
/-- `_Embedded.from_mcnp` (types/Lattice.py:39-76). -/
def lEmb : Nat → List Str → Res (Lat × List Str)
  | 0, _ => .error .unmodelled
  | n + 1, ts =>
    match lItem n ts with
    | .error e => .error e
    | .ok (l, ts) => lLoop n l ts
/-- The `while tokens and tokens[0] == '<'` loop of `_Embedded.from_mcnp`
(types/Lattice.py:64-74). -/
def lLoop : Nat → Lat → List Str → Res (Lat × List Str)
  | 0, _, _ => .error .unmodelled
  | n + 1, l, ts =>
    if ts.head? = some ['<'] then
      match lItem n ts.tail with
      | .error e => .error e
      | .ok (r, ts) => lLoop n (.emb l r) ts
    else .ok (l, ts)
end

/-- The `while tokens` loop of `Lattice.from_mcnp` (types/Lattice.py:417-419). -/
def lTop : Nat → Lat → List Str → Res Lat
  | 0, _, _ => .error .unmodelled
  | n + 1, l, ts =>
    if ts = [] then .ok l
    else match lEmb (2 * ts.length + 2) ts with
      | .error e => .error e
      | .ok (r, ts) => lTop n (.emb l r) ts

/-- Token pattern, `Lattice._REGEX.pattern[6:-5]` (types/Lattice.py:370, 408):
`\s+|[+-]?\d+|\s*[:<)(\[\]|]\s*`. -/
def latRe : Re :=
  .alt (.plus true .space)
  (.alt (.seq (.opt true (.oneOf "+-")) (.plus true .digit))
        (.seq (.star true .space) (.seq (.oneOf ":<)([]|") (.star true .space))))

/-- The tokens of a text (types/Lattice.py:406-413). -/
def latToks (src : Str) : Option (List Str) :=
  let src := strip src
  let toks := finditer latRe src
  if toks.flatten ≠ src then none
  else some ((toks.map strip).filter (· ≠ []))

/-- The body of the `try` of `Lattice.from_mcnp` (types/Lattice.py:416-419). -/
def lAll (ts : List Str) : Res Lat :=
  match lEmb (2 * ts.length + 2) ts with
  | .error e => .error e
  | .ok (l, ts) => lTop (ts.length + 1) l ts

/-- `Lattice.from_mcnp` (types/Lattice.py:392-423). -/
def latParse (src : Str) : Res Lat :=
  match latToks src with
  | none => .error .types
  | some ts =>
    match lAll ts with
    | .error .syntaxErr => .error .types
    | r => r

/-- `to_mcnp` of the trees (types/Lattice.py:78-86, 166-174, 226-234, 292-300, 351-359). -/
def Lat.str : Lat → Str
  | .emb l r => l.str ++ '<' :: r.str
  | .range c i j k => c.str ++ '[' :: i.str ++ ' ' :: j.str ++ ' ' :: k.str ++ [']']
  | .paren e => '(' :: e.str ++ [')']
  | .index lo hi => lo.str ++ ':' :: hi.str
  | .digit s => s

end Types
