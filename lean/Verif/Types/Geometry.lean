import Verif.Py.Regex
import Verif.Py.Err
/-!
# `types/Geometry.py`
-/
namespace Types
open Py

/-- Unary operators `+`, `-`, `#` (types/Geometry.py, `_Unary`, lines 182-235). -/
inductive GOp where | plus | minus | hash
deriving DecidableEq, Repr

/-- Abstract syntax trees of types/Geometry.py: `_Intersection` (9-37), `_Union` (90-118),
`_Unary` (182-210), `_Paren` (275-299), `_Digit` (350-376). -/
inductive Ast where
  | inter (l r : Ast)
  | union (l r : Ast)
  | unary (o : GOp) (e : Ast)
  | paren (e : Ast)
  | digit (s : Str)
deriving DecidableEq, Repr

/-- Tokens after `token.strip() or ' '` (types/Geometry.py:476, `Geometry.from_mcnp`);
`bad` is any other text (it cannot occur, see the lemmas). -/
inductive GTok where
  | col | sp | lp | rp
  | op (o : GOp)
  | dig (s : Str)
  | bad (s : Str)
deriving DecidableEq, Repr

/-- Pattern of `_Digit._REGEX` (types/Geometry.py:358): `\A(\d+(?:[.]\d+)?)\Z`. -/
def gdigitRe : Re :=
  .seq .bos (.seq (.grp 1 (.seq (.plus true .digit) (.opt true (.seq (.chr '.') (.plus true .digit))))) .eos)

/-- Token text to token (the comparisons `tokens[0] in {...}` of types/Geometry.py:56, 138-151,
230, 316-320 and the `_Digit` match of line 393). -/
def tokOf (s : Str) : GTok :=
  if s = [':'] then .col
  else if s = [' '] then .sp
  else if s = ['('] then .lp
  else if s = [')'] then .rp
  else if s = ['+'] then .op .plus
  else if s = ['-'] then .op .minus
  else if s = ['#'] then .op .hash
  else if (reMatch gdigitRe s).isSome then .dig s
  else .bad s

/-- `_Digit.from_mcnp` (types/Geometry.py:379-395): `tokens[0]` on an empty list is an
`IndexError`, a failing `assert` an `AssertionError`. -/
def pDigit : List GTok → Res (Ast × List GTok)
  | [] => .error .index
  | .dig d :: r => .ok (.digit d, r)
  | _ :: _ => .error .assertion

mutual
/-- `_Intersection.from_mcnp` (types/Geometry.py:40-63).  The first argument bounds the
recursion depth (`unmodelled` when exhausted; shown unreachable). -/
def pInter : Nat → List GTok → Res (Ast × List GTok)
  | 0, _ => .error .unmodelled
  | n + 1, ts =>
    match pUnion n ts with
    | .error e => .error e
    | .ok (l, ts) => loopI n l ts
/-- The `while tokens and tokens[0] in {'', ' ', '('}` loop of `_Intersection.from_mcnp`
(types/Geometry.py:56-61). -/
def loopI : Nat → Ast → List GTok → Res (Ast × List GTok)
  | 0, _, _ => .error .unmodelled
  | n + 1, l, ts =>
    match ts with
    | .lp :: t =>
      match pUnion n (.lp :: t) with
      | .error e => .error e
      | .ok (r, ts) => loopI n (.inter l r) ts
    | .sp :: t =>
      match pUnion n t with
      | .error e => .error e
      | .ok (r, ts) => loopI n (.inter l r) ts
    | ts => .ok (l, ts)
/-- `_Union.from_mcnp` (types/Geometry.py:121-155). -/
def pUnion : Nat → List GTok → Res (Ast × List GTok)
  | 0, _ => .error .unmodelled
  | n + 1, ts =>
    match ts with
    | [] => .error .syntaxErr
    | t :: ts =>
      match pAtom n (t :: ts) with
      | .error e => .error e
      | .ok (l, ts) => loopU n l ts
/-- The `while tokens and tokens[0] == ':'` loop of `_Union.from_mcnp` (types/Geometry.py:145-153)
(`tokens[1]` is an `IndexError` when nothing follows). -/
def loopU : Nat → Ast → List GTok → Res (Ast × List GTok)
  | 0, _, _ => .error .unmodelled
  | n + 1, l, ts =>
    match ts with
    | .col :: [] => .error .index
    | .col :: t :: ts =>
      match pAtom n (t :: ts) with
      | .error e => .error e
      | .ok (r, ts) => loopU n (.union l r) ts
    | ts => .ok (l, ts)
/-- The three-way choice of `_Union.from_mcnp` with `_Unary.from_mcnp` and
`_Paren.from_mcnp` (types/Geometry.py:138-143, 213-235, 302-323). -/
def pAtom : Nat → List GTok → Res (Ast × List GTok)
  | 0, _ => .error .unmodelled
  | n + 1, ts =>
    match ts with
    | .op o :: .lp :: t =>
      match pInter n t with
      | .error e => .error e
      | .ok (e, .rp :: r) => .ok (.unary o (.paren e), r)
      | .ok _ => .error .syntaxErr
    | .op o :: t =>
      match pDigit t with
      | .error e => .error e
      | .ok (e, r) => .ok (.unary o e, r)
    | .lp :: t =>
      match pInter n t with
      | .error e => .error e
      | .ok (e, .rp :: r) => .ok (.paren e, r)
      | .ok _ => .error .syntaxErr
    | ts => pDigit ts
end

/-- Token pattern, `Geometry._REGEX.pattern[6:-5]` (types/Geometry.py:433, 471):
`\s*[:]\s*|\s+|\d+(?:\.\d+)?|[(+#-]\s*|\s*[)]`. -/
def geoRe : Re :=
  .alt (.seq (.star true .space) (.seq (.chr ':') (.star true .space)))
  (.alt (.plus true .space)
  (.alt (.seq (.plus true .digit) (.opt true (.seq (.chr '.') (.plus true .digit))))
  (.alt (.seq (.oneOf "(+#-") (.star true .space))
        (.seq (.star true .space) (.chr ')')))))

/-- `token.strip() or ' '` (types/Geometry.py:476) -/
def tokStrip (s : Str) : Str := if strip s = [] then [' '] else strip s

/-- `Geometry.from_mcnp` (types/Geometry.py:455-485). -/
def geoParse (src : Str) : Res Ast :=
  let src := strip src
  let toks := finditer geoRe src
  if toks.flatten ≠ src then .error .types
  else
    let ts := toks.map (fun t => tokOf (tokStrip t))
    match pInter (4 * ts.length + 4) ts with
    | .error .syntaxErr => .error .types
    | .error e => .error e
    | .ok (a, []) => .ok a
    | .ok _ => .error .assertion

/-- Operator text (types/Geometry.py:206). -/
def GOp.str : GOp → Str
  | .plus => ['+']
  | .minus => ['-']
  | .hash => ['#']

/-- `to_mcnp` of the five classes (types/Geometry.py:65-73, 157-165, 237-245, 325-333, 397-405). -/
def Ast.str : Ast → Str
  | .inter l r => l.str ++ ' ' :: r.str
  | .union l r => l.str ++ ':' :: r.str
  | .unary o e => o.str ++ e.str
  | .paren e => '(' :: e.str ++ [')']
  | .digit s => s

/-- `Geometry.__and__` (types/Geometry.py:497-509, documented "Unites"). -/
def Ast.and (a b : Ast) : Ast := .union a b
/-- `Geometry.__or__` (types/Geometry.py:511-523, documented "Intersects"). -/
def Ast.or (a b : Ast) : Ast := .inter a b
/-- `Geometry.__neg__` (types/Geometry.py:525-533) -/
def Ast.neg (a : Ast) : Ast := .unary .minus a
/-- `Geometry.__pos__` (types/Geometry.py:535-543) -/
def Ast.pos (a : Ast) : Ast := .unary .plus a
/-- `Geometry.__invert__` (types/Geometry.py:545-553) -/
def Ast.invert (a : Ast) : Ast := .unary .hash a

/-- `to_show` of the five classes (types/Geometry.py:75-87, 167-179, 247-272, 335-347,
407-422), with shapes modelled as
point sets (`P → Bool`), `&`, `|`, `~` as set operations, and the two
dictionaries as partial functions. -/
def Ast.show {P : Type} (surf cells : Str → Option (P → Bool)) : Ast → Res (P → Bool)
  | .inter l r =>
    match l.show surf cells, r.show surf cells with
    | .error e, _ => .error e
    | _, .error e => .error e
    | .ok a, .ok b => .ok (fun p => a p && b p)
  | .union l r =>
    match l.show surf cells, r.show surf cells with
    | .error e, _ => .error e
    | _, .error e => .error e
    | .ok a, .ok b => .ok (fun p => a p || b p)
  | .unary .plus e => e.show surf cells
  | .unary .minus e =>
    match e.show surf cells with
    | .error e => .error e
    | .ok a => .ok (fun p => !a p)
  | .unary .hash (.digit d) =>
    match cells d with
    | some a => .ok a
    | none => match surf d with
      | some a => .ok a
      | none => .error .types
  | .unary .hash e =>
    match e.show surf cells with
    | .error e => .error e
    | .ok a => .ok (fun p => !a p)
  | .paren e => e.show surf cells
  | .digit d =>
    match surf d with
    | some a => .ok a
    | none => .error .types

end Types
