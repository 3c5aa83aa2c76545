import Verif.Py.Double
import Verif.Inp.Value
import Verif.Py.Lit
import Verif.Inp.WordSpec
/-!
# Reading of cards, options and entries

Models `Card.from_mcnp` (src/pymcnp/inp/_card.py:15-41), `Option.from_mcnp`
(src/pymcnp/inp/_option.py:14-43), `Entry.from_mcnp` (src/pymcnp/inp/_entry.py:14-43),
`Nonterminal._REGEX` (src/pymcnp/_symbol.py:44-48), `Tuple.from_mcnp`
(src/pymcnp/types/Tuple.py:46-63) and the setters of the individual classes.

A class is described by data (`Cls`): its `_KEYWORD`, `_ATTRS`, `_REGEX` and the conditions under which
its setters raise.  The table of all classes is in `Verif/Inp/Table*.lean`.
-/
namespace Inp
open Py Types

/-- `\A…\Z` -/
def anchored (r : Re) : Re := .seq .bos (.seq r .eos)

/-- Literal text under `re.IGNORECASE`. -/
def litRe : Str → Re
  | [] => .eps
  | c :: cs => .seq (.chrI c) (litRe cs)

/-! ## Attribute types -/

/-- The types of src/pymcnp/types that occur in `_ATTRS`. -/
inductive Kind where
  | int | real | str | zaid | dist | desig | subst | index | geo | lat
  | trans (k : Nat)
deriving DecidableEq, Repr

/-- class `[-+0-9.eE]` -/
def numHead (c : Char) : Bool := c == '-' || c == '+' || isDigit c || c == '.' || c == 'e' || c == 'E'
/-- class `[-+0-9.eEdD]` -/
def numTail (c : Char) : Bool := numHead c || c == 'd' || c == 'D'

/-- `(?:j|log|ilog|\d*m|i|r|(?:[-+0-9.eE][-+0-9.eEdD]*))` (types/Integer.py:23, types/Real.py:23) -/
def numRe : Re :=
  .alt (.chrI 'j') (.alt (litRe c!"log") (.alt (litRe c!"ilog") (.alt (.seq (.star true .digit) (.chrI 'm'))
    (.alt (.chrI 'i') (.alt (.chrI 'r') (.seq (.cls numHead) (.star true (.cls numTail))))))))

/-- class `[\d.ed+-]` under `re.IGNORECASE` -/
def trC (c : Char) : Bool :=
  isDigit c || c == '.' || c == 'e' || c == 'E' || c == 'd' || c == 'D' || c == '+' || c == '-'

/-- `n` blank-separated groups `([\d.ed+-]+)` followed by one `([\d.ed+-]*)`. -/
def trRe : Nat → Nat → Re
  | 0, g => .grp g (.star true (.cls trC))
  | n + 1, g => .seq (.grp g (.plus true (.cls trC))) (.seq (.chr ' ') (trRe n (g + 1)))

/-- Number of real entries of `Transformation_k`. -/
def trCount : Nat → Nat
  | 0 => 12 | 1 => 9 | 2 => 8 | 3 => 6 | _ => 3

/-- `(?:[(])?…(?: ([\d.ed+-]*))?(?:[)])?`
(types/Transformation.py:30-33, 181, 310, 431, 537). -/
def transRe (k g : Nat) : Re :=
  .seq (.opt true (.chr '(')) (.seq (trRe (trCount k - 1) g)
    (.seq (.opt true (.seq (.chr ' ') (.grp (g + trCount k) (.star true (.cls trC))))) (.opt true (.chr ')'))))

/-- `Real.from_mcnp(tokens[i])` for the entries in order. -/
def trEntries (m : List (Nat × Str)) : Nat → Nat → Res (List RealVal)
  | 0, _ => .ok []
  | n + 1, i =>
    match cap m i with
    | none => .error .typeErr
    | some t =>
      match realParse t with
      | .error e => .error e
      | .ok v =>
        match trEntries m n (i + 1) with
        | .error e => .error e
        | .ok vs => .ok (v :: vs)

/-- `Transformation_k.__init__` (types/Transformation.py:36-115 and siblings): `m.value not in {-1, 1}`
raises; a shorthand is not hashable. -/
def mkTrans (k : Nat) (rs : List RealVal) : Option IntVal → Res Val
  | none => .ok (.sc (.trans k rs none))
  | some (.num n) => if n = -1 ∨ n = 1 then .ok (.sc (.trans k rs (some (.num n)))) else .error .types
  | some (.hor _) => .error .typeErr

/-- `Transformation_k.from_mcnp` (types/Transformation.py:117-151 and siblings). -/
def transParse (k : Nat) (s : Str) : Res Val :=
  match reMatch (anchored (transRe k 1)) s with
  | none => .error .types
  | some m =>
    match trEntries m (trCount k) 1 with
    | .error e => .error e
    | .ok rs =>
      match cap m (trCount k + 1) with
      | none => mkTrans k rs none
      | some [] => mkTrans k rs none
      | some t =>
        match intParse t with
        | .error e => .error e
        | .ok v => mkTrans k rs (some v)

/-- The name of a type in the source. -/
def Kind.src : Kind → Str
  | .int => c!"types.Integer"
  | .real => c!"types.Real"
  | .str => c!"types.String"
  | .zaid => c!"types.Zaid"
  | .dist => c!"types.Distribution"
  | .desig => c!"types.Designator"
  | .subst => c!"types.Substance"
  | .index => c!"types.Index"
  | .geo => c!"types.Geometry"
  | .lat => c!"types.Lattice"
  | .trans k => c!"types.Transformation_" ++ natStr k

/-- Number of capturing groups of the type's pattern. -/
def Kind.ng : Kind → Nat
  | .int | .real | .str | .geo | .lat => 0
  | .zaid => 3
  | .dist => 1
  | .desig => 1
  | .subst => 2
  | .index => 2
  | .trans k => trCount k + 1

/-- `_REGEX.pattern[2:-2]` of the types, groups numbered from `n`: types/Integer.py:23, Real.py:23,
String.py:17, Zaid.py:18, Distribution.py:17 (its `from_mcnp` uses another pattern, see `distParse`),
Designator.py:16, Substance.py:18, Index.py:17, Transformation.py.  `Geometry` is never interpolated
into a pattern, `Lattice` without its group (`[3:-3]`, types/Lattice.py:370, F_4.py:23). -/
def Kind.re (n : Nat) : Kind → Re
  | .int | .real => numRe
  | .str => .plus true .nonspace
  | .zaid => .seq (.grp n d13) (.seq (.grp (n + 1) (.seq .digit (.seq .digit .digit)))
      (.opt true (.seq (.chr '.') (.grp (n + 2) (.plus true .nonspace)))))
  | .dist => .alt (.seq (.cls (fun c => c == 'd' || c == 'D')) (.grp n (.plus true .digit))) (.chr '0')
  | .desig => .grp n (.seq (.cls desigC) (.star true (.seq (.chr ',') (.cls desigC))))
  | .subst => .seq (.grp n (.plus true .nonspace)) (.seq (.chr ' ') (.grp (n + 1) (.plus true .nonspace)))
  | .index => .seq (.grp n (.plus true .nonspace)) (.seq (.chr ':') (.grp (n + 1) (.plus true .nonspace)))
  | .geo => .cls (fun _ => false)
  | .lat => .plus true (.alt (.plus true .space) (.alt (.seq (.opt true (.cls (fun c => c == '+' || c == '-')))
      (.plus true .digit)) (.seq (.star true .space) (.seq (.cls (fun c => c!":<)([]|".contains c))
      (.star true .space)))))
  | .trans k => transRe k n

/-- `from_mcnp` of the types. -/
def Kind.parse : Kind → Str → Res Val
  | .int, s => (intParse s).map (fun v => .sc (.int v))
  | .real, s => (realParse s).map (fun v => .sc (.real v))
  | .str, s => (stringParse s).map (fun v => .sc (.str v))
  | .zaid, s => (zaidParse s).map (fun v => .sc (.zaid v))
  | .dist, s => (distParse s).map (fun v => .sc (.dist v))
  | .desig, s => (desigParse s).map (fun v => .sc (.desig v))
  | .subst, s => (substParse s).map (fun v => .sc (.subst v))
  | .index, s => (indexParse s).map (fun v => .sc (.index v))
  | .geo, s => (geoParse s).map (fun v => .sc (.geo v))
  | .lat, s => (latParse s).map (fun v => .sc (.lat v))
  | .trans k, s => transParse k s

/-- A type in `_ATTRS`: one of src/pymcnp/types, or an option/entry class given by its source name,
pattern, number of groups and `from_mcnp`. -/
inductive Ty where
  | base (k : Kind)
  | other (name : String) (re : Nat → Re) (ng : Nat) (parse : Str → Res Val)

def Ty.src : Ty → Str
  | .base k => k.src
  | .other n _ _ _ => n.toList
def Ty.re : Ty → Nat → Re
  | .base k => fun n => k.re n
  | .other _ r _ _ => r
def Ty.ng : Ty → Nat
  | .base k => k.ng
  | .other _ _ n _ => n
def Ty.parse : Ty → Str → Res Val
  | .base k => k.parse
  | .other _ _ _ p => p

/-! ## Patterns -/

/-- Members of a character class. -/
inductive CI where
  | ch (c : Char) | range (a b : Char) | d | s | S
deriving DecidableEq, Repr

/-- `.`, a single class escape such as `\d`, or `[…]`/`[^…]`. -/
inductive CC where
  | dot
  | one (i : CI)
  | set (neg : Bool) (l : List CI)
deriving DecidableEq, Repr

/-- Membership under `re.IGNORECASE` (ASCII letters). -/
def CI.test : CI → Char → Bool
  | .ch a, c => lowerC c == lowerC a
  | .range a b, c => (a ≤ c && c ≤ b) || (a ≤ lowerC c && lowerC c ≤ b)
  | .d, c => isDigit c
  | .s, c => isSpace c
  | .S, c => !isSpace c

def CC.test : CC → Char → Bool
  | .dot, c => c != '\n'
  | .one i, c => i.test c
  | .set neg l, c => (l.any (fun i => i.test c)) != neg

def CI.src : CI → Str
  | .ch c => [c]
  | .range a b => [a, '-', b]
  | .d => ['\\', 'd']
  | .s => ['\\', 's']
  | .S => ['\\', 'S']

def CC.src : CC → Str
  | .dot => ['.']
  | .one i => i.src
  | .set neg l => '[' :: ((if neg then ['^'] else []) ++ l.flatMap CI.src ++ [']'])

/-- Source-level regular expressions (all compiled with `re.IGNORECASE`). -/
inductive Pat where
  | lits (s : Str)                          -- literal text
  | cls (c : CC)                               -- a character class
  | ty (t : Ty)                                -- `{t._REGEX.pattern[2:-2]}`
  | seq (a b : Pat)
  | alt (a b : Pat)
  | opt (a : Pat)                              -- `a?`
  | plus (g : Bool) (a : Pat)                  -- `a+`, `a+?`
  | star (a : Pat)                             -- `a*`
  | grp (a : Pat)                              -- `(a)`
  | ngrp (a : Pat)                             -- `(?:a)`
  | behind (pos : Bool) (s : Str)           -- `(?<=s)`, `(?<!s)`

/-- Number of capturing groups. -/
def Pat.ng : Pat → Nat
  | .lits _ => 0
  | .cls _ => 0
  | .ty t => t.ng
  | .seq a b => a.ng + b.ng
  | .alt a b => a.ng + b.ng
  | .opt a => a.ng
  | .plus _ a => a.ng
  | .star a => a.ng
  | .grp a => 1 + a.ng
  | .ngrp a => a.ng
  | .behind _ _ => 0

/-- The compiled pattern, groups numbered from left to right starting at `n`. -/
def Pat.re : Pat → Nat → Re
  | .lits s, _ => litRe s
  | .cls c, _ => .cls c.test
  | .ty t, n => t.re n
  | .seq a b, n => .seq (a.re n) (b.re (n + a.ng))
  | .alt a b, n => .alt (a.re n) (b.re (n + a.ng))
  | .opt a, n => .opt true (a.re n)
  | .plus g a, n => Re.plus g (a.re n)
  | .star a, n => .star true (a.re n)
  | .grp a, n => .grp n (a.re (n + 1))
  | .ngrp a, n => a.re n
  | .behind b s, _ => .behind b s

/-- Characters that must be escaped in a pattern. -/
def escC (c : Char) : Str :=
  if c!"+*\"".contains c then ['\\', c] else [c]

/-- The text of the pattern as written in the source (`re.compile(rf'…')`). -/
def Pat.src : Pat → Str
  | .lits s => s.flatMap escC
  | .cls c => c.src
  | .ty (.base .lat) => c!"{types.Lattice._REGEX.pattern[3:-3]}"
  | .ty t => '{' :: t.src ++ c!"._REGEX.pattern[2:-2]}"
  | .seq a b => a.src ++ b.src
  | .alt a b => a.src ++ '|' :: b.src
  | .opt a => a.src ++ ['?']
  | .plus true a => a.src ++ ['+']
  | .plus false a => a.src ++ ['+', '?']
  | .star a => a.src ++ ['*']
  | .grp a => '(' :: a.src ++ [')']
  | .ngrp a => c!"(?:" ++ a.src ++ [')']
  | .behind true s => c!"(?<=" ++ s ++ [')']
  | .behind false s => c!"(?<!" ++ s ++ [')']

/-! ## Setter conditions -/

inductive Cmp where | lt | le | eq | ne | ge | gt
deriving DecidableEq, Repr

/-- Conditions of the `if … : raise` statements of setters (`x` is the value being set). -/
inductive Chk where
  | isNone                                   -- `x is None`
  | notNone                                  -- `x is not None`
  | cmp (o : Cmp) (n : Int) (d : Nat)        -- `x o n/10^d`
  | inInts (l : List Int)                    -- `x in {…}`
  | lowIn (l : List String)                  -- `x.value.lower() in {…}`
  | eqStr (s : String)                       -- `x == 's'`
  | lenLe (n : Nat)                          -- `len(x) <= n`
  | isJump                                   -- `isinstance(x.value, types.Jump)`
  | modEq (m r : Int)                        -- `x % m == r`
  | modIn (m : Int) (l : List Int)           -- `x % m in {…}`
  | minPos                                   -- `min(map(lambda temp: temp, x)) > 0`
  | falsy                                    -- `not x`
  | tt                                       -- a true constant
  | not (a : Chk)
  | and (a b : Chk)
  | or (a b : Chk)
  | ite (c a b : Chk)                        -- `a if c else b`
  | self (n : String) (a : Chk)              -- the condition `a` about `self.n`
  | ltSelf (n : String)                      -- `self.n < x`
  | flat (n : String)                        -- the three points of a plane are on a line (surface/P_1.py), `x` is coordinate `n`
  | kcode                                    -- `x < 40 * (1000 if … else self.nsrck)` (Kcode.py)

/-- `n/10^d` against a finite decimal: comparison of integers. -/
def decCmp (x : Dec) (n : Int) (d : Nat) : Ordering :=
  let m : Int := if x.neg then -(x.coeff : Int) else x.coeff
  -- m·10^exp ⋚ n·10^-d
  compare (m * 10 ^ (x.exp + d).toNat) (n * 10 ^ (-(x.exp + d)).toNat)

def Cmp.holds : Cmp → Ordering → Bool
  | .lt, o => o == .lt
  | .le, o => o != .gt
  | .eq, o => o == .eq
  | .ne, o => o != .eq
  | .ge, o => o != .lt
  | .gt, o => o == .gt

/-- Comparison with a constant: `Integer.__lt__` … (types/Integer.py:140-174), `Real.__lt__` …
(types/Real.py:157-203).  Ordering a shorthand raises `TypeError`; it is never equal to a number. -/
def cmpVal (o : Cmp) (n : Int) (d : Nat) : Val → Res Bool
  | .sc (.int (.num k)) => .ok (o.holds (compare (k * 10 ^ d) n))
  | .sc (.real (.num (.fin x))) => .ok (o.holds (decCmp x n d))
  | .sc (.real (.num (.inf neg))) => .ok (o.holds (if neg then .lt else .gt))
  | .sc (.int (.hor _)) | .sc (.real (.hor _)) =>
    match o with
    | .eq => .ok false
    | .ne => .ok true
    | _ => .error .typeErr
  | _ => .error .unmodelled

/-- Membership in a set of integers (hashing a shorthand raises `TypeError`). -/
def inIntsVal (l : List Int) : Val → Res Bool
  | .sc (.int (.num k)) => .ok (l.contains k)
  | .sc (.real (.num (.fin x))) => .ok (l.any (fun n => decCmp x n 0 == .eq))
  | .sc (.real (.num (.inf _))) => .ok false
  | .sc (.int (.hor _)) | .sc (.real (.hor _)) => .error .typeErr
  | _ => .error .unmodelled

/-- `x % m` of an `Integer` (types/Integer.py:212-216); a shorthand has no `__mod__`. -/
def modVal (m : Int) (p : Int → Bool) : Val → Res Bool
  | .sc (.int (.num k)) => .ok (p (k % m))
  | .sc (.int (.hor _)) => .error .attribute
  | _ => .error .unmodelled

/-- `min(map(lambda temp: temp, x)) > 0`: `min` of a list of reals by `<`; a single shorthand fails
only in the final comparison, several already in `min`. -/
def minPosVal : Val → Res Bool
  | .tuple [] => .error .value
  | .tuple l =>
    if l.all (fun v => match v with | .sc (.real (.num (.fin _))) => true | _ => false) then
      .ok (l.all (fun v => match cmpVal .gt 0 0 v with | .ok b => b | .error _ => false))
    else .error .typeErr
  | _ => .error .unmodelled

/-- `self.n` among the attributes set so far. -/
def getAttr (env : List (String × Val)) (n : String) : Res Val :=
  match env.lookup n with
  | some v => .ok v
  | none => .error .attribute

/-- `not x` for `None` and integers; a shorthand has no `__bool__`. -/
def falsyVal : Val → Res Bool
  | .none => .ok true
  | .sc (.int (.num k)) => .ok (k == 0)
  | .sc (.int (.hor _)) => .error .attribute
  | _ => .error .unmodelled

/-- Order of two reals, `a < b` (types/Real.py:157-163). -/
def ltVal : Val → Val → Res Bool
  | .sc (.real (.num (.fin a))), .sc (.real (.num (.fin b))) =>
    let m : Int := if a.neg then -(a.coeff : Int) else a.coeff
    let n : Int := if b.neg then -(b.coeff : Int) else b.coeff
    .ok (decide (m * 10 ^ (a.exp - b.exp).toNat < n * 10 ^ (b.exp - a.exp).toNat))
  | .sc (.real (.hor _)), _ | _, .sc (.real (.hor _)) => .error .typeErr
  | _, _ => .error .unmodelled

/-- `float(a - b)` for two `Real` objects (types/Real.py:221-227): `Decimal.__sub__` returns `NotImplemented` for a shorthand, which
becomes a `TypeError`; a shorthand has no `__sub__`. -/
def diffVal : Val → Val → Res Dbl
  | .sc (.real (.num a)), .sc (.real (.num b)) => decSub a b
  | .sc (.real (.num _)), .sc (.real (.hor _)) => .error .typeErr
  | .sc (.real (.hor _)), .sc (.real _) => .error .attribute
  | _, _ => .error .unmodelled

/-- The second test of the setters of `P_1` (surface/P_1.py:111-126, 166-181, 221-236, 276-291, 331-346, 386-401,
441-456, 496-511, 551-566): nothing if a coordinate is not set yet. -/
def flatVal : List Val → Res Bool
  | [x1, y1, z1, x2, y2, z2, x3, y3, z3] => do
    let a1 ← diffVal x2 x1
    let a2 ← diffVal y2 y1
    let a3 ← diffVal z2 z1
    let b1 ← diffVal x3 x1
    let b2 ← diffVal y3 y1
    let b3 ← diffVal z3 z1
    .ok (crossZero (a1, a2, a3) (b1, b2, b3))
  | _ => .ok false

/-- The coordinates, with `x` for `n`, if all are set. -/
def flatArgs (env : List (String × Val)) (n : String) (x : Val) : List Val :=
  (["x1", "y1", "z1", "x2", "y2", "z2", "x3", "y3", "z3"].mapM fun k => if k = n then some x else env.lookup k).getD []

/-- Evaluation of a condition, short-circuiting like Python. -/
def Chk.eval (env : List (String × Val)) : Val → Chk → Res Bool
  | x, .isNone => .ok (match x with | .none => true | _ => false)
  | x, .notNone => .ok (match x with | .none => false | _ => true)
  | x, .cmp o n d => cmpVal o n d x
  | x, .inInts l => inIntsVal l x
  | .sc (.str s), .lowIn l => .ok (l.any (fun t => t.toList == lower s))
  | _, .lowIn _ => .error .unmodelled
  | .sc (.str s), .eqStr t => .ok (s == t.toList)
  | _, .eqStr _ => .error .unmodelled
  | .sc (.str s), .lenLe n => .ok (decide (s.length ≤ n))
  | _, .lenLe _ => .error .unmodelled
  | x, .isJump => .ok (match x with
      | .sc (.int (.hor (.jump _))) | .sc (.real (.hor (.jump _))) => true | _ => false)
  | x, .modEq m r => modVal m (fun k => k == r) x
  | x, .modIn m l => modVal m (fun k => l.contains k) x
  | x, .minPos => minPosVal x
  | x, .falsy => falsyVal x
  | _, .tt => .ok true
  | x, .not a => (a.eval env x).map (!·)
  | x, .and a b => (a.eval env x).bind (fun p => if p then b.eval env x else .ok false)
  | x, .or a b => (a.eval env x).bind (fun p => if p then .ok true else b.eval env x)
  | x, .ite c a b => (c.eval env x).bind (fun p => if p then a.eval env x else b.eval env x)
  | _, .self n a => (getAttr env n).bind (fun v => a.eval env v)
  | x, .ltSelf n => (getAttr env n).bind (fun v => ltVal v x)
  | x, .flat n => flatVal (flatArgs env n x)
  | x, .kcode =>
    (getAttr env "nsrck").bind (fun v =>
      match v with
      | .none => cmpVal .lt 40000 0 x
      | .sc (.int (.num k)) => cmpVal .lt (if k = 0 then 40000 else 40 * k) 0 x
      | .sc (.int (.hor _)) => .error .attribute
      | _ => .error .unmodelled)

/-! ## Classes -/

/-- An attribute type of `_ATTRS`: a type or `types.Tuple(type)`. -/
structure Attr where
  name : String
  ty : Ty
  many : Bool
  /-- the setter raises when this holds, if there is such a test -/
  chk : Option Chk

/-- A field: `( u)`, `( u)?`, `((?: u)+?)`, `((?: u)+)`, `((?: u)+?)?` according to the mode. -/
structure Field where
  unit : Pat
  mode : Mode

def Pre.pats : Pre → List Pat
  | .no => []
  | .star => [.opt (.grp (.cls (.set false [.ch '*'])))]
  | .starPlus => [.opt (.grp (.cls (.set false [.ch '*', .ch '+'])))]
  | .plusStar => [.opt (.grp (.cls (.set false [.ch '+', .ch '*'])))]

def Suf.pats : Suf → List Pat
  | .no => []
  | .req => [.grp (.plus true (.cls (.one .d)))]
  | .opt => [.opt (.grp (.plus true (.cls (.one .d))))]

def Des.pats : Des → List Pat
  | .no => []
  | .req => [.lits c!":", .grp (.plus true (.cls (.one .S)))]
  | .opt => [.opt (.ngrp (.seq (.lits c!":") (.grp (.plus true (.cls (.one .S))))))]

def Head.pats (h : Head) : List Pat := h.pre.pats ++ .lits h.kw :: (h.suf.pats ++ h.des.pats)

def Field.pat (f : Field) : Pat :=
  match f.mode with
  | .req => .grp (.seq (.lits c!" ") f.unit)
  | .opt => .opt (.grp (.seq (.lits c!" ") f.unit))
  | .many => .grp (.plus false (.ngrp (.seq (.lits c!" ") f.unit)))
  | .greedy => .grp (.plus true (.ngrp (.seq (.lits c!" ") f.unit)))
  | .manyOpt => .opt (.grp (.plus false (.ngrp (.seq (.lits c!" ") f.unit))))

/-- Concatenation. -/
def Pat.cat : List Pat → Pat
  | [] => .lits c!""
  | p :: ps => .seq p (Pat.cat ps)

/-- The two ways in which the table gives a pattern. -/
inductive Shape where
  | flat (h : Head) (fs : List Field)
  | other (p : Pat)

def Shape.pat : Shape → Pat
  | .flat h fs => .cat (h.pats ++ fs.map Field.pat)
  | .other p => p

/-- A class derived from `Card`, `Option` or `Entry`. -/
structure Cls where
  info : Info
  shape : Shape
  attrs : List Attr
  /-- order in which `__init__` runs the setters -/
  init : List String

/-- The `_REGEX` of a class. -/
def Cls.pat (c : Cls) : Pat := c.shape.pat

/-- `Tuple(T).from_mcnp` (types/Tuple.py:46-63).  An empty result is a list, so
`value == tuple()` is false and it is accepted. -/
def tupleParse (t : Ty) (s : Str) : Res Val :=
  ((finditer (t.re 1) s).mapM t.parse).map .tuple

/-- `attr.from_mcnp` -/
def Attr.parse (a : Attr) (s : Str) : Res Val := if a.many then tupleParse a.ty s else a.ty.parse s

/-- `attr.from_mcnp(tokens[i + 1].strip()) if tokens[i + 1] else None` (_card.py:36-37);
`IndexError` if the pattern has no such group. -/
def attrVal (ng : Nat) (m : List (Nat × Str)) (i : Nat) (a : Attr) : Res Val :=
  if ng < i + 1 then .error .index
  else match cap m (i + 1) with
    | none => .ok .none
    | some [] => .ok .none
    | some t => a.parse (strip t)

/-- The loop over `_ATTRS` (_card.py:35-37, _option.py:38-40, _entry.py:38-40). -/
def attrVals (ng : Nat) (m : List (Nat × Str)) : Nat → List Attr → Res (List Val)
  | _, [] => .ok []
  | i, a :: as =>
    match attrVal ng m i a with
    | .error e => .error e
    | .ok v =>
      match attrVals ng m (i + 1) as with
      | .error e => .error e
      | .ok vs => .ok (v :: vs)

/-- One setter: raise if the condition holds.  Values are already objects of the attribute's type, so
the conversions at the start of every setter do nothing. -/
def setAttr (env : List (String × Val)) (a : Attr) (v : Val) : Res (List (String × Val)) :=
  match a.chk with
  | none => .ok ((a.name, v) :: env)
  | some c =>
    match c.eval env v with
    | .error e => .error e
    | .ok true => .error .inp
    | .ok false => .ok ((a.name, v) :: env)

/-- `__init__`: the setters in order. -/
def runInit (avs : List (Attr × Val)) : List (String × Val) → List String → Res Unit
  | _, [] => .ok ()
  | env, n :: ns =>
    match avs.find? (fun p => p.1.name == n) with
    | none => .error .attribute
    | some (a, v) =>
      match setAttr env a v with
      | .error e => .error e
      | .ok env' => runInit avs env' ns

/-- `cls(**attrs)` with typed attribute values in `_ATTRS` order.  (`Cell`, `Surface` and `M_0` replace
an unset number by a fresh one; `from_mcnp` always supplies it.) -/
def Cls.mk' (c : Cls) (vs : List Val) : Res Val :=
  match runInit (c.attrs.zip vs) [] c.init with
  | .error e => .error e
  | .ok () => .ok (.obj c.info vs)

/-- The compiled `_REGEX` of a class. -/
def Cls.re (c : Cls) : Re := anchored (c.pat.re 1)

/-- Attributes and constructor after a successful match. -/
def Cls.build (c : Cls) (m : List (Nat × Str)) : Res Val :=
  match attrVals c.pat.ng m 0 c.attrs with
  | .error e => .error e
  | .ok vs => c.mk' vs

/-- `Card.from_mcnp` (_card.py:15-41): the card and its comments. -/
def cardParse (c : Cls) (s : Str) : Res (Val × List Str) :=
  match reMatch c.re (cardPreprocess s).1 with
  | none => .error .inp
  | some m =>
    match c.build m with
    | .error e => .error e
    | .ok v => .ok (v, (cardPreprocess s).2)

/-- The loop over the subclasses (_option.py:30-36, _entry.py:30-36): the first class whose pattern
matches the whole text. -/
def firstMatch (s : Str) : List Cls → Option (Cls × List (Nat × Str))
  | [] => none
  | c :: cs =>
    match reMatch c.re s with
    | some m => if cap m 0 = some s then some (c, m) else firstMatch s cs
    | none => firstMatch s cs

/-- `Option.from_mcnp` (_option.py:14-43) and `Entry.from_mcnp` (_entry.py:14-43) of a class with
subclasses `cs` (in definition order), or of a class without subclasses (`cs = [c]`). -/
def unionParse (cs : List Cls) (s : Str) : Res Val :=
  match firstMatch (preprocess s) cs with
  | none => .error .inp
  | some (c, m) => c.build m

/-- Insertion behind all classes whose name is not shorter. -/
def insertLen (c : Cls) : List Cls → List Cls
  | [] => [c]
  | d :: ds => if d.info.name.length < c.info.name.length then c :: d :: ds else d :: insertLen c ds

/-- `sorted(cls.__subclasses__(), reverse=True, key=lambda subclass: len(subclass.__name__))`
(_symbol.py:47; a stable sort). -/
def sortLen (cs : List Cls) : List Cls := cs.foldl (fun acc c => insertLen c acc) []

/-- `"|".join(pattern[2:-2])` (_symbol.py:47) with groups numbered from `n`. -/
def altsRe : List Cls → Nat → Re
  | [], _ => .cls (fun _ => false)
  | [c], n => c.pat.re n
  | c :: d :: cs, n => .alt (c.pat.re n) (altsRe (d :: cs) (n + c.pat.ng))

/-- The type of an option or entry base class with subclasses `cs` in definition order. -/
def unionTy (name : String) (cs : List Cls) : Ty :=
  .other name (altsRe (sortLen cs)) (cs.map (fun c => c.pat.ng)).sum (unionParse cs)

/-- The type of a single entry or option class. -/
def Cls.asTy (name : String) (c : Cls) : Ty := .other name c.pat.re c.pat.ng (unionParse [c])

/-- `_REGEX` of src/pymcnp/inp/sdef/tme_1/Embedded.py:17. -/
def embeddedPat : Pat :=
  .grp (.seq (.ty (.base .dist)) (.star (.ngrp (.seq (.opt (.lits c!" ")) (.seq (.lits c!"<")
    (.seq (.opt (.lits c!" ")) (.ty (.base .dist))))))))

/-- `Embedded.from_mcnp` (src/pymcnp/inp/sdef/tme_1/Embedded.py:35-56). -/
def embeddedParse (s : Str) : Res Val :=
  match reMatch (anchored (embeddedPat.re 1)) s with
  | none => .error .types
  | some _ =>
    match tupleParse (.base .dist) (join [' '] (splitC '<' s)) with
    | .error e => .error e
    | .ok v => .ok (.obj ⟨"Embedded", .embedded, [], ["distributions"]⟩ [v])

end Inp
