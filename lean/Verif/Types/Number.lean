import Verif.Py.Regex
import Verif.Py.Decimal
import Verif.Py.Err
/-!
# Numbers: `types/Horizontal.py`, `types/Integer.py`, `types/Real.py`
-/
namespace Types
open Py

/-- The five shorthand classes of types/Horizontal.py (lines 18-340). -/
inductive Horiz where
  | rep (n : Option Int)
  | ins (n : Option Int)
  | mul (x : Int)
  | jump (n : Option Int)
  | log (n : Option Int)
deriving DecidableEq, Repr

/-- Constructor check `n is not None and not (n >= 0)`
(Repeat l.40, Insert l.104, Jump l.232, Log l.296). -/
def countOk : Option Int → Bool
  | none => true
  | some n => decide (0 ≤ n)

/-- `Repeat.__init__`, types/Horizontal.py l.27-43 -/
def mkRep (n : Option Int) : Res Horiz := if countOk n then .ok (.rep n) else .error .types
/-- `Insert.__init__`, types/Horizontal.py l.91-107 -/
def mkIns (n : Option Int) : Res Horiz := if countOk n then .ok (.ins n) else .error .types
/-- `Multiply.__init__`, types/Horizontal.py l.155-171 (`not x` is `x == 0`) -/
def mkMul (x : Int) : Res Horiz := if x = 0 then .error .types else .ok (.mul x)
/-- `Jump.__init__`, types/Horizontal.py l.219-235 -/
def mkJump (n : Option Int) : Res Horiz := if countOk n then .ok (.jump n) else .error .types
/-- `Log.__init__`, types/Horizontal.py l.283-299 -/
def mkLog (n : Option Int) : Res Horiz := if countOk n then .ok (.log n) else .error .types

/-- Pattern `\A(\d+)?<tail>\Z` (types/Horizontal.py l.25, 89, 217, 281). -/
def countRe (tail : Re) : Re :=
  .seq .bos (.seq (.opt true (.grp 1 (.plus true .digit))) (.seq tail .eos))

/-- `int(tokens[1]) if tokens[1] else None` -/
def countOf (m : List (Nat × Str)) : Option Int :=
  match cap m 1 with
  | none => none
  | some ds => if ds = [] then none else some (strNat ds)

/-- `Repeat.from_mcnp`, types/Horizontal.py l.45-67 -/
def repParse (s : Str) : Res Horiz :=
  match reMatch (countRe (.chrI 'r')) s with
  | none => .error .types
  | some m => mkRep (countOf m)

/-- `Insert.from_mcnp`, types/Horizontal.py l.109-131 -/
def insParse (s : Str) : Res Horiz :=
  match reMatch (countRe (.chrI 'i')) s with
  | none => .error .types
  | some m => mkIns (countOf m)

/-- Pattern `\A(\d+)m\Z`, types/Horizontal.py l.153 -/
def mulRe : Re := .seq .bos (.seq (.grp 1 (.plus true .digit)) (.seq (.chrI 'm') .eos))

/-- `Multiply.from_mcnp`, types/Horizontal.py l.173-195 -/
def mulParse (s : Str) : Res Horiz :=
  match reMatch mulRe s with
  | none => .error .types
  | some m => match cap m 1 with
    | some ds => mkMul (strNat ds)
    | none => .error .typeErr

/-- `Jump.from_mcnp`, types/Horizontal.py l.237-259 -/
def jumpParse (s : Str) : Res Horiz :=
  match reMatch (countRe (.chrI 'j')) s with
  | none => .error .types
  | some m => mkJump (countOf m)

/-- Pattern of `Log`: group 2 is the keyword (types/Horizontal.py l.281). -/
def logRe : Re := countRe (.grp 2 (.alt (.litI "log") (.litI "ilog")))

/-- `Log.from_mcnp`, types/Horizontal.py l.301-323 -/
def logParse (s : Str) : Res Horiz :=
  match reMatch logRe s with
  | none => .error .types
  | some m => mkLog (countOf m)

/-- `f'{self.n or ""}'` -/
def orEmpty : Option Int → Str
  | none => []
  | some n => if n = 0 then [] else intStr n

/-- `to_mcnp` of the five classes (types/Horizontal.py l.77, 141, 205, 269, 333). -/
def Horiz.str : Horiz → Str
  | .rep n => orEmpty n ++ ['r']
  | .ins n => orEmpty n ++ ['i']
  | .mul x => intStr x ++ ['m']
  | .jump n => (match n with | none => [] | some n => intStr n) ++ ['j']
  | .log n => orEmpty n ++ "log".toList

/-- `try ... except errors.TypesError: pass` cascade. -/
def orTypes {α : Type} (a : Res α) (b : Unit → Res α) : Res α :=
  match a with
  | .error .types => b ()
  | r => r

/-- The five `try` blocks of `Integer.from_mcnp` / `Real.from_mcnp`
(types/Integer.py l.59-82, types/Real.py l.59-82). -/
def horizParse (s : Str) : Res Horiz :=
  orTypes (repParse s) fun _ =>
  orTypes (insParse s) fun _ =>
  orTypes (mulParse s) fun _ =>
  orTypes (jumpParse s) fun _ => logParse s

def isSign (c : Char) : Bool := c == '-' || c == '+'
/-- class `[-+0-9.]` -/
def isMant (c : Char) : Bool := c == '-' || c == '+' || isDigit c || c == '.'

/-- Pattern `([-+0-9.]+)([-+])([0-9]+)` (types/Integer.py l.84, types/Real.py l.84). -/
def bareExpRe : Re :=
  .seq (.grp 1 (.plus true (.cls isMant)))
    (.seq (.grp 2 (.cls isSign)) (.grp 3 (.plus true (.cls isDigit))))

/-- Replacement `\1e\2\3`. -/
def bareExpRepl (_ : Str) (m : List (Nat × Str)) : Str :=
  (cap m 1).getD [] ++ ['e'] ++ (cap m 2).getD [] ++ (cap m 3).getD []

/-- The textual rewriting before `decimal.Decimal` (types/Integer.py l.84-87,
types/Real.py l.84-87): bare exponents, `d`/`D`, leading `e`. -/
def numText (s : Str) : Res Str :=
  let s := reSub bareExpRe bareExpRepl s
  let s := reSub (.cls (fun c => c == 'd' || c == 'D')) (fun _ _ => ['e']) s
  match s with
  | [] => .error .index                 -- source[0] on an empty text
  | c :: cs => .ok (if c = 'e' then '1' :: c :: cs else c :: cs)

/-- Value of an `Integer` object: a number or a shorthand. -/
inductive IntVal where
  | num (n : Int)
  | hor (h : Horiz)
deriving DecidableEq, Repr

/-- Value of a `Real` object (decimals only). -/
inductive RealVal where
  | num (d : DecVal)
  | hor (h : Horiz)
deriving DecidableEq, Repr

/-- `Integer.from_mcnp`, types/Integer.py l.43-92 -/
def intParse (s : Str) : Res IntVal :=
  match horizParse s with
  | .ok h => .ok (.hor h)
  | .error .types =>
    match numText s with
    | .error e => .error e
    | .ok t =>
      match decParse t with
      | none => .error .types                       -- decimal.InvalidOperation
      | some (.fin d) => .ok (.num d.trunc)
      | some (.inf _) => .error .overflow           -- int(Decimal('inf'))
      | some (.nan _ _ _) => .error .value          -- int(Decimal('nan'))
  | .error e => .error e

/-- `Integer.to_mcnp`, types/Integer.py l.94-102 -/
def IntVal.str : IntVal → Str
  | .num n => intStr n
  | .hor h => h.str

/-- `Real.from_mcnp`, types/Real.py l.43-92 -/
def realParse (s : Str) : Res RealVal :=
  match horizParse s with
  | .ok h => .ok (.hor h)
  | .error .types =>
    match numText s with
    | .error e => .error e
    | .ok t =>
      match decParse t with
      | none => .error .types
      | some d => .ok (.num d)
  | .error e => .error e

/-- `Real.to_mcnp`, types/Real.py l.94-102 -/
def RealVal.str : RealVal → Str
  | .num d => d.str
  | .hor h => h.str

end Types
