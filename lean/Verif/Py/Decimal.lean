import Verif.Py.Str
/-!
# `decimal.Decimal` (Python stdlib)

A finite decimal is sign, coefficient and exponent; the constructor from text
follows the grammar of `_pydecimal._parser` (blanks stripped, underscores
removed), `__str__` follows `_pydecimal.Decimal.__str__`.

Simplification: context limits on the exponent (about ±10^18) are not modelled.
-/
namespace Py

structure Dec where
  neg : Bool
  coeff : Nat
  exp : Int
deriving DecidableEq, Repr

inductive DecVal where
  | fin (d : Dec)
  | inf (neg : Bool)
  | nan (neg sig : Bool) (diag : Str)
deriving DecidableEq, Repr

/-- Optional sign. -/
def takeSign : Str → Bool × Str
  | '-' :: t => (true, t)
  | '+' :: t => (false, t)
  | s => (false, s)

/-- The exponent part `(?:E([-+]?\d+))?\Z`. -/
def expParse : Str → Option Int
  | [] => some 0
  | c :: t =>
    if c = 'e' ∨ c = 'E' then
      let (n, ds) := takeSign t
      if ds ≠ [] ∧ ds.all isDigit then
        some (if n then - (strNat ds : Int) else (strNat ds : Int))
      else none
    else none

/-- The fraction part `(?:\.(\d*))?` and what follows it. -/
def fracSplit : Str → Str × Str
  | '.' :: t => (t.takeWhile isDigit, t.dropWhile isDigit)
  | r => ([], r)

/-- Assemble integer digits, fraction digits and exponent text. -/
def numBuild (neg : Bool) (ip fp r : Str) : Option DecVal :=
  if ip = [] ∧ fp = [] then none
  else match expParse r with
    | none => none
    | some e => some (.fin ⟨neg, strNat (ip ++ fp), e - fp.length⟩)

/-- The unsigned numeric alternative of the grammar. -/
def numParse (neg : Bool) (s : Str) : Option DecVal :=
  numBuild neg (s.takeWhile isDigit) (fracSplit (s.dropWhile isDigit)).1
    (fracSplit (s.dropWhile isDigit)).2

/-- The `Inf`/`NaN` alternatives of the grammar. -/
def specialParse (neg : Bool) (s : Str) : Option DecVal :=
  let l := lower s
  if l = "inf".toList ∨ l = "infinity".toList then some (.inf neg)
  else if l.take 3 = "nan".toList ∧ (l.drop 3).all isDigit then some (.nan neg false (l.drop 3))
  else if l.take 4 = "snan".toList ∧ (l.drop 4).all isDigit then some (.nan neg true (l.drop 4))
  else none

/-- `decimal.Decimal(text)`; `none` is `decimal.InvalidOperation`. -/
def decParse (s : Str) : Option DecVal :=
  let s := (strip s).filter (· ≠ '_')
  let (neg, t) := takeSign s
  (numParse neg t).or (specialParse neg t)

/-- `"%+d" % e` -/
def expStr (e : Int) : Str := if e < 0 then intStr e else '+' :: intStr e

/-- `str(Decimal)` for a finite decimal. -/
def Dec.str (d : Dec) : Str :=
  let ds := natStr d.coeff
  let leftdigits : Int := d.exp + ds.length
  let dotplace : Int := if d.exp ≤ 0 ∧ leftdigits > -6 then leftdigits else 1
  let intpart := if dotplace ≤ 0 then ['0']
    else if dotplace ≥ ds.length then ds ++ List.replicate (dotplace - ds.length).toNat '0'
    else ds.take dotplace.toNat
  let fracpart := if dotplace ≤ 0 then '.' :: List.replicate (-dotplace).toNat '0' ++ ds
    else if dotplace ≥ ds.length then []
    else '.' :: ds.drop dotplace.toNat
  let exp := if leftdigits = dotplace then [] else 'E' :: expStr (leftdigits - dotplace)
  (if d.neg then ['-'] else []) ++ intpart ++ fracpart ++ exp

/-- `str(Decimal)` -/
def DecVal.str : DecVal → Str
  | .fin d => d.str
  | .inf n => (if n then ['-'] else []) ++ "Infinity".toList
  | .nan n s g => (if n then ['-'] else []) ++ (if s then "sNaN".toList else "NaN".toList) ++ g

/-- `int(Decimal)` for a finite decimal: truncation towards zero. -/
def Dec.trunc (d : Dec) : Int :=
  let m : Nat := if 0 ≤ d.exp then d.coeff * 10 ^ d.exp.toNat else d.coeff / 10 ^ (-d.exp).toNat
  if d.neg then - (m : Int) else (m : Int)

/-- `Decimal.adjusted()` -/
def Dec.adjusted (d : Dec) : Int := d.exp + (natStr d.coeff).length - 1

end Py
