import Verif.Py.Decimal
/-!
# `float(text)`

CPython's conversion of a text to a floating-point number, up to rounding: the exact decimal is kept (a `float` holds the nearest
binary number, or an infinity when there is none so large).  Digits and letters are those of ASCII.
-/
namespace Py

/-- The text begins with a digit. -/
def headDigit : Str → Bool
  | c :: _ => isDigit c
  | [] => false

/-- Underscores may stand between two digits only; `prev`: the character before is a digit. -/
def underOk (prev : Bool) : Str → Bool
  | [] => true
  | '_' :: t => prev && headDigit t && underOk false t
  | c :: t => underOk (isDigit c) t

/-- `inf`, `infinity` and `nan` in any case. -/
def floatSpecial (neg : Bool) (s : Str) : Option DecVal :=
  let l := lower s
  if l = "inf".toList ∨ l = "infinity".toList then some (.inf neg)
  else if l = "nan".toList then some (.nan neg false [])
  else none

/-- `float(text)`; `none` is `ValueError`. -/
def floatParse (s : Str) : Option DecVal :=
  let s := strip s
  if underOk false s then
    let (neg, t) := takeSign (s.filter (· ≠ '_'))
    (numParse neg t).or (floatSpecial neg t)
  else none

end Py
