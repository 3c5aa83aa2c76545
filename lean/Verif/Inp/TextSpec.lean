import Verif.Py.Str
/-!
# Reading of card entries (specification)

What shorthand entries mean, written without reference to the substitutions of the code.
-/
namespace Inp
open Py

/-- The shorthand entries: jump, repeat, interpolate, and the two logarithmic ones. -/
def shorthand : List Str := [['j'], ['r'], ['i'], ['l', 'o', 'g'], ['i', 'l', 'o', 'g']]

/-- `12j` ↦ (12, `j`): a decimal number followed by a shorthand letter in any case. -/
def countedEntry (w : Str) : Option (Nat × Str) :=
  if w.takeWhile isDigit ≠ [] ∧ lower (w.dropWhile isDigit) ∈ shorthand then
    some (strNat (w.takeWhile isDigit), lower (w.dropWhile isDigit))
  else none

/-- The shorthand letter of an entry, counted or not. -/
def letter (w : Str) : Option Str :=
  if lower w ∈ shorthand then some (lower w) else (countedEntry w).map (·.2)

/-- The entries one entry stands for. -/
def expandOne (w : Str) : List Str :=
  match countedEntry w with
  | some (n, l) => List.replicate n l
  | none => [w]

/-- A card entry: not empty; no blanks, line ends, `&`, `=` or `$`; no blank-sensitive parenthesis. -/
structure Entry (w : Str) : Prop where
  ne : w ≠ []
  sp : ∀ c ∈ w, isSpace c = false
  amp : '&' ∉ w
  eq : '=' ∉ w
  dl : '$' ∉ w
  op : w.getLast? ≠ some '('
  cl : w.head? ≠ some ')'

/-- A bare shorthand entry is written in lower case. -/
def LowerShort (w : Str) : Prop := lower w ∈ shorthand → w ∈ shorthand

/-- No counted shorthand stands next to shorthand of the same letter. -/
def NoAdj : List Str → Prop
  | [] => True
  | [_] => True
  | a :: b :: l => (letter a ≠ none → letter a = letter b → countedEntry a = none ∧ countedEntry b = none) ∧ NoAdj (b :: l)

end Inp
