import Mathlib.Data.Rat.Defs
import Mathlib.Algebra.Order.Ring.Rat
import Verif.Inp.Elements
import Verif.Py.Err
/-!
# Materials from formulas

Models `M_0.from_formula` (src/pymcnp/inp/M_0.py:163-207) up to the list of substances.  The arithmetic of `float` is that of the rational
numbers.  What `molmass` makes of a formula is an argument: the composition, in its order, and the mass.
-/
namespace Formula
open Py Elements

/-- An item of `composition()` of `molmass`: the element, the number of its atoms, their mass and its fraction. -/
structure Part where
  symbol : Str
  count : Nat
  mass : ℚ
  fraction : ℚ

/-- `molmass.Formula`: `composition()` and `mass`. -/
structure Compound where
  parts : List Part
  mass : ℚ

/-- `types.Substance(types.Zaid(z, a), types.Real(ratio))` -/
structure Entry where
  z : Nat
  a : Nat
  ratio : ℚ
deriving DecidableEq

/-- `_elements.ELEMENTS[element]` (src/pymcnp/inp/M_0.py:188, 191) -/
def lookup (s : Str) : Option Element := table.find? fun e => e.symbol == s

/-- An abundance as a number. -/
def abundance (n : Nat) : ℚ := n / 10 ^ 9

/-- One round of the inner loop (src/pymcnp/inp/M_0.py:184-202): the entries of one element of a formula. -/
def partEntries (isWeight : Bool) (cutoff w : ℚ) (c : Compound) (p : Part) : Res (List Entry) :=
  let compound := if isWeight then p.fraction else p.mass / c.mass
  match lookup p.symbol with
  | none => .error .key
  | some e =>
    .ok ((e.isotopes.filter fun i => decide (w * compound * abundance i.2.1 > cutoff)).map fun i =>
      ⟨e.z, i.1, (if isWeight then -1 else 1) * w * compound * abundance i.2.1⟩)

/-- The inner loop (src/pymcnp/inp/M_0.py:183-202) -/
def compoundEntries (isWeight : Bool) (cutoff w : ℚ) (c : Compound) : List Part → Res (List Entry)
  | [] => .ok []
  | p :: ps =>
    match partEntries isWeight cutoff w c p with
    | .error e => .error e
    | .ok l =>
      match compoundEntries isWeight cutoff w c ps with
      | .error e => .error e
      | .ok l' => .ok (l ++ l')

/-- The substances of `M_0.from_formula` (src/pymcnp/inp/M_0.py:177-202). -/
def fromFormula (isWeight : Bool) (cutoff : ℚ) : List (Compound × ℚ) → Res (List Entry)
  | [] => .ok []
  | (c, w) :: l =>
    match compoundEntries isWeight cutoff w c c.parts with
    | .error e => .error e
    | .ok x =>
      match fromFormula isWeight cutoff l with
      | .error e => .error e
      | .ok y => .ok (x ++ y)

end Formula
