import Verif.Inp.ReadSpec
import Verif.Inp.TableCards
/-!
# How the entries of an electron physics card are distributed

Specification only.  `phys:e` has eleven entries, then the two words `j j` or nothing, then three entries
(src/pymcnp/inp/Phys_2.py:36); everything may be left out.
-/
namespace Inp
open Py Types

/-- A place for one entry or for the two words `j j`. -/
inductive Slot where
  | word | pair
deriving DecidableEq

/-- The word `j`, in either case. -/
def isJ (w : Str) : Bool := w.map lowerC == ['j']

/-- The first way, preferring to fill places from the left, to put all words into the places, in order. -/
def slots : List Slot → List Str → Option Assign
  | [], [] => some []
  | [], _ :: _ => none
  | .word :: s, [] => (slots s []).map (none :: ·)
  | .word :: s, w :: ws => ((slots s ws).map (some [w] :: ·)).or ((slots s (w :: ws)).map (none :: ·))
  | .pair :: s, [] => (slots s []).map (none :: ·)
  | .pair :: s, [a] => (slots s [a]).map (none :: ·)
  | .pair :: s, a :: b :: ws =>
    (if isJ a && isJ b then (slots s ws).map (some [a, b] :: ·) else none).or ((slots s (a :: b :: ws)).map (none :: ·))

/-- The places of the electron physics card (src/pymcnp/inp/Phys_2.py:36). -/
def electronSlots : List Slot := List.replicate 11 .word ++ .pair :: List.replicate 3 .word

/-- Reading an electron physics card with first word `hd` and entries `ws`: every attribute is read from the words of
its place. -/
def electronRead (hd : Str) (ws : List Str) : Res Val :=
  if hd.map lowerC = c!"phys:e" then
    match slots electronSlots ws with
    | none => .error .inp
    | some vs => match readVals Tab.Phys_2.attrs vs with
      | .error e => .error e
      | .ok l => Tab.Phys_2.mk' l
  else .error .inp

end Inp
