import Verif.Inp.ReadSpec
import Verif.Inp.TableAll
/-!
# Cards that end in a text (specification)

Comments on tallies, tally multipliers and treatments of tallies keep everything after their first word as one text
(src/pymcnp/inp/Fc.py:13-20, src/pymcnp/inp/Fm.py:13-21, src/pymcnp/inp/Ft.py:13-20).
-/
namespace Inp
open Py Types

/-- Any text. -/
def anyText : Pat := .plus true (.cls (.set false [.S, .s]))

/-- A card that ends in a text. -/
structure FreeCard where
  c : Cls
  /-- the first word -/
  h : Head
  /-- the attributes printed in the first word -/
  as : List Attr
  /-- the text -/
  a : Attr

/-- All cards that end in a text. -/
def freeCards : List FreeCard :=
  [⟨Tab.Fc, ⟨.no, c!"fc", .req, .no⟩, Tab.Fc.attrs.take 1, ⟨"info", (.base .str), false, (some .isNone)⟩⟩,
   ⟨Tab.Ft, ⟨.no, c!"ft", .req, .no⟩, Tab.Ft.attrs.take 1, ⟨"treatments", (.base .str), false, (some .isNone)⟩⟩,
   ⟨Tab.Fm, ⟨.plusStar, c!"fm", .req, .no⟩, Tab.Fm.attrs.take 2, ⟨"bins", (.base .str), false, (some .isNone)⟩⟩]

/-- What a card that ends in a text is read as: the first word is taken apart, the text is that of the other words, one blank apart. -/
def readFree (r : FreeCard) (hd : Str) (ws : List Str) : Res Val :=
  match readHead r.h hd with
  | none => .error .inp
  | some hv =>
    if ws = [] then .error .inp
    else
      match readVals r.as (hv.map (·.map ([·]))) with
      | .error e => .error e
      | .ok xs => r.c.mk' (xs ++ [.sc (.str (join [' '] ws))])

end Inp
