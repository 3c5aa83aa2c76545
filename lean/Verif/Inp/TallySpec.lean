import Verif.Inp.TableAll
import Verif.Inp.ReadSpec
/-!
# Cell and surface tallies (specification)
-/
namespace Inp
open Py Types

/-- Tallies by the last digit of their number (src/pymcnp/inp/F_0.py:24, F_3.py:24). -/
def tallyCards : List (Cls × List Char) :=
  [(Tab.F_0, ['1', '2', '3', '4', '6', '7']), (Tab.F_3, ['8'])]

/-- The first word of a tally without regard to its number. -/
def tallyHead : Head := ⟨.starPlus, c!"f", .req, .opt⟩

/-- The entries of a tally: cells or surfaces, and the request for their total. -/
def tallyFields : List Field := [⟨.ty (.base .int), .many⟩, ⟨.lits c!"t", .opt⟩]

/-- The first word of a tally: the number ends with one of the digits. -/
def readTally (ds : List Char) (hd : Str) : Option (List (Option Str)) :=
  match readHead tallyHead hd with
  | some [p, some s, d] => if (match s.getLast? with | some c => ds.contains c | none => false) then some [p, some s, d] else none
  | _ => none

/-- Reading a tally, entry by entry. -/
def tallyWords (c : Cls) (ds : List Char) (hd : Str) (ws : List Str) : Res Val :=
  match readTally ds hd, assign (tallyFields.map Field.spec) ws with
  | some hv, some vs =>
    match readVals c.attrs (hv.map (·.map ([·])) ++ vs) with
    | .error e => .error e
    | .ok l => c.mk' l
  | _, _ => .error .inp

end Inp
