import Verif.Inp.Card
/-!
# Reading a card entry by entry (specification)

What reading a card means for classes made of a head and fields: the first word is read by `readHead`,
the entries are distributed over the fields by `assign`, each attribute is read from the entries of its
own field.
-/
namespace Inp
open Py Types

/-- Whether a unit accepts a word (`re.fullmatch`). -/
def unitOk (p : Pat) (w : Str) : Bool := (reMatch (anchored (p.re 1)) w).isSome

/-- The word-level view of a field. -/
def Field.spec (f : Field) : (Str → Bool) × Mode := (unitOk f.unit, f.mode)

/-- An attribute from the entries of its field. -/
def readVal (a : Attr) : Option (List Str) → Res Val
  | none => .ok .none
  | some ws => if a.many then (ws.mapM a.ty.parse).map .tuple else a.ty.parse (join [' '] ws)

/-- All attributes, in order. -/
def readVals : List Attr → Assign → Res (List Val)
  | a :: as, v :: vs =>
    match readVal a v with
    | .error e => .error e
    | .ok x =>
      match readVals as vs with
      | .error e => .error e
      | .ok xs => .ok (x :: xs)
  | _, _ => .ok []

/-- Reading a card whose first word is `hd` and whose entries are `ws`. -/
def readWords (c : Cls) (h : Head) (fs : List Field) (hd : Str) (ws : List Str) : Res Val :=
  match readHead h hd, assign (fs.map Field.spec) ws with
  | some hv, some vs =>
    match readVals c.attrs (hv.map (·.map ([·])) ++ vs) with
    | .error e => .error e
    | .ok l => c.mk' l
  | _, _ => .error .inp

end Inp
