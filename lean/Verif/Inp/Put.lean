import Verif.Inp.Card
/-!
# Assigning attributes

Every attribute of a card, option or entry has a setter of one form (for instance src/pymcnp/inp/Kcode.py:80-104 and
src/pymcnp/inp/Imp.py:85-112): the argument is converted, tested, and stored.
-/
namespace Inp
open Py Types

/-- Python values handed to a setter, or items of a list: an object of the attribute's class, a whole number or a text.  (Numbers
handed to an attribute of class `Real` are left out: they are stored as they are.) -/
inductive Item1 where
  | val (v : Val)
  | int (n : Int)
  | str (s : Str)

/-- Arguments of a setter: `None`, one value or a list of values. -/
inductive Given where
  | none
  | one (x : Item1)
  | list (l : List Item1)

/-- The branches `isinstance(item, …)` (Kcode.py:94-99, Imp.py:101-106). -/
def Item1.conv (t : Ty) : Item1 → Res Val
  | .val v => .ok v
  | .int n => match t with
    | .base .int => .ok (.sc (.int (.num n)))
    | _ => .error .unmodelled
  | .str s => t.parse s

/-- The items of a list in order; the first exception ends the loop (Imp.py:99-106). -/
def convAll (t : Ty) : List Item1 → Res (List Val)
  | [] => .ok []
  | x :: xs =>
    match x.conv t with
    | .error e => .error e
    | .ok v =>
      match convAll t xs with
      | .error e => .error e
      | .ok vs => .ok (v :: vs)

/-- The conversion at the head of a setter (Kcode.py:93-99, Imp.py:98-107). -/
def Given.conv (a : Attr) : Given → Res Val
  | .none => .ok .none
  | .one x => if a.many then .error .unmodelled else x.conv a.ty
  | .list l => if a.many then (convAll a.ty l).map .tuple else .error .unmodelled

/-- The attributes of an object. -/
def Cls.env (c : Cls) (vs : List Val) : List (String × Val) := (c.attrs.map (·.name)).zip vs

/-- The test of the setter of attribute `i` and the new contents (Kcode.py:101-104). -/
def Cls.put (c : Cls) (vs : List Val) (i : Nat) (v : Val) : Res (List Val) :=
  match c.attrs[i]? with
  | none => .error .attribute
  | some a =>
    match setAttr (c.env vs) a v with
    | .error e => .error e
    | .ok _ => .ok (vs.set i v)

/-- `obj.attr = x`. -/
def Cls.assign (c : Cls) (vs : List Val) (i : Nat) (x : Given) : Res (List Val) :=
  match c.attrs[i]? with
  | none => .error .attribute
  | some a =>
    match x.conv a with
    | .error e => .error e
    | .ok v => c.put vs i v

/-- Assignments one after the other; one that raises changes nothing. -/
def Cls.assigns (c : Cls) (vs : List Val) : List (Nat × Given) → List Val
  | [] => vs
  | (i, x) :: ops =>
    match c.assign vs i x with
    | .error _ => c.assigns vs ops
    | .ok ws => c.assigns ws ops

end Inp
