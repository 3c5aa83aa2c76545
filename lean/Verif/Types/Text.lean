import Verif.Types.Operators
/-!
# Texts and tuples as containers

Models the operators of `String` (src/pymcnp/types/String.py:65-153) and of `Tuple` (src/pymcnp/types/Tuple.py:75-82) with the way Python finds the method of
an operator.  Texts hold `str` (the constructor accepts every object but `None`; others are not modelled), and slices are not modelled.
-/
namespace Types
open Py

/-- An operand of an operator on texts: a `String`, a `str`, or a number that is not a text (an `Integer` or an `int`). -/
inductive TextArg where
  | string (s : Str)
  | str (s : Str)
  | integer (v : IntVal)
  | int (n : Int)
deriving DecidableEq, Repr

/-- The order of `str`: the first different characters decide by their code points, else the shorter text is smaller. -/
def strOrder : Str → Str → Ordering
  | [], [] => .eq
  | [], _ :: _ => .lt
  | _ :: _, [] => .gt
  | a :: s, b :: t => if a = b then strOrder s t else if a.toNat < b.toNat then .lt else .gt

/-- `str.__lt__` and the like: `NotImplemented` unless the other operand is a `str`. -/
def strRel (r : Rel) (s : Str) : TextArg → Ret Bool
  | .str t => .val (r.holds (strOrder s t))
  | _ => .notImpl

/-- `String.__lt__`, `__le__`, `__eq__`, `__ne__`, `__gt__`, `__ge__` (src/pymcnp/types/String.py:92-126). -/
def stringRel (r : Rel) (s : Str) : TextArg → Ret Bool
  | .string t => strRel r s (.str t)
  | b => strRel r s b

/-- The method of the left operand; `Integer` returns `None` for texts (src/pymcnp/types/Integer.py:140-174).  Two numbers are compared in `pyRel`. -/
def textMethod (r : Rel) : TextArg → TextArg → Ret Bool
  | .string s, b => stringRel r s b
  | .str s, b => strRel r s b
  | .integer _, _ => .none
  | .int _, _ => .notImpl

/-- `a < b` and the like in Python, if one operand is a text: `none` stands for `None`. -/
def textRel (r : Rel) (a b : TextArg) : Res (Option Bool) :=
  match textMethod r a b with
  | .val x => .ok (some x)
  | .none => .ok none
  | .notImpl =>
    match textMethod r.swap b a with
    | .val x => .ok (some x)
    | .none => .ok none
    | .notImpl =>
      match r with
      | .eq => .ok (some false)
      | .ne => .ok (some true)
      | _ => .error .typeErr

/-- `String.__add__` (src/pymcnp/types/String.py:140-144); `str.__add__` raises `TypeError` for all but `str`. -/
def stringAdd (s : Str) : TextArg → Res Str
  | .string t => .ok (s ++ t)
  | .str t => .ok (s ++ t)
  | _ => .error .typeErr

/-- `a + b` in Python, if one operand is a `String`: there is no `String.__radd__`, `str` raises `TypeError`, `int` too, and `Integer.__add__` returns `None`
(src/pymcnp/types/Integer.py:176-180). -/
def textAdd : TextArg → TextArg → Res (Option Str)
  | .string s, b => (stringAdd s b).map some
  | .integer (.num _), _ => .ok none
  | .integer (.hor _), _ => .ok none
  | _, _ => .error .typeErr

/-- `str * n` -/
def repeated (s : Str) : Nat → Str
  | 0 => []
  | n + 1 => s ++ repeated s n

/-- `String.__mul__` and `String.__rmul__` (src/pymcnp/types/String.py:146-153). -/
def stringMul (s : Str) : TextArg → Res Str
  | .integer (.num n) => .ok (repeated s n.toNat)
  | .int n => .ok (repeated s n.toNat)
  | _ => .error .typeErr

/-- `a * b` in Python, if one operand is a `String`: `int.__mul__` returns `NotImplemented`, so that `String.__rmul__` is asked; `str` has no `__mul__` for
texts and asks it too; `Integer.__mul__` returns `None` (src/pymcnp/types/Integer.py:200-204). -/
def textMul : TextArg → TextArg → Res (Option Str)
  | .string s, b => (stringMul s b).map some
  | .int n, .string s => (stringMul s (.int n)).map some
  | .str t, .string s => (stringMul s (.str t)).map some
  | .integer _, .string _ => .ok none
  | _, _ => .error .typeErr

/-- `l[i]` of a Python sequence: negative positions count from the end. -/
def itemAt {α : Type} (l : List α) (i : Int) : Res α :=
  let j := if i < 0 then i + l.length else i
  if j < 0 then .error .index else match l[j.toNat]? with | some x => .ok x | none => .error .index

/-- `String.__getitem__` (src/pymcnp/types/String.py:74-78): a character as a `str`. -/
def stringItem (s : Str) : TextArg → Res Str
  | .integer (.num n) => (itemAt s n).map ([·])
  | .int n => (itemAt s n).map ([·])
  | _ => .error .typeErr

/-- `t in s` of `str`. -/
def hasPart (t : Str) : Str → Bool
  | [] => t.isEmpty
  | c :: s => t.isPrefixOf (c :: s) || hasPart t s

/-- `String.__contains__` (src/pymcnp/types/String.py:80-84). -/
def stringHas (s : Str) : TextArg → Res Bool
  | .string t => .ok (hasPart t s)
  | .str t => .ok (hasPart t s)
  | _ => .error .typeErr

/-- `String.__len__` (src/pymcnp/types/String.py:71-72) -/
def stringLen (s : Str) : Nat := s.length

/-- `Tuple.__getitem__` (src/pymcnp/types/Tuple.py:78-79): `Integer` has no `__index__`, so that only an `int` is a position. -/
def tupleItem {α : Type} (l : List α) : Operand → Res α
  | .int n => itemAt l n
  | _ => .error .typeErr

/-- `Tuple.__contains__` (src/pymcnp/types/Tuple.py:81-82) of numbers: `any(x is e or x == e for x in l)`, the element on the left; `None` is false.  Identity is
not modelled. -/
def tupleHas : List Operand → Operand → Res Bool
  | [], _ => .ok false
  | x :: l, e =>
    match pyRel .eq x e with
    | .error err => .error err
    | .ok (some true) => .ok true
    | .ok _ => tupleHas l e

end Types
