import Verif.Types.Number
/-!
# Comparison and arithmetic of numbers

Models the operators of `Integer` and `Real` (src/pymcnp/types/Integer.py:140-270, src/pymcnp/types/Real.py:157-203) together
with the way Python finds the method of an operator: the method of the left operand, and if it returns `NotImplemented`
the reflected method of the right one.  Operands that are neither numbers nor `Integer` or `Real` objects, and `float`, are not modelled.
-/
namespace Types
open Py

/-- Comparison operators. -/
inductive Rel where
  | lt | le | eq | ne | gt | ge
deriving DecidableEq, Repr

/-- The operator with its operands exchanged. -/
def Rel.swap : Rel → Rel
  | .lt => .gt | .le => .ge | .eq => .eq | .ne => .ne | .gt => .lt | .ge => .le

/-- What an operator says about the order of its operands. -/
def Rel.holds : Rel → Ordering → Bool
  | .lt, o => o == .lt
  | .le, o => o != .gt
  | .eq, o => o == .eq
  | .ne, o => o != .eq
  | .gt, o => o == .gt
  | .ge, o => o != .lt

/-- A number or an object holding one. -/
inductive Operand where
  | integer (v : IntVal)
  | real (v : RealVal)
  | int (n : Int)
  | dec (d : DecVal)
deriving DecidableEq, Repr

/-- What a method returns: a value, `None` or `NotImplemented`. -/
inductive Ret (α : Type) where
  | val (x : α)
  | none
  | notImpl
deriving DecidableEq, Repr

/-- Signed coefficient. -/
def Dec.signed (x : Dec) : Int := if x.neg then -(x.coeff : Int) else x.coeff

/-- Order of two finite decimals: both are brought to the smaller exponent. -/
def Dec.order (x y : Dec) : Ordering :=
  compare (Dec.signed x * 10 ^ (x.exp - min x.exp y.exp).toNat) (Dec.signed y * 10 ^ (y.exp - min x.exp y.exp).toNat)

/-- `Decimal` comparison.  A signalling or quiet NaN is different from everything; asking for its order raises
`decimal.InvalidOperation` (an `ArithmeticError`, here `unmodelled`); so does `==` on a signalling NaN, which the readers do not
produce. -/
def decRel (r : Rel) : DecVal → DecVal → Res Bool
  | .fin x, .fin y => .ok (r.holds (Dec.order x y))
  | .inf a, .inf b => .ok (r.holds (if a = b then .eq else if a then .lt else .gt))
  | .inf a, .fin _ => .ok (r.holds (if a then .lt else .gt))
  | .fin _, .inf b => .ok (r.holds (if b then .gt else .lt))
  | .nan .., _ | _, .nan .. =>
    match r with
    | .eq => .ok false
    | .ne => .ok true
    | _ => .error .unmodelled

/-- `decimal.Decimal(str(n))` (src/pymcnp/types/Real.py:163) -/
def intDec (n : Int) : DecVal := .fin ⟨decide (n < 0), n.natAbs, 0⟩

/-- `Nonterminal.__eq__` of shorthand against a printed text (src/pymcnp/_symbol.py:62-63); `none`: the other operand is false.
`__ne__` is the default of Python, its negation; the other comparisons return `NotImplemented`. -/
def horRel (r : Rel) (h : Horiz) (t : Option Str) : Ret Bool :=
  match r with
  | .eq => .val (some h.str == t)
  | .ne => .val (some h.str != t)
  | _ => .notImpl

/-- `str(n) if n else None` -/
def intText (n : Int) : Option Str := if n = 0 then none else some (intStr n)

/-- `a.value.__lt__(b)` and the like for the value of an `Integer` (src/pymcnp/types/Integer.py:140-174). -/
def intRaw (r : Rel) : IntVal → IntVal → Ret Bool
  | .num x, .num y => .val (r.holds (compare x y))
  | .num _, .hor _ => .notImpl
  | .hor h, .num y => horRel r h (intText y)
  | .hor h, .hor k => horRel r h (some k.str)

/-- `Integer.__lt__`, `__le__`, `__eq__`, `__ne__`, `__gt__`, `__ge__` (src/pymcnp/types/Integer.py:140-174): `None` for
operands that are neither `Integer` nor `int`. -/
def integerRel (r : Rel) (a : IntVal) : Operand → Ret Bool
  | .integer b => intRaw r a b
  | .int n => intRaw r a (.num n)
  | _ => .none

/-- The order in `Real` uses the operators of the values (src/pymcnp/types/Real.py:157-203), which raise `TypeError` for
shorthand.  (A decimal zero is false, so `==` compares the shorthand with `None` instead of `0`; either is different from it.) -/
def realRaw (r : Rel) : RealVal → RealVal → Res Bool
  | .num x, .num y => decRel r x y
  | .num x, .hor h | .hor h, .num x =>
    match r with
    | .eq => .ok (some h.str == some (DecVal.str x))
    | .ne => .ok (some h.str != some (DecVal.str x))
    | _ => .error .typeErr
  | .hor h, .hor k =>
    match r with
    | .eq => .ok (h.str == k.str)
    | .ne => .ok (h.str != k.str)
    | _ => .error .typeErr

/-- `Real.__lt__` and the others (src/pymcnp/types/Real.py:157-203): `None` for an `Integer`. -/
def realRel (r : Rel) (a : RealVal) : Operand → Res (Ret Bool)
  | .real b => (realRaw r a b).map .val
  | .dec d => (realRaw r a (.num d)).map .val
  | .int n => (realRaw r a (.num (intDec n))).map .val
  | .integer _ => .ok .none

/-- The method of the left operand.  `int` and `Decimal` know nothing of `Integer` and `Real`. -/
def relMethod (r : Rel) : Operand → Operand → Res (Ret Bool)
  | .integer a, b => .ok (integerRel r a b)
  | .real a, b => realRel r a b
  | .int x, .int y => .ok (.val (r.holds (compare x y)))
  | .int x, .dec d => (decRel r (intDec x) d).map .val
  | .dec d, .int x => (decRel r d (intDec x)).map .val
  | .dec d, .dec e => (decRel r d e).map .val
  | .int _, _ => .ok .notImpl
  | .dec _, _ => .ok .notImpl

/-- `a < b` and the like in Python: `none` stands for `None`.  Two objects that know nothing of each other are different. -/
def pyRel (r : Rel) (a b : Operand) : Res (Option Bool) :=
  match relMethod r a b with
  | .error e => .error e
  | .ok (.val x) => .ok (some x)
  | .ok .none => .ok none
  | .ok .notImpl =>
    match relMethod r.swap b a with
    | .error e => .error e
    | .ok (.val x) => .ok (some x)
    | .ok .none => .ok none
    | .ok .notImpl =>
      match r with
      | .eq => .ok (some false)
      | .ne => .ok (some true)
      | _ => .error .typeErr

/-- Arithmetic operators with whole results. -/
inductive Ari where
  | add | sub | mul | floordiv | mod
deriving DecidableEq, Repr

/-- Python integers; division rounds down and dividing by zero raises `ZeroDivisionError` (here `value`). -/
def Ari.eval : Ari → Int → Int → Res Int
  | .add, x, y => .ok (x + y)
  | .sub, x, y => .ok (x - y)
  | .mul, x, y => .ok (x * y)
  | .floordiv, x, y => if y = 0 then .error .value else .ok (x.fdiv y)
  | .mod, x, y => if y = 0 then .error .value else .ok (x.fmod y)

/-- `Integer.__add__` and `Integer.__radd__`, and so on (src/pymcnp/types/Integer.py:176-258), for numbers: `swap` is true for
the reflected method.  `None` for operands that are neither `Integer` nor `int`. -/
def integerAri (o : Ari) (swap : Bool) (a : Int) : Operand → Res (Ret Int)
  | .integer (.num b) | .int b => (if swap then o.eval b a else o.eval a b).map .val
  | .integer (.hor _) => .ok .notImpl
  | _ => .ok .none

/-- `a + b` and so on, if one operand is an `Integer` that holds a number and the other an `Integer` or `int`; everything
else is `none` where the method of the `Integer` returns `None`. -/
def pyAri (o : Ari) : Operand → Operand → Res (Option Int)
  | .integer (.num a), b =>
    match integerAri o false a b with
    | .error e => .error e
    | .ok (.val x) => .ok (some x)
    | .ok .none => .ok none
    | .ok .notImpl => .error .typeErr
  | .int a, .integer (.num b) =>
    match integerAri o true b (.int a) with
    | .error e => .error e
    | .ok (.val x) => .ok (some x)
    | .ok .none => .ok none
    | .ok .notImpl => .error .typeErr
  | .int a, .int b => (o.eval a b).map some
  | _, _ => .error .unmodelled

end Types
