import Verif.Types.Operators
import Verif.Py.Double
/-!
# Sums, differences and products of `Real` objects

Models the comparisons (src/pymcnp/types/Real.py:157-203) and `Real.__add__`, `__radd__`, `__sub__`, `__rsub__`, `__mul__` and `__rmul__` (src/pymcnp/types/Real.py:205-251) and the way Python
finds the method of an operator.  A `Real` object holds what it was given (src/pymcnp/types/Real.py:25-42): a decimal if it was read from
a text, else the `int` or `float` of the program, or a shorthand.  Decimals are rounded as in the default context: 28 digits, halves to
even; overflow and invalid operations raise (`decimal.Overflow`, `decimal.InvalidOperation`, both `ArithmeticError`).
-/
namespace Types
open Py

/-- The operators. -/
inductive RealOp where
  | add | sub | mul
deriving DecidableEq, Repr

/-- A `float`: its value, and the decimal of its text `str(x)`. -/
structure Flt where
  val : Dbl
  text : DecVal
deriving DecidableEq, Repr

/-- Numbers of Python. -/
inductive PyNum where
  | dec (d : DecVal)
  | int (n : Int)
  | flt (x : Flt)
deriving DecidableEq, Repr

/-- What a `Real` object holds. -/
inductive Held where
  | num (x : PyNum)
  | hor (h : Horiz)
deriving DecidableEq, Repr

/-- Operands. -/
inductive RealArg where
  | real (h : Held)
  | num (x : PyNum)
deriving DecidableEq, Repr

/-- Results: decimals, whole numbers, or a float (its value is not modelled). -/
inductive RealRes where
  | dec (d : DecVal)
  | int (n : Int)
  | flt
deriving DecidableEq, Repr

/-- `Decimal._fix` in the default context: at most 28 digits, no exponent below -1000026. -/
def decFix (neg : Bool) (n : Nat) (e : Int) : Res DecVal :=
  let k := max ((natStr n).length - 28) (-1000026 - e).toNat
  let q := roundHalf n (10 ^ k)
  let c := if q = 10 ^ 28 then 10 ^ 27 else q
  let x := if q = 10 ^ 28 then e + k + 1 else e + k
  if c = 0 then .ok (.fin ⟨neg, 0, min x 999999⟩)
  else if (natStr c).length + x - 1 > 999999 then .error .arith
  else .ok (.fin ⟨neg, c, x⟩)

/-- `Decimal.__add__` of finite numbers. -/
def decAdd (x y : Dec) : Res DecVal :=
  let e := min x.exp y.exp
  let m := Dec.signed x * 10 ^ (x.exp - e).toNat + Dec.signed y * 10 ^ (y.exp - e).toNat
  decFix (if m = 0 then x.neg && y.neg else decide (m < 0)) m.natAbs e

/-- `Decimal.__mul__` of finite numbers. -/
def decMul (x y : Dec) : Res DecVal := decFix (x.neg != y.neg) (x.coeff * y.coeff) (x.exp + y.exp)

/-- Operators of decimals. -/
def decAri : RealOp → DecVal → DecVal → Res DecVal
  | .add, .fin x, .fin y => decAdd x y
  | .sub, .fin x, .fin y => decAdd x ⟨!y.neg, y.coeff, y.exp⟩
  | .mul, .fin x, .fin y => decMul x y
  | _, .nan _ true _, _ | _, _, .nan _ true _ => .error .arith
  | _, .nan n false d, _ => .ok (.nan n false d)
  | _, _, .nan n false d => .ok (.nan n false d)
  | .add, .inf a, .inf b => if a = b then .ok (.inf a) else .error .arith
  | .sub, .inf a, .inf b => if a = b then .error .arith else .ok (.inf a)
  | .mul, .inf a, .inf b => .ok (.inf (a != b))
  | .add, .inf a, .fin _ | .sub, .inf a, .fin _ | .add, .fin _, .inf a => .ok (.inf a)
  | .sub, .fin _, .inf a => .ok (.inf !a)
  | .mul, .inf a, .fin x | .mul, .fin x, .inf a => if x.coeff = 0 then .error .arith else .ok (.inf (a != x.neg))

/-- Operators of whole numbers. -/
def RealOp.int : RealOp → Int → Int → Int
  | .add, x, y => x + y
  | .sub, x, y => x - y
  | .mul, x, y => x * y

/-- `x.__add__(y)` and `x.__radd__(y)` (`swap`) of Python's numbers: `int` knows `int`, `Decimal` knows `Decimal` and `int`,
`float` knows `float` and `int`. -/
def numMethod (o : RealOp) (swap : Bool) : PyNum → PyNum → Res (Ret RealRes)
  | .int x, .int y => .ok (.val (.int (if swap then o.int y x else o.int x y)))
  | .int _, _ => .ok .notImpl
  | .dec x, .dec y => (if swap then decAri o y x else decAri o x y).map (fun d => .val (.dec d))
  | .dec x, .int y => (if swap then decAri o (intDec y) x else decAri o x (intDec y)).map (fun d => .val (.dec d))
  | .dec _, .flt _ => .ok .notImpl
  | .flt _, .flt _ => .ok (.val .flt)
  | .flt _, .int _ => .ok (.val .flt)
  | .flt _, .dec _ => .ok .notImpl

/-- `a.value.__add__(b)`; shorthand has no such method, and no number knows shorthand. -/
def heldMethod (o : RealOp) (swap : Bool) : Held → Held → Res (Ret RealRes)
  | .num x, .num y => numMethod o swap x y
  | .num _, .hor _ => .ok .notImpl
  | .hor _, _ => .error .attribute

/-- `decimal.Decimal(str(b))` for `int` and `float` (src/pymcnp/types/Real.py:211) -/
def PyNum.toDec : PyNum → DecVal
  | .dec d => d
  | .int n => intDec n
  | .flt x => x.text

/-- `Real.__add__(a, b)`, `Real.__radd__(a, b)` and so on (src/pymcnp/types/Real.py:205-251). -/
def realMethod (o : RealOp) (swap : Bool) (a : Held) : RealArg → Res (Ret RealRes)
  | .real b => heldMethod o swap a b
  | .num x => heldMethod o swap a (.num (.dec x.toDec))

/-- `a + b` and so on where one operand at least is a `Real` object: the method of the left operand if that is a `Real` object; else, as
the numbers of Python know nothing of `Real`, the reflected method of the right one.  Operands of one class are not tried twice. -/
def pyReal (o : RealOp) : RealArg → RealArg → Res RealRes
  | .real a, b =>
    match realMethod o false a b with
    | .error e => .error e
    | .ok (.val r) => .ok r
    | .ok _ => .error .typeErr
  | .num x, .real b =>
    match realMethod o true b (.num x) with
    | .error e => .error e
    | .ok (.val r) => .ok r
    | .ok _ => .error .typeErr
  | .num _, .num _ => .error .unmodelled

/-! ## Comparisons of what `Real` objects hold -/

/-- A finite number as a fraction; Python compares `int`, `float` and `Decimal` exactly. -/
def PyNum.frac : PyNum → Option (Int × Nat)
  | .int n => some (n, 1)
  | .dec (.fin d) => some (Dec.signed d * 10 ^ d.exp.toNat, 10 ^ (-d.exp).toNat)
  | .flt ⟨.fin k, _⟩ => some (k, 2 ^ 1074)
  | _ => none

/-- `x < y` and the like for finite numbers of Python. -/
def numRel (r : Rel) (x y : PyNum) : Res Bool :=
  match x.frac, y.frac with
  | some (a, b), some (c, d) => .ok (r.holds (compare (a * d) (c * b)))
  | _, _ => .error .unmodelled

/-- `a < b` and the like for a `Real` object that holds a number: the operators of the numbers, where an `int` or a `float` is
replaced by the decimal of its text (src/pymcnp/types/Real.py:157-203). -/
def realNumRel (r : Rel) (a : PyNum) : RealArg → Res Bool
  | .real (.num b) => numRel r a b
  | .real (.hor _) => .error .unmodelled
  | .num x => numRel r a (.dec x.toDec)

/-- `types.Real.from_mcnp(str(x))`: what is held after printing and reading a number (C01). -/
def PyNum.reread (x : PyNum) : RealArg := .real (.num (.dec x.toDec))

end Types
