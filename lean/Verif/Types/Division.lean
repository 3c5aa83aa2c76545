import Verif.Types.RealOps
/-!
# Quotients and remainders of `Real` objects

Models `Real.__mod__`, `__rmod__`, `__divmod__`, `__rdivmod__` (src/pymcnp/types/Real.py:253-283), `__floordiv__`, `__rfloordiv__`,
`__truediv__` and `__rtruediv__` (src/pymcnp/types/Real.py:301-331).  The operations of `decimal` follow its reference implementation in
the default context (28 digits, halves to even); division by zero, invalid operations and overflow raise (`ArithmeticError`).
`divmod` is the pair of the whole quotient and the remainder.  `**` is not modelled.
-/
namespace Types
open Py

/-- `//`, `%` and `/`. -/
inductive DivOp where
  | whole | rem | frac
deriving DecidableEq, Repr

/-- `Decimal._divide` for finite numbers: the digits of the whole quotient, and those of the remainder in the smaller of both exponents.
Quotients of more than 28 digits raise `decimal.InvalidOperation` (`DivisionImpossible`). -/
def decDivide (x y : Dec) : Res (Nat × Nat) :=
  let e := min x.exp y.exp
  let d := x.adjusted - y.adjusted
  let m := x.coeff * 10 ^ (x.exp - e).toNat
  let n := y.coeff * 10 ^ (y.exp - e).toNat
  if x.coeff = 0 ∨ d ≤ -2 then .ok (0, m)
  else if d ≤ 28 ∧ m / n < 10 ^ 28 then .ok (m / n, m % n)
  else .error .arith

/-- `Decimal.__floordiv__` of finite numbers: the quotient is cut off, not rounded down. -/
def decFloor (x y : Dec) : Res DecVal :=
  if y.coeff = 0 then .error .arith
  else (decDivide x y).map (fun p => .fin ⟨x.neg != y.neg, p.1, 0⟩)

/-- `Decimal.__mod__` of finite numbers: the remainder has the sign of the dividend. -/
def decMod (x y : Dec) : Res DecVal :=
  if y.coeff = 0 then .error .arith
  else
    match decDivide x y with
    | .error e => .error e
    | .ok p => decFix x.neg p.2 (min x.exp y.exp)

/-- `while exp < ideal_exp and coeff % 10 == 0: coeff //= 10; exp += 1`, where the first argument is `ideal_exp - exp`. -/
def dropZeros : Nat → Nat → Int → Nat × Int
  | 0, c, e => (c, e)
  | k + 1, c, e => if c % 10 = 0 then dropZeros k (c / 10) (e + 1) else (c, e)

/-- `Decimal.__truediv__` of finite numbers. -/
def decQuot (x y : Dec) : Res DecVal :=
  if y.coeff = 0 then .error .arith
  else if x.coeff = 0 then decFix (x.neg != y.neg) 0 (x.exp - y.exp)
  else
    let shift : Int := (natStr y.coeff).length - (natStr x.coeff).length + 29
    let exp := x.exp - y.exp - shift
    let m := x.coeff * 10 ^ shift.toNat
    let n := y.coeff * 10 ^ (-shift).toNat
    if m % n ≠ 0 then decFix (x.neg != y.neg) (if m / n % 5 = 0 then m / n + 1 else m / n) exp
    else
      let p := dropZeros shift.toNat (m / n) exp
      decFix (x.neg != y.neg) p.1 p.2

/-- `//`, `%` and `/` of decimals. -/
def decDiv : DivOp → DecVal → DecVal → Res DecVal
  | .whole, .fin x, .fin y => decFloor x y
  | .rem, .fin x, .fin y => decMod x y
  | .frac, .fin x, .fin y => decQuot x y
  | _, .nan _ true _, _ | _, _, .nan _ true _ => .error .arith
  | _, .nan n false d, _ => .ok (.nan n false d)
  | _, _, .nan n false d => .ok (.nan n false d)
  | _, .inf _, .inf _ => .error .arith
  | .rem, .inf _, .fin _ => .error .arith
  | .whole, .inf a, .fin y | .frac, .inf a, .fin y => .ok (.inf (a != y.neg))
  | .whole, .fin x, .inf b => .ok (.fin ⟨x.neg != b, 0, 0⟩)
  | .rem, .fin x, .inf _ => decFix x.neg x.coeff x.exp
  | .frac, .fin x, .inf b => .ok (.fin ⟨x.neg != b, 0, -1000026⟩)

/-- `//`, `%` and `/` of whole numbers; `/` gives a `float`.  Dividing by zero raises `ZeroDivisionError` (here `value`, as in `Ari.eval`). -/
def intDiv : DivOp → Int → Int → Res RealRes
  | .whole, x, y => (Ari.eval .floordiv x y).map .int
  | .rem, x, y => (Ari.eval .mod x y).map .int
  | .frac, _, y => if y = 0 then .error .value else .ok .flt

/-- Dividing by a `float` or dividing a `float`: the result is a `float`, zero raises `ZeroDivisionError`. -/
def fltDiv (y : PyNum) : Res RealRes :=
  match y with
  | .int 0 => .error .value
  | .flt ⟨.fin 0, _⟩ => .error .value
  | _ => .ok .flt

/-- `x.__floordiv__(y)` and `x.__rfloordiv__(y)` (`swap`) of Python's numbers, and so on: `int` knows `int`, `Decimal` knows `Decimal` and
`int`, `float` knows `float` and `int`. -/
def numDivide (o : DivOp) (swap : Bool) : PyNum → PyNum → Res (Ret RealRes)
  | .int x, .int y => (if swap then intDiv o y x else intDiv o x y).map .val
  | .int _, _ => .ok .notImpl
  | .dec x, .dec y => (if swap then decDiv o y x else decDiv o x y).map (fun d => .val (.dec d))
  | .dec x, .int y => (if swap then decDiv o (intDec y) x else decDiv o x (intDec y)).map (fun d => .val (.dec d))
  | .dec _, .flt _ => .ok .notImpl
  | .flt x, .flt y => (fltDiv (.flt (if swap then x else y))).map .val
  | .flt x, .int y => (if swap then fltDiv (.flt x) else fltDiv (.int y)).map .val
  | .flt _, .dec _ => .ok .notImpl

/-- `a.value.__floordiv__(b)` and so on; shorthand has no such method, and no number knows shorthand. -/
def heldDivide (o : DivOp) (swap : Bool) : Held → Held → Res (Ret RealRes)
  | .num x, .num y => numDivide o swap x y
  | .num _, .hor _ => .ok .notImpl
  | .hor _, _ => .error .attribute

/-- `Real.__floordiv__(a, b)`, `Real.__rfloordiv__(a, b)` and so on (src/pymcnp/types/Real.py:253-283, 301-331). -/
def realDivide (o : DivOp) (swap : Bool) (a : Held) : RealArg → Res (Ret RealRes)
  | .real b => heldDivide o swap a b
  | .num x => heldDivide o swap a (.num (.dec x.toDec))

/-- `a // b` and so on where one operand at least is a `Real` object (as `pyReal`). -/
def pyDivide (o : DivOp) : RealArg → RealArg → Res RealRes
  | .real a, b =>
    match realDivide o false a b with
    | .error e => .error e
    | .ok (.val r) => .ok r
    | .ok _ => .error .typeErr
  | .num x, .real b =>
    match realDivide o true b (.num x) with
    | .error e => .error e
    | .ok (.val r) => .ok r
    | .ok _ => .error .typeErr
  | .num _, .num _ => .error .unmodelled

end Types
