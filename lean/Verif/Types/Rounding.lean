import Verif.Types.RealOps
/-!
# Converting `Integer` and `Real` objects to numbers

Models `__neg__`, `__pos__`, `__abs__`, `__bool__`, `__int__`, `__float__`, `__trunc__`, `__floor__`, `__ceil__` and `__round__`
(src/pymcnp/types/Integer.py:107-135, src/pymcnp/types/Real.py:107-135).  All of them call the method of what the object holds: an
`Integer` holds an `int` or a shorthand, a `Real` a decimal, an `int`, a `float` or a shorthand.  The operations of `decimal` follow its reference implementation in
the default context.  Payloads of NaN of more than 28 digits are not shortened.
-/
namespace Types
open Py

/-- `int(x)` and `math.trunc(x)`, `math.floor(x)`, `math.ceil(x)`, `round(x)`. -/
inductive ToInt where
  | trunc | floor | ceil | round
deriving DecidableEq, Repr

/-- The digits before the point, one more if the sign and the digits behind it ask for that: `n/p` is the number without its sign
(`_round_down`, `_round_floor`, `_round_ceiling` and `_round_half_even` of `decimal`). -/
def wholeAbs (o : ToInt) (neg : Bool) (n p : Nat) : Nat :=
  match o with
  | .trunc => n / p
  | .floor => if neg = true ∧ n % p ≠ 0 then n / p + 1 else n / p
  | .ceil => if neg = false ∧ n % p ≠ 0 then n / p + 1 else n / p
  | .round => roundHalf n p

/-- `Decimal.__int__`, `__trunc__`, `__floor__`, `__ceil__` and `__round__` (`_rescale` to exponent 0) of finite numbers. -/
def decWhole (o : ToInt) (d : Dec) : Int :=
  if 0 ≤ d.exp then Dec.signed d * 10 ^ d.exp.toNat
  else
    let c := wholeAbs o d.neg d.coeff (10 ^ (-d.exp).toNat)
    if d.neg then -(c : Int) else c

/-- `float.__int__` and so on: a `float` is `k` times 2^-1074. -/
def fltWhole (o : ToInt) (k : Int) : Int :=
  match o with
  | .trunc => if k < 0 then -((k.natAbs / 2 ^ 1074 : Nat) : Int) else (k.natAbs / 2 ^ 1074 : Nat)
  | .floor => k / 2 ^ 1074
  | .ceil => -(-k / 2 ^ 1074)
  | .round => if k < 0 then -(roundHalf k.natAbs (2 ^ 1074) : Int) else roundHalf k.natAbs (2 ^ 1074)

/-- The same of Python's numbers: infinity raises `OverflowError`, NaN `ValueError`. -/
def PyNum.toInt (o : ToInt) : PyNum → Res Int
  | .int n => .ok n
  | .dec (.fin d) => .ok (decWhole o d)
  | .dec (.inf _) => .error .overflow
  | .dec (.nan ..) => .error .value
  | .flt ⟨.fin k, _⟩ => .ok (fltWhole o k)
  | .flt ⟨.inf _, _⟩ => .error .overflow
  | .flt ⟨.nan, _⟩ => .error .value

/-- `int(x)`, `math.trunc(x)`, `math.floor(x)`, `math.ceil(x)` and `round(x)` of an object (src/pymcnp/types/Integer.py:119-120, 125-135,
src/pymcnp/types/Real.py:119-120, 125-135); shorthand has no such method. -/
def Held.toInt (o : ToInt) : Held → Res Int
  | .num x => x.toInt o
  | .hor _ => .error .attribute

/-- `int.__float__` raises `OverflowError` if the result is not finite. -/
def finite : Dbl → Res Dbl
  | .fin k => .ok (.fin k)
  | _ => .error .overflow

/-- `float(x)` of Python's numbers: `Decimal.__float__` reads its text; a signalling NaN raises
`ValueError`. -/
def PyNum.toFloat : PyNum → Res Dbl
  | .int n => finite (roundDbl (decide (n < 0)) (n.natAbs * 2 ^ 1074) 1)
  | .dec (.fin d) => .ok (roundDbl d.neg (d.coeff * 10 ^ d.exp.toNat * 2 ^ 1074) (10 ^ (-d.exp).toNat))
  | .dec (.inf n) => .ok (.inf n)
  | .dec (.nan _ true _) => .error .value
  | .dec (.nan _ false _) => .ok .nan
  | .flt x => .ok x.val

/-- `float(x)` of an object (src/pymcnp/types/Integer.py:122-123, src/pymcnp/types/Real.py:122-123) -/
def Held.toFloat : Held → Res Dbl
  | .num x => x.toFloat
  | .hor _ => .error .attribute

/-- `bool(x)` of an object (src/pymcnp/types/Integer.py:116-117, src/pymcnp/types/Real.py:116-117) -/
def Held.toBool : Held → Res Bool
  | .num (.int n) => .ok (n != 0)
  | .num (.dec (.fin d)) => .ok (d.coeff != 0)
  | .num (.dec _) => .ok true
  | .num (.flt x) => .ok x.val.truth
  | .hor _ => .error .attribute

/-- `-x`, `+x` and `abs(x)`. -/
inductive SignOp where
  | neg | pos | abs
deriving DecidableEq, Repr

/-- The sign of the result for a number with this sign. -/
def SignOp.sign : SignOp → Bool → Bool
  | .neg, n => !n
  | .pos, n => n
  | .abs, _ => false

/-- `Decimal.__neg__`, `__pos__` and `__abs__`: zero becomes positive, all others are rounded to 28 digits. -/
def decSign (o : SignOp) : DecVal → Res DecVal
  | .nan _ true _ => .error .arith
  | .nan n false d => .ok (.nan n false d)
  | .inf n => .ok (.inf (o.sign n))
  | .fin d => decFix (if d.coeff = 0 then false else o.sign d.neg) d.coeff d.exp

/-- `-x`, `+x` and `abs(x)` of an object (src/pymcnp/types/Integer.py:107-114, src/pymcnp/types/Real.py:107-114); the result is a number
of Python. -/
def Held.signed (o : SignOp) : Held → Res RealRes
  | .num (.int n) => .ok (.int (match o with | .neg => -n | .pos => n | .abs => n.natAbs))
  | .num (.dec d) => (decSign o d).map .dec
  | .num (.flt _) => .ok .flt
  | .hor _ => .error .attribute

end Types
