import Verif.Py.Decimal
import Verif.Py.Err
/-!
# Python `float`

A finite double is a whole multiple of 2^-1074, the smallest one.  Results are rounded to 53 binary digits, halves to even
(IEEE 754).  The sign of zero is left out: nothing modelled looks at it.
-/
namespace Py

inductive Dbl where
  | fin (k : Int)      -- k · 2^-1074
  | inf (neg : Bool)
  | nan
deriving DecidableEq, Repr

/-- The whole number nearest to `n/d`, a half to the even one. -/
def roundHalf (n d : Nat) : Nat :=
  let q := n / d
  let r := n % d
  if 2 * r < d then q else if 2 * r > d then q + 1 else if q % 2 = 0 then q else q + 1

/-- The double nearest to `n/d` times 2^-1074. -/
def roundDbl (neg : Bool) (n d : Nat) : Dbl :=
  let s := Nat.log2 (n / d) + 1 - 53
  let k := roundHalf n (d * 2 ^ s) * 2 ^ s
  if k < 2 ^ 2098 then .fin (if neg then -(k : Int) else k) else .inf neg

/-- `a * b` -/
def Dbl.mul : Dbl → Dbl → Dbl
  | .fin a, .fin b => roundDbl (decide (a * b < 0)) (a * b).natAbs (2 ^ 1074)
  | .fin a, .inf n | .inf n, .fin a => if a = 0 then .nan else .inf (n != decide (a < 0))
  | .inf m, .inf n => .inf (m != n)
  | .nan, _ | _, .nan => .nan

/-- `a - b` -/
def Dbl.sub : Dbl → Dbl → Dbl
  | .fin a, .fin b => roundDbl (decide (a - b < 0)) (a - b).natAbs 1
  | .fin _, .inf n => .inf !n
  | .inf n, .fin _ => .inf n
  | .inf m, .inf n => if m = n then .nan else .inf m
  | .nan, _ | _, .nan => .nan

/-- `bool(a)` -/
def Dbl.truth : Dbl → Bool
  | .fin k => k != 0
  | _ => true

/-- `float(m · 10^e)` (`Decimal.__float__`) -/
def decDbl (m : Int) (e : Int) : Dbl := roundDbl (decide (m < 0)) (m.natAbs * 10 ^ e.toNat * 2 ^ 1074) (10 ^ (-e).toNat)

/-- `float(a - b)` for decimals in the default context: 28 digits, halves to even; a result of 10^1000000 or more raises
`decimal.Overflow`, the difference of equal infinities or a signalling NaN `decimal.InvalidOperation` (both `ArithmeticError`).
Results below 10^-999999 are rounded to fewer digits; the float is 0 either way. -/
def decSub : DecVal → DecVal → Res Dbl
  | .fin x, .fin y =>
    let e := min x.exp y.exp
    let s (z : Dec) : Int := (if z.neg then -(z.coeff : Int) else z.coeff) * 10 ^ (z.exp - e).toNat
    let m := s x - s y
    let k := (natStr m.natAbs).length - 28
    let q := roundHalf m.natAbs (10 ^ k)
    if ((natStr q).length : Int) + e + k > 1000000 ∧ q ≠ 0 then .error .arith
    else .ok (decDbl (if m < 0 then -(q : Int) else q) (e + k))
  | .nan _ true _, _ | _, .nan _ true _ => .error .arith
  | .nan .., _ | _, .nan .. => .ok .nan
  | .inf m, .inf n => if m = n then .error .arith else .ok (.inf m)
  | .inf m, .fin _ => .ok (.inf m)
  | .fin _, .inf n => .ok (.inf !n)

/-- `not (n[0] or n[1] or n[2])` for `n = numpy.cross(a, b)`: the products and differences are rounded one by one. -/
def crossZero (a b : Dbl × Dbl × Dbl) : Bool :=
  let n (p q r s : Dbl) : Dbl := (p.mul q).sub (r.mul s)
  !((n a.2.1 b.2.2 a.2.2 b.2.1).truth || (n a.2.2 b.1 a.1 b.2.2).truth || (n a.1 b.2.1 a.2.1 b.1).truth)

end Py
