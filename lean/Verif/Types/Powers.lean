import Verif.Types.Operators
/-!
# Powers, quotients and quotients with remainder of `Integer`

Models `Integer.__divmod__`, `__rdivmod__`, `__pow__`, `__rpow__` (src/pymcnp/types/Integer.py:224-246), `__truediv__` and
`__rtruediv__` (src/pymcnp/types/Integer.py:260-270).  A result of type `float` is represented by the fraction that it approximates; its
rounding, and overflow, are not modelled.
-/
namespace Types
open Py

/-- Operators whose result need not be a whole number. -/
inductive Ari2 where
  | divmod | pow | truediv
deriving DecidableEq, Repr

/-- A whole number, a pair of them, or a `float` near a fraction. -/
inductive Res2 where
  | whole (n : Int)
  | pair (q r : Int)
  | near (num den : Int)
deriving DecidableEq, Repr

/-- `x ** n` by squaring, from the lowest bit of the exponent to the highest. -/
def powBits (x : Int) (n : Nat) : Int :=
  if h : n = 0 then 1
  else if n % 2 = 1 then x * powBits (x * x) (n / 2) else powBits (x * x) (n / 2)
termination_by n
decreasing_by all_goals omega

/-- Python integers: dividing by zero and zero to a negative power raise `ZeroDivisionError` (here `value`). -/
def Ari2.eval : Ari2 → Int → Int → Res Res2
  | .divmod, x, y => if y = 0 then .error .value else .ok (.pair (x.fdiv y) (x.fmod y))
  | .pow, x, y =>
    if 0 ≤ y then .ok (.whole (powBits x y.toNat)) else if x = 0 then .error .value else .ok (.near 1 (powBits x (-y).toNat))
  | .truediv, x, y => if y = 0 then .error .value else .ok (.near x y)

/-- The methods of `Integer` (src/pymcnp/types/Integer.py:224-246, 260-270), for numbers: `swap` is true for the reflected method.  `None` for
operands that are neither `Integer` nor `int`. -/
def integerAri2 (o : Ari2) (swap : Bool) (a : Int) : Operand → Res (Ret Res2)
  | .integer (.num b) | .int b => (if swap then o.eval b a else o.eval a b).map .val
  | .integer (.hor _) => .ok .notImpl
  | _ => .ok .none

/-- `divmod(a, b)`, `a ** b` and `a / b`, if one operand is an `Integer` that holds a number; `none` where its method returns
`None`. -/
def pyAri2 (o : Ari2) : Operand → Operand → Res (Option Res2)
  | .integer (.num a), b =>
    match integerAri2 o false a b with
    | .error e => .error e
    | .ok (.val x) => .ok (some x)
    | .ok .none => .ok none
    | .ok .notImpl => .error .typeErr
  | .int a, .integer (.num b) =>
    match integerAri2 o true b (.int a) with
    | .error e => .error e
    | .ok (.val x) => .ok (some x)
    | .ok .none => .ok none
    | .ok .notImpl => .error .typeErr
  | .int a, .int b => (o.eval a b).map some
  | _, _ => .error .unmodelled

end Types
