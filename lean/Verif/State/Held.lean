import Verif.Types.Number
/-!
# Arguments of attribute setters and what the attributes hold

The setters of numeric attributes all begin with the same conversion (for instance
src/pymcnp/inp/Nps.py:62-68, src/pymcnp/inp/Cell.py:113-119).
-/
namespace State
open Py Types

/-- Python values handed to a numeric setter.  `flt m e` is the float `m / 2^e` (every finite float
has this form); booleans, infinite floats and NaN are left out; `other` is an object without
arithmetic. -/
inductive Arg where
  | none
  | int (n : Int)
  | integer (v : IntVal)      -- a `types.Integer`
  | str (s : Str)
  | flt (m : Int) (e : Nat)
  | other
deriving DecidableEq, Repr

/-- What a numeric attribute holds. -/
inductive Held where
  | int (v : IntVal)          -- a `types.Integer`
  | flt (m : Int) (e : Nat)   -- a float stored as it came
  | other
deriving DecidableEq, Repr

/-- The conversion at the head of integer setters: src/pymcnp/inp/Nps.py:62-68,
src/pymcnp/inp/rand/Seed.py:59-65, src/pymcnp/inp/Cell.py:113-119, 151-159,
src/pymcnp/inp/Surface.py:164-170, 202-208, src/pymcnp/Inp.py:774-780, 818-824.  Objects of other
classes pass unconverted.  (An `M_0` given as material stands for its suffix, an `Integer`.) -/
def holdInt : Arg → Res (Option Held)
  | .none => .ok none
  | .integer v => .ok (some (.int v))
  | .int n => .ok (some (.int (.num n)))
  | .str s => match intParse s with
    | .ok v => .ok (some (.int v))
    | .error e => .error e
  | .flt m e => .ok (some (.flt m e))
  | .other => .ok (some .other)

/-- The same value handed to a second setter: src/pymcnp/Inp.py:784 passes what it converted. -/
def Held.arg : Option Held → Arg
  | .none => .none
  | some (.int v) => .integer v
  | some (.flt m e) => .flt m e
  | some .other => .other

/-- `x > 0`: `Integer.__gt__` src/pymcnp/types/Integer.py:164-168; ordering a shorthand or an object
without arithmetic raises `TypeError`. -/
def Held.gt0 : Held → Res Bool
  | .int (.num n) => .ok (decide (0 < n))
  | .flt m _ => .ok (decide (0 < m))
  | _ => .error .typeErr

/-- `lo <= x <= hi`: `Integer.__ge__`, `Integer.__le__` src/pymcnp/types/Integer.py:146-150, 170-174. -/
def Held.between (lo hi : Int) : Held → Res Bool
  | .int (.num n) => .ok (decide (lo ≤ n ∧ n ≤ hi))
  | .flt m e => .ok (decide (lo * 2 ^ e ≤ m ∧ m ≤ hi * 2 ^ e))
  | _ => .error .typeErr

/-- `x % 2 == 1`: `Integer.__mod__` src/pymcnp/types/Integer.py:212-216; a shorthand has no `__mod__`. -/
def Held.odd : Held → Res Bool
  | .int (.num n) => .ok (decide (n % 2 = 1))
  | .int (.hor _) => .error .attribute
  | .flt m e => .ok (decide (m % 2 ^ (e + 1) = 2 ^ e))
  | .other => .error .typeErr

/-- `x == 0`: `Integer.__eq__` src/pymcnp/types/Integer.py:152-156. -/
def Held.isZero : Held → Bool
  | .int (.num n) => decide (n = 0)
  | .int (.hor _) => false
  | .flt m _ => decide (m = 0)
  | .other => false

end State
