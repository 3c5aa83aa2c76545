import Verif.Types.RealOps
/-!
# Hashes of `Integer` and `Real` objects

Models `Integer.__hash__` (src/pymcnp/types/Integer.py:104-105) and `Real.__hash__` (src/pymcnp/types/Real.py:104-105).  Python hashes a number
modulo the prime 2^61 - 1 (64-bit builds); -1 is reserved and becomes -2.  The hash of NaN is that of its identity and not modelled.
-/
namespace Types
open Py

/-- `sys.hash_info.modulus` -/
def hashMod : Nat := 2 ^ 61 - 1

/-- `_PyHASH_10INV = pow(10, _PyHASH_MODULUS - 2, _PyHASH_MODULUS)` of `decimal`: the inverse of ten. -/
def inv10 : Nat := 2075258708292324556

/-- The inverse of two, by which the hash of a `float` is rotated for every bit behind the point. -/
def inv2 : Nat := 2 ^ 60

/-- The sign is put back, and -1 is replaced. -/
def hashEnd (neg : Bool) (h : Nat) : Int :=
  let a : Int := if neg then -h else h
  if a = -1 then -2 else a

/-- `hash(x)` of Python's numbers. -/
def PyNum.hash : PyNum → Res Int
  | .int n => .ok (hashEnd (decide (n < 0)) (n.natAbs % hashMod))
  | .dec (.fin d) =>
    .ok (hashEnd d.neg (d.coeff * ((if 0 ≤ d.exp then 10 ^ d.exp.toNat else inv10 ^ (-d.exp).toNat) % hashMod) % hashMod))
  | .dec (.inf n) => .ok (if n then -314159 else 314159)
  | .dec (.nan _ true _) => .error .typeErr
  | .dec (.nan _ false _) => .error .unmodelled
  | .flt ⟨.fin k, _⟩ => .ok (hashEnd (decide (k < 0)) (k.natAbs * (inv2 ^ 1074 % hashMod) % hashMod))
  | .flt ⟨.inf n, _⟩ => .ok (if n then -314159 else 314159)
  | .flt _ => .error .unmodelled

/-- `hash(self.value)` (src/pymcnp/types/Real.py:104-105): shorthand defines `__eq__` only (src/pymcnp/_symbol.py:62-63) and so cannot be hashed. -/
def Held.hash : Held → Res Int
  | .num x => x.hash
  | .hor _ => .error .typeErr

/-- `hash(x)` of a `Real` object or of a number. -/
def RealArg.hash : RealArg → Res Int
  | .real v => v.hash
  | .num x => x.hash

/-- `hash(x)` of `Integer` objects (src/pymcnp/types/Integer.py:104-105), `Real` objects that were read, and numbers. -/
def Operand.hash : Operand → Res Int
  | .integer (.num n) => (PyNum.int n).hash
  | .integer (.hor _) => .error .typeErr
  | .real (.num d) => (PyNum.dec d).hash
  | .real (.hor _) => .error .typeErr
  | .int n => (PyNum.int n).hash
  | .dec d => (PyNum.dec d).hash

end Types
