/-!
# Python exceptions as values

The library's own exceptions (`errors/`) and the built-in ones that can escape
from the modelled code.
-/
namespace Py

inductive Err where
  | types       -- errors.TypesError
  | inp         -- errors.InpError
  | ptrac       -- errors.PtracError
  | meshtal     -- errors.MeshtalError
  | outp        -- errors.OutpError
  | cli         -- errors.CliError
  | syntaxErr   -- SyntaxError (internal to types/Geometry.py, types/Lattice.py)
  | assertion   -- AssertionError
  | index       -- IndexError
  | value       -- ValueError
  | overflow    -- OverflowError
  | typeErr     -- TypeError
  | attribute   -- AttributeError
  | key         -- KeyError
  | fileExists  -- FileExistsError
  | stop        -- StopIteration
  | name        -- NameError (UnboundLocalError)
  | arith       -- ArithmeticError of `decimal` (InvalidOperation, Overflow)
  | unmodelled  -- behaviour outside the model
deriving DecidableEq, Repr

/-- `errors.Error` subclasses: what `except errors.Error` catches
(src/pymcnp/errors/_error.py). -/
def Err.isLibrary : Err → Bool
  | .types | .inp | .ptrac | .meshtal | .outp | .cli => true
  | _ => false

abbrev Res (α : Type) := Except Err α

instance [DecidableEq α] : DecidableEq (Res α) := fun a b =>
  match a, b with
  | .ok x, .ok y => if h : x = y then isTrue (h ▸ rfl) else isFalse (by intro h'; cases h'; exact h rfl)
  | .error x, .error y => if h : x = y then isTrue (h ▸ rfl) else isFalse (by intro h'; cases h'; exact h rfl)
  | .ok _, .error _ => isFalse (by intro h; cases h)
  | .error _, .ok _ => isFalse (by intro h; cases h)

end Py
