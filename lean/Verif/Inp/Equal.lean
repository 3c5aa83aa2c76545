import Verif.State.Whole
/-!
# Equality of cards and files

Models `Nonterminal.__eq__` (src/pymcnp/_symbol.py:62-63).
-/
namespace Inp
open Py Types

/-- `a == b` for two cards, options, entries or lists of them: the printed texts are compared (src/pymcnp/_symbol.py:62-63).
Such objects have neither `__bool__` nor `__len__`, so `str(a) if a else None` is `str(a)`. -/
def cardEq (a b : Val) : Bool := a.str == b.str

/-- `a == b` for two input files (src/pymcnp/_symbol.py:62-63). -/
def fileEq (f g : State.File) : Bool := State.inpPrint f == State.inpPrint g

end Inp
