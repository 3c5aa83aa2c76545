import Verif.Inp.Card
/-!
# Unions of card classes

Models `Union.from_mcnp` (src/pymcnp/types/Union.py:28-50) of card classes, as used by
src/pymcnp/Inp.py.
-/
namespace Inp
open Py Types

/-- The loop of `Union.from_mcnp` (src/pymcnp/types/Union.py:44-50): library errors
(`errors.Error`) are swallowed, others escape. -/
def cardUnion : List Cls → Str → Res (Val × List Str)
  | [], _ => .error .types
  | c :: cs, s =>
    match cardParse c s with
    | .ok v => .ok v
    | .error e => if e.isLibrary then cardUnion cs s else .error e

end Inp
