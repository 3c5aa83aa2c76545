import Verif.Inp.TableAll
import Verif.Inp.OptionSpec
/-!
# Surface source cards (specification)
-/
namespace Inp
open Py Types

/-- The options of the card (src/pymcnp/inp/ssw/__init__.py). -/
def sswOptions : List Cls := [Tab.ssw_Sym, Tab.ssw_Pty, Tab.ssw_Cel]

/-- Reading the options; an unset attribute if there are none. -/
def optionsVal : List (Cls × Opt) → Res Val
  | [] => .ok .none
  | o :: os => (readOwned (o :: os)).map .tuple

/-- A list of entries, unset if there are none. -/
def listed? (ws : List Str) : Option (List Str) := if ws = [] then none else some ws

/-- Reading a surface source card with these lists of surfaces and cells and these options. -/
def readSsw (surfaces cells : List Str) (os : List (Cls × Opt)) : Res Val :=
  match readVals (Tab.Ssw.attrs.take 2) [listed? surfaces, listed? cells] with
  | .error e => .error e
  | .ok xs =>
    match optionsVal os with
    | .error e => .error e
    | .ok y => Tab.Ssw.mk' (xs ++ [y])

end Inp
