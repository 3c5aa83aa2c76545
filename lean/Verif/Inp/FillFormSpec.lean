import Verif.Inp.DeepSpec
/-!
# `fill` with transformations of all forms (specification)
-/
namespace Inp
open Py Types

/-- The classes of `fill` with a universe: with transformations of twelve, nine, eight, six and three entries and with the number of one
(src/pymcnp/inp/cell/Fill_1.py to Fill_6.py, src/pymcnp/inp/like/Fill_1.py to Fill_6.py). -/
def fillForm : Bool → Nat → Cls
  | false, 0 => Tab.cell_Fill_1
  | false, 1 => Tab.cell_Fill_2
  | false, 2 => Tab.cell_Fill_3
  | false, 3 => Tab.cell_Fill_4
  | false, 4 => Tab.cell_Fill_5
  | false, _ => Tab.cell_Fill_6
  | true, 0 => Tab.like_Fill_1
  | true, 1 => Tab.like_Fill_2
  | true, 2 => Tab.like_Fill_3
  | true, 3 => Tab.like_Fill_4
  | true, 4 => Tab.like_Fill_5
  | true, _ => Tab.like_Fill_6

/-- What the option of class `c` with the universe `u` is read as, if what follows is read as `t`. -/
def readPlaced (c : Cls) (star : Bool) (u : Str) (t : Res Val) : Res Val :=
  match intParse u with
  | .error e => .error e
  | .ok n =>
    match t with
    | .error e => .error e
    | .ok v => c.mk' [if star then .sc (.str ['*']) else .none, .sc (.int n), v]

end Inp
