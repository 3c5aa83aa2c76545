import Verif.Props.Surface
/-!
# Surfaces that are not read back: C66
-/
set_option maxRecDepth 100000
namespace Props
open Py Types Inp

/-- The surface 1 with the equation `x`, made from its entries by the constructors. -/
def surfaceX (es : List (Option Int)) : Res Val :=
  match Tab.surface_X.mk' (es.map (fun e => match e with | some n => .sc (.real (.num (.fin ⟨decide (n < 0), n.natAbs, 0⟩))) | none => .none)) with
  | .error e => .error e
  | .ok o => Tab.Surface.mk' [.none, .sc (.int (.num 1)), .none, o]

/-- **C66 does not hold for entries after gaps:** a surface through points of an axis whose third entry is unset and whose fourth is set is accepted, but
printed without a mark for the gap, so that it is read back with its fourth entry in the place of the third. -/
theorem C66_violated :
    ∃ v w, surfaceX [some 1, some 2, none, some 3, none, none] = .ok v ∧ surfaceX [some 1, some 2, some 3, none, none, none] = .ok w ∧
      v ≠ w ∧ v.str = c!"1  x 1 2 3" ∧ cardParse Tab.Surface v.str = .ok (w, []) := by
  refine ⟨.obj Tab.Surface.info [.none, .sc (.int (.num 1)), .none, .obj Tab.surface_X.info [.sc (.real (.num (.fin ⟨false, 1, 0⟩))),
    .sc (.real (.num (.fin ⟨false, 2, 0⟩))), .none, .sc (.real (.num (.fin ⟨false, 3, 0⟩))), .none, .none]],
    .obj Tab.Surface.info [.none, .sc (.int (.num 1)), .none, .obj Tab.surface_X.info [.sc (.real (.num (.fin ⟨false, 1, 0⟩))),
    .sc (.real (.num (.fin ⟨false, 2, 0⟩))), .sc (.real (.num (.fin ⟨false, 3, 0⟩))), .none, .none, .none]], ?_⟩
  decide +kernel

end Props
