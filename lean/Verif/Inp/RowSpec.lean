import Verif.Inp.TableAll
import Verif.Inp.RoundSpec
/-!
# Cards whose lists are made of several entries each (specification)
-/
namespace Inp
open Py Types

/-- What the elements of a list are: nuclides with fractions, or objects of a class of entries made of numbers. -/
inductive RowItem where
  | subst
  | entry (d : Cls) (ks : List Kind)

/-- A card with such a list. -/
structure RowCard where
  c : Cls
  /-- the first word -/
  h : Head
  /-- one element of the list in the pattern of the card -/
  u : Pat
  /-- the attributes printed in the first word -/
  as : List Attr
  /-- the list -/
  a : Attr
  item : RowItem

/-- Criticality sources, detector diagnostics, stochastic geometry, atomic weights (src/pymcnp/inp/Ksrc.py:19,
Dd.py:20, Uran.py:19, Xs.py:20, Awtab.py:19). -/
def rowCards : List RowCard := [
  ⟨Tab.Ksrc, ⟨.no, c!"ksrc", .no, .no⟩, .ty Tab.T_ksrc_Location, [],
    ⟨"locations", Tab.T_ksrc_Location, true, some .isNone⟩, .entry Tab.ksrc_Location [.real, .real, .real]⟩,
  ⟨Tab.Dd, ⟨.no, c!"dd", .opt, .no⟩, .ty Tab.T_dd_Diagnostic, [⟨"suffix", .base .int, false, none⟩],
    ⟨"diagnostics", Tab.T_dd_Diagnostic, true, some .isNone⟩, .entry Tab.dd_Diagnostic [.real, .real]⟩,
  ⟨Tab.Uran, ⟨.no, c!"uran", .no, .no⟩,
    .seq (.plus true (.cls (.one .S))) (.seq (.lits c!" ") (.seq (.plus true (.cls (.one .S))) (.seq (.lits c!" ")
      (.seq (.plus true (.cls (.one .S))) (.seq (.lits c!" ") (.plus true (.cls (.one .S)))))))), [],
    ⟨"transformations", Tab.T_uran_Stochastic, true, some .isNone⟩, .entry Tab.uran_Stochastic [.int, .real, .real, .real]⟩,
  ⟨Tab.Xs, ⟨.no, c!"xs", .req, .no⟩, .ty (.base .subst), [⟨"suffix", .base .int, false, some .isNone⟩],
    ⟨"weight_ratios", .base .subst, true, some .isNone⟩, .subst⟩,
  ⟨Tab.Awtab, ⟨.no, c!"awtab", .no, .no⟩, .ty (.base .subst), [],
    ⟨"weight_ratios", .base .subst, true, some .isNone⟩, .subst⟩]

/-- Elements that can be written in a card: an identifier as in C08 with a decimal fraction; an entry whose values can be
written and are all set. -/
def RowItemVal : RowItem → Val → Prop
  | .subst, x => ∃ z d, x = .sc (.subst ⟨z, .num (.fin d)⟩) ∧ ReadSc .zaid (.zaid z)
  | .entry d _, x => ∃ vs, ReadVals d.attrs vs ∧ (∀ v ∈ vs, v ≠ .none) ∧ d.mk' vs = .ok x

end Inp
