import Verif.Inp.WordSpec
/-!
# Entries that cannot slide into another field
-/
namespace Inp
open Py

/-- No entry can slide into another field: apart from the first, the entries of a list that is read as short as possible are not
accepted by later fields, and a field that is unset or a list that is read as long as possible does not accept the entry that
follows. -/
def Apart : List ((Str → Bool) × Mode) → Assign → Prop
  | (ok, m) :: fs, v :: vs =>
    ((m = .many ∨ m = .manyOpt) → ∀ w ∈ (v.getD []).tail, ∀ f ∈ fs, f.1 w = false) ∧
    ((v = none ∨ m = .greedy) → ∀ w ∈ (Assign.flat vs).head?, ok w = false) ∧ Apart fs vs
  | _, _ => True

end Inp
