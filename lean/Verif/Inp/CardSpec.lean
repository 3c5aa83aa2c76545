import Verif.Inp.ReadSpec
import Verif.Inp.TextSpec
import Verif.Inp.SpaceLemmas
/-!
# Card texts (specification)
-/
namespace Inp
open Py Types

/-- A card text `g0 w0 gap w gap w … g1`: blank space or continuation marks between the entries, bare shorthand
in lower case, counts above zero, no counted shorthand next to shorthand of the same letter. -/
structure Spaced (g0 w0 : Str) (l : List (Gap × Str)) (g1 : Str) : Prop where
  first : Ws g0
  word : Entry w0
  words : ∀ x ∈ l, x.1.Ok ∧ Entry x.2
  last : Ws g1
  low : ∀ x ∈ l, LowerShort x.2
  pos : ∀ x ∈ l, ∀ p ∈ countedEntry x.2, 0 < p.1
  adj : NoAdj (l.map (·.2))

instance (w : Str) : Decidable (LowerShort w) := by unfold LowerShort; infer_instance
instance : (l : List Str) → Decidable (NoAdj l)
  | [] => isTrue trivial
  | [_] => isTrue trivial
  | a :: b :: l =>
    have := instDecidableNoAdj (b :: l)
    by unfold NoAdj; infer_instance
instance (w : Str) : Decidable (Entry w) :=
  if h : w ≠ [] ∧ (∀ c ∈ w, isSpace c = false) ∧ '&' ∉ w ∧ '=' ∉ w ∧ '$' ∉ w ∧ w.getLast? ≠ some '(' ∧ w.head? ≠ some ')' then
    isTrue ⟨h.1, h.2.1, h.2.2.1, h.2.2.2.1, h.2.2.2.2.1, h.2.2.2.2.2.1, h.2.2.2.2.2.2⟩
  else isFalse (fun e => h ⟨e.ne, e.sp, e.amp, e.eq, e.dl, e.op, e.cl⟩)

/-- The entries after the first word, shorthand counts written out. -/
def entries (l : List (Gap × Str)) : List Str := (l.map (·.2)).flatMap expandOne

/-- A class made of a head and fields accepts the first word and can place all entries. -/
def Cls.accepts (c : Cls) (hd : Str) (ws : List Str) : Bool :=
  match c.shape with
  | .flat h fs => (readHead h hd).isSome && (assign (fs.map Field.spec) ws).isSome
  | .other _ => false

/-- `readWords` with the class's own head and fields. -/
def Cls.readW (c : Cls) (hd : Str) (ws : List Str) : Res Val :=
  match c.shape with
  | .flat h fs => readWords c h fs hd ws
  | .other _ => .error .inp

end Inp
