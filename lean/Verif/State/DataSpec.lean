import Verif.State.Data
/-!
# Vocabulary for C30 and C31
-/
namespace State
open Py Types Inp

/-- References in the data block lead to data cards, those in a `rand` card to its options. -/
structure World.Wf (w : World) : Prop where
  data : ∀ r ∈ w.data, w.is Obj.isData r = true
  opts : ∀ r l, w.get r = some (.rand (some l)) → ∀ s ∈ l, w.is Obj.isROpt s = true

/-- The arguments that denote a positive number of histories, and what is then stored. -/
inductive Positive : Arg → Held → Prop
  | int {n : Int} : 0 < n → Positive (.int n) (.int (.num n))
  | integer {n : Int} : 0 < n → Positive (.integer (.num n)) (.int (.num n))
  | str {s : Str} {n : Int} : intParse s = .ok (.num n) → 0 < n → Positive (.str s) (.int (.num n))
  | flt {m : Int} {e : Nat} : 0 < m → Positive (.flt m e) (.flt m e)

/-- The arguments that denote an odd number, and what is then stored. -/
inductive OddSeed : Arg → Held → Prop
  | int {n : Int} : n % 2 = 1 → OddSeed (.int n) (.int (.num n))
  | integer {n : Int} : n % 2 = 1 → OddSeed (.integer (.num n)) (.int (.num n))
  | str {s : Str} {n : Int} : intParse s = .ok (.num n) → n % 2 = 1 → OddSeed (.str s) (.int (.num n))
  | flt {m k : Int} {e : Nat} : m = (2 * k + 1) * 2 ^ e → OddSeed (.flt m e) (.flt m e)

/-- The first NPS card of the data block. -/
def IsFirstNps (w : World) (r : Ref) : Prop :=
  ∃ a b n m, w.data = a ++ r :: b ∧ w.get r = some (.nps n m) ∧ ∀ x ∈ a, ∀ n m, w.get x ≠ some (.nps n m)

/-- Which cards of the data block are NPS cards. -/
def npsCards (w : World) : List Ref := w.data.filter (fun r => match w.get r with | some (.nps _ _) => true | _ => false)

/-- A small input: two NPS cards around another card, and a RAND card without a seed. -/
def demo : World := ⟨[.nps (.int (.num 5)) none, .card .none, .nps (.int (.num 7)) none, .rand (some [4]), .ropt .none], [1, 0, 2, 3]⟩

/-- Operations on the input itself, not on its cards or its list of cards. -/
def Op.onInput : Op → Bool
  | .nps _ | .seed _ => true
  | _ => false

/-- No assignment of the history count in the list is accepted. -/
def QuietNps (ops : List Op) : Prop := ∀ a, .nps a ∈ ops → ¬ ∃ h, Positive a h

/-- No assignment of the seed in the list is accepted. -/
def QuietSeed (ops : List Op) : Prop := ∀ a, .seed a ∈ ops → ¬ ∃ h, OddSeed a h

/-- The first RAND card of the data block. -/
def IsFirstRand (w : World) (r : Ref) : Prop :=
  ∃ a b l, w.data = a ++ r :: b ∧ w.get r = some (.rand l) ∧ ∀ x ∈ a, ∀ l, w.get x ≠ some (.rand l)

/-- The options of a RAND card. -/
def OptsOf (w : World) (r : Ref) (l : List Ref) : Prop :=
  w.get r = some (.rand (some l)) ∨ (w.get r = some (.rand none) ∧ l = [])

/-- The first SEED option of the first RAND card. -/
def IsSeedSlot (w : World) (s : Ref) : Prop :=
  ∃ r a b n, IsFirstRand w r ∧ OptsOf w r (a ++ s :: b) ∧ w.get s = some (.seed n) ∧ ∀ x ∈ a, ∀ n, w.get x ≠ some (.seed n)

end State
