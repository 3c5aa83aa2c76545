import Verif.Inp.ReadSpec
import Verif.Inp.TextSpec
/-!
# Values that print readably (specification)
-/
namespace Inp
open Py Types

/-- An entry that the reader does not rewrite: no shorthand with a count, shorthand in lower case. -/
structure Stable (w : Str) : Prop where
  entry : Entry w
  low : LowerShort w
  cnt : countedEntry w = none

/-- The printed entries of a value; `none` if it is not set. -/
def Val.words : Val → Option (List Str)
  | .none => Option.none
  | .tuple l => some (l.map Val.str)
  | v => some [v.str]

/-- Shorthand without a count, and the multiplier. -/
def Bare : Horiz → Prop
  | .rep n | .ins n | .jump n | .log n => n = none
  | .mul x => 0 < x

/-- Values of the scalar types that can be written in a card: finite numbers, bare shorthand,
identifiers with the ranges of C07 and C08, texts that are one entry. -/
def ReadSc : Kind → Sc → Prop
  | .int, .int (.num _) => True
  | .int, .int (.hor h) => Bare h
  | .real, .real (.num (.fin _)) => True
  | .real, .real (.hor h) => Bare h
  | .str, .str s => Stable s
  | .zaid, .zaid z => z.z ≤ 999 ∧ z.a ≤ 999 ∧ (∀ t, z.abx = some t → t ≠ [] ∧ ∀ c ∈ t, isSpace c = false) ∧ Stable z.str
  | .dist, .dist n => n ≤ 9
  | .desig, .desig s => desigParse s = .ok s ∧ Stable s
  | _, _ => False

/-- Attribute values: unset, one scalar, or a non-empty list of scalars, of the declared type. -/
def ReadVal (a : Attr) : Val → Prop
  | .none => True
  | .sc s => a.many = false ∧ ∃ k, a.ty = .base k ∧ ReadSc k s
  | .tuple l => a.many = true ∧ l ≠ [] ∧ ∃ k, a.ty = .base k ∧ ∀ v ∈ l, ∃ s, v = .sc s ∧ ReadSc k s
  | .obj _ _ => False

/-- All attributes in order. -/
def ReadVals : List Attr → List Val → Prop
  | [], [] => True
  | a :: as, v :: vs => ReadVal a v ∧ ReadVals as vs
  | _, _ => False

/-- A prefix that the card may have. -/
def PreOk : Pre → List Val → Prop
  | .no, l => l = []
  | p, l => l = [.none] ∨ ∃ c ∈ p.chars, l = [.sc (.str [c])]

/-- A card number: present if required, not negative. -/
def SufOk : Suf → List Val → Prop
  | .no, l => l = []
  | .req, l => ∃ n : Nat, l = [.sc (.int (.num n))]
  | .opt, l => l = [.none] ∨ ∃ n : Nat, l = [.sc (.int (.num n))]

/-- A particle designator: present if required. -/
def DesOk : Des → List Val → Prop
  | .no, l => l = []
  | .req, l => ∃ s, l = [.sc (.desig s)] ∧ ReadSc .desig (.desig s)
  | .opt, l => l = [.none] ∨ ∃ s, l = [.sc (.desig s)] ∧ ReadSc .desig (.desig s)

/-- The attributes printed in the first word. -/
def HeadOk (h : Head) (l : List Val) : Prop :=
  ∃ p s d, l = p ++ s ++ d ∧ PreOk h.pre p ∧ SufOk h.suf s ∧ DesOk h.des d

/-- Every required field is set. -/
def Present : List Mode → List Val → Prop
  | [], [] => True
  | m :: ms, v :: vs => (m = .opt ∨ m = .manyOpt ∨ v ≠ .none) ∧ Present ms vs
  | _, _ => False

end Inp
