import Mathlib.Data.Rat.Defs
import Mathlib.Algebra.Order.Ring.Rat
import Verif.Inp.Card
/-!
# Ranges of numbers and words of texts

What it means that a number is in a documented range, in terms of rational numbers only.
-/
namespace Inp
open Py Types

/-- The number a finite decimal stands for. -/
def decValue (x : Dec) : ℚ := (if x.neg then -(x.coeff : ℚ) else x.coeff) * (10 : ℚ) ^ x.exp

/-- A number, or one of the two infinities of `Real`. -/
inductive Num where
  | fin (q : ℚ)
  | inf (neg : Bool)

/-- The number held by an `Integer` or `Real` that is not a shorthand; `real` tells which of the two. -/
def numOf (real : Bool) : Val → Option Num
  | .sc (.int (.num k)) => if real then none else some (.fin k)
  | .sc (.real (.num (.fin x))) => if real then some (.fin (decValue x)) else none
  | .sc (.real (.num (.inf neg))) => if real then some (.inf neg) else none
  | _ => none

/-- An end of a range, `num / 10^dig`, and whether it belongs to the range. -/
structure End where
  num : Int
  dig : Nat
  incl : Bool
deriving DecidableEq

def End.val (e : End) : ℚ := (e.num : ℚ) / 10 ^ e.dig

/-- A range between two ends, each of which may be missing. -/
structure Span where
  lo : Option End
  hi : Option End
deriving DecidableEq

def Span.point (n : Int) (d : Nat) : Span := ⟨some ⟨n, d, true⟩, some ⟨n, d, true⟩⟩
def Span.atLeast (n : Int) (d : Nat) : Span := ⟨some ⟨n, d, true⟩, none⟩
def Span.above (n : Int) (d : Nat) : Span := ⟨some ⟨n, d, false⟩, none⟩
def Span.upTo (n : Int) (d : Nat) : Span := ⟨none, some ⟨n, d, true⟩⟩
def Span.below (n : Int) (d : Nat) : Span := ⟨none, some ⟨n, d, false⟩⟩

def Span.Has (s : Span) : Num → Prop
  | .fin q => (∀ e ∈ s.lo, if e.incl then e.val ≤ q else e.val < q) ∧ (∀ e ∈ s.hi, if e.incl then q ≤ e.val else q < e.val)
  | .inf true => s.lo = none
  | .inf false => s.hi = none

/-- An attribute that holds numbers: of which class, its name, whether it is a `Real`, whether it may be left out, whether it may be a jump, the
ranges of which one must hold the number, and a modulus with the remainders that are allowed. -/
structure NumRow where
  cls : Cls
  attr : String
  real : Bool
  optional : Bool
  jump : Bool
  spans : List Span
  rest : Option (Int × List Int)

def isJumpVal : Val → Prop
  | .sc (.int (.hor (.jump _))) | .sc (.real (.hor (.jump _))) => True
  | _ => False

/-- The remainder of an integer is one of those. -/
def RestOk (rest : Option (Int × List Int)) (v : Val) : Prop :=
  ∀ p ∈ rest, ∃ k : Int, v = .sc (.int (.num k)) ∧ k % p.1 ∈ p.2

/-- The number `v` is in the range. -/
def NumRow.InRange (r : NumRow) (v : Val) : Prop := (∃ x ∈ numOf r.real v, ∃ s ∈ r.spans, s.Has x) ∧ RestOk r.rest v

/-- The values that are documented. -/
def NumRow.Allows (r : NumRow) (v : Val) : Prop :=
  (v = .none ∧ r.optional = true) ∨ (isJumpVal v ∧ r.jump = true) ∨ r.InRange v

/-- `None`, a number of the type of the attribute, or a jump where jumps are documented. -/
def NumRow.Fits (r : NumRow) (v : Val) : Prop := v = .none ∨ (isJumpVal v ∧ r.jump = true) ∨ (numOf r.real v).isSome

/-- What is documented of a text: words, whatever their case; exactly this text; texts of at most this length. -/
inductive TextRule where
  | words (l : List String)
  | exactly (s : String)
  | upto (n : Nat)
deriving DecidableEq

def TextRule.Has (s : Str) : TextRule → Prop
  | .words l => ∃ w ∈ l, lower s = w.toList
  | .exactly t => s = t.toList
  | .upto n => s.length ≤ n

/-- An attribute that holds a text. -/
structure TextRow where
  cls : Cls
  attr : String
  optional : Bool
  rule : TextRule

def TextRow.Allows (r : TextRow) (v : Val) : Prop :=
  (v = .none ∧ r.optional = true) ∨ ∃ s, v = .sc (.str s) ∧ r.rule.Has s

def TextRow.Fits (v : Val) : Prop := v = .none ∨ ∃ s, v = .sc (.str s)

/-- Attributes that may not be left out but may otherwise hold everything of their type. -/
structure NeedRow where
  cls : Cls
  attrs : List String

end Inp
