import Verif.Inp.Card
/-!
# Which classes can read the same text (checks)

`Pat.apart` is a computable check on two patterns; when it holds no text matches both (`apart_sound`, in Feed.lean).
These functions are about the patterns of the model (Card.lean), they model no code of their own.
-/
namespace Inp
open Py Types

/-- The characters that a class of characters stands for, in lower case. -/
def CC.listed : CC → Option (List Char)
  | .one .d => some c!"0123456789"
  | .set false l => l.mapM (fun | .ch c => some (lowerC c) | _ => none)
  | _ => none

/-- Beginnings of the texts that a pattern matches (in lower case), and whether the beginning is all of the text. -/
def Pat.firsts : Pat → List (Str × Bool)
  | .lits s => [(lower s, true)]
  | .cls c => match c.listed with
    | some l => l.map (fun c => ([c], true))
    | none => [([], false)]
  | .ty _ => [([], false)]
  | .behind _ _ => [([], true)]
  | .seq a b => a.firsts.flatMap (fun x => if x.2 then b.firsts.map (fun y => (x.1 ++ y.1, y.2)) else [x])
  | .alt a b => a.firsts ++ b.firsts
  | .opt a => ([], true) :: a.firsts
  | .plus _ a => a.firsts.map (fun x => (x.1, false))
  | .star a => ([], true) :: a.firsts.map (fun x => (x.1, false))
  | .grp a | .ngrp a => a.firsts

/-- Whether a character with this lower case may be in the class (no less than that). -/
def CI.may : CI → Char → Bool
  | .ch a, x => x == lowerC a
  | .d, x => isDigit x
  | .S, x => !isSpace x
  | .s, _ | .range _ _, _ => true

def CC.may : CC → Char → Bool
  | .one i, x => i.may x
  | .set false l, x => l.any (·.may x)
  | .set true _, _ | .dot, _ => true

/-- All ends of a text, and `none`. -/
def sufs : Str → List (Option Str)
  | [] => [none, some []]
  | c :: s => some (c :: s) :: sufs s

/-- Repeated use of `f`. -/
def again (f : Str → List (Option Str)) : Nat → Str → List (Option Str)
  | 0, _ => []
  | n + 1, s => some s :: (f s).flatMap (fun
    | none => [none]
    | some t => if t.length < s.length then again f n t else [])

/-- What may be left of the beginning `s` of a text (in lower case) after a match; `none` when the match may be
longer than `s`. -/
def Pat.feed : Pat → Str → List (Option Str)
  | .lits l, s =>
    if (lower l).isPrefixOf s then [some (s.drop l.length)] else if s.isPrefixOf (lower l) then [none] else []
  | .cls c, s => match s with
    | [] => [none]
    | x :: s => if c.may x then [some s] else []
  | .ty _, s => sufs s
  | .behind _ _, s => [some s]
  | .seq a b, s => (a.feed s).flatMap (fun | none => [none] | some t => b.feed t)
  | .alt a b, s => a.feed s ++ b.feed s
  | .opt a, s => some s :: a.feed s
  | .plus _ a, s => (a.feed s).flatMap (fun | none => [none] | some t => again a.feed (t.length + 1) t)
  | .star a, s => again a.feed (s.length + 1) s
  | .grp a, s => a.feed s
  | .ngrp a, s => a.feed s

/-- No beginning of a match of `p` is one of a match of `q`. -/
def Pat.apart (p q : Pat) : Bool :=
  p.firsts.all (fun x => !(q.feed x.1).contains (some []) && (x.2 || !(q.feed x.1).contains none))

end Inp
