import Verif.Py.Regex
/-!
# Patterns made of texts and fields

The patterns of output tables are literal texts between fields of fixed width, ends of lines and paragraphs.  An `Item` is
one such part.  A field has a number; it is a group of the pattern when its flag is set.
-/
namespace Py

/-- A text, character by character. -/
def litC : Str → Re
  | [] => .eps
  | c :: cs => .seq (Re.chr c) (litC cs)

/-- A text whatever the letter case (`re.IGNORECASE`). -/
def litI : Str → Re
  | [] => .eps
  | c :: cs => .seq (Re.chrI c) (litI cs)

inductive Item where
  /-- a text -/
  | lit (s : Str)
  /-- a text whatever the letter case -/
  | ilit (s : Str)
  /-- `\s` -/
  | sp
  /-- `(.{w})` -/
  | fix (g : Bool) (n w : Nat)
  /-- `(pre.+)\n` -/
  | line (g : Bool) (n : Nat) (pre : Str)
  /-- `((?:r)+)\n` -/
  | many (g : Bool) (n : Nat) (r : Re)
  /-- `(r)` -/
  | gen (g : Bool) (n : Nat) (r : Re)

/-- `(r)` or `(?:r)` -/
def wrap (g : Bool) (n : Nat) (r : Re) : Re := if g then .grp n r else r

def Item.re : Item → Re
  | .lit s => litC s
  | .ilit s => litI s
  | .sp => Re.space
  | .fix g n w => wrap g n (Re.rep w .dot)
  | .line g n pre => .seq (wrap g n (.seq (litC pre) (Re.plus true .dot))) (Re.chr '\n')
  | .many g n r => .seq (wrap g n (Re.plus true r)) (Re.chr '\n')
  | .gen g n r => wrap g n r

/-- The pattern of a template. -/
def tmplRe : List Item → Re
  | [] => .eps
  | i :: is => .seq i.re (tmplRe is)

/-- The text of an item with these contents of the fields. -/
def Item.text (v : Nat → Str) : Item → Str
  | .lit s => s
  | .ilit s => s
  | .sp => [' ']
  | .fix _ n _ => v n
  | .line _ n _ => v n ++ ['\n']
  | .many _ n _ => v n ++ ['\n']
  | .gen _ n _ => v n

/-- The text of a template with these contents of the fields. -/
def tmplText (v : Nat → Str) : List Item → Str
  | [] => []
  | i :: is => i.text v ++ tmplText v is

/-- The number of the field of an item. -/
def Item.slot : Item → Option Nat
  | .lit _ => none
  | .ilit _ => none
  | .sp => none
  | .fix _ n _ => some n
  | .line _ n _ => some n
  | .many _ n _ => some n
  | .gen _ n _ => some n

/-- The number of the group of an item. -/
def Item.group : Item → Option Nat
  | .lit _ => none
  | .ilit _ => none
  | .sp => none
  | .fix g n _ => if g then some n else none
  | .line g n _ => if g then some n else none
  | .many g n _ => if g then some n else none
  | .gen g n _ => if g then some n else none

/-- The captures of a template. -/
def tmplCaps (v : Nat → Str) : List Item → List (Nat × Str)
  | [] => []
  | i :: is =>
    match i.group with
    | some n => tmplCaps v is ++ [(n, v n)]
    | none => tmplCaps v is

end Py
