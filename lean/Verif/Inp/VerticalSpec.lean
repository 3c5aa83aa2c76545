import Verif.Py.Str
import Verif.Py.Lit
/-!
# Vertical data format, specification

A block of the vertical format is a line of card names after `#` and rows of entries; it stands for one card per name, with
the column of that name as its entries.  Nothing here refers to the model of the reader.
-/
namespace Inp
open Py

/-- A row: blanks before it, its first entry, and the others with the number of blanks (less one) before each. -/
structure VRow where
  indent : Nat
  first : Str
  others : List (Nat × Str)

/-- A block: names and rows. -/
structure VBlock where
  names : List Str
  rows : List VRow

def gapText : Nat × Str → Str
  | (n, w) => List.replicate (n + 1) ' ' ++ w

def VRow.text (r : VRow) : Str := List.replicate r.indent ' ' ++ (r.first ++ r.others.flatMap gapText)

def VRow.words (r : VRow) : List Str := r.first :: r.others.map (·.2)

/-- The block as it stands in the file. -/
def VBlock.text (b : VBlock) : Str :=
  '#' :: (b.names.flatMap (fun n => ' ' :: n) ++ '\n' :: b.rows.flatMap (fun r => r.text ++ ['\n']))

/-- The entries of column `j`, from top to bottom; rows that are too short have none. -/
def VBlock.column (b : VBlock) (j : Nat) : List Str := b.rows.filterMap (fun r => r.words[j]?)

/-- The cards the block stands for. -/
def VBlock.cards (b : VBlock) : List (List Str) := b.names.mapIdx (fun j n => n :: b.column j)

/-- Cards as lines. -/
def cardLines (cs : List (List Str)) : Str := join ['\n'] (cs.map (join [' '])) ++ ['\n']

end Inp
