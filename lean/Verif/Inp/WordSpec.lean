import Verif.Py.Str
/-!
# Assigning the entries of a card to its fields (specification)

A card with a list of fields and a list of blank-separated entries: which entries go to which field.
Written without reference to regular expressions.
-/
namespace Inp
open Py

/-- How often a field occurs: once, at most once, one or more (as few / as many as possible), any number. -/
inductive Mode where | req | opt | many | greedy | manyOpt
deriving DecidableEq, Repr

/-- The entries of each field, `none` for a field left out. -/
abbrev Assign := List (Option (List Str))

/-- A field that already has the entries `taken` takes further entries accepted by `ok`, as few (`lazy`)
or as many as possible such that the remaining fields (`next`) can be filled. -/
def takeMore (ok : Str → Bool) (lazy : Bool) (next : List Str → Option Assign) (taken : List Str) :
    List Str → Option Assign
  | [] => (next []).map (some taken :: ·)
  | w :: ws =>
    let here := (next (w :: ws)).map (some taken :: ·)
    let more := if ok w then takeMore ok lazy next (taken ++ [w]) ws else none
    if lazy then here.or more else more.or here

/-- The first entry goes to the field. -/
def takeOne (ok : Str → Bool) (next : List Str → Option Assign) : List Str → Option Assign
  | [] => none
  | w :: ws => if ok w then (next ws).map (some [w] :: ·) else none

/-- One or more entries go to the field. -/
def takeMany (ok : Str → Bool) (lazy : Bool) (next : List Str → Option Assign) : List Str → Option Assign
  | [] => none
  | w :: ws => if ok w then takeMore ok lazy next [w] ws else none

/-- Fill all fields with all entries, in order of preference. -/
def assign : List ((Str → Bool) × Mode) → List Str → Option Assign
  | [], [] => some []
  | [], _ :: _ => none
  | (ok, .req) :: fs, ws => takeOne ok (assign fs) ws
  | (ok, .opt) :: fs, ws => (takeOne ok (assign fs) ws).or ((assign fs ws).map (none :: ·))
  | (ok, .many) :: fs, ws => takeMany ok true (assign fs) ws
  | (ok, .greedy) :: fs, ws => takeMany ok false (assign fs) ws
  | (ok, .manyOpt) :: fs, ws => (takeMany ok true (assign fs) ws).or ((assign fs ws).map (none :: ·))

/-- The entries of all fields in order. -/
def Assign.flat (vs : Assign) : List Str := vs.flatMap (·.getD [])

/-- Every field has as many entries as its mode allows, all accepted by the field. -/
def Fits : List ((Str → Bool) × Mode) → Assign → Prop
  | [], [] => True
  | (_, m) :: fs, none :: vs => (m = .opt ∨ m = .manyOpt) ∧ Fits fs vs
  | (ok, m) :: fs, some ws :: vs =>
    ws ≠ [] ∧ (∀ w ∈ ws, ok w = true) ∧ ((m = .req ∨ m = .opt) → ws.length = 1) ∧ Fits fs vs
  | _, _ => False

/-- Assignments in which nothing can slide into another field: no unset field before a set one, and a
list only in the last place or before required single entries. -/
def Canon : List Mode → Assign → Prop
  | [], [] => True
  | .req :: ms, some _ :: vs | .opt :: ms, some _ :: vs => Canon ms vs
  | .many :: ms, some _ :: _ | .greedy :: ms, some _ :: _ | .manyOpt :: ms, some _ :: _ => ∀ m ∈ ms, m = .req
  | _ :: _, none :: vs => ∀ v ∈ vs, v = none
  | _, _ => False

/-! ## The first word of a card -/

/-- Shapes of the optional prefix: `([*])?`, `([*+])?`, `([+*])?`. -/
inductive Pre where | no | star | starPlus | plusStar
deriving DecidableEq, Repr
/-- The card number: `(\d+)`, `(\d+)?`. -/
inductive Suf where | no | req | opt
deriving DecidableEq, Repr
/-- The particle designator: `:(\S+)`, `(?::(\S+))?`. -/
inductive Des where | no | req | opt
deriving DecidableEq, Repr

/-- Most patterns are a head followed by fields of blank-separated units. -/
structure Head where
  pre : Pre
  kw : Str
  suf : Suf
  des : Des

def Pre.chars : Pre → List Char
  | .no => []
  | .star => ['*']
  | .starPlus => ['*', '+']
  | .plusStar => ['+', '*']

/-- A prefix character, if the card may have one; and the remaining text. -/
def readPre (p : Pre) (s : Str) : List (Option Str) × Str :=
  if p = .no then ([], s)
  else match s with
    | [] => ([none], [])
    | c :: t => if c ∈ p.chars then ([some [c]], t) else ([none], c :: t)

/-- The keyword, in any case. -/
def readKw (kw s : Str) : Option Str :=
  if lower (s.take kw.length) = lower kw then some (s.drop kw.length) else none

/-- The card number: the digits after the keyword. -/
def readSuf (f : Suf) (s : Str) : Option (List (Option Str) × Str) :=
  match f with
  | .no => some ([], s)
  | .req => if s.takeWhile isDigit = [] then none else some ([some (s.takeWhile isDigit)], s.dropWhile isDigit)
  | .opt => some ([if s.takeWhile isDigit = [] then none else some (s.takeWhile isDigit)], s.dropWhile isDigit)

/-- The particle designator: everything after a colon. -/
def readDes (d : Des) (s : Str) : Option (List (Option Str)) :=
  match d, s with
  | .no, [] => some []
  | .opt, [] => some [none]
  | .req, ':' :: c :: t => some [some (c :: t)]
  | .opt, ':' :: c :: t => some [some (c :: t)]
  | _, _ => none

/-- The first word: prefix, keyword, number, designator. -/
def readHead (h : Head) (s : Str) : Option (List (Option Str)) :=
  match readKw h.kw (readPre h.pre s).2 with
  | none => none
  | some t =>
    match readSuf h.suf t with
    | none => none
    | some (x, u) => (readDes h.des u).map (fun d => (readPre h.pre s).1 ++ x ++ d)

end Inp
