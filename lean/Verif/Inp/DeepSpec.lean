import Verif.Inp.TransSpec
/-!
# Options of whole cells with transformations (specification)
-/
namespace Inp
open Py Types

/-- An option of a cell as it stands in the text: one of the classes made of a head and fields with its words, or `trcl` with the words and the pieces of its
transformation, or `fill` with the universe and perhaps the words and the pieces of a transformation. -/
inductive DOpt where
  | plain (c : Cls) (hd : Str) (ws : List Str)
  | move (star : Bool) (hd : Str) (ws ps : List Str)
  | fill (star : Bool) (hd u : Str) (ws ps : List Str)

/-- The words of the option. -/
def DOpt.opt : DOpt → Opt
  | .plain _ hd ws => (hd, ws)
  | .move _ hd ws _ => (hd, ws)
  | .fill _ hd u ws _ => (hd, u :: ws)

/-- The entries of `trcl` end before the words `rest`: with a parenthesis, with the card, or because the next word does not begin like a number. -/
def Ends (ws rest : List Str) : Prop :=
  (join [' '] ws).getLast? = some ')' ∨ ∀ w, rest.head? = some w → ∀ c, w.head? = some c → trC c = false

/-- The first word of the option: `fill` in any case, with or without a star (src/pymcnp/inp/cell/Fill_1.py:21, src/pymcnp/inp/like/Fill_1.py:21). -/
def FillWord (star : Bool) (hd : Str) : Prop :=
  ∃ kw, lower kw = c!"fill" ∧ hd = (if star then ['*'] else []) ++ kw

/-- The class of `fill` with one universe and perhaps a transformation of twelve entries (src/pymcnp/inp/cell/Fill_1.py, src/pymcnp/inp/like/Fill_1.py). -/
def fillOf : Bool → Cls
  | false => Tab.cell_Fill_1
  | true => Tab.like_Fill_1

/-- The word after a universe alone is no entry of a transformation. -/
def Lone (rest : List Str) : Prop := ∀ w, rest.head? = some w → ∃ c ∈ w, trC c = false ∧ c ≠ '('

/-- What `fill` with the universe `u` and these pieces is read as: no pieces are no transformation; the class decides which universes there are. -/
def readFill (c : Cls) (star : Bool) (u : Str) (ps : List Str) : Res Val :=
  match intParse u with
  | .error e => .error e
  | .ok n =>
    match (if ps = [] then .ok .none else readTrans 0 ps) with
    | .error e => .error e
    | .ok v => c.mk' [if star then .sc (.str ['*']) else .none, .sc (.int n), v]

/-- Every option is found and read by its class. -/
def Deep (like : Bool) : List DOpt → Prop
  | [] => True
  | .plain c hd ws :: l => (c ∈ optionsOf like ∧ owns (optionsOf like) c hd ws (optWords (l.map DOpt.opt)) = true) ∧ Deep like l
  | .move star hd ws ps :: l =>
    (TrclWord star hd ∧ Ends ws (optWords (l.map DOpt.opt)) ∧ ∃ k, trclForm ps.length = some k ∧ TransText k (join [' '] ws) ps) ∧ Deep like l
  | .fill star hd u ws ps :: l =>
    (FillWord star hd ∧ unitOk (.ty (.base .int)) u = true ∧
      ((ws = [] ∧ ps = [] ∧ Lone (optWords (l.map DOpt.opt))) ∨ (TransText 0 (join [' '] ws) ps ∧ Ends ws (optWords (l.map DOpt.opt))))) ∧ Deep like l

/-- What the option is read as. -/
def DOpt.read (like : Bool) : DOpt → Res Val
  | .plain c hd ws => c.readW hd ws
  | .move star _ _ ps =>
    match trclForm ps.length with
    | none => .error .inp
    | some k => readTrcl (trclOf like k) star k ps
  | .fill star _ u _ ps => readFill (fillOf like) star u ps

/-- All values, or the first error. -/
def allOk {α : Type} : List (Res α) → Res (List α)
  | [] => .ok []
  | r :: rs =>
    match r with
    | .error e => .error e
    | .ok v =>
      match allOk rs with
      | .error e => .error e
      | .ok vs => .ok (v :: vs)

/-- The attribute for the options; none if the card has none. -/
def optionsRead (like : Bool) (os : List DOpt) : Res Val :=
  match os with
  | [] => .ok .none
  | o :: os => (allOk ((o :: os).map (DOpt.read like))).map .tuple

/-- The cell with number `n`, material `m`, density `d`, geometry `gws` and options `os`. -/
def readDeepCell (n m : Str) (d : Option Str) (gws : List Str) (os : List DOpt) : Res Val := readCellWith n m d gws (optionsRead false os)

/-- The cell with number `n` that is like cell `m` but for the options `os`. -/
def readDeepLike (n m : Str) (os : List DOpt) : Res Val := readLikeWith n m (optionsRead true os)

end Inp
