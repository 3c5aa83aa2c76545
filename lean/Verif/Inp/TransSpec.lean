import Verif.Inp.ReadSpec
import Verif.Inp.TableAll
import Verif.Inp.CellSpec
import Verif.Inp.LikeSpec
/-!
# Transformations (specification)

What the five forms of `src/pymcnp/types/Transformation.py` accept and what they are read as, without patterns.
-/
namespace Inp
open Py Types

/-- The text consists of these pieces, one blank apart, with or without a parenthesis on either side (src/pymcnp/types/Transformation.py:30-33, 181, 310, 431,
537): the entries, of which all but the last must not be empty, and one more for the system. -/
structure TransText (k : Nat) (s : Str) (ps : List Str) : Prop where
  len : ps.length = trCount k ∨ ps.length = trCount k + 1
  chars : ∀ p ∈ ps, ∀ c ∈ p, trC c = true
  full : ∀ p ∈ ps.take (trCount k - 1), p ≠ []
  text : ∃ o c, (o = [] ∨ o = ['(']) ∧ (c = [] ∨ c = [')']) ∧ s = o ++ join [' '] ps ++ c

/-- Numbers read from all pieces, or the first error. -/
def readReals : List Str → Res (List RealVal)
  | [] => .ok []
  | p :: ps =>
    match realParse p with
    | .error e => .error e
    | .ok v =>
      match readReals ps with
      | .error e => .error e
      | .ok vs => .ok (v :: vs)

/-- What the pieces are read as: the entries, and the system, 1 or -1, if there is another piece that is not empty. -/
def readTrans (k : Nat) (ps : List Str) : Res Val :=
  match readReals (ps.take (trCount k)) with
  | .error e => .error e
  | .ok rs =>
    match ps[trCount k]?.getD [] with
    | [] => .ok (.sc (.trans k rs none))
    | t =>
      match intParse t with
      | .error e => .error e
      | .ok (.num n) => if n = 1 ∨ n = -1 then .ok (.sc (.trans k rs (some (.num n)))) else .error .types
      | .ok (.hor _) => .error .typeErr

/-! ## The option `trcl` of cells -/

/-- The first word of the option: `trcl` in any case, with or without a star (src/pymcnp/inp/cell/Trcl_1.py:18, src/pymcnp/inp/like/Trcl_1.py:18). -/
def TrclWord (star : Bool) (hd : Str) : Prop :=
  ∃ kw, lower kw = c!"trcl" ∧ hd = (if star then ['*'] else []) ++ kw

/-- Options of a cell card, or of a cell card `LIKE n BUT`. -/
def optionsOf (like : Bool) : List Cls := if like then likeOptions else cellOptions

/-- The class of the option for each form of a transformation (src/pymcnp/inp/cell/Trcl_1.py to Trcl_5.py, src/pymcnp/inp/like/Trcl_1.py to Trcl_5.py). -/
def trclOf : Bool → Nat → Cls
  | false, 0 => Tab.cell_Trcl_1
  | false, 1 => Tab.cell_Trcl_2
  | false, 2 => Tab.cell_Trcl_3
  | false, 3 => Tab.cell_Trcl_4
  | false, _ => Tab.cell_Trcl_5
  | true, 0 => Tab.like_Trcl_1
  | true, 1 => Tab.like_Trcl_2
  | true, 2 => Tab.like_Trcl_3
  | true, 3 => Tab.like_Trcl_4
  | true, _ => Tab.like_Trcl_5

/-- The class of the option that names a transformation by its number (src/pymcnp/inp/cell/Trcl_0.py, src/pymcnp/inp/like/Trcl_0.py). -/
def trclNumber : Bool → Cls
  | false => Tab.cell_Trcl_0
  | true => Tab.like_Trcl_0

/-- The form that reads so many pieces: nine are nine entries, not eight and a system. -/
def trclForm (n : Nat) : Option Nat :=
  if n = 12 ∨ n = 13 then some 0
  else if n = 9 ∨ n = 10 then some 1
  else if n = 8 then some 2
  else if n = 6 ∨ n = 7 then some 3
  else if n = 3 ∨ n = 4 then some 4
  else none

/-- What an option with these pieces is read as. -/
def readTrcl (c : Cls) (star : Bool) (k : Nat) (ps : List Str) : Res Val :=
  match readTrans k ps with
  | .error e => .error e
  | .ok v => .ok (.obj c.info [if star then .sc (.str ['*']) else .none, v])

end Inp
