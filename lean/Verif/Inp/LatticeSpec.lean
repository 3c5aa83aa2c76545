import Verif.Inp.DeepSpec
/-!
# `fill` options of lattices (specification)
-/
namespace Inp
open Py Types

/-- The class of a lattice (src/pymcnp/inp/cell/Fill_0.py, src/pymcnp/inp/like/Fill_0.py). -/
def latticeCls : Bool → Cls
  | false => Tab.cell_Fill_0
  | true => Tab.like_Fill_0

/-- A word with a colon inside. -/
def SpanWord (w : Str) : Prop := ∃ p q, p ≠ [] ∧ q ≠ [] ∧ w = p ++ ':' :: q

/-- The word of the origin: a number in parentheses, or nothing. -/
def originWords : Option Str → List Str
  | none => []
  | some m => [['('] ++ m ++ [')']]

/-- All of them, or the first error. -/
def readUnis : List Str → Res (List IntVal)
  | [] => .ok []
  | u :: us =>
    match intParse u with
    | .error e => .error e
    | .ok n =>
      match readUnis us with
      | .error e => .error e
      | .ok ns => .ok (n :: ns)

/-- A lattice with a star or none, the ranges `i`, `j`, `k`, the universes `us` and the origin `m`. -/
def latticeObj (like star : Bool) (i j k : Index) (us : List IntVal) (m : Option IntVal) : Val :=
  .obj (latticeCls like).info [if star then .sc (.str ['*']) else .none, .sc (.index i), .sc (.index j), .sc (.index k),
    .tuple (us.map (fun n => .sc (.int n))), m.elim .none (fun n => .sc (.int n))]

/-- What the words of a lattice are read as. -/
def readLattice (like star : Bool) (i j k : Str) (us : List Str) (m : Option Str) : Res Val :=
  match indexParse i with
  | .error e => .error e
  | .ok iv =>
    match indexParse j with
    | .error e => .error e
    | .ok jv =>
      match indexParse k with
      | .error e => .error e
      | .ok kv =>
        match readUnis us with
        | .error e => .error e
        | .ok ns =>
          match m with
          | none => .ok (latticeObj like star iv jv kv ns none)
          | some m =>
            match intParse m with
            | .error e => .error e
            | .ok n => .ok (latticeObj like star iv jv kv ns (some n))

end Inp
