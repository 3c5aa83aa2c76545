import Verif.Py.Lit
import Verif.Types.Scalar
import Verif.Types.Geometry
import Verif.Types.Lattice
import Verif.Inp.Text
/-!
# Attribute values and printing of cards, options and entries

Models `Card.to_mcnp` (src/pymcnp/inp/_card.py:43-60), `Option.to_mcnp`
(src/pymcnp/inp/_option.py:45-61), `Entry.to_mcnp` (src/pymcnp/inp/_entry.py:45-59) and the classes
that override it.
-/
namespace Inp
open Py Types

/-- Which `to_mcnp` a class has. -/
inductive Style where
  | card        -- src/pymcnp/inp/_card.py:43-60
  | option      -- src/pymcnp/inp/_option.py:45-61
  | entry       -- src/pymcnp/inp/_entry.py:45-59
  | cell        -- src/pymcnp/inp/Cell.py:61-72
  | comment     -- src/pymcnp/inp/Comment.py:29-40
  | ds (letter : Char)  -- src/pymcnp/inp/Ds_1.py:38-45, Ds_2.py:38-45, Ds_3.py:37-44
  | ring        -- src/pymcnp/inp/F_2.py:58-66
  | like        -- src/pymcnp/inp/Like.py:44-55
  | surface     -- src/pymcnp/inp/Surface.py:58-69
  | filter      -- src/pymcnp/inp/ptrac/filter/Entry.py:40-48
  | embedded    -- src/pymcnp/inp/sdef/tme_1/Embedded.py:58-66
deriving DecidableEq, Repr

/-- What printing needs to know about a class: name, `_KEYWORD`, names of `_ATTRS` in order. -/
structure Info where
  name : String
  style : Style
  kw : Str
  attrs : List String
deriving DecidableEq, Repr

/-- Values of the scalar types of src/pymcnp/types.  `trans k` is a `Transformation_k` object: its
real entries and `m`. -/
inductive Sc where
  | int (v : IntVal)
  | real (v : RealVal)
  | str (s : Str)
  | zaid (z : Zaid)
  | dist (n : Nat)
  | desig (s : Str)
  | subst (x : Substance)
  | index (i : Index)
  | geo (g : Ast)
  | lat (l : Lat)
  | trans (k : Nat) (rs : List RealVal) (m : Option IntVal)
deriving DecidableEq, Repr

/-- Attribute values: `None`, scalars, `Tuple` objects, and card/option/entry objects (attributes in
`_ATTRS` order). -/
inductive Val where
  | none
  | sc (s : Sc)
  | tuple (l : List Val)
  | obj (i : Info) (attrs : List Val)
deriving Repr

mutual
/-- Decidable equality of values. -/
def Val.decEq : (a b : Val) → Decidable (a = b)
  | .none, .none => isTrue rfl
  | .sc a, .sc b => if h : a = b then isTrue (by rw [h]) else isFalse (by intro e; cases e; exact h rfl)
  | .tuple l, .tuple m => match Val.decEqs l m with
    | isTrue h => isTrue (by rw [h])
    | isFalse h => isFalse (by intro e; cases e; exact h rfl)
  | .obj i l, .obj j m =>
    if hi : i = j then match Val.decEqs l m with
      | isTrue h => isTrue (by rw [hi, h])
      | isFalse h => isFalse (by intro e; cases e; exact h rfl)
    else isFalse (by intro e; cases e; exact hi rfl)
  | .none, .sc _ | .none, .tuple _ | .none, .obj _ _ | .sc _, .none | .sc _, .tuple _ | .sc _, .obj _ _
  | .tuple _, .none | .tuple _, .sc _ | .tuple _, .obj _ _ | .obj _ _, .none | .obj _ _, .sc _
  | .obj _ _, .tuple _ => isFalse (by intro e; cases e)
/-- Decidable equality of lists of values. -/
def Val.decEqs : (a b : List Val) → Decidable (a = b)
  | [], [] => isTrue rfl
  | a :: l, b :: m => match Val.decEq a b, Val.decEqs l m with
    | isTrue h, isTrue h' => isTrue (by rw [h, h'])
    | isFalse h, _ => isFalse (by intro e; cases e; exact h rfl)
    | _, isFalse h => isFalse (by intro e; cases e; exact h rfl)
  | [], _ :: _ | _ :: _, [] => isFalse (by intro e; cases e)
end
instance : DecidableEq Val := Val.decEq

/-- `to_mcnp` of `Transformation_k`: entries and `m`, an empty text if `m` is unset
(src/pymcnp/types/Transformation.py:161, 291, 414, 523, 611). -/
def transStr (rs : List RealVal) (m : Option IntVal) : Str :=
  join [' '] (rs.map RealVal.str ++ [match m with | none => [] | some v => v.str])

/-- `str(value)` of the scalar types (their `to_mcnp`). -/
def Sc.text : Sc → Str
  | .int v => v.str
  | .real v => v.str
  | .str s => s
  | .zaid z => z.str
  | .dist n => distStr n
  | .desig s => s
  | .subst x => x.str
  | .index i => i.str
  | .geo g => g.str
  | .lat l => l.str
  | .trans _ rs m => transStr rs m

/-- The attribute called `n`, if set (`hasattr(self, n) and self.n is not None`). -/
def part (n : String) (ps : List (String × Option Str)) : Option Str :=
  match ps with
  | [] => none
  | (m, p) :: ps => if m = n then p else part n ps

/-- `{… if … is not None else ""}` -/
def orNil (p : Option Str) : Str := p.getD []

/-- `{self.x}` of an attribute printed unconditionally (`None` prints as `None`). -/
def orNone (p : Option Str) : Str := p.getD c!"None"

/-- Attributes printed before the blank. -/
def special (n : String) : Bool := n == "prefix" || n == "suffix" || n == "designator"

/-- `{prefix}{_KEYWORD}{suffix}{:designator}` (_card.py:57, _option.py:59). -/
def headStr (kw : Str) (ps : List (String × Option Str)) : Str :=
  orNil (part "prefix" ps) ++ kw ++ orNil (part "suffix" ps) ++
    (match part "designator" ps with | none => [] | some d => ':' :: d)

/-- The remaining set attributes joined by blanks (_card.py:51-55, _option.py:53-57). -/
def bodyStr (ps : List (String × Option Str)) : Str :=
  join [' '] (ps.filterMap (fun p => if special p.1 then none else p.2))

/-- `to_mcnp` of an object whose attributes print as `ps` (`none`: the attribute is `None`). -/
def objStr (i : Info) (parts : List (Option Str)) : Str :=
  let ps := i.attrs.zip parts
  match i.style with
  | .card => postprocess (strip (headStr i.kw ps ++ ' ' :: bodyStr ps))
  | .option => headStr i.kw ps ++ ' ' :: bodyStr ps
  | .entry => join [' '] (parts.filterMap id)
  | .cell => postprocess (join [' '] [orNone (part "number" ps), orNone (part "material" ps),
      orNil (part "density" ps), orNone (part "geometry" ps), orNil (part "options" ps)])
  | .comment => postprocess ('c' :: (match part "text" ps with
      | none => [] | some [] => [] | some (c :: cs) => ' ' :: c :: cs))
  | .ds l => c!"ds" ++ orNone (part "suffix" ps) ++ ' ' :: l :: ' ' ::
      orNone (part (match l with | 't' => "ijs" | 'q' => "vss" | _ => "distributions") ps)
  | .ring => orNil (part "prefix" ps) ++ 'f' :: (orNone (part "suffix" ps) ++ orNone (part "a" ps) ++
      (match part "designator" ps with | none => [] | some d => ':' :: d) ++
      ' ' :: (orNone (part "rings" ps) ++ ' ' :: orNil (part "nd" ps)))
  | .like => postprocess (orNone (part "number" ps) ++ c!" like " ++ orNone (part "cell" ps) ++
      c!" but " ++ orNil (part "options" ps))
  | .surface => postprocess (orNil (part "prefix" ps) ++ orNone (part "number" ps) ++
      ' ' :: (orNil (part "transform" ps) ++ ' ' :: orNone (part "option" ps)))
  | .filter => orNone (part "lower" ps) ++ ',' :: (orNone (part "variable" ps) ++
      (match part "upper" ps with | none => [] | some u => ',' :: u))
  -- joined by `<` instead of blanks; the texts of distributions contain no blanks
  | .embedded => (orNone (part "distributions" ps)).map (fun c => if c = ' ' then '<' else c)

mutual
/-- `str(value)`, `none` for `None`; `Tuple.to_mcnp` is src/pymcnp/types/Tuple.py:65-73. -/
def Val.text : Val → Option Str
  | .none => Option.none
  | .sc s => some s.text
  | .tuple l => some (join [' '] ((Val.parts l).map orNil))
  | .obj i a => some (objStr i (Val.parts a))
/-- Printed attributes. -/
def Val.parts : List Val → List (Option Str)
  | [] => []
  | v :: l => v.text :: Val.parts l
end

/-- `str(value)` of a set attribute. -/
def Val.str (v : Val) : Str := orNil v.text

theorem Val.parts_eq (l : List Val) : Val.parts l = l.map Val.text := by
  induction l with
  | nil => rfl
  | cons v l ih => simp [Val.parts, ih]

end Inp
