import Verif.State.Held
import Verif.Inp.TableCards
/-!
# Histories of cell and surface objects
-/
namespace State
open Py Types Inp

/-! ## Cells -/

/-- Python values handed to `Cell.density`; `other` is an object of another class (for instance an
`Integer`). -/
inductive DArg where
  | none
  | real (v : RealVal)
  | int (n : Int)
  | flt (m : Int) (e : Nat)
  | str (s : Str)
  | other
deriving DecidableEq

/-- What `Cell.density` holds when it is not `None`. -/
inductive Dens where
  | real (v : RealVal)        -- a `types.Real` read from text
  | num (m : Int) (e : Nat)   -- a `types.Real` holding the number m / 2^e
  | other                     -- an object stored as it came
deriving DecidableEq

/-- Python values handed to `Cell.geometry`; a surface is given by the text of its number. -/
inductive GArg where
  | none
  | surface (number : Str)
  | geo (g : Ast)
  | str (s : Str)
  | other
deriving DecidableEq

inductive Geo where
  | ast (g : Ast)
  | text (s : Str)            -- `types.Geometry(str(surface.number))`: the tree is the text itself
  | other
deriving DecidableEq

/-- Items handed to a list-valued setter. -/
inductive Item where
  | obj (v : Val)             -- an object of the expected class
  | str (s : Str)
  | other
deriving DecidableEq

structure CellSt where
  number : Held
  material : Held
  density : Option Dens
  geometry : Geo
  options : Option (List Val)
deriving DecidableEq

/-- A setter test of the form `x is None or not (lo <= x <= hi)`. -/
def needRange (lo hi : Int) (a : Arg) : Res Held :=
  match holdInt a with
  | .error e => .error e
  | .ok none => .error .inp
  | .ok (some h) => match h.between lo hi with
    | .error e => .error e
    | .ok true => .ok h
    | .ok false => .error .inp

/-- `Cell.number` setter, src/pymcnp/inp/Cell.py:100-124 -/
def cellNumber (a : Arg) : Res Held := needRange 1 99999999 a

/-- `Cell.material` setter, src/pymcnp/inp/Cell.py:138-164 -/
def cellMaterial (a : Arg) : Res Held := needRange 0 99999999 a

/-- the conversion in the `Cell.density` setter, src/pymcnp/inp/Cell.py:191-197 -/
def holdDens : DArg → Res (Option Dens)
  | .none => .ok none
  | .real v => .ok (some (.real v))
  | .int n => .ok (some (.num n 0))
  | .flt m e => .ok (some (.num m e))
  | .str s => match realParse s with
    | .ok v => .ok (some (.real v))
    | .error e => .error e
  | .other => .ok (some .other)

/-- `Cell.density` setter, src/pymcnp/inp/Cell.py:178-202, given `self.material` -/
def cellDensity (material : Held) (a : DArg) : Res (Option Dens) :=
  match holdDens a with
  | .error e => .error e
  | .ok d =>
    if (d.isSome && material.isZero) || (d.isNone && !material.isZero) then .error .inp else .ok d

/-- `Cell.geometry` setter, src/pymcnp/inp/Cell.py:216-240 -/
def cellGeometry : GArg → Res Geo
  | .none => .error .inp
  | .surface n => .ok (.text n)
  | .geo g => .ok (.ast g)
  | .str s => match geoParse s with
    | .ok g => .ok (.ast g)
    | .error e => .error e
  | .other => .ok .other

/-- The loop of a list-valued setter over option objects or texts, with `parse` for texts; items of
other classes are dropped.  src/pymcnp/inp/Cell.py:267-274 -/
def holdItems (parse : Str → Res Val) : List Item → Res (List Val)
  | [] => .ok []
  | .obj v :: is => match holdItems parse is with
    | .ok vs => .ok (v :: vs)
    | .error e => .error e
  | .str s :: is => match parse s with
    | .error e => .error e
    | .ok v => match holdItems parse is with
      | .ok vs => .ok (v :: vs)
      | .error e => .error e
  | .other :: is => holdItems parse is

/-- `Cell.options` setter, src/pymcnp/inp/Cell.py:254-278 -/
def cellOptions : Option (List Item) → Res (Option (List Val))
  | none => .ok none
  | some is => match holdItems Tab.T_cell_CellOption.parse is with
    | .ok vs => .ok (some vs)
    | .error e => .error e

structure CellArgs where
  number : Arg
  material : Arg
  density : DArg
  geometry : GArg
  options : Option (List Item)

/-- `next(NUMBER)` with `NUMBER = iter(range(1, 100000000))`, src/pymcnp/inp/Cell.py:12,
src/pymcnp/inp/Surface.py:10.  The counter is the next number to hand out. -/
def nextNumber (c : Nat) : Res Nat × Nat := if c < 100000000 then (.ok c, c + 1) else (.error .stop, c)

/-- `number = next(NUMBER)` if it is `None`, src/pymcnp/inp/Cell.py:52-53, src/pymcnp/inp/Surface.py:50-51 -/
def pickNumber (c : Nat) (a : Arg) : Res Arg × Nat :=
  match a with
  | .none => match nextNumber c with
    | (.ok n, c') => (.ok (.int n), c')
    | (.error e, c') => (.error e, c')
  | a => (.ok a, c)

/-- the setters called by `Cell.__init__`, src/pymcnp/inp/Cell.py:55-59 -/
def cellInit (number : Arg) (a : CellArgs) : Res CellSt :=
  match cellNumber number with
  | .error e => .error e
  | .ok n => match cellMaterial a.material with
    | .error e => .error e
    | .ok m => match cellDensity m a.density with
      | .error e => .error e
      | .ok d => match cellGeometry a.geometry with
        | .error e => .error e
        | .ok g => match cellOptions a.options with
          | .error e => .error e
          | .ok o => .ok ⟨n, m, d, g, o⟩

/-- `Cell(…)`, src/pymcnp/inp/Cell.py:30-59, with the module's counter before and after -/
def newCell (c : Nat) (a : CellArgs) : Res CellSt × Nat :=
  match pickNumber c a.number with
  | (.error e, c') => (.error e, c')
  | (.ok n, c') => (cellInit n a, c')

inductive CellOp where
  | number (a : Arg)
  | material (a : Arg)
  | density (a : DArg)
  | geometry (a : GArg)
  | options (a : Option (List Item))

/-- One assignment to an attribute: the object afterwards, and the exception if one was raised. -/
def CellSt.step (s : CellSt) : CellOp → CellSt × Option Err
  | .number a => match cellNumber a with
    | .ok h => ({ s with number := h }, none)
    | .error e => (s, some e)
  | .material a => match cellMaterial a with
    | .ok h => ({ s with material := h }, none)
    | .error e => (s, some e)
  | .density a => match cellDensity s.material a with
    | .ok d => ({ s with density := d }, none)
    | .error e => (s, some e)
  | .geometry a => match cellGeometry a with
    | .ok g => ({ s with geometry := g }, none)
    | .error e => (s, some e)
  | .options a => match cellOptions a with
    | .ok o => ({ s with options := o }, none)
    | .error e => (s, some e)

def CellSt.run (s : CellSt) : List CellOp → CellSt
  | [] => s
  | o :: os => ((s.step o).1).run os

/-- A session: cells created one after the other, the counter passing from each to the next;
for each the cell or the exception. -/
def cellSession : Nat → List CellArgs → List (Res CellSt)
  | _, [] => []
  | c, a :: as => (newCell c a).1 :: cellSession (newCell c a).2 as

/-! ## Surfaces -/

/-- Python values handed to `Surface.option`. -/
inductive OArg where
  | none
  | obj (v : Val)
  | str (s : Str)
deriving DecidableEq

structure SurfSt where
  number : Held
  transform : Option Held
  option : Val
  pre : Option Str
deriving DecidableEq

/-- `Surface.transform` setter, src/pymcnp/inp/Surface.py:189-213 -/
def surfTransform (a : Arg) : Res (Option Held) :=
  match holdInt a with
  | .error e => .error e
  | .ok none => .ok none
  | .ok (some h) => match h.between 0 999 with
    | .error e => .error e
    | .ok true => .ok (some h)
    | .ok false => .error .inp

/-- `not self.transform`: `Integer.__bool__` src/pymcnp/types/Integer.py:116-117 -/
def noTransform : Option Held → Bool
  | none => true
  | some h => h.isZero

/-- `Surface.number` setter, src/pymcnp/inp/Surface.py:151-175: the condition is
`not (1 <= number <= 99_999_999 if not self.transform else 999)`, and `999` counts as true. -/
def surfNumber (t : Option Held) (a : Arg) : Res Held :=
  match holdInt a with
  | .error e => .error e
  | .ok none => .error .inp
  | .ok (some h) =>
    if noTransform t then match h.between 1 99999999 with
      | .error e => .error e
      | .ok true => .ok h
      | .ok false => .error .inp
    else .ok h

/-- `Surface.option` setter, src/pymcnp/inp/Surface.py:227-249 -/
def surfOption : OArg → Res Val
  | .none => .error .inp
  | .obj v => .ok v
  | .str s => Tab.T_surface_SurfaceOption.parse s

/-- `Surface.prefix` setter, src/pymcnp/inp/Surface.py:263-285 -/
def surfPrefix : Option Str → Res (Option Str)
  | none => .ok none
  | some s => if lower s = ['*'] ∨ lower s = ['+'] then .ok (some s) else .error .inp

structure SurfArgs where
  option : OArg
  number : Arg
  transform : Arg
  pre : Option Str

/-- the setters called by `Surface.__init__` in their order, src/pymcnp/inp/Surface.py:53-56 -/
def surfInit (number : Arg) (a : SurfArgs) : Res SurfSt :=
  match surfTransform a.transform with
  | .error e => .error e
  | .ok t => match surfNumber t number with
    | .error e => .error e
    | .ok n => match surfOption a.option with
      | .error e => .error e
      | .ok o => match surfPrefix a.pre with
        | .error e => .error e
        | .ok p => .ok ⟨n, t, o, p⟩

/-- `Surface(…)`, src/pymcnp/inp/Surface.py:27-56, with the module's counter before and after -/
def newSurf (c : Nat) (a : SurfArgs) : Res SurfSt × Nat :=
  match pickNumber c a.number with
  | (.error e, c') => (.error e, c')
  | (.ok n, c') => (surfInit n a, c')

inductive SurfOp where
  | number (a : Arg)
  | transform (a : Arg)
  | option (a : OArg)
  | pre (a : Option Str)

def SurfSt.step (s : SurfSt) : SurfOp → SurfSt × Option Err
  | .number a => match surfNumber s.transform a with
    | .ok h => ({ s with number := h }, none)
    | .error e => (s, some e)
  | .transform a => match surfTransform a with
    | .ok t => ({ s with transform := t }, none)
    | .error e => (s, some e)
  | .option a => match surfOption a with
    | .ok o => ({ s with option := o }, none)
    | .error e => (s, some e)
  | .pre a => match surfPrefix a with
    | .ok p => ({ s with pre := p }, none)
    | .error e => (s, some e)

def SurfSt.run (s : SurfSt) : List SurfOp → SurfSt
  | [] => s
  | o :: os => ((s.step o).1).run os

def surfSession : Nat → List SurfArgs → List (Res SurfSt)
  | _, [] => []
  | c, a :: as => (newSurf c a).1 :: surfSession (newSurf c a).2 as

/-! ## The cell block of an input -/

/-- Does a cell card carry an `imp` option?  src/pymcnp/Inp.py:423 -/
def hasImp : Val → Bool
  | .obj _ [_, _, _, _, .tuple os] => os.any (fun o => match o with | .obj i _ => i == Tab.cell_Imp.info | _ => false)
  | _ => false

def isCell : Val → Bool
  | .obj i _ => i == Tab.Cell.info
  | _ => false

/-- `s in t` on texts -/
def isInfix (s : Str) : Str → Bool
  | [] => s.isEmpty
  | c :: cs => s.isPrefixOf (c :: cs) || isInfix s cs

/-- A text among the cells: a comment, a `like` card or a cell card, src/pymcnp/Inp.py:405-415.  Only
`InpError` from the comment is swallowed. -/
def cellText (s : Str) : Res Val :=
  match cardParse Tab.Comment s with
  | .ok (v, _) => .ok v
  | .error .inp =>
    if isInfix c!"like" s then (cardParse Tab.Like s).map Prod.fst else (cardParse Tab.Cell s).map Prod.fst
  | .error e => .error e

/-- `Inp.cells` setter, src/pymcnp/Inp.py:384-428.  `data` is `Inp._data` if it is set already.  There
is no `inp.data`, so looking at a data card raises `AttributeError`. -/
def setCells (data : Option (List Val)) : Option (List Item) → Res (List Val)
  | none => .error .inp
  | some is => match holdItems cellText is with
    | .error e => .error e
    | .ok cs =>
      if cs.all (fun c => isCell c && !hasImp c) then
        match data with
        | none => .error .inp
        | some [] => .error .inp
        | some (_ :: _) => .error .attribute
      else .ok cs

end State
