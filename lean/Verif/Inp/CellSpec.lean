import Verif.Inp.OptionSpec
import Verif.Inp.TableCards
/-!
# Reading a cell card entry by entry (specification)
-/
namespace Inp
open Py Types

/-- The options of a cell (src/pymcnp/inp/cell/__init__.py:5-31). -/
def cellOptions : List Cls :=
  [Tab.cell_Imp, Tab.cell_Vol, Tab.cell_Pwt, Tab.cell_Ext, Tab.cell_Fcl, Tab.cell_Wwn, Tab.cell_Dxc, Tab.cell_Nonu,
   Tab.cell_Pd, Tab.cell_U, Tab.cell_Trcl_1, Tab.cell_Trcl_2, Tab.cell_Trcl_3, Tab.cell_Trcl_4, Tab.cell_Trcl_5,
   Tab.cell_Trcl_0, Tab.cell_Lat, Tab.cell_Fill_0, Tab.cell_Fill_1, Tab.cell_Fill_2, Tab.cell_Fill_3, Tab.cell_Fill_4,
   Tab.cell_Fill_5, Tab.cell_Fill_6, Tab.cell_Elpt, Tab.cell_Tmp, Tab.cell_Cosy, Tab.cell_Bflcl, Tab.cell_Unc]

/-- A letter, in either case. -/
def isLetter (c : Char) : Bool := ('a' ≤ c && c ≤ 'z') || ('A' ≤ c && c ≤ 'Z')

/-- A word of a geometry. -/
def geoWord (w : Str) : Bool := w.all (fun c => !isLetter c)

/-- The cell with number `n`, material `m`, density `d`, geometry `gws` and options `os`. -/
def readCell (n m : Str) (d : Option Str) (gws : List Str) (os : List (Cls × Opt)) : Res Val :=
  match intParse n with
  | .error e => .error e
  | .ok nv =>
    match intParse m with
    | .error e => .error e
    | .ok mv =>
      match readVal ⟨"density", .base .real, false, none⟩ (d.map ([·])) with
      | .error e => .error e
      | .ok dv =>
        match geoParse (join [' '] gws) with
        | .error e => .error e
        | .ok gv =>
          match os with
          | [] => Tab.Cell.mk' [.sc (.int nv), .sc (.int mv), dv, .sc (.geo gv), .none]
          | o :: os =>
            match readOwned (o :: os) with
            | .error e => .error e
            | .ok ys => Tab.Cell.mk' [.sc (.int nv), .sc (.int mv), dv, .sc (.geo gv), .tuple ys]

/-- The cell with number `n`, material `m`, density `d`, geometry `gws` and the attribute `r` for its options. -/
def readCellWith (n m : Str) (d : Option Str) (gws : List Str) (r : Res Val) : Res Val :=
  match intParse n with
  | .error e => .error e
  | .ok nv =>
    match intParse m with
    | .error e => .error e
    | .ok mv =>
      match readVal ⟨"density", .base .real, false, none⟩ (d.map ([·])) with
      | .error e => .error e
      | .ok dv =>
        match geoParse (join [' '] gws) with
        | .error e => .error e
        | .ok gv =>
          match r with
          | .error e => .error e
          | .ok ov => Tab.Cell.mk' [.sc (.int nv), .sc (.int mv), dv, .sc (.geo gv), ov]

end Inp
