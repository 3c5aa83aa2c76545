import Verif.Run.Cli
/-!
# Plots of tallies

`Plot.to_show` (src/pymcnp/Plot.py:39-74): the figures are given by their titles and the rows they show.  What matplotlib draws, and the conversion
of texts to numbers, are not modelled.
-/
namespace Plot
open Py Outp

/-- `a <= b` for texts: the order of code points. -/
def leStr : Str → Str → Bool
  | [], _ => true
  | _ :: _, [] => false
  | a :: s, b :: t => if a.toNat < b.toNat then true else if b.toNat < a.toNat then false else leStr s t

/-- The order of keys: column by column. -/
def leKey : List Str → List Str → Bool
  | [], _ => true
  | _ :: _, [] => false
  | a :: s, b :: t => if a = b then leKey s t else leStr a b

/-- A key among the sorted keys, once. -/
def insertKey (k : List Str) : List (List Str) → List (List Str)
  | [] => [k]
  | x :: l => if k = x then x :: l else if leKey k x then k :: x :: l else x :: insertKey k l

/-- `groupby(list(names))` (src/pymcnp/Plot.py:54): pandas sorts the keys and keeps the order of the rows. -/
def groups (rows : List Row) : List (List Str × List Row) :=
  (rows.foldl (fun ks r => insertKey r.place ks) []).map fun k => (k, rows.filter fun r => r.place = k)

/-- `tallies[number].columns[3:-4]` (src/pymcnp/Plot.py:51): what the subtallies add (outp/tally/Subtally_4.py:104, Subtally_2.py:104,
Subtally_1.py:121-123), given by the number of entries and whether it is a cell. -/
def names (k : TallyKind) : List Str :=
  match k with
  | .t1A | .t1B => [c!"surface", c!"angle_from", c!"angle_to"]
  | .t2 => [c!"surface"]
  | _ => [c!"cell"]

/-- `f'{name}: {ident}'` -/
def label (x : Str × Str) : Str := x.1 ++ c!": " ++ x.2

/-- The title (src/pymcnp/Plot.py:67) -/
def title (names key : List Str) : Str := c!"Counts vs Bins\n" ++ join c!" " ((names.zip key).map label)

/-- A figure: the title and the rows it shows (bins, counts and errors; src/pymcnp/Plot.py:58-71). -/
structure Figure where
  title : Str
  rows : List TLine
deriving DecidableEq

/-- The figures of a table. -/
def figures (ns : List Str) (t : Table) : List Figure := (groups t.rows).map fun g => ⟨title ns g.1, g.2.map (·.line)⟩

/-- The tables with the names of their columns: the class of the block that made them is kept beside `Outp.tables`. -/
def kinds : List Block → List (Str × TallyKind) → List (Str × TallyKind)
  | [], d => d
  | .tally k t :: bs, d => kinds bs (insert d (strip (t.vals.getD 0 [])) k)
  | _ :: bs, d => kinds bs d

/-- `Plot.to_show` (src/pymcnp/Plot.py:39-74) -/
def toShow (f : Outp.File) (number : Str) : Res (List Figure) :=
  match tables f.blocks [] with
  | .error e => .error e
  | .ok d =>
    match Cli.lookup d number with
    | none => .error .cli
    | some t => .ok (figures (names ((((kinds f.blocks []).find? fun x => x.1 == number).map (·.2)).getD .t4)) t)

end Plot
