import Verif.Inp.Text
import Verif.Py.Err
import Verif.Py.Lit
/-!
# Input files

Models `Inp._preprocess`, `Inp._REGEX`, `Inp.from_mcnp` and `Inp.to_mcnp`
(src/pymcnp/Inp.py:168-334).  The readers of the three card unions are
parameters; the checks of the `cells`, `surfaces` and `data` setters are the
ones of Verif/State/Cell.lean and Verif/State/Data.lean and are not repeated.
-/
namespace Inp
open Py

/-! ## Preprocessing -/

/-- `\n +\n` (Inp.py:280) -/
def blankLineRe : Re := .seq (.chr '\n') (.seq (.plus true (.chr ' ')) (.chr '\n'))

/-- `(?: \S+)+` (Inp.py:283) -/
def vNamesRe : Re := .plus true (.seq (.chr ' ') (.plus true .nonspace))

/-- `(?: *\d\S*(?: +\S+)+\n)+` (Inp.py:283) -/
def vRowsRe : Re :=
  .plus true (.seq (.star true (.chr ' ')) (.seq .digit (.seq (.star true .nonspace)
    (.seq (.plus true (.seq (.plus true (.chr ' ')) (.plus true .nonspace))) (.chr '\n')))))

/-- `\n(#(?: \S+)+\n(?: *\d\S*(?: +\S+)+\n)+)` (Inp.py:283) -/
def vSplitRe : Re :=
  .seq (.chr '\n') (.grp 1 (.seq (.chr '#') (.seq vNamesRe (.seq (.chr '\n') vRowsRe))))

/-- `#((?: \S+)+)\n((?: *\d\S*(?: +\S+)+\n)+)` (Inp.py:286) -/
def vBlockRe : Re :=
  .seq (.chr '#') (.seq (.grp 1 vNamesRe) (.seq (.chr '\n') (.grp 2 vRowsRe)))

/-- Pieces of `re.split`: the text between the matches, and group 1 of every match when the pattern
has a group (`g`). -/
def splitPieces (g : Bool) : Str → List (Str ⊕ (Str × List (Nat × Str))) → List Str
  | cur, [] => [cur]
  | cur, .inl t :: xs => splitPieces g (cur ++ t) xs
  | cur, .inr (_, m) :: xs =>
    if g then cur :: (cap m 1).getD [] :: splitPieces g [] xs else cur :: splitPieces g [] xs

/-- `re.split(r, s)` for a pattern with (`g = true`) or without a group. -/
def reSplit (g : Bool) (r : Re) (s : Str) : List Str := splitPieces g [] (finditerAux r s.length [] s)

/-- `re.split(r'\s+', s)` (Inp.py:287, 292) -/
def wsSplit (s : Str) : List Str := reSplit false (.plus true .space) s

/-- `for parameter, row in zip(parameters, rows): row.append(parameter)` (Inp.py:293-294): rows
without a parameter are left as they are, parameters without a row are ignored. -/
def addColumn : List Str → List (List Str) → List (List Str)
  | p :: ps, r :: rs => (r ++ [p]) :: addColumn ps rs
  | _, rs => rs

/-- One round of the vertical-format loop (Inp.py:285-298). -/
def vToken (t : Str) : Str :=
  match reMatch vBlockRe t with
  | none => t
  | some m =>
    let cards := (wsSplit ((cap m 1).getD [])).drop 1
    let lines := (splitC '\n' ((cap m 2).getD [])).dropLast
    let rows := lines.foldl (fun rows l => addColumn (wsSplit l) rows) (cards.map (fun c => [c]))
    '\n' :: (join ['\n'] (rows.map (join [' '])) ++ ['\n'])

/-- The vertical data format (Inp.py:283-298). -/
def vertical (s : Str) : Str := (reSplit true vSplitRe s).flatMap vToken

/-- `& *\n *` (Inp.py:300) -/
def ampRe : Re := .seq (.chr '&') (.seq (.star true (.chr ' ')) (.seq (.chr '\n') (.star true (.chr ' '))))

/-- `re.match(r'\s+.+', line)` (Inp.py:315) -/
def isContinued (l : Str) : Bool := (reMatch (.seq (.plus true .space) (.plus true .dot)) l).isSome

/-- `' $'.join(comments) + '\n'` (Inp.py:323), where `comments` is `['']` followed by `cs`. -/
def commentTail (cs : List Str) : Str := (cs.flatMap (fun c => ' ' :: '$' :: c)) ++ ['\n']

/-- The loop collecting continuation lines and inline comments (Inp.py:303-323).  `cur` and `cs` are
the text and the comments of the line being collected. -/
def gather : Str → List Str → List Str → Str
  | cur, cs, [] => cur ++ commentTail cs
  | cur, cs, l :: ls =>
    let p := splitComment l
    if isContinued l then gather (cur ++ p.1) (cs ++ p.2.toList) ls
    else (cur ++ commentTail cs) ++ gather p.1 p.2.toList ls

/-- Inp.py:303-323: the first line is taken whatever it looks like. -/
def gatherLines : List Str → Str
  | [] => []
  | l :: ls => gather (splitComment l).1 (splitComment l).2.toList ls

/-- `Inp._preprocess` (Inp.py:273-334). -/
def filePreprocess (s : Str) : Str :=
  let s := reSub blankLineRe (fun _ _ => ['\n', '\n']) s
  let s := vertical s
  let s := reSub ampRe (fun _ _ => ['\n', ' ', ' ', ' ', ' ']) s
  let s := gatherLines (splitC '\n' s)
  let s := reSub (.plus true (.chr ' ')) (fun _ _ => [' ']) s
  let s := reSub (.seq (.chr '(') (.chr ' ')) (fun _ _ => ['(']) s
  let s := reSub (.seq (.chr ' ') (.chr ')')) (fun _ _ => [')']) s
  let s := reSub (.seq (.chr '\n') (.seq (.chr ' ') (.chr '\n'))) (fun _ _ => ['\n', '\n']) s
  let s := reSub eqRe (fun _ _ => [' ']) s
  let s := reSub (.chr '\t') (fun _ _ => [' ', ' ', ' ', ' ']) s
  strip s

/-! ## Sections -/

/-- `\n\n` -/
def nlnlRe : Re := .seq (.chr '\n') (.chr '\n')

/-- `((?:message:).+\n)?` under `re.IGNORECASE` (Inp.py:173) -/
def messageRe : Re := .grp 1 (.seq (.cat (c!"message:".map .chrI)) (.seq (.plus true .dot) (.chr '\n')))

/-- `([\s\S]+?(?:\n\n))` as group `n` (Inp.py:173) -/
def blockRe (n : Nat) : Re := .grp n (.seq (.plus false .any) nlnlRe)

/-- `Inp._REGEX` (Inp.py:173) -/
def fileRe : Re :=
  .seq .bos (.seq (.opt true messageRe) (.seq (.grp 2 (.plus true .dot)) (.seq (.chr '\n')
    (.seq (blockRe 3) (.seq (blockRe 4) (.seq (.grp 5 (.seq (.plus false .any) (.alt nlnlRe .eos)))
      (.seq (.opt true (.grp 6 (.plus true .any))) .eos)))))))

/-- What `Inp.from_mcnp` hands to the readers of the parts. -/
structure Sections where
  message : Option Str
  title : Str
  cells : List Str
  surfaces : List Str
  data : List Str
  other : Option Str
deriving DecidableEq, Repr

/-- `tokens[n].strip().split('\n')` (Inp.py:230-232) -/
def blockLines (m : List (Nat × Str)) (n : Nat) : List Str := splitC '\n' (strip ((cap m n).getD []))

/-- `x if x else None` -/
def textOrNone : Option Str → Option Str
  | some [] => none
  | x => x

/-- The sectioning part of `Inp.from_mcnp` (Inp.py:222-233). -/
def sections (s : Str) : Res Sections :=
  match reMatch fileRe (filePreprocess s) with
  | none => .error .inp
  | some m => .ok
    { message := textOrNone (cap m 1), title := (cap m 2).getD [], cells := blockLines m 3,
      surfaces := blockLines m 4, data := blockLines m 5, other := textOrNone (cap m 6) }

/-- An input file with cards of types `α`, `β` and `γ`. -/
structure InpFile (α β γ : Type) where
  message : Option Str
  title : Str
  cells : List α
  surfaces : List β
  data : List γ
  other : Option Str
deriving DecidableEq

/-- Cards of one block, read one after the other (Inp.py:230-232). -/
def readAll {α : Type} (rd : Str → Res α) : List Str → Res (List α)
  | [] => .ok []
  | l :: ls => do
    let x ← rd l
    let xs ← readAll rd ls
    .ok (x :: xs)

/-- `Inp.from_mcnp` (Inp.py:209-244) with the title check of the setter (Inp.py:366-367).  The three
readers stand for `Cell.from_mcnp`, `Surface.from_mcnp` and `Data.from_mcnp`. -/
def fileRead {α β γ : Type} (rc : Str → Res α) (rs : Str → Res β) (rd : Str → Res γ) (s : Str) :
    Res (InpFile α β γ) := do
  let x ← sections s
  let cells ← readAll rc x.cells
  let surfaces ← readAll rs x.surfaces
  let data ← readAll rd x.data
  if x.title.length < 80 then .ok ⟨x.message, x.title, cells, surfaces, data, x.other⟩ else .error .inp

/-- `Inp.to_mcnp` (Inp.py:246-270).  The three printers stand for `str(card)`. -/
def filePrint {α β γ : Type} (pc : α → Str) (ps : β → Str) (pd : γ → Str) (f : InpFile α β γ) : Str :=
  (match textOrNone f.message with | some m => m ++ ['\n'] | none => []) ++ f.title ++ ['\n'] ++
    join ['\n'] (f.cells.map pc) ++ ['\n', '\n'] ++ join ['\n'] (f.surfaces.map ps) ++ ['\n', '\n'] ++
    join ['\n'] (f.data.map pd) ++ ['\n', '\n'] ++ f.other.getD []

end Inp
