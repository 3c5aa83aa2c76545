import Verif.Py.Regex
/-!
# Card text processing

Models `InpNonterminal._preprocess` (src/pymcnp/inp/_symbol.py:12-44),
`Card._preprocess` and `Card._postprocess` (src/pymcnp/inp/_card.py:63-120).
-/
namespace Inp
open Py

/-- ASCII upper case of one character. -/
def upperC (c : Char) : Char :=
  if 'a' ≤ c && c ≤ 'z' then Char.ofNat (c.toNat - 32) else c

/-- A keyword written as `[jJ]`, `[lL][oO][gG]`, … -/
def kwRe : Str → Re
  | [] => .eps
  | c :: cs => .seq (.cls (fun x => x == c || x == upperC c)) (kwRe cs)

/-- One ` j` item of the collapsing patterns. -/
def itemRe (kw : Str) : Re := .seq (.chr ' ') (kwRe kw)

/-- `(\s|\Z|\n)` as group 2. -/
def bndRe : Re := .grp 2 (.alt .space (.alt .eos (.chr '\n')))

/-- `((?: [jJ]){2,})(\s|\Z|\n)` and its four siblings (_symbol.py:32-36, _card.py:103-107). -/
def collapseRe (kw : Str) : Re :=
  .seq (.grp 1 (.seq (itemRe kw) (.seq (itemRe kw) (.star true (itemRe kw))))) bndRe

/-- `str.split()` (no separator): maximal runs of non-blank characters. -/
def splitWs : Str → List Str
  | [] => []
  | c :: cs =>
    if isSpace c then splitWs cs
    else match cs with
      | [] => [[c]]
      | d :: ds =>
        if isSpace d then [c] :: splitWs (d :: ds)
        else match splitWs (d :: ds) with
          | [] => [[c]]
          | w :: ws => (c :: w) :: ws

/-- `lambda match: f' {len(match[1].strip().split())}j' + match[2]` (_symbol.py:32-36).  Both
groups always take part in a match of the pattern. -/
def collapseRepl (kw : Str) (m : List (Nat × Str)) : Str :=
  ' ' :: natStr (splitWs (strip ((cap m 1).getD []))).length ++ kw ++ (cap m 2).getD []

/-- `re.sub(collapse pattern, …)` (_symbol.py:32-36, _card.py:103-107). -/
def collapse (kw : Str) (s : Str) : Str := reSub (collapseRe kw) (fun _ m => collapseRepl kw m) s

/-- ` (\d+)[jJ](\s|\Z|\n)` and its siblings (_symbol.py:37-42). -/
def expandRe (kw : Str) : Re :=
  .seq (.chr ' ') (.seq (.grp 1 (.plus true .digit)) (.seq (kwRe kw) bndRe))

/-- `lambda match: int(match[1]) * ' j' + match[2]` (_symbol.py:37-42).
Simplification: CPython's limit on the number of digits `int` accepts is not modelled. -/
def expandRepl (kw : Str) (m : List (Nat × Str)) : Str :=
  (List.replicate (strNat ((cap m 1).getD [])) (' ' :: kw)).flatten ++ (cap m 2).getD []

/-- `re.sub(expand pattern, …)` (_symbol.py:37-42). -/
def expand (kw : Str) (s : Str) : Str := reSub (expandRe kw) (fun _ m => expandRepl kw m) s

def kwJ : Str := ['j']
def kwR : Str := ['r']
def kwI : Str := ['i']
def kwLog : Str := ['l', 'o', 'g']
def kwIlog : Str := ['i', 'l', 'o', 'g']

/-- The five collapsing substitutions in order (_symbol.py:32-36, _card.py:103-107). -/
def collapseAll (s : Str) : Str :=
  collapse kwIlog (collapse kwLog (collapse kwI (collapse kwR (collapse kwJ s))))

/-- The six expanding substitutions in order (_symbol.py:37-42; `j` occurs twice). -/
def expandAll (s : Str) : Str :=
  expand kwIlog (expand kwLog (expand kwJ (expand kwI (expand kwR (expand kwJ s)))))

/-- `re.sub(r'\n +|& *\n *', ' ', source)` (_symbol.py:23) -/
def contRe : Re :=
  .alt (.seq (.chr '\n') (.plus true (.chr ' ')))
    (.seq (.chr '&') (.seq (.star true (.chr ' ')) (.seq (.chr '\n') (.star true (.chr ' ')))))

/-- ` = | =|= |=` (_symbol.py:28) -/
def eqRe : Re :=
  .alt (.seq (.chr ' ') (.seq (.chr '=') (.chr ' ')))
    (.alt (.seq (.chr ' ') (.chr '=')) (.alt (.seq (.chr '=') (.chr ' ')) (.chr '=')))

/-- Lines 23-30 of _symbol.py: continuations, blanks, parentheses, `=`, tabs, strip. -/
def respace (s : Str) : Str :=
  let s := reSub contRe (fun _ _ => [' ']) s
  let s := reSub (.plus true (.chr ' ')) (fun _ _ => [' ']) s
  let s := reSub (.seq (.chr '(') (.chr ' ')) (fun _ _ => ['(']) s
  let s := reSub (.seq (.chr ' ') (.chr ')')) (fun _ _ => [')']) s
  let s := reSub (.seq (.chr '\n') (.seq (.chr ' ') (.chr '\n'))) (fun _ _ => ['\n', '\n']) s
  let s := reSub eqRe (fun _ _ => [' ']) s
  let s := reSub (.chr '\t') (fun _ _ => [' ', ' ', ' ', ' ']) s
  strip s

/-- `InpNonterminal._preprocess` (_symbol.py:12-44). -/
def preprocess (s : Str) : Str := expandAll (collapseAll (respace s))

/-- `line.split('$', maxsplit=1)` as (text, comment). -/
def splitComment : Str → Str × Option Str
  | [] => ([], none)
  | c :: cs => if c = '$' then ([], some cs) else ((c :: (splitComment cs).1), (splitComment cs).2)

/-- `Card._preprocess` (_card.py:63-89): text and comments. -/
def cardPreprocess (s : Str) : Str × List Str :=
  let lines := (splitC '\n' s).map splitComment
  (preprocess (join ['\n'] (lines.map (·.1))), lines.filterMap (·.2))

/-- The word loop of `Card._postprocess` (_card.py:109-118): `length` → `lines`. -/
def wrapWords : Nat → List Str → List Str
  | _, [] => []
  | n, w :: ws =>
    if w.length + n > 78 then ['&', '\n', ' ', ' ', ' ', ' ', ' '] :: w :: wrapWords (5 + (w.length + 1)) ws
    else w :: wrapWords (n + (w.length + 1)) ws

/-- `Card._postprocess` (_card.py:92-120). -/
def postprocess (s : Str) : Str := join [' '] (wrapWords 0 (splitC ' ' (collapseAll s)))

end Inp
