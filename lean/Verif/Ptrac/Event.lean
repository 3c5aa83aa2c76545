import Verif.Ptrac.Line
/-!
# PTRAC files: events and histories

`ptrac/history/Event.py`, `ptrac/History.py`, `PtracFilter.py`, `PtracProcessor.py`.
-/
namespace Ptrac
open Py Types

/-! ## Events -/

/-- An `Event` object (ptrac/history/Event.py:24-47). -/
structure Event where
  j : JLine
  p : PLine
deriving DecidableEq

/-- The `J_k` pattern without anchors, its groups numbered from `n`. -/
def jAlt (n : Nat) (k : Fin 8) : Re := .seq .space (fieldsRe n (10 :: (jTys k).map (fun _ => 10)))

/-- The `P_k` pattern without anchors, its groups numbered from `n`. -/
def pAlt (n : Nat) (k : Fin 2) : Re := .seq .space (fieldsRe n (List.replicate (pSize k) 13))

/-- `J_0 | … | J_7`, groups numbered from `n`. -/
def jAlts (n : Nat) : Re :=
  .alt (jAlt n 0) (.alt (jAlt (n + 5) 1) (.alt (jAlt (n + 11) 2) (.alt (jAlt (n + 17) 3) (.alt (jAlt (n + 24) 4)
    (.alt (jAlt (n + 30) 5) (.alt (jAlt (n + 37) 6) (jAlt (n + 44) 7)))))))

/-- `P_0 | P_1`, groups numbered from `n`. -/
def pAlts (n : Nat) : Re := .alt (pAlt n 0) (pAlt (n + 3) 1)

/-- `Event._REGEX` without anchors (ptrac/history/Event.py:19-22), groups numbered from `n`. -/
def eventBody (n : Nat) : Re :=
  .seq (.grp n (jAlts (n + 1))) (.seq (Re.chr '\n') (.seq (.grp (n + 53) (pAlts (n + 54))) (Re.chr '\n')))

/-- `Event._REGEX` -/
def eventRe : Re := .seq .bos (.seq (eventBody 1) .eos)

/-- A loop over classes that stops at the first success and ignores `PtracError` only
(ptrac/history/Event.py:68-73 and 75-80); `none` if the loop variable is never set. -/
def firstOk {α : Type} : List (Str → Res α) → Str → Res (Option α)
  | [], _ => .ok none
  | f :: fs, s =>
    match f s with
    | .ok v => .ok (some v)
    | .error .ptrac => firstOk fs s
    | .error e => .error e

/-- The call of the constructor (ptrac/history/Event.py:82-85): using a variable that was never set raises
`UnboundLocalError`. -/
def mkEvent : Option JLine → Option PLine → Res Event
  | some j, some p => .ok ⟨j, p⟩
  | _, _ => .error .name

/-- `Event.from_mcnp` (ptrac/history/Event.py:49-85) -/
def evParse (s : Str) : Res Event :=
  match reMatch eventRe s with
  | none => .error .ptrac
  | some m => do
    let j ← firstOk [jParse 0, jParse 1, jParse 2, jParse 3, jParse 4, jParse 5, jParse 6, jParse 7] (tok m 1)
    let p ← firstOk [pParse 0, pParse 1] (tok m 54)
    mkEvent j p

/-- `Event.to_mcnp` (ptrac/history/Event.py:87-95) -/
def Event.str (e : Event) : Res Str := do
  let p ← e.p.str
  .ok (e.j.str ++ '\n' :: (p ++ ['\n']))

/-! ## Histories -/

/-- A `History` object (ptrac/History.py:21-44). -/
structure History where
  i : ILine
  events : List Event
deriving DecidableEq

/-- `History._REGEX` (ptrac/History.py:19) -/
def historyRe : Re :=
  .seq .bos (.seq (.grp 1 (Re.plus true .dot)) (.seq (Re.chr '\n') (.seq (.grp 2 (Re.plus true (eventBody 3))) .eos)))

/-- All results, or the first exception. -/
def each {α β : Type} (f : α → Res β) : List α → Res (List β)
  | [] => .ok []
  | x :: xs => do
    let y ← f x
    let ys ← each f xs
    .ok (y :: ys)

/-- Reading an event and comparing it with `None`, which prints it (`None in events`, ptrac/History.py:40, with
`Nonterminal.__eq__`, _symbol.py:62-63). -/
def evChecked (s : Str) : Res Event := do
  let e ← evParse s
  let _ ← e.str
  .ok e

/-- `History.from_mcnp` (ptrac/History.py:46-69).  The events are read lazily, but the constructor looks for
`None` among them and so reads them all. -/
def histParse (s : Str) : Res History :=
  match reMatch historyRe s with
  | none => .error .ptrac
  | some m => do
    let i ← iParse (tok m 1)
    let events ← each evChecked (finditer (eventBody 1) (tok m 2))
    .ok ⟨i, events⟩

/-- `History.to_mcnp` (ptrac/History.py:71-79) -/
def History.str (h : History) : Res Str := do
  let i ← h.i.str
  let es ← each Event.str h.events
  .ok (i ++ '\n' :: es.flatten)

/-! ## Filters and processors -/

/-- The five methods of `PtracFilter` and `PtracProcessor`. -/
inductive Kind where
  | source
  | surface
  | collision
  | terminal
  | bank
deriving DecidableEq, Repr

/-- The `match` statement (PtracFilter.py:96-106, PtracProcessor.py:88-98); members are compared by their codes
(_symbol.py:35-36). -/
def kindOf (e : EventType) : Kind :=
  if e.code = c!"1000" then .source
  else if e.code = c!"3000" then .surface
  else if e.code = c!"4000" then .collision
  else if e.code = c!"5000" then .terminal
  else .bank

/-- The inner loop of `PtracFilter.__call__` (PtracFilter.py:95-113), for methods without side effects. -/
def filterEvents (check : Kind → Event → Bool) : EventType → List Event → List Event
  | _, [] => []
  | kind, e :: es =>
    let rest := filterEvents check e.j.next es
    if check (kindOf kind) e then e :: rest else rest

/-- `PtracFilter.__call__` (PtracFilter.py:81-115) -/
def filterFile (check : Kind → Event → Bool) (hs : List History) : List Event :=
  hs.flatMap fun h => filterEvents check h.i.event h.events

/-- A call made by a processor. -/
inductive Call where
  | prehook
  | process (k : Kind) (e : Event)
  | posthook
deriving DecidableEq

/-- The inner loop of `PtracProcessor.__call__` (PtracProcessor.py:87-100) -/
def processEvents : EventType → List Event → List Call
  | _, [] => []
  | kind, e :: es => .process (kindOf kind) e :: processEvents e.j.next es

/-- `PtracProcessor.__call__` (PtracProcessor.py:75-102): the calls made, none of which raises. -/
def processFile (hs : List History) : List Call :=
  .prehook :: (hs.flatMap (fun h => processEvents h.i.event h.events) ++ [.posthook])

end Ptrac
