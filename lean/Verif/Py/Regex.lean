import Verif.Py.Str
/-!
# Python `re` fragment

`Re` is the abstract syntax of the regular expressions used in /repo and `run`
is the ordered backtracking matcher of Python's `re` in continuation-passing
style: alternatives are tried left to right, greedy repeats try another
iteration first, lazy repeats try the continuation first, the first overall
success wins, and captures are those of the successful path.

Simplifications: captures made inside an abandoned alternative are always
restored (CPython has rare exceptions); an iteration of a repeat that consumes
nothing is not taken.
-/
namespace Py

/-- Regular expressions.  `grp n r` is the capturing group number `n`. -/
inductive Re where
  | eps
  | cls (p : Char → Bool)
  | seq (a b : Re)
  | alt (a b : Re)
  | opt (greedy : Bool) (a : Re)
  | star (greedy : Bool) (a : Re)
  | grp (n : Nat) (a : Re)
  | bos
  | eos
  | behind (pos : Bool) (s : Str)

/-- Matcher state: consumed characters (reversed), remaining characters,
captures (most recent first). -/
structure St where
  prev : Str
  rest : Str
  caps : List (Nat × Str)
deriving DecidableEq, Repr

/-- Repeat of a matcher `f`, at most `n` iterations. -/
def starRun {α : Type} (g : Bool) (f : St → (St → Option α) → Option α) :
    Nat → St → (St → Option α) → Option α
  | 0, st, k => k st
  | n + 1, st, k =>
    let more := fun (_ : Unit) =>
      f st (fun st' => if st'.rest.length < st.rest.length then starRun g f n st' k else none)
    if g then (more ()).or (k st) else (k st).or (more ())

/-- Backtracking matcher. -/
def run {α : Type} : Re → St → (St → Option α) → Option α
  | .eps, st, k => k st
  | .cls p, st, k =>
    match st.rest with
    | [] => none
    | c :: cs => if p c then k ⟨c :: st.prev, cs, st.caps⟩ else none
  | .seq a b, st, k => run a st (fun st' => run b st' k)
  | .alt a b, st, k => (run a st k).or (run b st k)
  | .opt true a, st, k => (run a st k).or (k st)
  | .opt false a, st, k => (k st).or (run a st k)
  | .star g a, st, k => starRun g (run a) st.rest.length st k
  | .grp n a, st, k =>
    run a st (fun st' =>
      k { st' with caps := (n, st.rest.take (st.rest.length - st'.rest.length)) :: st'.caps })
  | .bos, st, k => if st.prev = [] then k st else none
  | .eos, st, k => if st.rest = [] then k st else none
  | .behind pos s, st, k =>
    if (s.reverse.isPrefixOf st.prev) = pos then k st else none

/-- `pattern.match(s)`: captures of the first success, with group 0. -/
def reMatch (r : Re) (s : Str) : Option (List (Nat × Str)) :=
  run r ⟨[], s, []⟩ (fun st => some ((0, s.take (s.length - st.rest.length)) :: st.caps))

/-- `m[n]` (`None` if the group did not take part). -/
def cap (m : List (Nat × Str)) (n : Nat) : Option Str := m.lookup n

/-- One-or-more repeat `(?:a)+` / `(?:a)+?`. -/
def Re.plus (g : Bool) (a : Re) : Re := .seq a (.star g a)

/-- `a{n}` -/
def Re.rep : Nat → Re → Re
  | 0, _ => .eps
  | n + 1, a => .seq a (Re.rep n a)

/-- Concatenation of a list. -/
def Re.cat : List Re → Re
  | [] => .eps
  | [a] => a
  | a :: as => .seq a (Re.cat as)

/-- Alternation of a list (empty list: fails). -/
def Re.alts : List Re → Re
  | [] => .cls (fun _ => false)
  | [a] => a
  | a :: as => .alt a (Re.alts as)

/-- Literal character. -/
def Re.chr (c : Char) : Re := .cls (· == c)

/-- Literal character under `re.IGNORECASE`. -/
def Re.chrI (c : Char) : Re := .cls (fun x => lowerC x == lowerC c)

/-- Literal text. -/
def Re.lit (s : String) : Re := Re.cat (s.toList.map Re.chr)

/-- Literal text under `re.IGNORECASE`. -/
def Re.litI (s : String) : Re := Re.cat (s.toList.map Re.chrI)

/-- Character class given by a list of members. -/
def Re.oneOf (s : String) : Re := .cls (fun c => s.toList.contains c)

/-- `\d` -/
def Re.digit : Re := .cls isDigit
/-- `\s` -/
def Re.space : Re := .cls isSpace
/-- `\S` -/
def Re.nonspace : Re := .cls (fun c => !isSpace c)
/-- `.` (anything but a newline) -/
def Re.dot : Re := .cls (fun c => c != '\n')
/-- `[\s\S]` -/
def Re.any : Re := .cls (fun _ => true)

/-- Longest-first search results of `re.finditer`: at every position try a
match, on success emit it and continue after it, otherwise skip one character.
(`fuel` bounds the number of steps.  Empty matches are skipped: no pattern
passed to `finditer`/`sub` in /repo matches the empty string, except where
noted.) -/
def finditerAux (r : Re) : Nat → Str → Str → List (Str ⊕ (Str × List (Nat × Str)))
  | 0, _, _ => []
  | _ + 1, _, [] => []
  | f + 1, prev, c :: cs =>
    match run r ⟨prev, c :: cs, []⟩ (fun st => if st.rest.length < (c :: cs).length then some st else none) with
    | some st =>
      .inr ((c :: cs).take ((c :: cs).length - st.rest.length), st.caps) :: finditerAux r f st.prev st.rest
    | none => .inl [c] :: finditerAux r f (c :: prev) cs

/-- `[m[0] for m in re.finditer(r, s)]` -/
def finditer (r : Re) (s : Str) : List Str :=
  (finditerAux r s.length [] s).filterMap (fun | .inl _ => none | .inr (t, _) => some t)

/-- `re.sub(r, repl, s)` where `repl` receives the match text and captures. -/
def reSub (r : Re) (repl : Str → List (Nat × Str) → Str) (s : Str) : Str :=
  (finditerAux r s.length [] s).flatMap (fun | .inl t => t | .inr (t, c) => repl t c)

end Py
