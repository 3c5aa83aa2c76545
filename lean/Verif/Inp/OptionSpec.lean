import Verif.Inp.CardSpec
import Verif.Inp.FlatRead
/-!
# Lists of options (specification)

What it means that a text of blank-separated options is read option by option.
-/
namespace Inp
open Py Types

/-- An option as it is written: its first word and its entries. -/
abbrev Opt := Str × List Str

def Opt.words (i : Opt) : List Str := i.1 :: i.2

/-- The words of a list of options, in order. -/
def optWords (l : List Opt) : List Str := l.flatMap Opt.words

/-- Whether a unit accepts a beginning of the text (`re.match`). -/
def unitPre (p : Pat) (s : Str) : Bool := (reMatch (p.re 1) s).isSome

/-- Whether an option of the class can begin here (`re.match` with the pattern of the class). -/
def Cls.begins (c : Cls) (s : Str) : Bool := (reMatch (c.pat.re 1) s).isSome

/-- The class that finds an option here: the first one, in the order in which the classes are tried, whose options can
begin here.  Classes with longer names are tried first. -/
def firstOf (cs : List Cls) (s : Str) : Option Cls := (sortLen cs).find? (·.begins s)

/-- The class that reads the text of an option: the first one whose pattern accepts all of it. -/
def wholeOf (cs : List Cls) (s : Str) : Option Cls := cs.find? (fun c => (reMatch c.re s).isSome)

/-- Each entry goes to the next field; the fields that are left are optional and cannot accept a beginning of the
following word. -/
def placed : List Field → List Str → Option Str → Bool
  | [], [], _ => true
  | [], _ :: _, _ => false
  | f :: fs, w :: ws, nx => f.mode != .greedy && unitOk f.unit w && placed fs ws nx
  | f :: fs, [], nx =>
    (f.mode == .opt || f.mode == .manyOpt) && (match nx with | none => true | some w => !unitPre f.unit w) && placed fs [] nx

/-- The first field is not optional. -/
def startsReq : List Field → Bool
  | f :: _ => f.mode == .req || f.mode == .many
  | [] => false

/-- The words of a choice. -/
def Pat.choices : Pat → Option (List Str)
  | .lits s => some [s]
  | .alt a b => match a.choices, b.choices with
    | some x, some y => some (x ++ y)
    | _, _ => none
  | .ngrp a => a.choices
  | _ => none

/-- No word is the beginning of a later one. -/
def apartChoices : List Str → Bool
  | [] => true
  | a :: l => l.all (fun b => !(lower a).isPrefixOf (lower b)) && apartChoices l

/-- A unit that takes a whole word or nothing: a type, or a choice of words. -/
def unitTok (p : Pat) : Bool :=
  match p.kind? with
  | some k => k.tok
  | none => p.word && match p.choices with
    | some l => apartChoices l
    | none => false

/-- The option of class `c` ends exactly before the following word `nx`. -/
def Cls.takes (c : Cls) (hd : Str) (ws : List Str) (nx : Option Str) : Bool :=
  c.isPlain && match c.shape with
    | .flat h fs => fs.all (fun f => unitTok f.unit) &&
        (startsReq fs || (h.suf == .no && h.des == .no)) && (readHead h hd).isSome && placed fs ws nx
    | .other _ => false

/-- Every option is found with exactly its entries and is read by a class of a head and fields. -/
def splits (cs : List Cls) : List Opt → Bool
  | [] => true
  | (hd, ws) :: l =>
    (match firstOf cs (hd ++ enc (ws ++ optWords l)) with
      | some c => c.takes hd ws (optWords l).head?
      | none => false) &&
    (match wholeOf cs (hd ++ enc ws) with
      | some d => d.isPlain
      | none => false) && splits cs l

/-- Reading the options one by one. -/
def readOpts (cs : List Cls) : List Opt → Res (List Val)
  | [] => .ok []
  | (hd, ws) :: l =>
    match wholeOf cs (hd ++ enc ws) with
    | none => .error .inp
    | some d =>
      match d.readW hd ws with
      | .error e => .error e
      | .ok v =>
        match readOpts cs l with
        | .error e => .error e
        | .ok vs => .ok (v :: vs)

/-! ## Telling options apart -/

/-- The characters of a class of single characters. -/
def CC.chars : CC → Option (List Char)
  | .set false l => l.mapM (fun | .ch c => some (lowerC c) | _ => none)
  | _ => none

/-- Beginnings of the matches of a pattern, and whether the match is the beginning. -/
def Pat.leads : Pat → List (Str × Bool)
  | .lits s => [(lower s, true)]
  | .cls c => match c.chars with
    | some l => l.map (fun c => ([c], true))
    | none => [([], false)]
  | .ty _ | .star _ | .behind _ _ => [([], false)]
  | .seq a b => a.leads.flatMap (fun x => if x.2 then b.leads.map (fun y => (x.1 ++ y.1, y.2)) else [x])
  | .alt a b => a.leads ++ b.leads
  | .opt a => ([], true) :: a.leads
  | .plus _ a => a.leads.map (fun x => (x.1, false))
  | .grp a | .ngrp a => a.leads

/-- The character may follow a keyword: a digit, a colon or a blank. -/
def follows (c : Char) : Bool := isDigit c || c == ':' || c == ' '

/-- No match that begins with `s` begins with the keyword `k` and something that may follow a keyword. -/
def apartKw (k s : Str) : Bool := !(s.isPrefixOf k) && (!(k.isPrefixOf s) || match s.drop k.length with | [] => false | c :: _ => !follows c)

/-- No option of class `d` begins where an option with head `h` begins. -/
def keyApart (h : Head) (d : Cls) : Bool :=
  d.pat.leads.all (fun x => apartKw (lower h.kw) x.1 && h.pre.chars.all (fun c => apartKw (lowerC c :: lower h.kw) x.1))

/-- An option of class `d` cannot begin at the word `hd` followed by `ws`, where an option with head `h` begins: by its
keyword, because it needs an entry that `ws` does not begin with, or because its pattern accepts no beginning of the
text. -/
def Cls.misses (d : Cls) (h : Head) (hd : Str) (ws : List Str) : Bool :=
  keyApart h d || (match d.shape with
    | .flat h' (f :: _) => h'.ok && f.unit.word && (f.mode == .req || f.mode == .many) &&
        ((readHead h' hd).isNone || match ws.head? with | none => true | some w => !unitPre f.unit w)
    | _ => false) || !d.begins (hd ++ enc ws)

/-- Class `c` is the one that finds and reads the option `hd ws` before the words `rest`: it takes exactly these entries,
and no class tried before it accepts them. -/
def owns (cs : List Cls) (c : Cls) (hd : Str) (ws rest : List Str) : Bool :=
  c.takes hd ws rest.head? && match c.shape with
    | .flat h _ =>
      ((sortLen cs).takeWhile (·.info.name != c.info.name)).all (·.misses h hd (ws ++ rest)) &&
      (cs.takeWhile (·.info.name != c.info.name)).all (fun d => d.misses h hd ws || (d.isPlain && !d.accepts hd ws))
    | .other _ => false

/-- Options with their classes. -/
def Owned (cs : List Cls) : List (Cls × Opt) → Prop
  | [] => True
  | (c, hd, ws) :: l => c ∈ cs ∧ owns cs c hd ws (optWords (l.map (·.2))) = true ∧ Owned cs l

/-- Every option is taken by its class. -/
def Taken (cs : List Cls) : List (Cls × Opt) → Prop
  | [] => True
  | (c, hd, ws) :: l => c ∈ cs ∧ c.takes hd ws (optWords (l.map (·.2))).head? = true ∧ Taken cs l

/-- Reading options by their classes. -/
def readOwned : List (Cls × Opt) → Res (List Val)
  | [] => .ok []
  | (c, hd, ws) :: l =>
    match c.readW hd ws with
    | .error e => .error e
    | .ok v =>
      match readOwned l with
      | .error e => .error e
      | .ok vs => .ok (v :: vs)

/-- All classes of the union are told apart by their keywords. -/
def keyworded (cs : List Cls) : Bool :=
  cs.all (fun c => match c.shape with
    | .flat h _ => cs.all (fun d => d.info.name == c.info.name || keyApart h d)
    | .other _ => true)

/-- Reading a card made of a head, single entries and a list of options, each with its class. -/
def readOwnedCard (c : Cls) (h : Head) (gs : List Field) (hd : Str) (gws : List Str) (l : List (Cls × Opt)) : Res Val :=
  match readHead h hd, assign (gs.map Field.spec) gws with
  | some hv, some vs =>
    match readVals c.attrs.dropLast (hv.map (·.map ([·])) ++ vs) with
    | .error e => .error e
    | .ok xs =>
      match l with
      | [] => c.mk' (xs ++ [.none])
      | o :: os =>
        match readOwned (o :: os) with
        | .error e => .error e
        | .ok ys => c.mk' (xs ++ [.tuple ys])
  | _, _ => .error .inp

/-- Reading a card made of a head, single entries and a list of options. -/
def readOptCard (c : Cls) (h : Head) (gs : List Field) (cs : List Cls) (hd : Str) (gws : List Str) (l : List Opt) : Res Val :=
  match readHead h hd, assign (gs.map Field.spec) gws with
  | some hv, some vs =>
    match readVals c.attrs.dropLast (hv.map (·.map ([·])) ++ vs) with
    | .error e => .error e
    | .ok xs =>
      match l with
      | [] => c.mk' (xs ++ [.none])
      | o :: os =>
        match readOpts cs (o :: os) with
        | .error e => .error e
        | .ok ys => c.mk' (xs ++ [.tuple ys])
  | _, _ => .error .inp

end Inp
