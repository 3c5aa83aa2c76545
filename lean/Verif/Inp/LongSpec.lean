import Verif.Inp.OptionSpec
/-!
# Options with more entries than are found (specification)
-/
namespace Inp
open Py Types

/-- An option of a class as it is written: its first word, the entries that are found, and further entries. -/
abbrev Long := Cls × Opt × List Str

/-- The words of the options. -/
def longWords (l : List Long) : List Str := l.flatMap (fun x => x.2.1.1 :: (x.2.1.2 ++ x.2.2))

/-- The options without the further entries. -/
def cutShort (l : List Long) : List (Cls × Opt) := l.map (fun x => (x.1, x.2.1))

/-- No option begins with this character. -/
def quiet (cs : List Cls) (a : Char) : Bool :=
  cs.all (fun c => c.pat.leads.all (fun x => match x.1 with | [] => false | k :: _ => lowerC a != k))

/-- Each option is found by its class with its first entries; the further entries are accepted by the class, too, and no
option begins with a character of them. -/
def OwnedLong (cs : List Cls) : List Long → Prop
  | [] => True
  | (c, (hd, ws), ex) :: l => c ∈ cs ∧ owns cs c hd ws (ex ++ longWords l) = true ∧ c.accepts hd (ws ++ ex) = true ∧
      (∀ w ∈ ex, ∀ a ∈ w, quiet cs a = true) ∧ OwnedLong cs l

/-- Each option takes its first entries; the further entries are accepted by its class, too, and are plain numbers. -/
def TakenLong (cs : List Cls) : List Long → Prop
  | [] => True
  | (c, (hd, ws), ex) :: l => c ∈ cs ∧ c.takes hd ws (ex ++ longWords l).head? = true ∧ c.accepts hd (ws ++ ex) = true ∧
      (∀ w ∈ ex, ∀ a ∈ w, a ∈ c!"0123456789.+-") ∧ TakenLong cs l

end Inp
