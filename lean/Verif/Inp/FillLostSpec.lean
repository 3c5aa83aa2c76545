import Verif.Inp.LatticeSpec
import Verif.Inp.LongSpec
/-!
# Cells with options of which a part is not found (specification)
-/
namespace Inp
open Py Types

/-- An option of a cell as it stands in the text: one that is found as a whole, a lattice with its universes and perhaps an origin, or `fill` with a universe and a
transformation of fewer than eleven words. -/
inductive LOpt where
  | whole (o : DOpt)
  | lattice (star : Bool) (hd i j k u : Str) (us : List Str) (m : Option Str)
  | short (star : Bool) (hd u : Str) (ws : List Str)

/-- The words that are found: of a lattice with more than one universe those before the second universe; of a short transformation none. -/
def LOpt.found : LOpt → Opt
  | .whole o => o.opt
  | .lattice _ hd i j k u [] m => (hd, i :: j :: k :: u :: originWords m)
  | .lattice _ hd i j k u _ _ => (hd, [i, j, k, u])
  | .short _ hd u _ => (hd, [u])

/-- The words after them. -/
def LOpt.extra : LOpt → List Str
  | .whole _ => []
  | .lattice _ _ _ _ _ _ [] _ => []
  | .lattice _ _ _ _ _ _ us m => us ++ originWords m
  | .short _ _ _ ws => ws

/-- All words of the option. -/
def LOpt.opt (o : LOpt) : Opt := (o.found.1, o.found.2 ++ o.extra)

/-- The words of options. -/
def lostWords (l : List LOpt) : List Str := optWords (l.map LOpt.opt)

/-- The option is found as a whole before the words `rest`. -/
def DOpt.Fits (like : Bool) (rest : List Str) : DOpt → Prop
  | .plain c hd ws => c ∈ optionsOf like ∧ owns (optionsOf like) c hd ws rest = true
  | .move star hd ws ps => TrclWord star hd ∧ Ends ws rest ∧ ∃ k, trclForm ps.length = some k ∧ TransText k (join [' '] ws) ps
  | .fill star hd u ws ps => FillWord star hd ∧ unitOk (.ty (.base .int)) u = true ∧
      ((ws = [] ∧ ps = [] ∧ Lone rest) ∨ (TransText 0 (join [' '] ws) ps ∧ Ends ws rest))

/-- A transformation of nine, eight, six or three entries, with or without a system, or the number of one, in fewer than eleven words. -/
def ShortPut (ws : List Str) : Prop :=
  ws.length ≤ 10 ∧ ((∃ k ps, 1 ≤ k ∧ k ≤ 4 ∧ TransText k (join [' '] ws) ps) ∨ (∃ n, unitOk (.ty (.base .int)) n = true ∧ (ws = [n] ∨ ws = [['('] ++ n ++ [')']])))

/-- The options are of these kinds; in the words that are not found no option begins. -/
def Loses (like : Bool) : List LOpt → Prop
  | [] => True
  | .whole o :: l => o.Fits like (lostWords l) ∧ Loses like l
  | .lattice star hd i j k u us m :: l =>
    (FillWord star hd ∧ SpanWord i ∧ SpanWord j ∧ SpanWord k ∧ (∀ x ∈ u :: us, unitOk (.ty (.base .int)) x = true) ∧
      (∀ x ∈ m, unitOk (.ty (.base .int)) x = true) ∧ (∀ w, (lostWords l).head? = some w → w.head? ≠ some '(') ∧
      (∀ w ∈ us ++ originWords m, us ≠ [] → ∀ a ∈ w, quiet (optionsOf like) a = true)) ∧ Loses like l
  | .short star hd u ws :: l =>
    (FillWord star hd ∧ unitOk (.ty (.base .int)) u = true ∧ ShortPut ws ∧ Lone (lostWords l) ∧ (∀ w ∈ ws, ∀ a ∈ w, quiet (optionsOf like) a = true)) ∧ Loses like l

/-- What the option is read as: a lattice with its first universe only, unless it has no other; a universe without its short transformation. -/
def LOpt.read (like : Bool) : LOpt → Res Val
  | .whole o => o.read like
  | .lattice star _ i j k u [] m => readLattice like star i j k [u] m
  | .lattice star _ i j k u _ _ => readLattice like star i j k [u] none
  | .short star _ u _ => readFill (fillOf like) star u []

/-- The attribute for the options; none if the card has none. -/
def lostRead (like : Bool) (os : List LOpt) : Res Val :=
  match os with
  | [] => .ok .none
  | o :: os => (allOk ((o :: os).map (LOpt.read like))).map .tuple

end Inp
