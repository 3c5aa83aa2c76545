import Verif.Py.Err
/-!
# Lazy sequences and lists of values

`types/Generator.py` and the constructor of `types/Tuple.py`.
-/
namespace Types
open Py

/-! ## `itertools.tee` and `Generator` -/

/-- A `_Generator` object and the iterators taken from it (types/Generator.py:19-79).

`src` holds what the generator expression has still to produce: one result of `element.from_mcnp` per token, in
order (types/Generator.py:63).  `itertools.tee` of a generator makes two iterators over one shared queue; `tee`
of such an iterator gives that iterator and a copy of it.  `__iter__` keeps the first and hands out the second
(types/Generator.py:76-79), so all iterators share one queue `cache` and differ in their positions; the one kept
in `value` is never advanced. -/
structure LazySeq (α : Type) where
  src : List (Res α)
  cache : List α
  pos : List Nat

/-- `Generator.from_mcnp` (types/Generator.py:47-64) for the results of the tokens. -/
def LazySeq.new {α : Type} (rs : List (Res α)) : LazySeq α := ⟨rs, [], []⟩

/-- What `next` gives: a value, `StopIteration` or the exception of the element. -/
inductive Next (α : Type) where
  | value (v : α)
  | stop
  | raise (e : Err)
deriving DecidableEq, Repr

/-- `iter(g)` (types/Generator.py:76-79): a new iterator at the start of the queue. -/
def LazySeq.iter {α : Type} (g : LazySeq α) : LazySeq α := { g with pos := g.pos ++ [0] }

/-- `next` of an iterator of `itertools.tee`: from the queue, or else from the generator; a generator that raised
an exception is finished. -/
def LazySeq.next {α : Type} (g : LazySeq α) (i : Nat) : Next α × LazySeq α :=
  match g.pos[i]? with
  | none => (.stop, g)
  | some p =>
    match g.cache[p]? with
    | some v => (.value v, { g with pos := g.pos.set i (p + 1) })
    | none =>
      match g.src with
      | [] => (.stop, g)
      | .ok v :: rs => (.value v, ⟨rs, g.cache ++ [v], g.pos.set i (p + 1)⟩)
      | .error e :: _ => (.raise e, { g with src := [] })

/-- What a program does with the object: take another iterator, or advance iterator `i`. -/
inductive LazyOp where
  | iter
  | next (i : Nat)

/-- A run, with what each `next` gave. -/
def LazySeq.exec {α : Type} : LazySeq α → List LazyOp → List (Nat × Next α) × LazySeq α
  | g, [] => ([], g)
  | g, .iter :: ops => g.iter.exec ops
  | g, .next i :: ops =>
    let r := g.next i
    let t := r.2.exec ops
    ((i, r.1) :: t.1, t.2)

/-! ## `Tuple` -/

/-- Arguments of the constructor `Tuple`: `None`, a tuple, or a list, which is a reference. -/
inductive TupleArg (α : Type) where
  | none
  | tuple (xs : List (Option α))
  | list (ref : Nat)

/-- Memory: the lists of the program. -/
abbrev Lists (α : Type) := List (List (Option α))

/-- The elements an argument has at the moment. -/
def TupleArg.elems {α : Type} (m : Lists α) : TupleArg α → Option (List (Option α))
  | .none => Option.none
  | .tuple xs => some xs
  | .list r => m[r]?

/-- The test of the constructor (types/Tuple.py:41): `value is None or value == tuple() or None in value`; a list
never equals `tuple()`.  Comparing an element with `None` is false for every class of the library; that it prints
the element (_symbol.py:62-63) is modelled where it can raise (`Ptrac.evChecked`).  The object keeps the argument itself (types/Tuple.py:44). -/
def tupleInit {α : Type} (m : Lists α) (a : TupleArg α) : Res (TupleArg α) :=
  match a with
  | .none => .error .types
  | .tuple xs => if xs = [] ∨ xs.any (·.isNone) then .error .types else .ok a
  | .list r =>
    match m[r]? with
    | Option.none => .error .unmodelled
    | some xs => if xs.any (·.isNone) then .error .types else .ok a

/-- `Tuple.from_mcnp` (types/Tuple.py:46-63) after the elements are read: a new list, known to nobody else. -/
def tupleParse {α : Type} (m : Lists α) (vs : List α) : Lists α × Res (TupleArg α) :=
  let m' := m ++ [vs.map some]
  (m', tupleInit m' (.list m.length))

/-- What the rest of the program can do: change a list it knows. -/
def assign {α : Type} (m : Lists α) (r : Nat) (xs : List (Option α)) : Lists α := m.set r xs

end Types
