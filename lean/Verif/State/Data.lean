import Verif.State.Held
import Verif.Inp.Value
/-!
# Histories of the data cards of an input: `Inp.nps` and `Inp.seed`

Cards and options are Python objects shared by reference, so the model keeps them in a heap and a
card block is a list of references.
-/
namespace State
open Py Types Inp

abbrev Ref := Nat

/-- Objects of the data block.  `card` is any other data card, `ropt` any other option of a `rand`
card, `foreign` a cell, like or surface card. -/
inductive Obj where
  | nps (npp : Held) (npsmg : Option Held)      -- src/pymcnp/inp/Nps.py
  | rand (options : Option (List Ref))          -- src/pymcnp/inp/Rand.py
  | seed (seed : Held)                          -- src/pymcnp/inp/rand/Seed.py
  | ropt (v : Val)                              -- src/pymcnp/inp/rand: Gen, Hist, Stride
  | card (v : Val)
  | foreign (v : Val)
deriving DecidableEq

/-- The heap and `Inp._data`. -/
structure World where
  heap : List Obj
  data : List Ref
deriving DecidableEq

def World.get (w : World) (r : Ref) : Option Obj := w.heap[r]?

/-- Overwriting an object that exists. -/
def World.put (w : World) (r : Ref) (o : Obj) : World := { w with heap := w.heap.set r o }

/-- A new object and its reference. -/
def World.alloc (w : World) (o : Obj) : World × Ref := ({ w with heap := w.heap ++ [o] }, w.heap.length)

def Obj.isNps : Obj → Bool | .nps _ _ => true | _ => false
def Obj.isRand : Obj → Bool | .rand _ => true | _ => false
def Obj.isSeed : Obj → Bool | .seed _ => true | _ => false
/-- instances of `rand.RandOption` -/
def Obj.isROpt : Obj → Bool | .seed _ | .ropt _ => true | _ => false
/-- `isinstance(item, inp.Card) and not (Surface or Like or Cell)`, src/pymcnp/Inp.py:662 -/
def Obj.isData : Obj → Bool | .nps _ _ | .rand _ | .card _ => true | _ => false

def World.is (w : World) (p : Obj → Bool) (r : Ref) : Bool := match w.get r with | some o => p o | none => false

/-- `next(filter(lambda card: isinstance(card, …), l))`, src/pymcnp/Inp.py:756, 783, 799-800, 827, 830 -/
def World.first (w : World) (p : Obj → Bool) (l : List Ref) : Option Ref := l.find? (w.is p)

/-- Outcome of an operation: the world afterwards and the exception, if one was raised. -/
abbrev Out := World × Option Err

/-- `Nps.npp` setter, src/pymcnp/inp/Nps.py:49-73 -/
def checkNpp (a : Arg) : Res Held :=
  match holdInt a with
  | .error e => .error e
  | .ok none => .error .inp
  | .ok (some h) => match h.gt0 with
    | .error e => .error e
    | .ok true => .ok h
    | .ok false => .error .inp

/-- `Nps.npsmg` setter, src/pymcnp/inp/Nps.py:87-111 -/
def checkNpsmg (a : Arg) : Res (Option Held) :=
  match holdInt a with
  | .error e => .error e
  | .ok none => .ok none
  | .ok (some h) => match h.gt0 with
    | .error e => .error e
    | .ok true => .ok (some h)
    | .ok false => .error .inp

/-- `Seed.seed` setter, src/pymcnp/inp/rand/Seed.py:46-70 -/
def checkSeed (a : Arg) : Res Held :=
  match holdInt a with
  | .error e => .error e
  | .ok none => .error .inp
  | .ok (some h) => match h.odd with
    | .error e => .error e
    | .ok true => .ok h
    | .ok false => .error .inp

/-- `Inp.data` setter given card objects, src/pymcnp/Inp.py:659-679.  Items that are not data cards
are dropped.  (Texts among the items are not modelled here.) -/
def World.setData (w : World) (l : List Ref) : World := { w with data := l.filter (w.is Obj.isData) }

/-- `Rand.options` setter given option objects, src/pymcnp/inp/Rand.py:46-68.  Items that are not
`rand` options are dropped. -/
def World.keepOpts (w : World) (l : List Ref) : List Ref := l.filter (w.is Obj.isROpt)

/-- `Inp.nps`, src/pymcnp/Inp.py:746-760 -/
def World.nps (w : World) : Option Held :=
  match w.first Obj.isNps w.data with
  | none => none
  | some r => match w.get r with
    | some (.nps n _) => some n
    | _ => none

/-- `Inp.nps = a`, src/pymcnp/Inp.py:762-787 -/
def World.setNps (w : World) (a : Arg) : Out :=
  match holdInt a with
  | .error e => (w, some e)
  | .ok h =>
    match w.first Obj.isNps w.data with
    | some r =>
      match checkNpp (Held.arg h), w.get r with
      | .ok n, some (.nps _ m) => (w.put r (.nps n m), none)
      | .error e, _ => (w, some e)
      | .ok _, _ => (w, some .unmodelled)        -- not reached: `r` is an `Nps` card
    | none =>
      match checkNpp (Held.arg h) with
      | .error e => (w, some e)
      | .ok n =>
        let (w', r) := w.alloc (.nps n none)
        (w'.setData (w.data ++ [r]), none)

/-- the options of a `rand` card, `card_rand.options or []` -/
def World.opts (w : World) (r : Ref) : List Ref :=
  match w.get r with
  | some (.rand (some l)) => l
  | _ => []

/-- `Inp.seed`, src/pymcnp/Inp.py:789-804 -/
def World.seed (w : World) : Option Held :=
  match w.first Obj.isRand w.data with
  | none => none
  | some r => match w.first Obj.isSeed (w.opts r) with
    | none => none
    | some s => match w.get s with
      | some (.seed n) => some n
      | _ => none

/-- `Inp.seed = a`, src/pymcnp/Inp.py:806-840 -/
def World.setSeed (w : World) (a : Arg) : Out :=
  match holdInt a with
  | .error e => (w, some e)
  | .ok h =>
    match w.first Obj.isRand w.data with
    | some r =>
      match w.first Obj.isSeed (w.opts r) with
      | some s => match checkSeed (Held.arg h) with
        | .error e => (w, some e)
        | .ok n => (w.put s (.seed n), none)
      | none => match checkSeed (Held.arg h) with
        | .error e => (w, some e)
        | .ok n =>
          let (w', s) := w.alloc (.seed n)
          (w'.put r (.rand (some (w'.keepOpts (w.opts r ++ [s])))), none)
    | none => match checkSeed (Held.arg h) with
      | .error e => (w, some e)
      | .ok n =>
        let (w1, s) := w.alloc (.seed n)
        let (w2, r) := w1.alloc (.rand (some (w1.keepOpts [s])))
        (w2.setData (w.data ++ [r]), none)

/-- What a program can do to an input's data block and its cards. -/
inductive Op where
  | nps (a : Arg)                               -- inp.nps = a
  | seed (a : Arg)                              -- inp.seed = a
  | npp (r : Ref) (a : Arg)                     -- card.npp = a
  | npsmg (r : Ref) (a : Arg)                   -- card.npsmg = a
  | optSeed (r : Ref) (a : Arg)                 -- option.seed = a
  | options (r : Ref) (l : Option (List Ref))   -- rand.options = l
  | data (l : List Ref)                         -- inp.data = l
  | newNps (a b : Arg)                          -- inp.Nps(a, b)
  | newSeed (a : Arg)                           -- inp.rand.Seed(a)
  | newRand (l : Option (List Ref))             -- inp.Rand(l)
  | newOther (v : Val)                          -- any other data card

def World.step (w : World) : Op → Out
  | .nps a => w.setNps a
  | .seed a => w.setSeed a
  | .npp r a => match w.get r, checkNpp a with
    | some (.nps _ m), .ok n => (w.put r (.nps n m), none)
    | some (.nps _ _), .error e => (w, some e)
    | _, _ => (w, none)                          -- plain attribute of another object
  | .npsmg r a => match w.get r, checkNpsmg a with
    | some (.nps n _), .ok m => (w.put r (.nps n m), none)
    | some (.nps _ _), .error e => (w, some e)
    | _, _ => (w, none)
  | .optSeed r a => match w.get r, checkSeed a with
    | some (.seed _), .ok n => (w.put r (.seed n), none)
    | some (.seed _), .error e => (w, some e)
    | _, _ => (w, none)
  | .options r l => match w.get r with
    | some (.rand _) => (w.put r (.rand (l.map w.keepOpts)), none)
    | _ => (w, none)
  | .data l => (w.setData l, none)
  | .newNps a b => match checkNpp a, checkNpsmg b with
    | .error e, _ => (w, some e)
    | .ok _, .error e => (w, some e)
    | .ok n, .ok m => ((w.alloc (.nps n m)).1, none)
  | .newSeed a => match checkSeed a with
    | .error e => (w, some e)
    | .ok n => ((w.alloc (.seed n)).1, none)
  | .newRand l => ((w.alloc (.rand (l.map w.keepOpts))).1, none)
  | .newOther v => ((w.alloc (.card v)).1, none)

/-- A history; exceptions are caught by the program and it goes on. -/
def World.run (w : World) : List Op → World
  | [] => w
  | o :: os => ((w.step o).1).run os

end State
