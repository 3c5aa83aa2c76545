import Verif.Py.Err
/-!
# Filters and processors of mesh tally files

`MeshtalFilter.__call__` (src/pymcnp/MeshtalFilter.py:24-42) and `MeshtalProcessor.__call__` (src/pymcnp/MeshtalProcessor.py:34-48), for
the methods of any derived class: they have a state and can raise.
-/
namespace Meshtal
open Py

/-- `next` of the generator (src/pymcnp/MeshtalFilter.py:35-40): the state of the filter afterwards, what is yielded (`none` at the end), and the
tallies that are left.  After an exception a generator is at its end. -/
def next {σ τ : Type} (check : σ → τ → σ × Res Bool) : σ → List τ → σ × Res (Option τ) × List τ
  | s, [] => (s, .ok none, [])
  | s, t :: l =>
    match check s t with
    | (s', .ok true) => (s', .ok (some t), l)
    | (s', .ok false) => next check s' l
    | (s', .error e) => (s', .error e, [])

/-- Asking `n` times, and no more after the end or an exception: what was yielded, and how it ended. -/
def ask {σ τ : Type} (check : σ → τ → σ × Res Bool) : Nat → σ → List τ → σ × List τ × Res Unit
  | 0, s, _ => (s, [], .ok ())
  | n + 1, s, l =>
    match next check s l with
    | (s', .ok none, _) => (s', [], .ok ())
    | (s', .error e, _) => (s', [], .error e)
    | (s', .ok (some t), l') =>
      let r := ask check n s' l'
      (r.1, t :: r.2.1, r.2.2)

/-- A call of one of the methods of a processor. -/
inductive Call (τ : Type) where
  | prehook
  | process (t : τ)
  | posthook
deriving DecidableEq

/-- The loop of `MeshtalProcessor.__call__` (src/pymcnp/MeshtalProcessor.py:44-46); `run` tells what a call gives, depending on the calls before. -/
def processAll {τ : Type} (run : List (Call τ) → Call τ → Res Unit) : List τ → List (Call τ) → List (Call τ) × Res Unit
  | [], done =>
    match run done .posthook with
    | .error e => (done ++ [.posthook], .error e)
    | .ok () => (done ++ [.posthook], .ok ())
  | t :: l, done =>
    match run done (.process t) with
    | .error e => (done ++ [.process t], .error e)
    | .ok () => processAll run l (done ++ [.process t])

/-- `MeshtalProcessor.__call__` (src/pymcnp/MeshtalProcessor.py:34-48): the calls made, and how it ended. -/
def process {τ : Type} (run : List (Call τ) → Call τ → Res Unit) (l : List τ) : List (Call τ) × Res Unit :=
  match run [] .prehook with
  | .error e => ([.prehook], .error e)
  | .ok () => processAll run l [.prehook]

end Meshtal
