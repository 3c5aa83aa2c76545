import Verif.Py.Err
import Verif.Py.Lit
import Verif.Py.Str
/-!
# Batch runs

`Run.run` (Run.py:83-116) as a program that takes one step at a time, so that any number of runs, the processes they start and
other programs can be interleaved in every way.  Simplifications: a path is its text; an existing directory is an entry of a list
(nothing removes directories); the texts the input files are written with are given (`Inp.to_mcnp` may raise); hooks are the
events of the trace (what they do is not modelled, but they may raise); the files the processes write are not modelled.
-/
namespace Run
open Py

/-- `pathlib.Path(p) / n` for a name `n` without `/`, with `p` the text of the path (not the empty path or the root). -/
def pathJoin (p n : Str) : Str := p ++ '/' :: n

/-- A reading of the local clock, `datetime.datetime.today()`. -/
structure Clock where
  year : Nat
  month : Nat
  day : Nat
  hour : Nat
  minute : Nat
  second : Nat
  microsecond : Nat
deriving DecidableEq

/-- `strftime("%Y-%m-%d--%H-%M-%S")` (Run.py:91) -/
def stamp (t : Clock) : Str :=
  zfill 4 (natStr t.year) ++ '-' :: (zfill 2 (natStr t.month) ++ '-' :: (zfill 2 (natStr t.day) ++ '-' :: '-' :: (zfill 2 (natStr t.hour) ++
    '-' :: (zfill 2 (natStr t.minute) ++ '-' :: zfill 2 (natStr t.second)))))

/-- A call of `Run(inps, command).run(path)`: the path, the clock when it is called, the command, and what `to_mcnp` of every input
gives. -/
structure Job where
  path : Str
  time : Clock
  command : Str
  inps : List (Res Str)

/-- `directory` (Run.py:91) -/
def Job.dir (j : Job) : Str := pathJoin j.path (c!"pymcnp-" ++ stamp j.time)

/-- `f'run-{i:05}'` (Run.py:98-101) -/
def runName (i : Nat) : Str := c!"run-" ++ zfill 5 (natStr i)

/-- What a run does, and the end of the processes it started. -/
inductive Ev where
  | mkdir (p : Str)
  | write (p s : Str)
  | prehookBatch (p : Str)
  | prehookFile (p : Str) (i : Nat)
  | start (args : List Str)
  | exit (i : Nat)
  | posthookFile (p : Str) (i : Nat)
  | posthookBatch (p : Str)
deriving DecidableEq

/-- Where the program is. -/
inductive Pc where
  /-- before `directory.mkdir()` (Run.py:92) -/
  | begin
  /-- before `prehook_batch` (94) -/
  | batch
  /-- at the head of the first loop with `i` (97) -/
  | top (i : Nat)
  /-- before `inp.to_file` (104) -/
  | made (i : Nat)
  /-- before `prehook_file` (106) -/
  | written (i : Nat)
  /-- before `Popen` (107) -/
  | hooked (i : Nat)
  /-- at the head of the second loop with `i`, before `process.wait()` (110-111) -/
  | wait (i : Nat)
  /-- before `posthook_file` (112) -/
  | ended (i : Nat) (sub : Str)
  /-- before `posthook_batch` (114) -/
  | closing
  /-- returned `directory` (116) -/
  | done
  /-- an exception was raised -/
  | failed (e : Err)
deriving DecidableEq

/-- A run: where it is, `processes` (its index is the process, with the subdirectory, 108), the processes that ended, what happened. -/
structure St where
  pc : Pc
  procs : List Str
  over : List Nat
  trace : List Ev

/-- The run when it is called. -/
def St.init : St := ⟨.begin, [], [], []⟩

/-- Something happened. -/
def St.log (s : St) (e : Ev) (pc : Pc) : St := { s with pc := pc, trace := s.trace ++ [e] }

/-- `mkdir` of a directory, given the directories there are (Run.py:92 and 103): `FileExistsError` when it is there. -/
def mkdir (fs : List Str) (s : St) (p : Str) (pc : Pc) : List Str × St :=
  if p ∈ fs then (fs, { s with pc := .failed .fileExists }) else (p :: fs, s.log (.mkdir p) pc)

/-- One step of `Run.run` (Run.py:83-116). The run stands still when it is over, and while it waits for a process that is not. -/
def step (j : Job) (fs : List Str) (s : St) : List Str × St :=
  match s.pc with
  | .begin => mkdir fs s j.dir .batch
  | .batch => (fs, s.log (.prehookBatch j.dir) (.top 0))
  | .top i => if i < j.inps.length then mkdir fs s (pathJoin j.dir (runName i)) (.made i) else (fs, { s with pc := .wait 0 })
  | .made i =>
    match j.inps[i]? with
    | some (.ok t) => (fs, s.log (.write (pathJoin (pathJoin j.dir (runName i)) (runName i ++ c!".inp")) t) (.written i))
    | some (.error e) => (fs, { s with pc := .failed e })
    | none => (fs, { s with pc := .failed .index })
  | .written i => (fs, s.log (.prehookFile (pathJoin j.dir (runName i)) i) (.hooked i))
  | .hooked i =>
    let sub := pathJoin j.dir (runName i)
    (fs, { (s.log (.start [j.command, c!"inp=" ++ pathJoin sub (runName i ++ c!".inp") ++ c!" outp=" ++ pathJoin sub (runName i ++ c!".outp") ++
      c!" ptrac=" ++ pathJoin sub (runName i ++ c!".ptrac")]) (.top (i + 1))) with procs := s.procs ++ [sub] })
  | .wait i =>
    match s.procs[i]? with
    | some sub => if i ∈ s.over then (fs, { s with pc := .ended i sub }) else (fs, s)
    | none => (fs, { s with pc := .closing })
  | .ended i sub => (fs, s.log (.posthookFile sub i) (.wait (i + 1)))
  | .closing => (fs, s.log (.posthookBatch j.dir) .done)
  | .done => (fs, s)
  | .failed _ => (fs, s)

/-- Process `i` ends, if it was started and has not ended. -/
def exit (s : St) (i : Nat) : St :=
  if i < s.procs.length ∧ i ∉ s.over then { s with over := i :: s.over, trace := s.trace ++ [.exit i] } else s

/-- The directories there are, and the runs. -/
structure Sys where
  fs : List Str
  runs : List (Job × St)

/-- What can happen next. -/
inductive Move where
  /-- `run` is called -/
  | call (j : Job)
  /-- run `r` takes a step -/
  | go (r : Nat)
  /-- process `i` of run `r` ends -/
  | exit (r i : Nat)
  /-- a hook or the system raises an exception in run `r` -/
  | raise (r : Nat) (e : Err)
  /-- another program makes a directory -/
  | other (p : Str)

/-- The effect of a move. -/
def Sys.move (y : Sys) : Move → Sys
  | .call j => { y with runs := y.runs ++ [(j, .init)] }
  | .go r =>
    match y.runs[r]? with
    | some (j, s) => let p := step j y.fs s; ⟨p.1, y.runs.set r (j, p.2)⟩
    | none => y
  | .exit r i =>
    match y.runs[r]? with
    | some (j, s) => { y with runs := y.runs.set r (j, Run.exit s i) }
    | none => y
  | .raise r e =>
    match y.runs[r]? with
    | some (j, s) => if s.pc = .done then y else { y with runs := y.runs.set r (j, { s with pc := .failed e }) }
    | none => y
  | .other p => { y with fs := p :: y.fs }

/-- The system after these moves, with these directories at the start. -/
def exec (fs : List Str) (ms : List Move) : Sys := ms.foldl Sys.move ⟨fs, []⟩

end Run
