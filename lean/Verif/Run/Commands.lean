import Verif.Run.Cli
import Verif.Run.Run
import Verif.State.Whole
/-!
# The commands `pymcnp check`, `pymcnp run` and `pymcnp convert`

The commands after their arguments are read (docopt is not modelled), with the files as in `Verif/Run/Cli.lean`.  What is printed on the
terminal is not modelled.
-/
namespace Cli
open Py State

/-- The status of a command that ends by itself: 0 (`_io.done()` is its last line, _cli/check.py:46, _cli/run.py:52, _cli/convert.py:56). -/
def success : Nat := 0

/-- The status of a Python program that ends with an exception. -/
def traceback : Nat := 1

/-- The handlers around the reading of an input file (_cli/check.py:33-41, _cli/run.py:36-44): the status for an exception. -/
def inpStatus : Err → Nat
  | .inp => 1
  | .cli => 2
  | .types => 3
  | _ => traceback

/-- The handlers around the reading of an output file (_cli/convert.py:40-45). -/
def outpStatus : Err → Nat
  | .outp => 1
  | .cli => 2
  | _ => traceback

/-- `Check.check` (Check.py:34-46): reads, parses and prints the file; the differences are made lazily and not looked at
(_cli/check.py:32). -/
def checkFile (path : Str) (w : World) : Res Unit :=
  match w.get path with
  | none => .error .cli
  | some s =>
    match inpRead s with
    | .error e => .error e
    | .ok f => let _correct := inpPrint f; .ok ()

/-- `pymcnp check <inp> [--fix]` (_cli/check.py:18-46): the status and the files. -/
def checkMain (path : Str) (fixing : Bool) (w : World) : Nat × World :=
  match checkFile path w with
  | .error e => (inpStatus e, w)
  | .ok () =>
    if fixing then
      match fix inpRead (fun f => .ok (inpPrint f)) path w with
      | (.ok (), w') => (success, w')
      | (.error _, w') => (traceback, w')
    else (success, w)

/-- `list(map(Inp.from_file, …))` (_cli/run.py:35) -/
def readAll (w : World) : List Str → Res (List File)
  | [] => .ok []
  | p :: ps =>
    match fromFile inpRead p w with
    | .error e => .error e
    | .ok f =>
      match readAll w ps with
      | .error e => .error e
      | .ok fs => .ok (f :: fs)

/-- How far `pymcnp run` gets before the batch: it ends with a status, or calls `Run.run`. -/
inductive Launch where
  | ended (status : Nat)
  | started (job : Run.Job)

/-- `pymcnp run <inp>... [--command] [--path]` (_cli/run.py:21-52) up to the call of `Run.run` (Run.py:20-39, 83): the arguments are the
input files, the command, whether `shutil.which` finds it, the directory and the clock.  An error of `Run` is caught and printed, and the command
goes on to its last line (_cli/run.py:47-52). -/
def runMain (paths : List Str) (command : Str) (found : Bool) (dir : Str) (time : Run.Clock) (w : World) : Launch :=
  match readAll w paths with
  | .error e => .ended (inpStatus e)
  | .ok fs =>
    if found then .started ⟨dir, time, command, fs.map fun f => .ok (inpPrint f)⟩
    else .ended success

/-- The status of `pymcnp run` once the batch is over (_cli/run.py:46-52): an error of the command line is caught. -/
def batchStatus : Run.Pc → Option Nat
  | .done => some success
  | .failed e => some (if e = .cli then success else traceback)
  | _ => none

/-- The formats of `pymcnp convert` -/
inductive Format where
  | csv | parquet

/-- The endings of the files (_cli/convert.py:52, 54) -/
def Format.ext : Format → Str
  | .csv => c!"csv"
  | .parquet => c!"parquet"

/-- `pymcnp convert <outp> <number> --csv|--parquet` (_cli/convert.py:24-56): the status and the files, given what pandas makes of a
table. -/
def convertMain (conv : Outp.Table → Str) (path number : Str) (fmt : Format) (w : World) : Nat × World :=
  match fromFile Outp.outpParse path w with
  | .error e => (outpStatus e, w)
  | .ok f =>
    match getOutfile path fmt.ext (some number) with
    | .error _ => (traceback, w)
    | .ok out =>
      match toCsv conv f number out w with
      | (.ok (), w') => (success, w')
      | (.error _, w') => (traceback, w')

end Cli
