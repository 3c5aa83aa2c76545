import Verif.Py.Err
import Verif.Py.Lit
import Verif.Py.Str
/-!
# Texts of errors

Models `__str__` of the error classes (src/pymcnp/errors/*.py).  The codes are whole numbers: the code classes derive from
`enum.EnumMeta` without being enumerations (src/pymcnp/errors/_error.py:8-13).
-/
namespace Messages
open Py

/-- The error classes of the library. -/
inductive Family where
  | cli | inp | meshtal | outp | ptrac | types
deriving DecidableEq, Repr

/-- Codes and first lines, in the order of the tests: src/pymcnp/errors/CliError.py:9-10, 22-25, InpError.py:17-25, 37-52,
MeshtalError.py:13-19, 31-42, OutpError.py:15-19, 31-38, PtracError.py:13-21, 33-48, TypesError.py:14-16, 28-31. -/
def Family.codes : Family → List (Nat × Str)
  | .cli => [(0, c!"Bad path."), (1, c!"Bad parameter.")]
  | .inp => [(0, c!"INP file not recognized."), (1, c!"INP card not recognized."), (2, c!"INP option not recognized."),
      (3, c!"INP entry not recognized."), (10, c!"Invalid INP file."), (11, c!"Invalid INP card."), (12, c!"Invalid INP option."),
      (13, c!"Invalid INP entry.")]
  | .meshtal => [(0, c!"MESHTAL file not recognized."), (1, c!"MESHTAL table not recognized."), (2, c!"MESHTAL line not recognized."),
      (10, c!"Invalid MESHTAL file."), (11, c!"Invalid MESHTAL table."), (12, c!"Invalid MESHTAL line.")]
  | .outp => [(0, c!"OUTP file not recognized."), (1, c!"OUTP table not recognized."), (10, c!"Invalid OUTP file."),
      (11, c!"Invalid OUTP table.")]
  | .ptrac => [(0, c!"PTRAC file not recognized."), (1, c!"PTRAC table not recognized."), (2, c!"PTRAC line not recognized."),
      (3, c!"PTRAC keyword not recognized."), (10, c!"Invalid PTRAC file."), (11, c!"Invalid PTRAC table."), (12, c!"Invalid PTRAC line."),
      (13, c!"Invalid PTRAC keyword.")]
  | .types => [(0, c!"MCNP data type not recognized."), (10, c!"Invalid MCNP data type.")]

/-- `CUTOFF` (src/pymcnp/errors/_error.py:5) -/
def cutoff : Nat := 4

/-- The lines that are quoted (src/pymcnp/errors/InpError.py:34-35 and the same lines in the other classes): the conditional is over
the whole sum. -/
def quoted (info : Str) : List Str :=
  let ls := splitC '\n' info
  if ls.length > cutoff then ls.take cutoff ++ [c!"..."] else ls

/-- `str(error)` (src/pymcnp/errors/InpError.py:33-52 and the others) for an error with this code about this text.  `__str__` returns `None`
for other codes, for which `str` raises `TypeError`. -/
def message (f : Family) (code : Nat) (info : Str) : Res Str :=
  match (f.codes.find? fun x => x.1 == code) with
  | some (_, h) => .ok (h ++ c!"\n> " ++ join c!"\n> " (quoted info))
  | none => .error .typeErr

/-- The codes that occur in `raise` statements of the library, by family.  (The codes are attributes of the classes above; each family is raised
with its own codes.) -/
def raised : List (Family × Nat) :=
  [(.inp, 12), (.inp, 11), (.outp, 11), (.ptrac, 12), (.types, 10), (.types, 0), (.outp, 1), (.ptrac, 2), (.ptrac, 11), (.meshtal, 11), (.cli, 1),
   (.inp, 10), (.cli, 0), (.ptrac, 1), (.ptrac, 10), (.outp, 10), (.meshtal, 1), (.meshtal, 12), (.meshtal, 10), (.inp, 2), (.ptrac, 3), (.ptrac, 0),
   (.meshtal, 2), (.meshtal, 0), (.inp, 0), (.inp, 1)]

end Messages
