import Verif.Types.Geometry
/-!
# Regions composed from surface objects

Expressions of a Python program made from surface objects with `-`, `+`, `~`, `&` and `|`.  A surface object stands for its number.
-/
namespace Types
open Py

/-- The expressions. -/
inductive Compose where
  | surf (n : Int)
  | neg (e : Compose)
  | pos (e : Compose)
  | inv (e : Compose)
  | and (a b : Compose)
  | or (a b : Compose)
deriving DecidableEq, Repr

/-- Their values: surfaces and geometries. -/
inductive Composed where
  | surf (n : Int)
  | geo (a : Ast)
deriving DecidableEq, Repr

/-- A text read as geometry (types/Geometry.py:455-485). -/
def readGeo (s : Str) : Res Composed := (geoParse s).map .geo

/-- `-x`, `+x`, `~x`: src/pymcnp/inp/Surface.py:109-137 for a surface, src/pymcnp/types/Geometry.py:525-553 for a geometry. -/
def Composed.sign (o : GOp) : Composed → Res Composed
  | .surf n => readGeo (o.str ++ intStr n)
  | .geo a => .ok (.geo (.unary o a))

/-- `x & y`: src/pymcnp/inp/Surface.py:81-93 and src/pymcnp/types/Geometry.py:497-509.  A geometry has no `number`, a surface no `ast`. -/
def Composed.and : Composed → Composed → Res Composed
  | .surf m, .surf n => readGeo (intStr m ++ ':' :: intStr n)
  | .geo a, .geo b => .ok (.geo (a.and b))
  | _, _ => .error .attribute

/-- `x | y`: src/pymcnp/inp/Surface.py:95-107 and src/pymcnp/types/Geometry.py:511-523. -/
def Composed.or : Composed → Composed → Res Composed
  | .surf m, .surf n => readGeo (intStr m ++ ' ' :: intStr n)
  | .geo a, .geo b => .ok (.geo (a.or b))
  | _, _ => .error .attribute

/-- The value of an expression; operands are evaluated from the left. -/
def Compose.eval : Compose → Res Composed
  | .surf n => .ok (.surf n)
  | .neg e => e.eval.bind (·.sign .minus)
  | .pos e => e.eval.bind (·.sign .plus)
  | .inv e => e.eval.bind (·.sign .hash)
  | .and a b => a.eval.bind (fun x => b.eval.bind (fun y => x.and y))
  | .or a b => a.eval.bind (fun x => b.eval.bind (fun y => x.or y))

end Types
