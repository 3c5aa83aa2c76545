import Verif.Inp.TableAll
import Verif.Inp.ReadSpec
/-!
# Point and ring detectors (specification)
-/
namespace Inp
open Py Types

/-- The first word of a card of detectors: `*` or `+`, `f`, the number, the axis of rings, the designator
(src/pymcnp/inp/F_1.py:24, F_2.py:25). -/
structure DetWord where
  pre : Option Char
  f : Char
  num : Str
  axis : Option Char
  des : Option Str

/-- The designator with its colon. -/
def colon : Option Str → Str
  | none => []
  | some d => ':' :: d

/-- The word. -/
def DetWord.text (h : DetWord) : Str := h.pre.toList ++ h.f :: (h.num ++ (h.axis.toList ++ colon h.des))

/-- The parts are what they have to be: the number ends with 5. -/
structure DetWord.Ok (h : DetWord) : Prop where
  pre : ∀ c ∈ h.pre, c = '*' ∨ c = '+'
  f : lowerC h.f = 'f'
  num : ∀ c ∈ h.num, isDigit c = true
  five : h.num.getLast? = some '5'
  axis : ∀ c ∈ h.axis, lowerC c ∈ ['x', 'y', 'z']
  des : ∀ d ∈ h.des, d ≠ [] ∧ NoSpace d

/-- The parts in the order of the attributes. -/
def DetWord.parts (h : DetWord) : List (Option Str) :=
  [h.pre.map ([·]), some h.num] ++ (h.axis.map (fun c => some [c])).toList ++ [h.des]

/-- Reading an entry of a list, number by number. -/
def entryRead (d : Cls) (ws : List Str) : Res Val :=
  match readVals d.attrs (ws.map (fun w => some [w])) with
  | .error e => .error e
  | .ok l => d.mk' l

/-- Reading a card of detectors: the parts of the first word, one detector after the other, and what follows them. -/
def detRead (c d : Cls) (h : DetWord) (rows : List (List Str)) (nd : Option Str) : Res Val :=
  match readVals (c.attrs.take h.parts.length) (h.parts.map (·.map ([·]))) with
  | .error e => .error e
  | .ok xs => match rows.mapM (entryRead d) with
    | .error e => .error e
    | .ok ys => match readVals (c.attrs.drop (h.parts.length + 1)) [nd.map ([·])] with
      | .error e => .error e
      | .ok zs => c.mk' (xs ++ Val.tuple ys :: zs)

/-- A number without its decimals. -/
def Cut (d : Dec) (z : Int) : Prop :=
  (z = 0 ∨ (d.neg = true ↔ z < 0)) ∧
  if 0 ≤ d.exp then z.natAbs = d.coeff * 10 ^ d.exp.toNat
  else z.natAbs * 10 ^ (-d.exp).toNat ≤ d.coeff ∧ d.coeff < (z.natAbs + 1) * 10 ^ (-d.exp).toNat

/-- Cards of detectors: points and rings. -/
def detCls : Bool → Cls
  | false => Tab.F_1
  | true => Tab.F_2

/-- Their detectors. -/
def detEntry : Bool → Cls
  | false => Tab.f_1_Sphere
  | true => Tab.f_2_Ring

/-- The numbers of one detector: `x y z r` and `distance radius r` (src/pymcnp/inp/f_1/Sphere.py:13-18, f_2/Ring.py:13-17). -/
def detKinds : Bool → List Kind
  | false => [.real, .real, .int, .int]
  | true => [.real, .real, .int]

/-- Values of the attributes of the first word. -/
def DetWord.vals (p : Option Char) (n : Nat) (a : Option Char) (d : Option Str) : List Val :=
  [p.elim .none (fun c => .sc (.str [c])), .sc (.int (.num n))] ++ (a.map (fun c => Val.sc (.str [c]))).toList ++
    [d.elim .none (fun s => .sc (.desig s))]

end Inp
