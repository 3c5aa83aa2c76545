import Verif.Types.Number
import Verif.Py.Lit
/-!
# PTRAC files: the lines of a history

`ptrac/history/I.py`, `ptrac/history/event/J_0.py` … `J_7.py`, `P_0.py`, `P_1.py`,
`ptrac/history/event/j/EventType.py` and `Real.__format__`.

Attributes are lists in the order of the constructor; an `EventType` is its code.
-/
namespace Ptrac
open Py Types

/-! ## Event types -/

/-- The codes of `EventType` (ptrac/history/event/j/EventType.py:10-76), in order. -/
def codes : List Str :=
  [c!"1000",
   c!"2001", c!"-2001", c!"2002", c!"-2002", c!"2003", c!"-2003", c!"2004", c!"-2004", c!"2005", c!"-2005",
   c!"2006", c!"-2006", c!"2007", c!"-2007", c!"2008", c!"-2008", c!"2009", c!"-2009", c!"2010", c!"-2010",
   c!"2011", c!"-2011", c!"2012", c!"-2012", c!"2013", c!"-2013", c!"2014", c!"-2014", c!"2015", c!"-2015",
   c!"2016", c!"-2016", c!"2017", c!"-2017", c!"2018", c!"-2018", c!"2019", c!"-2019", c!"2020", c!"-2020",
   c!"2021", c!"-2021", c!"2022", c!"-2022", c!"2023", c!"-2023", c!"2024", c!"-2024", c!"2025", c!"-2025",
   c!"2026", c!"-2026", c!"2030", c!"-2030", c!"2031", c!"-2031", c!"2032", c!"-2032", c!"2033", c!"-2033",
   c!"2034", c!"-2034",
   c!"3000", c!"4000", c!"5000", c!"9000"]

/-- A member of the enumeration: its place in `codes`. -/
abbrev EventType := Fin codes.length

/-- The value of a member, which is what `to_mcnp` returns (ptrac/_keyword.py:9-17). -/
def EventType.code (e : EventType) : Str := codes[e]

/-- `EventType.from_mcnp` (ptrac/history/event/j/EventType.py:78-97): the enumeration is searched for
the value. -/
def eventType (s : Str) : Res EventType :=
  match (List.finRange codes.length).find? (fun e => decide (EventType.code e = s)) with
  | some e => .ok e
  | none => .error .ptrac

/-! ## Fixed-width fields -/

/-- `(.{w1})(.{w2})…`, groups numbered from `n`. -/
def fieldsRe : Nat → List Nat → Re
  | _, [] => .eps
  | n, w :: ws => .seq (.grp n (Re.rep w .dot)) (fieldsRe (n + 1) ws)

/-- `\A\s(.{w1})(.{w2})…\Z` -/
def lineRe (ws : List Nat) : Re := .seq .bos (.seq .space (.seq (fieldsRe 1 ws) .eos))

/-- `tokens[n]` of a group that took part. -/
def tok (m : List (Nat × Str)) (n : Nat) : Str := (cap m n).getD []

/-- The number types of the fields. -/
inductive NumTy where
  | int
  | real
deriving DecidableEq, Repr

/-- An `Integer` or `Real` object. -/
inductive Num where
  | int (v : IntVal)
  | real (v : RealVal)
deriving DecidableEq, Repr

/-- `types.Integer.from_mcnp` / `types.Real.from_mcnp` -/
def NumTy.parse : NumTy → Str → Res Num
  | .int, s => (intParse s).map .int
  | .real, s => (realParse s).map .real

/-- `str(x)` -/
def Num.str : Num → Str
  | .int v => v.str
  | .real v => v.str

/-- Fields `n`, `n + 1`, … one after the other. -/
def readNums (m : List (Nat × Str)) : Nat → List NumTy → Res (List Num)
  | _, [] => .ok []
  | n, t :: ts => do
    let v ← t.parse (tok m n)
    let vs ← readNums m (n + 1) ts
    .ok (v :: vs)

/-! ## J lines -/

/-- The types of the fields after the event type
(J_0.py:87-90, J_1.py:94-98, J_2.py:94-98, J_3.py:101-106, J_4.py:94-98, J_5.py:102-107, J_6.py:101-106,
J_7.py:108-114, all in ptrac/history/event). -/
def jTypes : List (List NumTy) :=
  [[.int, .int, .int, .int],
   [.int, .real, .int, .int, .int],
   [.int, .real, .int, .int, .int],
   [.int, .int, .int, .int, .int, .int],
   [.int, .real, .int, .int, .int],
   [.int, .int, .int, .int, .int, .int],
   [.int, .real, .int, .int, .int, .int],
   [.int, .int, .int, .int, .int, .int, .int]]

/-- A `J_k` object: the class number, the next event type and the numbers. -/
structure JLine where
  layout : Fin 8
  next : EventType
  nums : List Num
deriving DecidableEq

/-- The field types of class `J_k`. -/
def jTys (k : Fin 8) : List NumTy := jTypes[k.val]'(k.isLt)

/-- `J_k._REGEX` (line 22 of J_0.py, 23 to 25 of the others). -/
def jRe (k : Fin 8) : Re := lineRe (10 :: (jTys k).map (fun _ => 10))

/-- `J_k.from_mcnp` (J_0.py:67-98 and the same function of the others). -/
def jParse (k : Fin 8) (s : Str) : Res JLine :=
  match reMatch (jRe k) s with
  | none => .error .ptrac
  | some m => do
    let e ← eventType (strip (tok m 1))
    let vs ← readNums m 2 (jTys k)
    .ok ⟨k, e, vs⟩

/-- `J_k.to_mcnp` (J_0.py:100-108 and the same function of the others). -/
def JLine.str (j : JLine) : Str := ' ' :: (rjust 10 j.next.code ++ j.nums.flatMap (fun v => rjust 10 v.str))

/-! ## `Real.__format__` -/

/-- `f'{e:+03}'`: the sign and at least two digits. -/
def expFmt (e : Int) : Str := (if e < 0 then '-' else '+') :: zfill 2 (natStr e.natAbs)

/-- `Decimal.as_tuple()` digits; those of infinity are `(0,)`. -/
def digitsOf : DecVal → Str
  | .fin d => natStr d.coeff
  | .inf _ => ['0']
  | .nan _ _ g => g

/-- `Decimal.as_tuple()` sign -/
def signOf : DecVal → Bool
  | .fin d => d.neg
  | .inf n => n
  | .nan n _ _ => n

/-- `Decimal.adjusted()`, `0` for special values -/
def adjOf : DecVal → Int
  | .fin d => d.adjusted
  | _ => 0

/-- `Real.__format__` with the specification `W.Pa` (types/Real.py:137-155).  Shorthand values have no
`adjusted`. -/
def realFmt (w p : Nat) : RealVal → Res Str
  | .hor _ => .error .attribute
  | .num v =>
    let e := adjOf v + p
    let s := if signOf v then '-' else ' '
    let d := (digitsOf v).take (w - p + 1)
    if d = ['0'] then .ok (s :: '0' :: '.' :: (List.replicate w '0' ++ c!"E+00"))
    else
      let d := List.replicate p '0' ++ d
      .ok (s :: (d.take 1 ++ '.' :: (d.drop 1 ++ 'E' :: expFmt e)))

/-! ## P lines -/

/-- Numbers of fields of `P_0` and `P_1`. -/
def pSizes : List Nat := [3, 9]

/-- A `P_k` object. -/
structure PLine where
  layout : Fin 2
  nums : List RealVal
deriving DecidableEq

def pSize (k : Fin 2) : Nat := pSizes[k.val]'(k.isLt)

/-- `P_k._REGEX` (P_0.py:19, P_1.py:25) -/
def pRe (k : Fin 2) : Re := lineRe (List.replicate (pSize k) 13)

/-- Fields `n`, `n + 1`, … as reals. -/
def readReals (m : List (Nat × Str)) : Nat → Nat → Res (List RealVal)
  | _, 0 => .ok []
  | n, k + 1 => do
    let v ← realParse (tok m n)
    let vs ← readReals m (n + 1) k
    .ok (v :: vs)

/-- `P_k.from_mcnp` (P_0.py:52-79, P_1.py:94-133) -/
def pParse (k : Fin 2) (s : Str) : Res PLine :=
  match reMatch (pRe k) s with
  | none => .error .ptrac
  | some m => do
    let vs ← readReals m 1 (pSize k)
    .ok ⟨k, vs⟩

/-- All of a list of printed numbers, or the first exception. -/
def fmtAll (w p : Nat) : List RealVal → Res (List Str)
  | [] => .ok []
  | v :: vs => do
    let t ← realFmt w p v
    let ts ← fmtAll w p vs
    .ok (t :: ts)

/-- `P_k.to_mcnp` (P_0.py:81-93, P_1.py:135-153): two blanks and the numbers, one blank apart. -/
def PLine.str (l : PLine) : Res Str := do
  let ts ← fmtAll 5 1 l.nums
  .ok (' ' :: ' ' :: join [' '] ts)

/-! ## I lines -/

/-- An `I` object (ptrac/history/I.py:23-52). -/
structure ILine where
  nps : IntVal
  event : EventType
  number : Option IntVal
  tfc : Option RealVal
deriving DecidableEq

/-- `I._REGEX` (ptrac/history/I.py:21) -/
def iRe : Re :=
  .seq .bos (.seq .space (.seq (.grp 1 (Re.rep 10 .dot)) (.seq (.grp 2 (Re.rep 10 .dot))
    (.seq (.opt true (.grp 3 (Re.rep 10 .dot))) (.seq (.opt true (.grp 4 (Re.rep 13 .dot))) .eos)))))

/-- `f(x) if x else None` -/
def optParse {α : Type} (f : Str → Res α) : Option Str → Res (Option α)
  | none => .ok none
  | some s => if s = [] then .ok none else (f s).map some

/-- `I.from_mcnp` (ptrac/history/I.py:54-83) -/
def iParse (s : Str) : Res ILine :=
  match reMatch iRe s with
  | none => .error .ptrac
  | some m => do
    let nps ← intParse (tok m 1)
    let e ← eventType (strip (tok m 2))
    let number ← optParse intParse (cap m 3)
    let tfc ← optParse realParse (cap m 4)
    .ok ⟨nps, e, number, tfc⟩

/-- `bool(Integer)` (types/Integer.py:116-117); shorthand values have no `__bool__` attribute. -/
def intTrue : IntVal → Res Bool
  | .num n => .ok (decide (n ≠ 0))
  | .hor _ => .error .attribute

/-- `bool(Real)` (types/Real.py:116-117) -/
def realTrue : RealVal → Res Bool
  | .num (.fin d) => .ok (decide (d.coeff ≠ 0))
  | .num _ => .ok true
  | .hor _ => .error .attribute

/-- The last column (ptrac/history/I.py:93-96): nothing if unset or false. -/
def tfcText : Option RealVal → Res Str
  | none => .ok []
  | some v => do
    let b ← realTrue v
    if b then
      let t ← realFmt 5 0 v
      .ok (' ' :: t)
    else .ok []

/-- The third column (ptrac/history/I.py:98-101): nothing if unset or false. -/
def numberText : Option IntVal → Res Str
  | none => .ok []
  | some v => do
    let b ← intTrue v
    .ok (if b then rjust 10 v.str else [])

/-- `I.to_mcnp` (ptrac/history/I.py:85-103) -/
def ILine.str (l : ILine) : Res Str := do
  let tfc ← tfcText l.tfc
  let number ← numberText l.number
  .ok (' ' :: (rjust 10 l.nps.str ++ rjust 10 l.event.code ++ number ++ tfc))

end Ptrac
