import Verif.Types.Number
/-!
# Scalars: `types/Zaid.py`, `types/Distribution.py`, `types/Index.py`,
`types/Substance.py`, `types/Designator.py`, `types/String.py`
-/
namespace Types
open Py

/-- A `Zaid` object (types/Zaid.py l.8-45). -/
structure Zaid where
  z : Nat
  a : Nat
  abx : Option Str
deriving DecidableEq, Repr

/-- `Zaid.__init__`, types/Zaid.py l.20-45 (`None` arguments are not
representable; numbers are Python integers). -/
def mkZaid (z a : Int) (abx : Option Str) : Res Zaid :=
  if ¬ (0 ≤ z ∧ z ≤ 999) then .error .types
  else if ¬ (0 ≤ a ∧ a ≤ 999) then .error .types
  else .ok ⟨z.toNat, a.toNat, abx⟩

/-- `\d{1,3}` -/
def d13 : Re := .seq .digit (.opt true (.seq .digit (.opt true .digit)))

/-- Pattern `\A(\d{1,3})(\d\d\d)(?:[.](\S+))?\Z`, types/Zaid.py l.18 -/
def zaidRe : Re :=
  .seq .bos (.seq (.grp 1 d13) (.seq (.grp 2 (.seq .digit (.seq .digit .digit)))
    (.seq (.opt true (.seq (.chr '.') (.grp 3 (.plus true .nonspace)))) .eos)))

/-- `Zaid.from_mcnp`, types/Zaid.py l.47-67 -/
def zaidParse (s : Str) : Res Zaid :=
  match reMatch zaidRe s with
  | none => .error .types
  | some m =>
    match cap m 1, cap m 2 with
    | some z, some a => mkZaid (strNat z) (strNat a) (cap m 3)
    | _, _ => .error .typeErr

/-- `Zaid.to_mcnp`, types/Zaid.py l.69-80 (`if self.abx` is false on `''`) -/
def Zaid.str (x : Zaid) : Str :=
  match x.abx with
  | some (c :: cs) => zfill 3 (natStr x.z) ++ zfill 3 (natStr x.a) ++ '.' :: c :: cs
  | _ => zfill 3 (natStr x.z) ++ zfill 3 (natStr x.a)

/-- `Distribution.__init__`, types/Distribution.py l.20-38; a distribution is its number. -/
def mkDist (n : Int) : Res Nat :=
  if 0 ≤ n ∧ n ≤ 999 then .ok n.toNat else .error .types

/-- Pattern of `Distribution.from_mcnp`, types/Distribution.py l.55:
`\A(?:[dD](\d|\d\d|\d\d\d))|(?:0)\Z` (the anchors belong to one alternative each). -/
def distRe : Re :=
  .alt
    (.seq .bos (.seq (.cls (fun c => c == 'd' || c == 'D'))
      (.grp 1 (.alt .digit (.alt (.seq .digit .digit) (.seq .digit (.seq .digit .digit)))))))
    (.seq (.chr '0') .eos)

/-- `Distribution.from_mcnp`, types/Distribution.py l.40-62 -/
def distParse (s : Str) : Res Nat :=
  match reMatch distRe s with
  | none => .error .types
  | some m =>
    match cap m 1 with
    | some ds =>
      match intParse ds with
      | .ok (.num n) => mkDist n
      | .ok (.hor _) => .error .typeErr
      | .error e => .error e
    | none => mkDist 0

/-- `Distribution.to_mcnp`, types/Distribution.py l.64-72 -/
def distStr (n : Nat) : Str := 'd' :: natStr n

/-- An `Index` object (types/Index.py l.8-40): bounds are plain integers. -/
structure Index where
  lower : Int
  upper : Int
deriving DecidableEq, Repr

/-- Pattern `\A(\S+):(\S+)\Z`, types/Index.py l.17 -/
def indexRe : Re :=
  .seq .bos (.seq (.grp 1 (.plus true .nonspace)) (.seq (.chr ':')
    (.seq (.grp 2 (.plus true .nonspace)) .eos)))

/-- `Index.from_mcnp`, types/Index.py l.42-66.  A bound that is a shorthand is
kept by the code as a shorthand object; that case is `unmodelled`. -/
def indexParse (s : Str) : Res Index :=
  match reMatch indexRe s with
  | none => .error .types
  | some m =>
    match cap m 1, cap m 2 with
    | some l, some u =>
      match intParse l with
      | .error e => .error e
      | .ok lv =>
        match intParse u with
        | .error e => .error e
        | .ok uv =>
          match lv, uv with
          | .num a, .num b => .ok ⟨a, b⟩
          | _, _ => .error .unmodelled
    | _, _ => .error .typeErr

/-- `Index.to_mcnp`, types/Index.py l.68-76 -/
def Index.str (i : Index) : Str := intStr i.lower ++ ':' :: intStr i.upper

/-- A `Substance` object (types/Substance.py l.9-43). -/
structure Substance where
  zaid : Zaid
  ratio : RealVal
deriving DecidableEq, Repr

/-- Pattern `\A(\S+) (\S+)\Z`, types/Substance.py l.18 -/
def substRe : Re :=
  .seq .bos (.seq (.grp 1 (.plus true .nonspace)) (.seq (.chr ' ')
    (.seq (.grp 2 (.plus true .nonspace)) .eos)))

/-- `Substance.from_mcnp`, types/Substance.py l.45-69 -/
def substParse (s : Str) : Res Substance :=
  match reMatch substRe s with
  | none => .error .types
  | some m =>
    match cap m 1, cap m 2 with
    | some z, some w =>
      match zaidParse z with
      | .error e => .error e
      | .ok zv =>
        match realParse w with
        | .error e => .error e
        | .ok wv => .ok ⟨zv, wv⟩
    | _, _ => .error .typeErr

/-- `Substance.to_mcnp`, types/Substance.py l.71-79 -/
def Substance.str (x : Substance) : Str := x.zaid.str ++ ' ' :: x.ratio.str

/-- The character class of types/Designator.py l.17 under `re.IGNORECASE`:
the listed characters plus the range `_`-`~` (code points 95 to 126, in which
all lower-case letters lie), and both cases of letters. -/
def desigC (c : Char) : Bool :=
  "|!<>+/*?%^#@".toList.contains c || (decide (95 ≤ c.toNat) && decide (c.toNat ≤ 126)) ||
    (decide (65 ≤ c.toNat) && decide (c.toNat ≤ 90))

/-- Pattern of types/Designator.py l.17: particles separated by commas. -/
def desigRe : Re :=
  .seq .bos (.seq (.grp 1 (.seq (.cls desigC) (.star true (.seq (.chr ',') (.cls desigC))))) .eos)

/-- `Designator.from_mcnp`, types/Designator.py l.38-58: the whole match is kept. -/
def desigParse (s : Str) : Res Str :=
  match reMatch desigRe s with
  | none => .error .types
  | some m =>
    match cap m 0 with
    | some t => .ok t
    | none => .error .typeErr

/-- `String.from_mcnp`, types/String.py l.38-52: no check at all. -/
def stringParse (s : Str) : Res Str := .ok s

end Types
