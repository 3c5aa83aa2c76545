/-!
# Python `str` fragment

Strings are lists of characters.  Only the pieces of the Python standard
library used by /repo are modelled: whitespace classification, `str.strip`,
`str.split(sep)`, `sep.join`, decimal digit strings and ASCII case folding.

Simplification: digit and case predicates are ASCII only.
-/
namespace Py

abbrev Str := List Char

/-- `str.isspace` / regex `\s` on `str` patterns (Python stdlib). -/
def isSpace (c : Char) : Bool :=
  let n := c.toNat
  (9 ≤ n && n ≤ 13) || (28 ≤ n && n ≤ 32) || n == 0x85 || n == 0xa0 || n == 0x1680 ||
  (0x2000 ≤ n && n ≤ 0x200a) || n == 0x2028 || n == 0x2029 || n == 0x202f ||
  n == 0x205f || n == 0x3000

/-- regex `\d` (ASCII digits only). -/
def isDigit (c : Char) : Bool := '0' ≤ c && c ≤ '9'

/-- ASCII lower case of one character. -/
def lowerC (c : Char) : Char :=
  if 'A' ≤ c && c ≤ 'Z' then Char.ofNat (c.toNat + 32) else c

/-- `str.lower()` (ASCII). -/
def lower (s : Str) : Str := s.map lowerC

/-- `str.lstrip()` -/
def lstrip (s : Str) : Str := s.dropWhile isSpace

/-- `str.rstrip()` -/
def rstrip (s : Str) : Str := (s.reverse.dropWhile isSpace).reverse

/-- `str.strip()` -/
def strip (s : Str) : Str := rstrip (lstrip s)

/-- `s.split(c)` for a one-character separator: always at least one piece. -/
def splitC (c : Char) : Str → List Str
  | [] => [[]]
  | x :: xs =>
    if x = c then [] :: splitC c xs
    else match splitC c xs with
      | [] => [[x]]
      | w :: ws => (x :: w) :: ws

/-- `sep.join(parts)` -/
def join (sep : Str) : List Str → Str
  | [] => []
  | [w] => w
  | w :: ws => w ++ sep ++ join sep ws

/-- Character of a decimal digit. -/
def digitChar (d : Nat) : Char := Char.ofNat (48 + d)

/-- Value of a decimal digit character. -/
def digitVal (c : Char) : Nat := c.toNat - 48

def natStrAux : Nat → Nat → Str
  | 0, _ => []
  | f + 1, n => if n < 10 then [digitChar n] else natStrAux f (n / 10) ++ [digitChar (n % 10)]

/-- `str(n)` for a natural number. -/
def natStr (n : Nat) : Str := natStrAux (n + 1) n

/-- Value of a digit string (`int(s)` for `s` consisting of digits). -/
def strNat (s : Str) : Nat := s.foldl (fun a c => a * 10 + digitVal c) 0

/-- `str(n)` for an integer. -/
def intStr : Int → Str
  | Int.ofNat n => natStr n
  | Int.negSucc n => '-' :: natStr (n + 1)

/-- `f'{n:0w}'` for a natural number: zero padding on the left. -/
def zfill (w : Nat) (s : Str) : Str := List.replicate (w - s.length) '0' ++ s

/-- `f'{s:>w}'`: blank padding on the left. -/
def rjust (w : Nat) (s : Str) : Str := List.replicate (w - s.length) ' ' ++ s

end Py
