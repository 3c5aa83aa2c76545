import Verif.Py.Str
/-! # Notation for character lists

`c!"abc"` is `['a', 'b', 'c']`, written out so that the kernel need not decode a string literal. -/
namespace Py

open Lean in
/-- `c!"abc"` expands to `['a', 'b', 'c']`. -/
macro:max "c!" s:str : term => do
  let cs := s.getString.toList.toArray.map (fun c => Syntax.mkCharLit c)
  `(([$cs,*] : Str))

example : c!"a b" = ['a', ' ', 'b'] := rfl

end Py
