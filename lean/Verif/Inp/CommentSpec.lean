import Verif.Inp.TableCards
/-!
# Reading a comment card word by word (specification)
-/
namespace Inp
open Py Types

/-- The comment with the words `ws`. -/
def readComment : List Str → Val
  | [] => .obj Tab.Comment.info [.none]
  | w :: ws => .obj Tab.Comment.info [.sc (.str (join [' '] (w :: ws)))]

end Inp
