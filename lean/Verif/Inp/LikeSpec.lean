import Verif.Inp.OptionSpec
import Verif.Inp.TableCards
/-!
# Reading a `like` card entry by entry (specification)
-/
namespace Inp
open Py Types

/-- The options of a `like` card (src/pymcnp/inp/like/__init__.py:3-33). -/
def likeOptions : List Cls :=
  [Tab.like_Imp, Tab.like_Vol, Tab.like_Pwt, Tab.like_Ext, Tab.like_Fcl, Tab.like_Wwn, Tab.like_Dxc, Tab.like_Nonu,
   Tab.like_Pd, Tab.like_U, Tab.like_Trcl_1, Tab.like_Trcl_2, Tab.like_Trcl_3, Tab.like_Trcl_4, Tab.like_Trcl_5,
   Tab.like_Trcl_0, Tab.like_Lat, Tab.like_Mat, Tab.like_Fill_0, Tab.like_Fill_1, Tab.like_Fill_2, Tab.like_Fill_3,
   Tab.like_Fill_4, Tab.like_Fill_5, Tab.like_Fill_6, Tab.like_Elpt, Tab.like_Rho, Tab.like_Tmp, Tab.like_Cosy,
   Tab.like_Bflcl, Tab.like_Unc]

/-- The cell with number `n` that is like cell `m` but for the options `os`. -/
def readLike (n m : Str) (os : List (Cls × Opt)) : Res Val :=
  match intParse n with
  | .error e => .error e
  | .ok nv =>
    match intParse m with
    | .error e => .error e
    | .ok mv =>
      match os with
      | [] => Tab.Like.mk' [.sc (.int nv), .sc (.int mv), .none]
      | o :: os =>
        match readOwned (o :: os) with
        | .error e => .error e
        | .ok ys => Tab.Like.mk' [.sc (.int nv), .sc (.int mv), .tuple ys]

/-- The cell with number `n` that is like cell `m` but for the attribute `r` for its options. -/
def readLikeWith (n m : Str) (r : Res Val) : Res Val :=
  match intParse n with
  | .error e => .error e
  | .ok nv =>
    match intParse m with
    | .error e => .error e
    | .ok mv =>
      match r with
      | .error e => .error e
      | .ok ov => Tab.Like.mk' [.sc (.int nv), .sc (.int mv), ov]

end Inp
