import Verif.Inp.Card
import Verif.Inp.DataUnion
/-!
# Letter case (specification)
-/
namespace Inp
open Py Types

/-- The text goes on like the exponent of a number. -/
def expStart : Str → Bool
  | [] => false
  | c :: _ => isDigit c || c == '+' || c == '-' || c == '_'

/-- Two texts that differ in the case of letters only; if `strict`, an `e` before a digit, a sign or an underscore is written alike. -/
def RecasedIf (strict : Bool) : Str → Str → Prop
  | [], [] => True
  | c :: s, d :: t => lowerC c = lowerC d ∧ (c ≠ d → lowerC c = 'e' → strict = true → expStart s = false) ∧ RecasedIf strict s t
  | _, _ => False

instance instDecidableRecasedIf (strict : Bool) : (s t : Str) → Decidable (RecasedIf strict s t)
  | [], [] => isTrue trivial
  | c :: s, d :: t =>
    have := instDecidableRecasedIf strict s t
    by unfold RecasedIf; infer_instance
  | [], _ :: _ => isFalse (fun h => h)
  | _ :: _, [] => isFalse (fun h => h)

/-- Two texts that differ in the case of letters only, an `e` before a digit, a sign or an underscore being written alike. -/
abbrev Recased : Str → Str → Prop := RecasedIf true

/-- The first characters are the same, or no `e` that an exponent follows. -/
def FirstAlike : Str → Str → Prop
  | c :: s, d :: _ => c ≠ d → lowerC c = 'e' → expStart s = false
  | _, _ => True

instance instDecidableFirstAlike : (s t : Str) → Decidable (FirstAlike s t)
  | c :: s, d :: t => by unfold FirstAlike; infer_instance
  | [], _ => isTrue (by unfold FirstAlike; trivial)
  | _ :: _, [] => isTrue trivial

/-- Two words that differ in the case of letters only, the `e` of a word such as `e5` being written alike. -/
def SameWord (s t : Str) : Prop := lower s = lower t ∧ FirstAlike s t

instance (s t : Str) : Decidable (SameWord s t) := by unfold SameWord; infer_instance

/-- Word by word. -/
def SameWords : List Str → List Str → Prop
  | [], [] => True
  | x :: l, y :: m => SameWord x y ∧ SameWords l m
  | _, _ => False

instance instDecidableSameWords : (l m : List Str) → Decidable (SameWords l m)
  | [], [] => isTrue trivial
  | x :: l, y :: m =>
    have := instDecidableSameWords l m
    by unfold SameWords; infer_instance
  | [], _ :: _ => isFalse (fun h => h)
  | _ :: _, [] => isFalse (fun h => h)

/-- A nuclide with its library written in lower case. -/
def _root_.Types.Zaid.low (z : Zaid) : Zaid := ⟨z.z, z.a, z.abx.map lower⟩

/-- The value with texts, particles and libraries in lower case; numbers stay. -/
def Sc.low : Sc → Sc
  | .str s => .str (lower s)
  | .desig s => .desig (lower s)
  | .zaid z => .zaid z.low
  | .subst x => .subst ⟨x.zaid.low, x.ratio⟩
  | x => x

mutual
/-- The value with all texts, particles and libraries in lower case; numbers stay. -/
def Val.low : Val → Val
  | .none => .none
  | .sc s => .sc s.low
  | .tuple l => .tuple (Val.lows l)
  | .obj i l => .obj i (Val.lows l)
/-- All values of a list. -/
def Val.lows : List Val → List Val
  | [] => []
  | v :: l => v.low :: Val.lows l
end

/-- What `from_mcnp` of a class gives, texts in lower case: the exception, or the card and its comments. -/
def outcome (c : Cls) (s : Str) : Res (Val × List Str) := (cardParse c s).map (fun p => (p.1.low, p.2.map lower))

/-- The data cards but `F_1`, `F_2` and `Totnu`, which compare an entry with a lower-case word, and the cards of cells and surfaces. -/
def caseCards : List Cls :=
  [Tab.Area, Tab.Awtab, Tab.Bbrem, Tab.Bflcl, Tab.Bfld, Tab.C, Tab.Cf, Tab.Cm, Tab.Cosy, Tab.Cut, Tab.Dd, Tab.De,
   Tab.Df_0, Tab.Dm, Tab.Drxs, Tab.Ds_0, Tab.Ds_1, Tab.Ds_2, Tab.Ds_3, Tab.Dxc, Tab.Dxt, Tab.E, Tab.Elpt, Tab.Em,
   Tab.Embdb, Tab.Embdf, Tab.Embeb, Tab.Embem, Tab.Embtb, Tab.Embtm, Tab.Esplt, Tab.Ext, Tab.F_0, Tab.F_3, Tab.Fc,
   Tab.Fcl, Tab.Fill, Tab.Fm, Tab.Fq, Tab.Fs, Tab.Ft, Tab.Fu, Tab.Histp, Tab.Idum, Tab.Imp, Tab.Kpert, Tab.Ksen,
   Tab.Ksrc, Tab.Lat, Tab.Lca, Tab.Lcb, Tab.M_1, Tab.Mesh, Tab.Mode, Tab.Mphys, Tab.Mt, Tab.Mx, Tab.Nonu, Tab.Notrn,
   Tab.Otfdb, Tab.Pd, Tab.Pikmt, Tab.Prdmp, Tab.Print, Tab.Pwt, Tab.Rdum, Tab.Sb_0, Tab.Sc, Tab.Sd, Tab.Sf,
   Tab.Si_0, Tab.Si_1, Tab.Si_2, Tab.Sp_0, Tab.Spdtl, Tab.Stop, Tab.T_0, Tab.T_1, Tab.Talnp, Tab.Tf_0, Tab.Tf_1,
   Tab.Thtme, Tab.Tm, Tab.Tmp, Tab.Tr_0, Tab.Tr_1, Tab.Tr_2, Tab.Tr_3, Tab.Tr_4, Tab.Tropt, Tab.Tsplt, Tab.U,
   Tab.Unc, Tab.Var, Tab.Void, Tab.Vol, Tab.Wwe, Tab.Wwge, Tab.Wwgt, Tab.Wwn, Tab.Wwt, Tab.Xs, Tab.Za, Tab.Zb,
   Tab.Zc, Tab.Zd, Tab.Comment, Tab.Act, Tab.Cosyp, Tab.Ctme, Tab.Dawwg, Tab.Dbcn, Tab.Df_1, Tab.Embed, Tab.Embee,
   Tab.Fic, Tab.Fip, Tab.Fir, Tab.Fmesh, Tab.Fmult, Tab.Hsrc, Tab.Kcode, Tab.Kopts, Tab.Lcc, Tab.Lea, Tab.Leb,
   Tab.Lost, Tab.M_0, Tab.Mgopt, Tab.Mplot, Tab.Nps, Tab.Pert, Tab.Phys_0, Tab.Phys_1, Tab.Phys_3, Tab.Phys_4,
   Tab.Ptrac, Tab.Rand, Tab.Sb_1, Tab.Sdef, Tab.Sp_1, Tab.Ssr, Tab.Ssw, Tab.Uran, Tab.Wwg, Tab.Wwp, Tab.F_4,
   Tab.Files, Tab.Phys_2, Tab.Cell, Tab.Surface, Tab.Like]

end Inp
