import Verif.Inp.FeedSpec
import Verif.Inp.CardUnion
import Verif.Inp.TableAll
/-!
# The data cards

The union of src/pymcnp/Inp.py:12-165 (`Data`), and its groups of classes that share a keyword.
-/
namespace Inp
open Py Types

/-- The classes of `Data` in the order of the union (src/pymcnp/Inp.py:12-165). -/
def dataCards : List Cls :=
  [Tab.Act, Tab.Area, Tab.Awtab, Tab.Bbrem, Tab.Bflcl, Tab.Bfld, Tab.C, Tab.Cf, Tab.Cm, Tab.Cosy, Tab.Cosyp,
   Tab.Ctme, Tab.Cut, Tab.Dawwg, Tab.Dbcn, Tab.Dd, Tab.De, Tab.Df_0, Tab.Df_1, Tab.Dm, Tab.Drxs, Tab.Ds_0, Tab.Ds_1,
   Tab.Ds_2, Tab.Ds_3, Tab.Dxc, Tab.Dxt, Tab.E, Tab.Elpt, Tab.Em, Tab.Embdb, Tab.Embdf, Tab.Embeb, Tab.Embed,
   Tab.Embee, Tab.Embem, Tab.Embtb, Tab.Embtm, Tab.Esplt, Tab.Ext, Tab.F_0, Tab.F_1, Tab.F_2, Tab.F_3, Tab.F_4,
   Tab.Fc, Tab.Fcl, Tab.Fic, Tab.Files, Tab.Fill, Tab.Fip, Tab.Fir, Tab.Fm, Tab.Fmesh, Tab.Fmult, Tab.Fq, Tab.Fs,
   Tab.Ft, Tab.Fu, Tab.Histp, Tab.Hsrc, Tab.Idum, Tab.Imp, Tab.Kcode, Tab.Kopts, Tab.Kpert, Tab.Ksen, Tab.Ksrc,
   Tab.Lat, Tab.Lca, Tab.Lcb, Tab.Lcc, Tab.Lea, Tab.Leb, Tab.Lost, Tab.M_0, Tab.M_1, Tab.Mesh, Tab.Mgopt, Tab.Mode,
   Tab.Mphys, Tab.Mplot, Tab.Mt, Tab.Mx, Tab.Nonu, Tab.Notrn, Tab.Nps, Tab.Otfdb, Tab.Pd, Tab.Pert, Tab.Phys_0,
   Tab.Phys_1, Tab.Phys_2, Tab.Phys_3, Tab.Phys_4, Tab.Pikmt, Tab.Prdmp, Tab.Print, Tab.Ptrac, Tab.Pwt, Tab.Rand,
   Tab.Rdum, Tab.Sb_0, Tab.Sb_1, Tab.Sc, Tab.Sd, Tab.Sdef, Tab.Sf, Tab.Si_0, Tab.Si_1, Tab.Si_2, Tab.Sp_0, Tab.Sp_1,
   Tab.Spdtl, Tab.Ssr, Tab.Ssw, Tab.Stop, Tab.T_0, Tab.T_1, Tab.Talnp, Tab.Tf_0, Tab.Tf_1, Tab.Thtme, Tab.Tm,
   Tab.Tmp, Tab.Totnu, Tab.Tr_0, Tab.Tr_1, Tab.Tr_2, Tab.Tr_3, Tab.Tr_4, Tab.Tropt, Tab.Tsplt, Tab.U, Tab.Unc,
   Tab.Uran, Tab.Var, Tab.Void, Tab.Vol, Tab.Wwe, Tab.Wwg, Tab.Wwge, Tab.Wwgt, Tab.Wwn, Tab.Wwp, Tab.Wwt, Tab.Xs,
   Tab.Za, Tab.Zb, Tab.Zc, Tab.Zd, Tab.Comment]

/-- The keyword of a card, without the particle: the classes of one card share it (`tr` for `Tr_0`, …, `Tr_4`); comments
have none. -/
def Cls.word (c : Cls) : Str := c.info.kw.takeWhile (· != ':')

/-- The class finds its card in the text: the pattern matches (src/pymcnp/inp/_card.py:27-32). -/
def Cls.recognises (c : Cls) (s : Str) : Bool := (reMatch c.re (cardPreprocess s).1).isSome

/-- First letter of a text, after a star or plus sign. -/
def firstLetter (s : Str) : Option Char := (s.dropWhile (fun c => c == '*' || c == '+')).head?

/-- First letter of the texts of a class (`c` for comments). -/
def Cls.initial (c : Cls) : Char := c.info.kw.head?.getD 'c'

/-- Every text of the class begins with its letter. -/
def Cls.begun (c : Cls) : Bool := c.pat.firsts.all (fun x => firstLetter x.1 == some c.initial)

/-- Classes with different keywords are apart. -/
def wordsApart (cs : List Cls) : Bool :=
  cs.all (fun c => cs.all (fun d => c.initial != d.initial || c.word == d.word || c.pat.apart d.pat || d.pat.apart c.pat))

end Inp
