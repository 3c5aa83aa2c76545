import Verif.Inp.DataUnion
/-!
# Which cards fail only as documented

The groups of data cards for C86.
-/
namespace Inp
open Py Types

/-- `InpError` and `TypesError` (src/pymcnp/errors.py). -/
def toldErrs : List Err := [.inp, .types]

/-- Also the `TypeError` and `AttributeError` of a test on a shorthand. -/
def shorthandErrs : List Err := [.inp, .types, .typeErr, .attribute]

/-- Also the `ArithmeticError` of a difference of coordinates. -/
def planeErrs : List Err := [.inp, .types, .typeErr, .attribute, .arith]

/-- Also those of an infinite number, an empty text or a failed assertion. -/
def fullErrs : List Err := [.inp, .types, .typeErr, .attribute, .overflow, .value, .index, .assertion, .unmodelled]

/-- The data cards all of whose entries are read and checked without another exception than the documented ones, whatever
the text. -/
def quietCards : List Cls :=
  [Tab.Area, Tab.Awtab, Tab.Bbrem, Tab.Bflcl, Tab.Bfld, Tab.C, Tab.Cf, Tab.Cm, Tab.Cosy, Tab.Cut, Tab.Dd, Tab.De,
   Tab.Df_0, Tab.Dm, Tab.Drxs, Tab.Ds_0, Tab.Ds_1, Tab.Ds_2, Tab.Ds_3, Tab.Dxc, Tab.Dxt, Tab.E, Tab.Elpt, Tab.Em,
   Tab.Embdb, Tab.Embdf, Tab.Embeb, Tab.Embem, Tab.Embtb, Tab.Embtm, Tab.Esplt, Tab.Ext, Tab.F_0, Tab.F_1, Tab.F_2,
   Tab.F_3, Tab.Fc, Tab.Fcl, Tab.Fill, Tab.Fm, Tab.Fq, Tab.Fs, Tab.Ft, Tab.Fu, Tab.Histp, Tab.Idum, Tab.Imp,
   Tab.Kpert, Tab.Ksen, Tab.Ksrc, Tab.Lat, Tab.Lca, Tab.Lcb, Tab.M_1, Tab.Mesh, Tab.Mode, Tab.Mphys, Tab.Mt, Tab.Mx,
   Tab.Nonu, Tab.Notrn, Tab.Otfdb, Tab.Pd, Tab.Pikmt, Tab.Prdmp, Tab.Print, Tab.Pwt, Tab.Rdum, Tab.Sb_0, Tab.Sc,
   Tab.Sd, Tab.Sf, Tab.Si_0, Tab.Si_1, Tab.Si_2, Tab.Sp_0, Tab.Spdtl, Tab.Stop, Tab.T_0, Tab.T_1, Tab.Talnp, Tab.Tf_0,
   Tab.Tf_1, Tab.Thtme, Tab.Tm, Tab.Tmp, Tab.Totnu, Tab.Tr_0, Tab.Tr_1, Tab.Tr_2, Tab.Tr_3, Tab.Tr_4, Tab.Tropt,
   Tab.Tsplt, Tab.U, Tab.Unc, Tab.Var, Tab.Void, Tab.Vol, Tab.Wwe, Tab.Wwge, Tab.Wwgt, Tab.Wwn, Tab.Wwt, Tab.Xs,
   Tab.Za, Tab.Zb, Tab.Zc, Tab.Zd, Tab.Comment]

/-- The data cards with a test on numbers that fails on a shorthand. -/
def plainCards : List Cls :=
  [Tab.Act, Tab.Cosyp, Tab.Ctme, Tab.Dawwg, Tab.Dbcn, Tab.Df_1, Tab.Embed, Tab.Embee, Tab.Fic, Tab.Fip, Tab.Fir,
   Tab.Fmesh, Tab.Fmult, Tab.Hsrc, Tab.Kcode, Tab.Kopts, Tab.Lcc, Tab.Lea, Tab.Leb, Tab.Lost, Tab.M_0, Tab.Mgopt,
   Tab.Mplot, Tab.Nps, Tab.Pert, Tab.Phys_0, Tab.Phys_1, Tab.Phys_3, Tab.Phys_4, Tab.Ptrac, Tab.Rand, Tab.Sb_1,
   Tab.Sdef, Tab.Sp_1, Tab.Ssr, Tab.Ssw, Tab.Uran, Tab.Wwg, Tab.Wwp]

/-- The data cards that fail in other ways too. -/
def oddCards : List Cls :=
  [Tab.F_4, Tab.Files, Tab.Phys_2]

end Inp
