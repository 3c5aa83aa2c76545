import Verif.Inp.Card
/-!
# Class table: options

One definition per class: `_KEYWORD`, `_ATTRS`, `_REGEX`, the conditions of the setters and the order in
which `__init__` calls them.  The final theorems check that each pattern, written out, is the text of the
source.
-/
namespace Inp.Tab
open Py Types

set_option maxRecDepth 20000

/-- src/pymcnp/inp/act/Fission.py:13-19; setter conditions: lines 65. -/
def act_Fission : Cls where
  info := ⟨"Fission", .option, c!"fission", ["kind"]⟩
  shape := .flat ⟨.no, c!"fission", .no, .no⟩ [⟨.ty (.base .str), .req⟩]
  attrs := [⟨"kind", (.base .str), false, (some (.or .isNone (.not (.lowIn ["none", "n,p,e,f,a", "all"]))))⟩]
  init := ["kind"]

/-- src/pymcnp/inp/act/Nonfiss.py:13-19; setter conditions: lines 65. -/
def act_Nonfiss : Cls where
  info := ⟨"Nonfiss", .option, c!"nonfiss", ["kind"]⟩
  shape := .flat ⟨.no, c!"nonfiss", .no, .no⟩ [⟨.ty (.base .str), .req⟩]
  attrs := [⟨"kind", (.base .str), false, (some (.or .isNone (.not (.lowIn ["none", "n,p,e,f,a", "all"]))))⟩]
  init := ["kind"]

/-- src/pymcnp/inp/act/Dn.py:13-19; setter conditions: lines 65. -/
def act_Dn : Cls where
  info := ⟨"Dn", .option, c!"dn", ["source"]⟩
  shape := .flat ⟨.no, c!"dn", .no, .no⟩ [⟨.ty (.base .str), .req⟩]
  attrs := [⟨"source", (.base .str), false, (some (.or .isNone (.not (.lowIn ["model", "library", "both", "prompt"]))))⟩]
  init := ["source"]

/-- src/pymcnp/inp/act/Dg.py:13-19; setter conditions: lines 65. -/
def act_Dg : Cls where
  info := ⟨"Dg", .option, c!"dg", ["source"]⟩
  shape := .flat ⟨.no, c!"dg", .no, .no⟩ [⟨.ty (.base .str), .req⟩]
  attrs := [⟨"source", (.base .str), false, (some (.or .isNone (.not (.lowIn ["line", "mg", "none"]))))⟩]
  init := ["source"]

/-- src/pymcnp/inp/act/Thresh.py:13-19; setter conditions: lines 67. -/
def act_Thresh : Cls where
  info := ⟨"Thresh", .option, c!"thresh", ["fraction"]⟩
  shape := .flat ⟨.no, c!"thresh", .no, .no⟩ [⟨.ty (.base .real), .req⟩]
  attrs := [⟨"fraction", (.base .real), false, (some (.or .isNone (.not (.and (.cmp .ge (0) 0) (.cmp .le (1) 0)))))⟩]
  init := ["fraction"]

/-- src/pymcnp/inp/act/Dnbais.py:13-19; setter conditions: lines 67. -/
def act_Dnbais : Cls where
  info := ⟨"Dnbais", .option, c!"dnbais", ["count"]⟩
  shape := .flat ⟨.no, c!"dnbais", .no, .no⟩ [⟨.ty (.base .int), .req⟩]
  attrs := [⟨"count", (.base .int), false, (some (.or .isNone (.not (.and (.cmp .ge (0) 0) (.cmp .le (10) 0)))))⟩]
  init := ["count"]

/-- src/pymcnp/inp/act/Nap.py:13-19; setter conditions: lines 67. -/
def act_Nap : Cls where
  info := ⟨"Nap", .option, c!"nap", ["count"]⟩
  shape := .flat ⟨.no, c!"nap", .no, .no⟩ [⟨.ty (.base .int), .req⟩]
  attrs := [⟨"count", (.base .int), false, (some (.or .isNone (.not (.cmp .ge (0) 0))))⟩]
  init := ["count"]

/-- src/pymcnp/inp/act/dneb/Bias.py:13-20; setter conditions: lines 70, 108. -/
def act_dneb_Bias : Cls where
  info := ⟨"Bias", .entry, c!"", ["weight", "energy"]⟩
  shape := .other (.seq (.grp (.ty (.base .real))) (.seq (.lits c!" ") (.grp (.ty (.base .real)))))
  attrs := [⟨"weight", (.base .real), false, (some .isNone)⟩,
    ⟨"energy", (.base .real), false, (some .isNone)⟩]
  init := ["weight", "energy"]

/-- dneb.Bias as an attribute type. -/
def T_act_dneb_Bias : Ty := act_dneb_Bias.asTy "dneb.Bias"

/-- src/pymcnp/inp/act/Dneb.py:14-20; setter conditions: lines 69. -/
def act_Dneb : Cls where
  info := ⟨"Dneb", .option, c!"dneb", ["biases"]⟩
  shape := .flat ⟨.no, c!"dneb", .no, .no⟩ [⟨.ty T_act_dneb_Bias, .many⟩]
  attrs := [⟨"biases", T_act_dneb_Bias, true, (some .isNone)⟩]
  init := ["biases"]

/-- src/pymcnp/inp/act/dgeb/Bias.py:13-20; setter conditions: lines 70, 108. -/
def act_dgeb_Bias : Cls where
  info := ⟨"Bias", .entry, c!"", ["weight", "energy"]⟩
  shape := .other (.seq (.grp (.ty (.base .real))) (.seq (.lits c!" ") (.grp (.ty (.base .real)))))
  attrs := [⟨"weight", (.base .real), false, (some .isNone)⟩,
    ⟨"energy", (.base .real), false, (some .isNone)⟩]
  init := ["weight", "energy"]

/-- dgeb.Bias as an attribute type. -/
def T_act_dgeb_Bias : Ty := act_dgeb_Bias.asTy "dgeb.Bias"

/-- src/pymcnp/inp/act/Dgeb.py:14-20; setter conditions: lines 69. -/
def act_Dgeb : Cls where
  info := ⟨"Dgeb", .option, c!"dgeb", ["biases"]⟩
  shape := .flat ⟨.no, c!"dgeb", .no, .no⟩ [⟨.ty T_act_dgeb_Bias, .many⟩]
  attrs := [⟨"biases", T_act_dgeb_Bias, true, (some .isNone)⟩]
  init := ["biases"]

/-- src/pymcnp/inp/act/Pecut.py:13-19; setter conditions: lines 67. -/
def act_Pecut : Cls where
  info := ⟨"Pecut", .option, c!"pecut", ["cutoff"]⟩
  shape := .flat ⟨.no, c!"pecut", .no, .no⟩ [⟨.ty (.base .real), .req⟩]
  attrs := [⟨"cutoff", (.base .real), false, (some .isNone)⟩]
  init := ["cutoff"]

/-- src/pymcnp/inp/act/Hlcut.py:13-19; setter conditions: lines 67. -/
def act_Hlcut : Cls where
  info := ⟨"Hlcut", .option, c!"hlcut", ["cutoff"]⟩
  shape := .flat ⟨.no, c!"hlcut", .no, .no⟩ [⟨.ty (.base .real), .req⟩]
  attrs := [⟨"cutoff", (.base .real), false, (some .isNone)⟩]
  init := ["cutoff"]

/-- src/pymcnp/inp/act/Sample.py:13-19; setter conditions: lines 65. -/
def act_Sample : Cls where
  info := ⟨"Sample", .option, c!"sample", ["setting"]⟩
  shape := .flat ⟨.no, c!"sample", .no, .no⟩ [⟨.ty (.base .str), .req⟩]
  attrs := [⟨"setting", (.base .str), false, (some (.or .isNone (.not (.lowIn ["correlate", "nonfiss_cor"]))))⟩]
  init := ["setting"]

/-- src/pymcnp/inp/act/_option.py:4 and src/pymcnp/inp/act/__init__.py (order of definition). -/
def T_act_ActOption : Ty := unionTy "act.ActOption" [act_Fission, act_Nonfiss, act_Dn, act_Dg, act_Thresh, act_Dnbais, act_Nap, act_Dneb, act_Dgeb, act_Pecut, act_Hlcut, act_Sample]

/-- src/pymcnp/inp/act/dgeb/_entry.py:4 and src/pymcnp/inp/act/dgeb/__init__.py (order of definition). -/
def T_act_dgeb_DgebEntry : Ty := unionTy "dgeb.DgebEntry" [act_dgeb_Bias]

/-- src/pymcnp/inp/act/dneb/_entry.py:4 and src/pymcnp/inp/act/dneb/__init__.py (order of definition). -/
def T_act_dneb_DnebEntry : Ty := unionTy "dneb.DnebEntry" [act_dneb_Bias]

/-- src/pymcnp/inp/bfld/Field.py:13-19; setter conditions: lines 67. -/
def bfld_Field : Cls where
  info := ⟨"Field", .option, c!"field", ["strength_gradient"]⟩
  shape := .flat ⟨.no, c!"field", .no, .no⟩ [⟨.ty (.base .real), .req⟩]
  attrs := [⟨"strength_gradient", (.base .real), false, (some .isNone)⟩]
  init := ["strength_gradient"]

/-- src/pymcnp/inp/bfld/Vec.py:13-19; setter conditions: lines 70. -/
def bfld_Vec : Cls where
  info := ⟨"Vec", .option, c!"vec", ["vector"]⟩
  shape := .flat ⟨.no, c!"vec", .no, .no⟩ [⟨.ty (.base .real), .many⟩]
  attrs := [⟨"vector", (.base .real), true, (some .isNone)⟩]
  init := ["vector"]

/-- src/pymcnp/inp/bfld/Maxdeflc.py:13-19; setter conditions: lines 67. -/
def bfld_Maxdeflc : Cls where
  info := ⟨"Maxdeflc", .option, c!"maxdeflc", ["angle"]⟩
  shape := .flat ⟨.no, c!"maxdeflc", .no, .no⟩ [⟨.ty (.base .real), .req⟩]
  attrs := [⟨"angle", (.base .real), false, (some .isNone)⟩]
  init := ["angle"]

/-- src/pymcnp/inp/bfld/Maxstep.py:13-19; setter conditions: lines 67. -/
def bfld_Maxstep : Cls where
  info := ⟨"Maxstep", .option, c!"maxstep", ["size"]⟩
  shape := .flat ⟨.no, c!"maxstep", .no, .no⟩ [⟨.ty (.base .real), .req⟩]
  attrs := [⟨"size", (.base .real), false, (some .isNone)⟩]
  init := ["size"]

/-- src/pymcnp/inp/bfld/Axs.py:13-19; setter conditions: lines 70. -/
def bfld_Axs : Cls where
  info := ⟨"Axs", .option, c!"axs", ["vector"]⟩
  shape := .flat ⟨.no, c!"axs", .no, .no⟩ [⟨.ty (.base .real), .many⟩]
  attrs := [⟨"vector", (.base .real), true, (some .isNone)⟩]
  init := ["vector"]

/-- src/pymcnp/inp/bfld/Ffedges.py:13-19; setter conditions: lines 70. -/
def bfld_Ffedges : Cls where
  info := ⟨"Ffedges", .option, c!"ffedges", ["numbers"]⟩
  shape := .flat ⟨.no, c!"ffedges", .no, .no⟩ [⟨.ty (.base .real), .many⟩]
  attrs := [⟨"numbers", (.base .real), true, (some .isNone)⟩]
  init := ["numbers"]

/-- src/pymcnp/inp/bfld/Refpnt.py:13-19; setter conditions: lines 70. -/
def bfld_Refpnt : Cls where
  info := ⟨"Refpnt", .option, c!"refpnt", ["point"]⟩
  shape := .flat ⟨.no, c!"refpnt", .no, .no⟩ [⟨.ty (.base .real), .many⟩]
  attrs := [⟨"point", (.base .real), true, (some .isNone)⟩]
  init := ["point"]

/-- src/pymcnp/inp/bfld/_option.py:4 and src/pymcnp/inp/bfld/__init__.py (order of definition). -/
def T_bfld_BfldOption : Ty := unionTy "bfld.BfldOption" [bfld_Field, bfld_Vec, bfld_Maxdeflc, bfld_Maxstep, bfld_Axs, bfld_Ffedges, bfld_Refpnt]

/-- src/pymcnp/inp/dd/Diagnostic.py:13-20; setter conditions: lines 70, 108. -/
def dd_Diagnostic : Cls where
  info := ⟨"Diagnostic", .entry, c!"", ["playing_setting", "printing_setting"]⟩
  shape := .other (.seq (.grp (.ty (.base .real))) (.seq (.lits c!" ") (.grp (.ty (.base .real)))))
  attrs := [⟨"playing_setting", (.base .real), false, (some .isNone)⟩,
    ⟨"printing_setting", (.base .real), false, (some .isNone)⟩]
  init := ["playing_setting", "printing_setting"]

/-- dd.Diagnostic as an attribute type. -/
def T_dd_Diagnostic : Ty := dd_Diagnostic.asTy "dd.Diagnostic"

/-- src/pymcnp/inp/dd/_entry.py:4 and src/pymcnp/inp/dd/__init__.py (order of definition). -/
def T_dd_DdEntry : Ty := unionTy "dd.DdEntry" [dd_Diagnostic]

/-- src/pymcnp/inp/df_1/Iu.py:13-19; setter conditions: lines 67. -/
def df_1_Iu : Cls where
  info := ⟨"Iu", .option, c!"iu", ["units"]⟩
  shape := .flat ⟨.no, c!"iu", .no, .no⟩ [⟨.ty (.base .int), .req⟩]
  attrs := [⟨"units", (.base .int), false, (some (.or .isNone (.not (.or .isJump (.inInts [1, 2])))))⟩]
  init := ["units"]

/-- src/pymcnp/inp/df_1/Fac.py:13-19; setter conditions: lines 67. -/
def df_1_Fac : Cls where
  info := ⟨"Fac", .option, c!"fac", ["normalization"]⟩
  shape := .flat ⟨.no, c!"fac", .no, .no⟩ [⟨.ty (.base .int), .req⟩]
  attrs := [⟨"normalization", (.base .int), false, (some (.or .isNone (.not (.or .isJump (.cmp .ge (-3) 0)))))⟩]
  init := ["normalization"]

/-- src/pymcnp/inp/df_1/Ic.py:13-19; setter conditions: lines 67. -/
def df_1_Ic : Cls where
  info := ⟨"Ic", .option, c!"ic", ["function"]⟩
  shape := .flat ⟨.no, c!"ic", .no, .no⟩ [⟨.ty (.base .int), .req⟩]
  attrs := [⟨"function", (.base .int), false, (some (.or .isNone (.not (.or .isJump (.inInts [10, 20, 31, 32, 33, 34, 35, 40, 99])))))⟩]
  init := ["function"]

/-- src/pymcnp/inp/df_1/Log.py:11-15. -/
def df_1_Log : Cls where
  info := ⟨"Log", .option, c!"log", []⟩
  shape := .flat ⟨.no, c!"log", .no, .no⟩ []
  attrs := []
  init := []

/-- src/pymcnp/inp/df_1/Lin.py:11-15. -/
def df_1_Lin : Cls where
  info := ⟨"Lin", .option, c!"lin", []⟩
  shape := .flat ⟨.no, c!"lin", .no, .no⟩ []
  attrs := []
  init := []

/-- src/pymcnp/inp/df_1/_option.py:4 and src/pymcnp/inp/df_1/__init__.py (order of definition). -/
def T_df_1_DfOption_1 : Ty := unionTy "df_1.DfOption_1" [df_1_Iu, df_1_Fac, df_1_Ic, df_1_Log, df_1_Lin]

/-- src/pymcnp/inp/ds_1/Variables.py:13-20; setter conditions: lines 70, 108. -/
def ds_1_Variables : Cls where
  info := ⟨"Variables", .entry, c!"", ["independent", "dependent"]⟩
  shape := .other (.seq (.grp (.ty (.base .real))) (.seq (.lits c!" ") (.grp (.ty (.base .real)))))
  attrs := [⟨"independent", (.base .real), false, (some .isNone)⟩,
    ⟨"dependent", (.base .real), false, (some .isNone)⟩]
  init := ["independent", "dependent"]

/-- ds_1.Variables as an attribute type. -/
def T_ds_1_Variables : Ty := ds_1_Variables.asTy "ds_1.Variables"

/-- src/pymcnp/inp/ds_1/_entry.py:4 and src/pymcnp/inp/ds_1/__init__.py (order of definition). -/
def T_ds_1_DsEntry_1 : Ty := unionTy "ds_1.DsEntry_1" [ds_1_Variables]

/-- src/pymcnp/inp/ds_2/Variables.py:13-20; setter conditions: lines 68, 106. -/
def ds_2_Variables : Cls where
  info := ⟨"Variables", .entry, c!"", ["independent", "dependent"]⟩
  shape := .other (.seq (.grp (.ty (.base .dist))) (.seq (.lits c!" ") (.grp (.ty (.base .real)))))
  attrs := [⟨"independent", (.base .dist), false, (some .isNone)⟩,
    ⟨"dependent", (.base .real), false, (some .isNone)⟩]
  init := ["independent", "dependent"]

/-- ds_2.Variables as an attribute type. -/
def T_ds_2_Variables : Ty := ds_2_Variables.asTy "ds_2.Variables"

/-- src/pymcnp/inp/ds_2/_entry.py:4 and src/pymcnp/inp/ds_2/__init__.py (order of definition). -/
def T_ds_2_DsEntry_2 : Ty := unionTy "ds_2.DsEntry_2" [ds_2_Variables]

/-- src/pymcnp/inp/dxt/Shell.py:13-23; setter conditions: lines 84, 122, 160, 198, 236. -/
def dxt_Shell : Cls where
  info := ⟨"Shell", .entry, c!"", ["x", "y", "z", "inner_radius", "outer_radius"]⟩
  shape := .other (.seq (.grp (.ty (.base .real))) (.seq (.lits c!" ") (.seq (.grp (.ty (.base .real))) (.seq (.lits c!" ") (.seq (.grp (.ty (.base .real))) (.seq (.lits c!" ") (.seq (.grp (.ty (.base .int))) (.seq (.lits c!" ") (.grp (.ty (.base .int)))))))))))
  attrs := [⟨"x", (.base .real), false, (some .isNone)⟩,
    ⟨"y", (.base .real), false, (some .isNone)⟩,
    ⟨"z", (.base .real), false, (some .isNone)⟩,
    ⟨"inner_radius", (.base .int), false, (some .isNone)⟩,
    ⟨"outer_radius", (.base .int), false, (some .isNone)⟩]
  init := ["x", "y", "z", "inner_radius", "outer_radius"]

/-- dxt.Shell as an attribute type. -/
def T_dxt_Shell : Ty := dxt_Shell.asTy "dxt.Shell"

/-- src/pymcnp/inp/dxt/_entry.py:4 and src/pymcnp/inp/dxt/__init__.py (order of definition). -/
def T_dxt_DxtEntry : Ty := unionTy "dxt.DxtEntry" [dxt_Shell]

/-- src/pymcnp/inp/embed/Background.py:13-19; setter conditions: lines 67. -/
def embed_Background : Cls where
  info := ⟨"Background", .option, c!"background", ["number"]⟩
  shape := .flat ⟨.no, c!"background", .no, .no⟩ [⟨.ty (.base .int), .req⟩]
  attrs := [⟨"number", (.base .int), false, (some (.or .isNone (.not (.and (.cmp .ge (1) 0) (.cmp .le (99999999) 0)))))⟩]
  init := ["number"]

/-- src/pymcnp/inp/embed/matcell/Entry.py:13-20; setter conditions: lines 70, 108. -/
def embed_matcell_Entry : Cls where
  info := ⟨"Entry", .entry, c!"", ["material", "cell"]⟩
  shape := .other (.seq (.grp (.ty (.base .int))) (.seq (.lits c!" ") (.grp (.ty (.base .int)))))
  attrs := [⟨"material", (.base .int), false, (some (.or .isNone (.not (.and (.cmp .ge (0) 0) (.cmp .le (99999999) 0)))))⟩,
    ⟨"cell", (.base .int), false, (some (.or .isNone (.not (.and (.cmp .ge (0) 0) (.cmp .le (99999999) 0)))))⟩]
  init := ["material", "cell"]

/-- matcell.Entry as an attribute type. -/
def T_embed_matcell_Entry : Ty := embed_matcell_Entry.asTy "matcell.Entry"

/-- src/pymcnp/inp/embed/Matcell.py:14-20; setter conditions: lines 69. -/
def embed_Matcell : Cls where
  info := ⟨"Matcell", .option, c!"matcell", ["pairs"]⟩
  shape := .flat ⟨.no, c!"matcell", .no, .no⟩ [⟨.ty T_embed_matcell_Entry, .many⟩]
  attrs := [⟨"pairs", T_embed_matcell_Entry, true, (some .isNone)⟩]
  init := ["pairs"]

/-- src/pymcnp/inp/embed/Meshgeo.py:13-19; setter conditions: lines 65. -/
def embed_Meshgeo : Cls where
  info := ⟨"Meshgeo", .option, c!"meshgeo", ["form"]⟩
  shape := .flat ⟨.no, c!"meshgeo", .no, .no⟩ [⟨.ty (.base .str), .req⟩]
  attrs := [⟨"form", (.base .str), false, (some (.or .isNone (.not (.lowIn ["lnk3dnt", "abaqus", "mcnpum"]))))⟩]
  init := ["form"]

/-- src/pymcnp/inp/embed/Mgeoin.py:13-19; setter conditions: lines 65. -/
def embed_Mgeoin : Cls where
  info := ⟨"Mgeoin", .option, c!"mgeoin", ["filename"]⟩
  shape := .flat ⟨.no, c!"mgeoin", .no, .no⟩ [⟨.ty (.base .str), .req⟩]
  attrs := [⟨"filename", (.base .str), false, (some .isNone)⟩]
  init := ["filename"]

/-- src/pymcnp/inp/embed/Meeout.py:13-19; setter conditions: lines 65. -/
def embed_Meeout : Cls where
  info := ⟨"Meeout", .option, c!"meeout", ["filename"]⟩
  shape := .flat ⟨.no, c!"meeout", .no, .no⟩ [⟨.ty (.base .str), .req⟩]
  attrs := [⟨"filename", (.base .str), false, (some .isNone)⟩]
  init := ["filename"]

/-- src/pymcnp/inp/embed/Meein.py:13-19; setter conditions: lines 65. -/
def embed_Meein : Cls where
  info := ⟨"Meein", .option, c!"meein", ["filename"]⟩
  shape := .flat ⟨.no, c!"meein", .no, .no⟩ [⟨.ty (.base .str), .req⟩]
  attrs := [⟨"filename", (.base .str), false, (some .isNone)⟩]
  init := ["filename"]

/-- src/pymcnp/inp/embed/Calcvols.py:13-19; setter conditions: lines 65. -/
def embed_Calcvols : Cls where
  info := ⟨"Calcvols", .option, c!"calc_vols", ["setting"]⟩
  shape := .flat ⟨.no, c!"calc_vols", .no, .no⟩ [⟨.ty (.base .str), .req⟩]
  attrs := [⟨"setting", (.base .str), false, (some (.or .isNone (.not (.lowIn ["yes", "no"]))))⟩]
  init := ["setting"]

/-- src/pymcnp/inp/embed/Debug.py:13-19; setter conditions: lines 65. -/
def embed_Debug : Cls where
  info := ⟨"Debug", .option, c!"debug", ["parameter"]⟩
  shape := .flat ⟨.no, c!"debug", .no, .no⟩ [⟨.ty (.base .str), .req⟩]
  attrs := [⟨"parameter", (.base .str), false, (some (.or .isNone (.not (.lowIn ["echomesh"]))))⟩]
  init := ["parameter"]

/-- src/pymcnp/inp/embed/Filetype.py:13-19; setter conditions: lines 65. -/
def embed_Filetype : Cls where
  info := ⟨"Filetype", .option, c!"filetype", ["kind"]⟩
  shape := .flat ⟨.no, c!"filetype", .no, .no⟩ [⟨.ty (.base .str), .req⟩]
  attrs := [⟨"kind", (.base .str), false, (some (.or .isNone (.not (.lowIn ["ascii", "binary"]))))⟩]
  init := ["kind"]

/-- src/pymcnp/inp/embed/Gmvfile.py:13-19; setter conditions: lines 65. -/
def embed_Gmvfile : Cls where
  info := ⟨"Gmvfile", .option, c!"gmvfile", ["filename"]⟩
  shape := .flat ⟨.no, c!"gmvfile", .no, .no⟩ [⟨.ty (.base .str), .req⟩]
  attrs := [⟨"filename", (.base .str), false, (some .isNone)⟩]
  init := ["filename"]

/-- src/pymcnp/inp/embed/Length.py:13-19; setter conditions: lines 67. -/
def embed_Length : Cls where
  info := ⟨"Length", .option, c!"length", ["factor"]⟩
  shape := .flat ⟨.no, c!"length", .no, .no⟩ [⟨.ty (.base .real), .req⟩]
  attrs := [⟨"factor", (.base .real), false, (some (.or .isNone (.not (.cmp .gt (0) 0))))⟩]
  init := ["factor"]

/-- src/pymcnp/inp/embed/Mcnpumfile.py:13-19; setter conditions: lines 65. -/
def embed_Mcnpumfile : Cls where
  info := ⟨"Mcnpumfile", .option, c!"mcnpumfile", ["filename"]⟩
  shape := .flat ⟨.no, c!"mcnpumfile", .no, .no⟩ [⟨.ty (.base .str), .req⟩]
  attrs := [⟨"filename", (.base .str), false, (some .isNone)⟩]
  init := ["filename"]

/-- src/pymcnp/inp/embed/_option.py:4 and src/pymcnp/inp/embed/__init__.py (order of definition). -/
def T_embed_EmbedOption : Ty := unionTy "embed.EmbedOption" [embed_Background, embed_Matcell, embed_Meshgeo, embed_Mgeoin, embed_Meeout, embed_Meein, embed_Calcvols, embed_Debug, embed_Filetype, embed_Gmvfile, embed_Length, embed_Mcnpumfile]

/-- src/pymcnp/inp/embed/matcell/_entry.py:4 and src/pymcnp/inp/embed/matcell/__init__.py (order of definition). -/
def T_embed_matcell_MatcellEntry : Ty := unionTy "matcell.MatcellEntry" [embed_matcell_Entry]

/-- src/pymcnp/inp/embee/Embed.py:13-19; setter conditions: lines 67. -/
def embee_Embed : Cls where
  info := ⟨"Embed", .option, c!"embed", ["number"]⟩
  shape := .flat ⟨.no, c!"embed", .no, .no⟩ [⟨.ty (.base .int), .req⟩]
  attrs := [⟨"number", (.base .int), false, (some (.or .isNone (.not (.and (.cmp .ge (0) 0) (.cmp .le (99999999) 0)))))⟩]
  init := ["number"]

/-- src/pymcnp/inp/embee/Energy.py:13-19; setter conditions: lines 67. -/
def embee_Energy : Cls where
  info := ⟨"Energy", .option, c!"energy", ["factor"]⟩
  shape := .flat ⟨.no, c!"energy", .no, .no⟩ [⟨.ty (.base .real), .req⟩]
  attrs := [⟨"factor", (.base .real), false, (some (.or .isNone (.not (.cmp .gt (0) 0))))⟩]
  init := ["factor"]

/-- src/pymcnp/inp/embee/Time.py:13-19; setter conditions: lines 67. -/
def embee_Time : Cls where
  info := ⟨"Time", .option, c!"time", ["factor"]⟩
  shape := .flat ⟨.no, c!"time", .no, .no⟩ [⟨.ty (.base .real), .req⟩]
  attrs := [⟨"factor", (.base .real), false, (some (.or .isNone (.not (.cmp .gt (0) 0))))⟩]
  init := ["factor"]

/-- src/pymcnp/inp/embee/Atom.py:13-19; setter conditions: lines 65. -/
def embee_Atom : Cls where
  info := ⟨"Atom", .option, c!"atom", ["setting"]⟩
  shape := .flat ⟨.no, c!"atom", .no, .no⟩ [⟨.ty (.base .str), .req⟩]
  attrs := [⟨"setting", (.base .str), false, (some (.or .isNone (.not (.lowIn ["yes", "no"]))))⟩]
  init := ["setting"]

/-- src/pymcnp/inp/embee/Factor.py:13-19; setter conditions: lines 67. -/
def embee_Factor : Cls where
  info := ⟨"Factor", .option, c!"factor", ["constant"]⟩
  shape := .flat ⟨.no, c!"factor", .no, .no⟩ [⟨.ty (.base .real), .req⟩]
  attrs := [⟨"constant", (.base .real), false, (some .isNone)⟩]
  init := ["constant"]

/-- src/pymcnp/inp/embee/List.py:13-19; setter conditions: lines 67. -/
def embee_List : Cls where
  info := ⟨"List", .option, c!"list", ["reactions"]⟩
  shape := .flat ⟨.no, c!"list", .no, .no⟩ [⟨.ty (.base .real), .req⟩]
  attrs := [⟨"reactions", (.base .real), false, (some .isNone)⟩]
  init := ["reactions"]

/-- src/pymcnp/inp/embee/Mat.py:13-19; setter conditions: lines 67. -/
def embee_Mat : Cls where
  info := ⟨"Mat", .option, c!"mat", ["number"]⟩
  shape := .flat ⟨.no, c!"mat", .no, .no⟩ [⟨.ty (.base .int), .req⟩]
  attrs := [⟨"number", (.base .int), false, (some (.or .isNone (.not (.and (.cmp .ge (0) 0) (.cmp .le (99999999) 0)))))⟩]
  init := ["number"]

/-- src/pymcnp/inp/embee/Mtype.py:13-19; setter conditions: lines 65. -/
def embee_Mtype : Cls where
  info := ⟨"Mtype", .option, c!"mtype", ["kind"]⟩
  shape := .flat ⟨.no, c!"mtype", .no, .no⟩ [⟨.ty (.base .str), .req⟩]
  attrs := [⟨"kind", (.base .str), false, (some (.or .isNone (.not (.lowIn ["flux", "isotropic", "population", "reaction", "source", "track"]))))⟩]
  init := ["kind"]

/-- src/pymcnp/inp/embee/_option.py:4 and src/pymcnp/inp/embee/__init__.py (order of definition). -/
def T_embee_EmbeeOption : Ty := unionTy "embee.EmbeeOption" [embee_Embed, embee_Energy, embee_Time, embee_Atom, embee_Factor, embee_List, embee_Mat, embee_Mtype]

/-- src/pymcnp/inp/f_1/Sphere.py:13-22; setter conditions: lines 76, 114, 152, 190. -/
def f_1_Sphere : Cls where
  info := ⟨"Sphere", .entry, c!"", ["x", "y", "z", "ro"]⟩
  shape := .other (.seq (.grp (.ty (.base .real))) (.seq (.lits c!" ") (.seq (.grp (.ty (.base .real))) (.seq (.lits c!" ") (.seq (.grp (.ty (.base .int))) (.seq (.lits c!" ") (.grp (.ty (.base .int)))))))))
  attrs := [⟨"x", (.base .real), false, (some .isNone)⟩,
    ⟨"y", (.base .real), false, (some .isNone)⟩,
    ⟨"z", (.base .int), false, (some .isNone)⟩,
    ⟨"ro", (.base .int), false, (some .isNone)⟩]
  init := ["x", "y", "z", "ro"]

/-- f_1.Sphere as an attribute type. -/
def T_f_1_Sphere : Ty := f_1_Sphere.asTy "f_1.Sphere"

/-- src/pymcnp/inp/f_1/_entry.py:4 and src/pymcnp/inp/f_1/__init__.py (order of definition). -/
def T_f_1_FEntry_1 : Ty := unionTy "f_1.FEntry_1" [f_1_Sphere]

/-- src/pymcnp/inp/f_2/Ring.py:13-21; setter conditions: lines 73, 111, 149. -/
def f_2_Ring : Cls where
  info := ⟨"Ring", .entry, c!"", ["distance", "radius", "ro"]⟩
  shape := .other (.seq (.grp (.ty (.base .real))) (.seq (.lits c!" ") (.seq (.grp (.ty (.base .real))) (.seq (.lits c!" ") (.grp (.ty (.base .int)))))))
  attrs := [⟨"distance", (.base .real), false, (some .isNone)⟩,
    ⟨"radius", (.base .real), false, (some .isNone)⟩,
    ⟨"ro", (.base .int), false, (some .isNone)⟩]
  init := ["distance", "radius", "ro"]

/-- f_2.Ring as an attribute type. -/
def T_f_2_Ring : Ty := f_2_Ring.asTy "f_2.Ring"

/-- src/pymcnp/inp/f_2/_entry.py:4 and src/pymcnp/inp/f_2/__init__.py (order of definition). -/
def T_f_2_FEntry_2 : Ty := unionTy "f_2.FEntry_2" [f_2_Ring]

/-- src/pymcnp/inp/files/File.py:13-23; setter conditions: lines 81, 117, 153, 189. -/
def files_File : Cls where
  info := ⟨"File", .entry, c!"", ["unit", "filename", "access", "form", "length"]⟩
  shape := .other (.seq (.grp (.plus true (.cls (.one .S)))) (.seq (.lits c!" ") (.seq (.grp (.plus true (.cls (.one .S)))) (.seq (.opt (.ngrp (.seq (.lits c!" ") (.grp (.plus true (.cls (.one .S))))))) (.seq (.opt (.ngrp (.seq (.lits c!" ") (.grp (.plus true (.cls (.one .S))))))) (.opt (.ngrp (.seq (.lits c!" ") (.grp (.plus true (.cls (.one .S))))))))))))
  attrs := [⟨"unit", (.base .int), false, (some .isNone)⟩,
    ⟨"filename", (.base .str), false, (some .isNone)⟩,
    ⟨"access", (.base .str), false, (some (.and .notNone (.not (.lowIn ["sequential", "direct", "s", "d"]))))⟩,
    ⟨"form", (.base .str), false, (some (.and .notNone (.not (.lowIn ["formatted", "unformatted", "f", "u"]))))⟩,
    ⟨"length", (.base .int), false, none⟩]
  init := ["unit", "filename", "access", "form", "length"]

/-- files.File as an attribute type. -/
def T_files_File : Ty := files_File.asTy "files.File"

/-- src/pymcnp/inp/files/_entry.py:4 and src/pymcnp/inp/files/__init__.py (order of definition). -/
def T_files_FilesEntry : Ty := unionTy "files.FilesEntry" [files_File]

/-- src/pymcnp/inp/fmesh/Geom.py:13-19; setter conditions: lines 65. -/
def fmesh_Geom : Cls where
  info := ⟨"Geom", .option, c!"geom", ["geometry"]⟩
  shape := .other (.seq (.lits c!"geom") (.ngrp (.seq (.lits c!" ") (.grp (.alt (.lits c!"xyz") (.alt (.lits c!"rec") (.alt (.lits c!"rzt") (.lits c!"cyl"))))))))
  attrs := [⟨"geometry", (.base .str), false, (some (.or .isNone (.not (.lowIn ["xyz", "rec", "rzt", "cyl"]))))⟩]
  init := ["geometry"]

/-- src/pymcnp/inp/fmesh/Origin.py:13-21; setter conditions: lines 73, 111, 149. -/
def fmesh_Origin : Cls where
  info := ⟨"Origin", .option, c!"origin", ["x", "y", "z"]⟩
  shape := .flat ⟨.no, c!"origin", .no, .no⟩ [⟨.ty (.base .real), .req⟩, ⟨.ty (.base .real), .req⟩, ⟨.ty (.base .real), .req⟩]
  attrs := [⟨"x", (.base .real), false, (some .isNone)⟩,
    ⟨"y", (.base .real), false, (some .isNone)⟩,
    ⟨"z", (.base .real), false, (some .isNone)⟩]
  init := ["x", "y", "z"]

/-- src/pymcnp/inp/fmesh/Axs.py:13-21; setter conditions: lines 73, 111, 149. -/
def fmesh_Axs : Cls where
  info := ⟨"Axs", .option, c!"axs", ["x", "y", "z"]⟩
  shape := .flat ⟨.no, c!"axs", .no, .no⟩ [⟨.ty (.base .real), .req⟩, ⟨.ty (.base .real), .req⟩, ⟨.ty (.base .real), .req⟩]
  attrs := [⟨"x", (.base .real), false, (some .isNone)⟩,
    ⟨"y", (.base .real), false, (some .isNone)⟩,
    ⟨"z", (.base .real), false, (some .isNone)⟩]
  init := ["x", "y", "z"]

/-- src/pymcnp/inp/fmesh/Vec.py:13-21; setter conditions: lines 73, 111, 149. -/
def fmesh_Vec : Cls where
  info := ⟨"Vec", .option, c!"vec", ["x", "y", "z"]⟩
  shape := .flat ⟨.no, c!"vec", .no, .no⟩ [⟨.ty (.base .real), .req⟩, ⟨.ty (.base .real), .req⟩, ⟨.ty (.base .real), .req⟩]
  attrs := [⟨"x", (.base .real), false, (some .isNone)⟩,
    ⟨"y", (.base .real), false, (some .isNone)⟩,
    ⟨"z", (.base .real), false, (some .isNone)⟩]
  init := ["x", "y", "z"]

/-- src/pymcnp/inp/fmesh/Imesh.py:13-19; setter conditions: lines 70. -/
def fmesh_Imesh : Cls where
  info := ⟨"Imesh", .option, c!"imesh", ["locations"]⟩
  shape := .flat ⟨.no, c!"imesh", .no, .no⟩ [⟨.ty (.base .real), .many⟩]
  attrs := [⟨"locations", (.base .real), true, (some .isNone)⟩]
  init := ["locations"]

/-- src/pymcnp/inp/fmesh/Iints.py:13-19; setter conditions: lines 70. -/
def fmesh_Iints : Cls where
  info := ⟨"Iints", .option, c!"iints", ["count"]⟩
  shape := .flat ⟨.no, c!"iints", .no, .no⟩ [⟨.ty (.base .int), .many⟩]
  attrs := [⟨"count", (.base .int), true, (some .isNone)⟩]
  init := ["count"]

/-- src/pymcnp/inp/fmesh/Jmesh.py:13-19; setter conditions: lines 70. -/
def fmesh_Jmesh : Cls where
  info := ⟨"Jmesh", .option, c!"jmesh", ["locations"]⟩
  shape := .flat ⟨.no, c!"jmesh", .no, .no⟩ [⟨.ty (.base .real), .many⟩]
  attrs := [⟨"locations", (.base .real), true, (some .isNone)⟩]
  init := ["locations"]

/-- src/pymcnp/inp/fmesh/Jints.py:13-19; setter conditions: lines 70. -/
def fmesh_Jints : Cls where
  info := ⟨"Jints", .option, c!"jints", ["count"]⟩
  shape := .flat ⟨.no, c!"jints", .no, .no⟩ [⟨.ty (.base .int), .many⟩]
  attrs := [⟨"count", (.base .int), true, (some .isNone)⟩]
  init := ["count"]

/-- src/pymcnp/inp/fmesh/Kmesh.py:13-19; setter conditions: lines 70. -/
def fmesh_Kmesh : Cls where
  info := ⟨"Kmesh", .option, c!"kmesh", ["locations"]⟩
  shape := .flat ⟨.no, c!"kmesh", .no, .no⟩ [⟨.ty (.base .real), .many⟩]
  attrs := [⟨"locations", (.base .real), true, (some .isNone)⟩]
  init := ["locations"]

/-- src/pymcnp/inp/fmesh/Kints.py:13-19; setter conditions: lines 70. -/
def fmesh_Kints : Cls where
  info := ⟨"Kints", .option, c!"kints", ["count"]⟩
  shape := .flat ⟨.no, c!"kints", .no, .no⟩ [⟨.ty (.base .int), .many⟩]
  attrs := [⟨"count", (.base .int), true, (some .isNone)⟩]
  init := ["count"]

/-- src/pymcnp/inp/fmesh/Emesh.py:13-19; setter conditions: lines 67. -/
def fmesh_Emesh : Cls where
  info := ⟨"Emesh", .option, c!"emesh", ["energy"]⟩
  shape := .flat ⟨.no, c!"emesh", .no, .no⟩ [⟨.ty (.base .real), .req⟩]
  attrs := [⟨"energy", (.base .real), false, (some .isNone)⟩]
  init := ["energy"]

/-- src/pymcnp/inp/fmesh/Eints.py:13-19; setter conditions: lines 67. -/
def fmesh_Eints : Cls where
  info := ⟨"Eints", .option, c!"eints", ["count"]⟩
  shape := .flat ⟨.no, c!"eints", .no, .no⟩ [⟨.ty (.base .int), .req⟩]
  attrs := [⟨"count", (.base .int), false, (some .isNone)⟩]
  init := ["count"]

/-- src/pymcnp/inp/fmesh/Enorm.py:13-19; setter conditions: lines 65. -/
def fmesh_Enorm : Cls where
  info := ⟨"Enorm", .option, c!"enorm", ["setting"]⟩
  shape := .flat ⟨.no, c!"enorm", .no, .no⟩ [⟨.ty (.base .str), .req⟩]
  attrs := [⟨"setting", (.base .str), false, (some (.or .isNone (.not (.lowIn ["yes", "no"]))))⟩]
  init := ["setting"]

/-- src/pymcnp/inp/fmesh/Tmesh.py:13-19; setter conditions: lines 67. -/
def fmesh_Tmesh : Cls where
  info := ⟨"Tmesh", .option, c!"tmesh", ["time"]⟩
  shape := .flat ⟨.no, c!"tmesh", .no, .no⟩ [⟨.ty (.base .real), .req⟩]
  attrs := [⟨"time", (.base .real), false, (some .isNone)⟩]
  init := ["time"]

/-- src/pymcnp/inp/fmesh/Tints.py:13-19; setter conditions: lines 67. -/
def fmesh_Tints : Cls where
  info := ⟨"Tints", .option, c!"tints", ["count"]⟩
  shape := .flat ⟨.no, c!"tints", .no, .no⟩ [⟨.ty (.base .int), .req⟩]
  attrs := [⟨"count", (.base .int), false, (some .isNone)⟩]
  init := ["count"]

/-- src/pymcnp/inp/fmesh/Tnorm.py:13-19; setter conditions: lines 65. -/
def fmesh_Tnorm : Cls where
  info := ⟨"Tnorm", .option, c!"tnorm", ["setting"]⟩
  shape := .flat ⟨.no, c!"tnorm", .no, .no⟩ [⟨.ty (.base .str), .req⟩]
  attrs := [⟨"setting", (.base .str), false, (some (.or .isNone (.not (.lowIn ["yes", "no"]))))⟩]
  init := ["setting"]

/-- src/pymcnp/inp/fmesh/Factor.py:13-19; setter conditions: lines 67. -/
def fmesh_Factor : Cls where
  info := ⟨"Factor", .option, c!"factor", ["multiple"]⟩
  shape := .flat ⟨.no, c!"factor", .no, .no⟩ [⟨.ty (.base .real), .req⟩]
  attrs := [⟨"multiple", (.base .real), false, (some .isNone)⟩]
  init := ["multiple"]

/-- src/pymcnp/inp/fmesh/Out.py:13-19; setter conditions: lines 65. -/
def fmesh_Out : Cls where
  info := ⟨"Out", .option, c!"out", ["setting"]⟩
  shape := .flat ⟨.no, c!"out", .no, .no⟩ [⟨.ty (.base .str), .req⟩]
  attrs := [⟨"setting", (.base .str), false, (some (.or .isNone (.not (.lowIn ["col", "cf", "ij", "ik", "jk", "none"]))))⟩]
  init := ["setting"]

/-- src/pymcnp/inp/fmesh/Tr.py:13-19; setter conditions: lines 67. -/
def fmesh_Tr : Cls where
  info := ⟨"Tr", .option, c!"tr", ["number"]⟩
  shape := .flat ⟨.no, c!"tr", .no, .no⟩ [⟨.ty (.base .int), .req⟩]
  attrs := [⟨"number", (.base .int), false, (some (.or .isNone (.not (.and (.cmp .ge (1) 0) (.cmp .le (999) 0)))))⟩]
  init := ["number"]

/-- src/pymcnp/inp/fmesh/Inc.py:13-20; setter conditions: lines 70. -/
def fmesh_Inc : Cls where
  info := ⟨"Inc", .option, c!"inc", ["lower", "upper"]⟩
  shape := .flat ⟨.no, c!"inc", .no, .no⟩ [⟨.ty (.base .real), .req⟩, ⟨.ty (.base .real), .opt⟩]
  attrs := [⟨"lower", (.base .real), false, (some .isNone)⟩,
    ⟨"upper", (.base .real), false, none⟩]
  init := ["lower", "upper"]

/-- src/pymcnp/inp/fmesh/Type.py:13-19; setter conditions: lines 65. -/
def fmesh_Type : Cls where
  info := ⟨"Type", .option, c!"type", ["setting"]⟩
  shape := .flat ⟨.no, c!"type", .no, .no⟩ [⟨.ty (.base .str), .req⟩]
  attrs := [⟨"setting", (.base .str), false, (some (.or .isNone (.not (.lowIn ["flux", "source"]))))⟩]
  init := ["setting"]

/-- src/pymcnp/inp/fmesh/Kclear.py:13-19; setter conditions: lines 67. -/
def fmesh_Kclear : Cls where
  info := ⟨"Kclear", .option, c!"kclear", ["count"]⟩
  shape := .flat ⟨.no, c!"kclear", .no, .no⟩ [⟨.ty (.base .int), .req⟩]
  attrs := [⟨"count", (.base .int), false, (some .isNone)⟩]
  init := ["count"]

/-- src/pymcnp/inp/fmesh/_option.py:4 and src/pymcnp/inp/fmesh/__init__.py (order of definition). -/
def T_fmesh_FmeshOption : Ty := unionTy "fmesh.FmeshOption" [fmesh_Geom, fmesh_Origin, fmesh_Axs, fmesh_Vec, fmesh_Imesh, fmesh_Iints, fmesh_Jmesh, fmesh_Jints, fmesh_Kmesh, fmesh_Kints, fmesh_Emesh, fmesh_Eints, fmesh_Enorm, fmesh_Tmesh, fmesh_Tints, fmesh_Tnorm, fmesh_Factor, fmesh_Out, fmesh_Tr, fmesh_Inc, fmesh_Type, fmesh_Kclear]

/-- src/pymcnp/inp/fmult/Sfnu.py:13-19; setter conditions: lines 70. -/
def fmult_Sfnu : Cls where
  info := ⟨"Sfnu", .option, c!"sfnu", ["distribution"]⟩
  shape := .flat ⟨.no, c!"sfnu", .no, .no⟩ [⟨.ty (.base .real), .many⟩]
  attrs := [⟨"distribution", (.base .real), true, (some .isNone)⟩]
  init := ["distribution"]

/-- src/pymcnp/inp/fmult/Width.py:13-19; setter conditions: lines 67. -/
def fmult_Width : Cls where
  info := ⟨"Width", .option, c!"width", ["width"]⟩
  shape := .flat ⟨.no, c!"width", .no, .no⟩ [⟨.ty (.base .real), .req⟩]
  attrs := [⟨"width", (.base .real), false, (some .isNone)⟩]
  init := ["width"]

/-- src/pymcnp/inp/fmult/Sfyield.py:13-19; setter conditions: lines 67. -/
def fmult_Sfyield : Cls where
  info := ⟨"Sfyield", .option, c!"sfyield", ["fission_yield"]⟩
  shape := .flat ⟨.no, c!"sfyield", .no, .no⟩ [⟨.ty (.base .real), .req⟩]
  attrs := [⟨"fission_yield", (.base .real), false, (some .isNone)⟩]
  init := ["fission_yield"]

/-- src/pymcnp/inp/fmult/Watt.py:13-20; setter conditions: lines 70, 108. -/
def fmult_Watt : Cls where
  info := ⟨"Watt", .option, c!"watt", ["a", "b"]⟩
  shape := .flat ⟨.no, c!"watt", .no, .no⟩ [⟨.ty (.base .real), .req⟩, ⟨.ty (.base .real), .req⟩]
  attrs := [⟨"a", (.base .real), false, (some .isNone)⟩,
    ⟨"b", (.base .real), false, (some .isNone)⟩]
  init := ["a", "b"]

/-- src/pymcnp/inp/fmult/Method.py:13-19; setter conditions: lines 67. -/
def fmult_Method : Cls where
  info := ⟨"Method", .option, c!"method", ["setting"]⟩
  shape := .flat ⟨.no, c!"method", .no, .no⟩ [⟨.ty (.base .int), .req⟩]
  attrs := [⟨"setting", (.base .int), false, (some (.or .isNone (.not (.inInts [0, 1, 3, 5, 6, 7]))))⟩]
  init := ["setting"]

/-- src/pymcnp/inp/fmult/Data.py:13-19; setter conditions: lines 67. -/
def fmult_Data : Cls where
  info := ⟨"Data", .option, c!"data", ["setting"]⟩
  shape := .flat ⟨.no, c!"data", .no, .no⟩ [⟨.ty (.base .int), .req⟩]
  attrs := [⟨"setting", (.base .int), false, (some (.or .isNone (.not (.inInts [0, 1, 2, 3]))))⟩]
  init := ["setting"]

/-- src/pymcnp/inp/fmult/Shift.py:13-19; setter conditions: lines 67. -/
def fmult_Shift : Cls where
  info := ⟨"Shift", .option, c!"shift", ["setting"]⟩
  shape := .flat ⟨.no, c!"shift", .no, .no⟩ [⟨.ty (.base .int), .req⟩]
  attrs := [⟨"setting", (.base .int), false, (some (.or .isNone (.not (.inInts [0, 1, 2, 3, 4]))))⟩]
  init := ["setting"]

/-- src/pymcnp/inp/fmult/_option.py:4 and src/pymcnp/inp/fmult/__init__.py (order of definition). -/
def T_fmult_FmultOption : Ty := unionTy "fmult.FmultOption" [fmult_Sfnu, fmult_Width, fmult_Sfyield, fmult_Watt, fmult_Method, fmult_Data, fmult_Shift]

/-- src/pymcnp/inp/kopts/Blocksize.py:13-19; setter conditions: lines 67. -/
def kopts_Blocksize : Cls where
  info := ⟨"Blocksize", .option, c!"blocksize", ["ncy"]⟩
  shape := .flat ⟨.no, c!"blocksize", .no, .no⟩ [⟨.ty (.base .int), .req⟩]
  attrs := [⟨"ncy", (.base .int), false, (some (.or .isNone (.not (.cmp .ge (2) 0))))⟩]
  init := ["ncy"]

/-- src/pymcnp/inp/kopts/Kinetics.py:13-19; setter conditions: lines 65. -/
def kopts_Kinetics : Cls where
  info := ⟨"Kinetics", .option, c!"kinetics", ["setting"]⟩
  shape := .flat ⟨.no, c!"kinetics", .no, .no⟩ [⟨.ty (.base .str), .req⟩]
  attrs := [⟨"setting", (.base .str), false, (some (.or .isNone (.not (.lowIn ["yes", "no"]))))⟩]
  init := ["setting"]

/-- src/pymcnp/inp/kopts/Precursor.py:13-19; setter conditions: lines 65. -/
def kopts_Precursor : Cls where
  info := ⟨"Precursor", .option, c!"precursor", ["setting"]⟩
  shape := .flat ⟨.no, c!"precursor", .no, .no⟩ [⟨.ty (.base .str), .req⟩]
  attrs := [⟨"setting", (.base .str), false, (some (.or .isNone (.not (.lowIn ["yes", "no"]))))⟩]
  init := ["setting"]

/-- src/pymcnp/inp/kopts/Ksental.py:13-19; setter conditions: lines 65. -/
def kopts_Ksental : Cls where
  info := ⟨"Ksental", .option, c!"ksental", ["fileopt"]⟩
  shape := .flat ⟨.no, c!"ksental", .no, .no⟩ [⟨.ty (.base .str), .req⟩]
  attrs := [⟨"fileopt", (.base .str), false, (some (.or .isNone (.not (.lowIn ["mctal", "tsunami-b"]))))⟩]
  init := ["fileopt"]

/-- src/pymcnp/inp/kopts/Fmat.py:13-19; setter conditions: lines 65. -/
def kopts_Fmat : Cls where
  info := ⟨"Fmat", .option, c!"fmat", ["setting"]⟩
  shape := .flat ⟨.no, c!"fmat", .no, .no⟩ [⟨.ty (.base .str), .req⟩]
  attrs := [⟨"setting", (.base .str), false, (some (.or .isNone (.not (.lowIn ["yes", "no"]))))⟩]
  init := ["setting"]

/-- src/pymcnp/inp/kopts/Fmatskpt.py:13-19; setter conditions: lines 67. -/
def kopts_Fmatskpt : Cls where
  info := ⟨"Fmatskpt", .option, c!"fmatskpt", ["fmat_skip"]⟩
  shape := .flat ⟨.no, c!"fmatskpt", .no, .no⟩ [⟨.ty (.base .real), .req⟩]
  attrs := [⟨"fmat_skip", (.base .real), false, (some .isNone)⟩]
  init := ["fmat_skip"]

/-- src/pymcnp/inp/kopts/Fmatncyc.py:13-19; setter conditions: lines 67. -/
def kopts_Fmatncyc : Cls where
  info := ⟨"Fmatncyc", .option, c!"fmatncyc", ["fmat_ncyc"]⟩
  shape := .flat ⟨.no, c!"fmatncyc", .no, .no⟩ [⟨.ty (.base .real), .req⟩]
  attrs := [⟨"fmat_ncyc", (.base .real), false, (some .isNone)⟩]
  init := ["fmat_ncyc"]

/-- src/pymcnp/inp/kopts/Fmatspace.py:13-19; setter conditions: lines 67. -/
def kopts_Fmatspace : Cls where
  info := ⟨"Fmatspace", .option, c!"fmatspace", ["fmat_space"]⟩
  shape := .flat ⟨.no, c!"fmatspace", .no, .no⟩ [⟨.ty (.base .real), .req⟩]
  attrs := [⟨"fmat_space", (.base .real), false, (some .isNone)⟩]
  init := ["fmat_space"]

/-- src/pymcnp/inp/kopts/Fmataccel.py:13-19; setter conditions: lines 65. -/
def kopts_Fmataccel : Cls where
  info := ⟨"Fmataccel", .option, c!"fmataccel", ["setting"]⟩
  shape := .flat ⟨.no, c!"fmataccel", .no, .no⟩ [⟨.ty (.base .str), .req⟩]
  attrs := [⟨"setting", (.base .str), false, (some (.or .isNone (.not (.lowIn ["yes", "no"]))))⟩]
  init := ["setting"]

/-- src/pymcnp/inp/kopts/Fmatreduce.py:13-19; setter conditions: lines 65. -/
def kopts_Fmatreduce : Cls where
  info := ⟨"Fmatreduce", .option, c!"fmatreduce", ["setting"]⟩
  shape := .flat ⟨.no, c!"fmatreduce", .no, .no⟩ [⟨.ty (.base .str), .req⟩]
  attrs := [⟨"setting", (.base .str), false, (some (.or .isNone (.not (.lowIn ["yes", "no"]))))⟩]
  init := ["setting"]

/-- src/pymcnp/inp/kopts/Fmatnx.py:13-19; setter conditions: lines 67. -/
def kopts_Fmatnx : Cls where
  info := ⟨"Fmatnx", .option, c!"fmatnx", ["fmat_nx"]⟩
  shape := .flat ⟨.no, c!"fmatnx", .no, .no⟩ [⟨.ty (.base .real), .req⟩]
  attrs := [⟨"fmat_nx", (.base .real), false, (some .isNone)⟩]
  init := ["fmat_nx"]

/-- src/pymcnp/inp/kopts/Fmatny.py:13-19; setter conditions: lines 67. -/
def kopts_Fmatny : Cls where
  info := ⟨"Fmatny", .option, c!"fmatny", ["fmat_ny"]⟩
  shape := .flat ⟨.no, c!"fmatny", .no, .no⟩ [⟨.ty (.base .real), .req⟩]
  attrs := [⟨"fmat_ny", (.base .real), false, (some .isNone)⟩]
  init := ["fmat_ny"]

/-- src/pymcnp/inp/kopts/Fmatnz.py:13-19; setter conditions: lines 67. -/
def kopts_Fmatnz : Cls where
  info := ⟨"Fmatnz", .option, c!"fmatnz", ["fmat_nz"]⟩
  shape := .flat ⟨.no, c!"fmatnz", .no, .no⟩ [⟨.ty (.base .real), .req⟩]
  attrs := [⟨"fmat_nz", (.base .real), false, (some .isNone)⟩]
  init := ["fmat_nz"]

/-- src/pymcnp/inp/kopts/_option.py:4 and src/pymcnp/inp/kopts/__init__.py (order of definition). -/
def T_kopts_KoptsOption : Ty := unionTy "kopts.KoptsOption" [kopts_Blocksize, kopts_Kinetics, kopts_Precursor, kopts_Ksental, kopts_Fmat, kopts_Fmatskpt, kopts_Fmatncyc, kopts_Fmatspace, kopts_Fmataccel, kopts_Fmatreduce, kopts_Fmatnx, kopts_Fmatny, kopts_Fmatnz]

/-- src/pymcnp/inp/kpert/Cell.py:13-19; setter conditions: lines 70. -/
def kpert_Cell : Cls where
  info := ⟨"Cell", .option, c!"cell", ["numbers"]⟩
  shape := .flat ⟨.no, c!"cell", .no, .no⟩ [⟨.ty (.base .int), .many⟩]
  attrs := [⟨"numbers", (.base .int), true, (some .isNone)⟩]
  init := ["numbers"]

/-- src/pymcnp/inp/kpert/Mat.py:13-19; setter conditions: lines 70. -/
def kpert_Mat : Cls where
  info := ⟨"Mat", .option, c!"mat", ["numbers"]⟩
  shape := .flat ⟨.no, c!"mat", .no, .no⟩ [⟨.ty (.base .int), .many⟩]
  attrs := [⟨"numbers", (.base .int), true, (some .isNone)⟩]
  init := ["numbers"]

/-- src/pymcnp/inp/kpert/Rho.py:13-19; setter conditions: lines 70. -/
def kpert_Rho : Cls where
  info := ⟨"Rho", .option, c!"rho", ["densities"]⟩
  shape := .flat ⟨.no, c!"rho", .no, .no⟩ [⟨.ty (.base .real), .many⟩]
  attrs := [⟨"densities", (.base .real), true, (some .isNone)⟩]
  init := ["densities"]

/-- src/pymcnp/inp/kpert/Iso.py:13-19; setter conditions: lines 68. -/
def kpert_Iso : Cls where
  info := ⟨"Iso", .option, c!"iso", ["zaids"]⟩
  shape := .flat ⟨.no, c!"iso", .no, .no⟩ [⟨.ty (.base .zaid), .many⟩]
  attrs := [⟨"zaids", (.base .zaid), true, (some .isNone)⟩]
  init := ["zaids"]

/-- src/pymcnp/inp/kpert/Rxn.py:13-19; setter conditions: lines 70. -/
def kpert_Rxn : Cls where
  info := ⟨"Rxn", .option, c!"rxn", ["numbers"]⟩
  shape := .flat ⟨.no, c!"rxn", .no, .no⟩ [⟨.ty (.base .int), .many⟩]
  attrs := [⟨"numbers", (.base .int), true, (some .isNone)⟩]
  init := ["numbers"]

/-- src/pymcnp/inp/kpert/Erg.py:13-19; setter conditions: lines 70. -/
def kpert_Erg : Cls where
  info := ⟨"Erg", .option, c!"erg", ["energies"]⟩
  shape := .flat ⟨.no, c!"erg", .no, .no⟩ [⟨.ty (.base .real), .many⟩]
  attrs := [⟨"energies", (.base .real), true, (some .isNone)⟩]
  init := ["energies"]

/-- src/pymcnp/inp/kpert/Linear.py:13-19; setter conditions: lines 65. -/
def kpert_Linear : Cls where
  info := ⟨"Linear", .option, c!"linear", ["setting"]⟩
  shape := .flat ⟨.no, c!"linear", .no, .no⟩ [⟨.ty (.base .str), .req⟩]
  attrs := [⟨"setting", (.base .str), false, (some (.or .isNone (.not (.lowIn ["yes", "no"]))))⟩]
  init := ["setting"]

/-- src/pymcnp/inp/kpert/_option.py:4 and src/pymcnp/inp/kpert/__init__.py (order of definition). -/
def T_kpert_KpertOption : Ty := unionTy "kpert.KpertOption" [kpert_Cell, kpert_Mat, kpert_Rho, kpert_Iso, kpert_Rxn, kpert_Erg, kpert_Linear]

/-- src/pymcnp/inp/ksen/Iso.py:13-19; setter conditions: lines 68. -/
def ksen_Iso : Cls where
  info := ⟨"Iso", .option, c!"iso", ["zaids"]⟩
  shape := .flat ⟨.no, c!"iso", .no, .no⟩ [⟨.ty (.base .zaid), .many⟩]
  attrs := [⟨"zaids", (.base .zaid), true, (some .isNone)⟩]
  init := ["zaids"]

/-- src/pymcnp/inp/ksen/Rxn.py:13-19; setter conditions: lines 70. -/
def ksen_Rxn : Cls where
  info := ⟨"Rxn", .option, c!"rxn", ["numbers"]⟩
  shape := .flat ⟨.no, c!"rxn", .no, .no⟩ [⟨.ty (.base .int), .many⟩]
  attrs := [⟨"numbers", (.base .int), true, (some .isNone)⟩]
  init := ["numbers"]

/-- src/pymcnp/inp/ksen/Mt.py:13-19; setter conditions: lines 70. -/
def ksen_Mt : Cls where
  info := ⟨"Mt", .option, c!"mt", ["numbers"]⟩
  shape := .flat ⟨.no, c!"mt", .no, .no⟩ [⟨.ty (.base .int), .many⟩]
  attrs := [⟨"numbers", (.base .int), true, (some .isNone)⟩]
  init := ["numbers"]

/-- src/pymcnp/inp/ksen/Erg.py:13-19; setter conditions: lines 70. -/
def ksen_Erg : Cls where
  info := ⟨"Erg", .option, c!"erg", ["energies"]⟩
  shape := .flat ⟨.no, c!"erg", .no, .no⟩ [⟨.ty (.base .real), .many⟩]
  attrs := [⟨"energies", (.base .real), true, (some .isNone)⟩]
  init := ["energies"]

/-- src/pymcnp/inp/ksen/Ein.py:13-19; setter conditions: lines 70. -/
def ksen_Ein : Cls where
  info := ⟨"Ein", .option, c!"ein", ["energies"]⟩
  shape := .flat ⟨.no, c!"ein", .no, .no⟩ [⟨.ty (.base .real), .many⟩]
  attrs := [⟨"energies", (.base .real), true, (some .isNone)⟩]
  init := ["energies"]

/-- src/pymcnp/inp/ksen/Legendre.py:13-19; setter conditions: lines 67. -/
def ksen_Legendre : Cls where
  info := ⟨"Legendre", .option, c!"legendre", ["number"]⟩
  shape := .flat ⟨.no, c!"legendre", .no, .no⟩ [⟨.ty (.base .int), .req⟩]
  attrs := [⟨"number", (.base .int), false, (some .isNone)⟩]
  init := ["number"]

/-- src/pymcnp/inp/ksen/Cos.py:13-19; setter conditions: lines 70. -/
def ksen_Cos : Cls where
  info := ⟨"Cos", .option, c!"cos", ["cosines"]⟩
  shape := .flat ⟨.no, c!"cos", .no, .no⟩ [⟨.ty (.base .real), .many⟩]
  attrs := [⟨"cosines", (.base .real), true, (some .isNone)⟩]
  init := ["cosines"]

/-- src/pymcnp/inp/ksen/Constrain.py:13-19; setter conditions: lines 65. -/
def ksen_Constrain : Cls where
  info := ⟨"Constrain", .option, c!"constrain", ["setting"]⟩
  shape := .flat ⟨.no, c!"constrain", .no, .no⟩ [⟨.ty (.base .str), .req⟩]
  attrs := [⟨"setting", (.base .str), false, (some (.or .isNone (.not (.lowIn ["yes", "no"]))))⟩]
  init := ["setting"]

/-- src/pymcnp/inp/ksen/_option.py:4 and src/pymcnp/inp/ksen/__init__.py (order of definition). -/
def T_ksen_KsenOption : Ty := unionTy "ksen.KsenOption" [ksen_Iso, ksen_Rxn, ksen_Mt, ksen_Erg, ksen_Ein, ksen_Legendre, ksen_Cos, ksen_Constrain]

/-- src/pymcnp/inp/ksrc/Location.py:13-21; setter conditions: lines 73, 111, 149. -/
def ksrc_Location : Cls where
  info := ⟨"Location", .entry, c!"", ["x", "y", "z"]⟩
  shape := .other (.seq (.grp (.ty (.base .real))) (.seq (.lits c!" ") (.seq (.grp (.ty (.base .real))) (.seq (.lits c!" ") (.grp (.ty (.base .real)))))))
  attrs := [⟨"x", (.base .real), false, (some .isNone)⟩,
    ⟨"y", (.base .real), false, (some .isNone)⟩,
    ⟨"z", (.base .real), false, (some .isNone)⟩]
  init := ["x", "y", "z"]

/-- ksrc.Location as an attribute type. -/
def T_ksrc_Location : Ty := ksrc_Location.asTy "ksrc.Location"

/-- src/pymcnp/inp/ksrc/_entry.py:4 and src/pymcnp/inp/ksrc/__init__.py (order of definition). -/
def T_ksrc_KsrcEntry : Ty := unionTy "ksrc.KsrcEntry" [ksrc_Location]

/-- src/pymcnp/inp/m_0/Gas.py:13-19; setter conditions: lines 65. -/
def m_0_Gas : Cls where
  info := ⟨"Gas", .option, c!"gas", ["setting"]⟩
  shape := .flat ⟨.no, c!"gas", .no, .no⟩ [⟨.ty (.base .str), .req⟩]
  attrs := [⟨"setting", (.base .str), false, (some (.or .isNone (.not (.lowIn ["yes", "no"]))))⟩]
  init := ["setting"]

/-- src/pymcnp/inp/m_0/Estep.py:13-19; setter conditions: lines 67. -/
def m_0_Estep : Cls where
  info := ⟨"Estep", .option, c!"estep", ["step"]⟩
  shape := .flat ⟨.no, c!"estep", .no, .no⟩ [⟨.ty (.base .int), .req⟩]
  attrs := [⟨"step", (.base .int), false, (some (.or .isNone (.not (.cmp .ge (0) 0))))⟩]
  init := ["step"]

/-- src/pymcnp/inp/m_0/Hstep.py:13-19; setter conditions: lines 67. -/
def m_0_Hstep : Cls where
  info := ⟨"Hstep", .option, c!"hstep", ["step"]⟩
  shape := .flat ⟨.no, c!"hstep", .no, .no⟩ [⟨.ty (.base .int), .req⟩]
  attrs := [⟨"step", (.base .int), false, (some (.or .isNone (.not (.cmp .ge (0) 0))))⟩]
  init := ["step"]

/-- src/pymcnp/inp/m_0/Nlib.py:13-19; setter conditions: lines 65. -/
def m_0_Nlib : Cls where
  info := ⟨"Nlib", .option, c!"nlib", ["abx"]⟩
  shape := .flat ⟨.no, c!"nlib", .no, .no⟩ [⟨.ty (.base .str), .req⟩]
  attrs := [⟨"abx", (.base .str), false, (some .isNone)⟩]
  init := ["abx"]

/-- src/pymcnp/inp/m_0/Plib.py:13-19; setter conditions: lines 65. -/
def m_0_Plib : Cls where
  info := ⟨"Plib", .option, c!"plib", ["abx"]⟩
  shape := .flat ⟨.no, c!"plib", .no, .no⟩ [⟨.ty (.base .str), .req⟩]
  attrs := [⟨"abx", (.base .str), false, (some .isNone)⟩]
  init := ["abx"]

/-- src/pymcnp/inp/m_0/Pnlib.py:13-19; setter conditions: lines 65. -/
def m_0_Pnlib : Cls where
  info := ⟨"Pnlib", .option, c!"pnlib", ["abx"]⟩
  shape := .flat ⟨.no, c!"pnlib", .no, .no⟩ [⟨.ty (.base .str), .req⟩]
  attrs := [⟨"abx", (.base .str), false, (some .isNone)⟩]
  init := ["abx"]

/-- src/pymcnp/inp/m_0/Elib.py:13-19; setter conditions: lines 65. -/
def m_0_Elib : Cls where
  info := ⟨"Elib", .option, c!"elib", ["abx"]⟩
  shape := .flat ⟨.no, c!"elib", .no, .no⟩ [⟨.ty (.base .str), .req⟩]
  attrs := [⟨"abx", (.base .str), false, (some .isNone)⟩]
  init := ["abx"]

/-- src/pymcnp/inp/m_0/Hlib.py:13-19; setter conditions: lines 65. -/
def m_0_Hlib : Cls where
  info := ⟨"Hlib", .option, c!"hlib", ["abx"]⟩
  shape := .flat ⟨.no, c!"hlib", .no, .no⟩ [⟨.ty (.base .str), .req⟩]
  attrs := [⟨"abx", (.base .str), false, (some .isNone)⟩]
  init := ["abx"]

/-- src/pymcnp/inp/m_0/Alib.py:13-19; setter conditions: lines 65. -/
def m_0_Alib : Cls where
  info := ⟨"Alib", .option, c!"alib", ["abx"]⟩
  shape := .flat ⟨.no, c!"alib", .no, .no⟩ [⟨.ty (.base .str), .req⟩]
  attrs := [⟨"abx", (.base .str), false, (some .isNone)⟩]
  init := ["abx"]

/-- src/pymcnp/inp/m_0/Slib.py:13-19; setter conditions: lines 65. -/
def m_0_Slib : Cls where
  info := ⟨"Slib", .option, c!"slib", ["abx"]⟩
  shape := .flat ⟨.no, c!"slib", .no, .no⟩ [⟨.ty (.base .str), .req⟩]
  attrs := [⟨"abx", (.base .str), false, (some .isNone)⟩]
  init := ["abx"]

/-- src/pymcnp/inp/m_0/Tlib.py:13-19; setter conditions: lines 65. -/
def m_0_Tlib : Cls where
  info := ⟨"Tlib", .option, c!"tlib", ["abx"]⟩
  shape := .flat ⟨.no, c!"tlib", .no, .no⟩ [⟨.ty (.base .str), .req⟩]
  attrs := [⟨"abx", (.base .str), false, (some .isNone)⟩]
  init := ["abx"]

/-- src/pymcnp/inp/m_0/Dlib.py:13-19; setter conditions: lines 65. -/
def m_0_Dlib : Cls where
  info := ⟨"Dlib", .option, c!"dlib", ["abx"]⟩
  shape := .flat ⟨.no, c!"dlib", .no, .no⟩ [⟨.ty (.base .str), .req⟩]
  attrs := [⟨"abx", (.base .str), false, (some .isNone)⟩]
  init := ["abx"]

/-- src/pymcnp/inp/m_0/Cond.py:13-19; setter conditions: lines 67. -/
def m_0_Cond : Cls where
  info := ⟨"Cond", .option, c!"cond", ["setting"]⟩
  shape := .flat ⟨.no, c!"cond", .no, .no⟩ [⟨.ty (.base .real), .req⟩]
  attrs := [⟨"setting", (.base .real), false, (some .isNone)⟩]
  init := ["setting"]

/-- src/pymcnp/inp/m_0/Refi.py:13-19; setter conditions: lines 67. -/
def m_0_Refi : Cls where
  info := ⟨"Refi", .option, c!"refi", ["refractive_index"]⟩
  shape := .flat ⟨.no, c!"refi", .no, .no⟩ [⟨.ty (.base .real), .req⟩]
  attrs := [⟨"refractive_index", (.base .real), false, (some .isNone)⟩]
  init := ["refractive_index"]

/-- src/pymcnp/inp/m_0/Refc.py:13-19; setter conditions: lines 70. -/
def m_0_Refc : Cls where
  info := ⟨"Refc", .option, c!"refc", ["coefficents"]⟩
  shape := .flat ⟨.no, c!"refc", .no, .no⟩ [⟨.ty (.base .real), .many⟩]
  attrs := [⟨"coefficents", (.base .real), true, (some .isNone)⟩]
  init := ["coefficents"]

/-- src/pymcnp/inp/m_0/Refs.py:13-19; setter conditions: lines 70. -/
def m_0_Refs : Cls where
  info := ⟨"Refs", .option, c!"refs", ["coefficents"]⟩
  shape := .flat ⟨.no, c!"refs", .no, .no⟩ [⟨.ty (.base .real), .many⟩]
  attrs := [⟨"coefficents", (.base .real), true, (some .isNone)⟩]
  init := ["coefficents"]

/-- src/pymcnp/inp/m_0/_option.py:4 and src/pymcnp/inp/m_0/__init__.py (order of definition). -/
def T_m_0_MOption_0 : Ty := unionTy "m_0.MOption_0" [m_0_Gas, m_0_Estep, m_0_Hstep, m_0_Nlib, m_0_Plib, m_0_Pnlib, m_0_Elib, m_0_Hlib, m_0_Alib, m_0_Slib, m_0_Tlib, m_0_Dlib, m_0_Cond, m_0_Refi, m_0_Refc, m_0_Refs]

/-- src/pymcnp/inp/mesh/Geom.py:13-19; setter conditions: lines 65. -/
def mesh_Geom : Cls where
  info := ⟨"Geom", .option, c!"geom", ["geometry"]⟩
  shape := .flat ⟨.no, c!"geom", .no, .no⟩ [⟨.ty (.base .str), .req⟩]
  attrs := [⟨"geometry", (.base .str), false, (some (.or .isNone (.not (.lowIn ["xyz", "rzt", "rpt", "cyl", "rec", "sph"]))))⟩]
  init := ["geometry"]

/-- src/pymcnp/inp/mesh/Ref.py:13-19; setter conditions: lines 70. -/
def mesh_Ref : Cls where
  info := ⟨"Ref", .option, c!"ref", ["point"]⟩
  shape := .flat ⟨.no, c!"ref", .no, .no⟩ [⟨.ty (.base .real), .many⟩]
  attrs := [⟨"point", (.base .real), true, (some .isNone)⟩]
  init := ["point"]

/-- src/pymcnp/inp/mesh/Origin.py:13-19; setter conditions: lines 70. -/
def mesh_Origin : Cls where
  info := ⟨"Origin", .option, c!"origin", ["point"]⟩
  shape := .flat ⟨.no, c!"origin", .no, .no⟩ [⟨.ty (.base .real), .many⟩]
  attrs := [⟨"point", (.base .real), true, (some .isNone)⟩]
  init := ["point"]

/-- src/pymcnp/inp/mesh/Axs.py:13-19; setter conditions: lines 70. -/
def mesh_Axs : Cls where
  info := ⟨"Axs", .option, c!"axs", ["vector"]⟩
  shape := .flat ⟨.no, c!"axs", .no, .no⟩ [⟨.ty (.base .real), .many⟩]
  attrs := [⟨"vector", (.base .real), true, (some .isNone)⟩]
  init := ["vector"]

/-- src/pymcnp/inp/mesh/Vec.py:13-19; setter conditions: lines 70. -/
def mesh_Vec : Cls where
  info := ⟨"Vec", .option, c!"vec", ["vector"]⟩
  shape := .flat ⟨.no, c!"vec", .no, .no⟩ [⟨.ty (.base .real), .many⟩]
  attrs := [⟨"vector", (.base .real), true, (some .isNone)⟩]
  init := ["vector"]

/-- src/pymcnp/inp/mesh/Imesh.py:13-19; setter conditions: lines 70. -/
def mesh_Imesh : Cls where
  info := ⟨"Imesh", .option, c!"imesh", ["vector"]⟩
  shape := .flat ⟨.no, c!"imesh", .no, .no⟩ [⟨.ty (.base .real), .many⟩]
  attrs := [⟨"vector", (.base .real), true, (some .isNone)⟩]
  init := ["vector"]

/-- src/pymcnp/inp/mesh/Iints.py:13-19; setter conditions: lines 70. -/
def mesh_Iints : Cls where
  info := ⟨"Iints", .option, c!"iints", ["number"]⟩
  shape := .flat ⟨.no, c!"iints", .no, .no⟩ [⟨.ty (.base .int), .many⟩]
  attrs := [⟨"number", (.base .int), true, (some .isNone)⟩]
  init := ["number"]

/-- src/pymcnp/inp/mesh/Jmesh.py:13-19; setter conditions: lines 70. -/
def mesh_Jmesh : Cls where
  info := ⟨"Jmesh", .option, c!"jmesh", ["vector"]⟩
  shape := .flat ⟨.no, c!"jmesh", .no, .no⟩ [⟨.ty (.base .real), .many⟩]
  attrs := [⟨"vector", (.base .real), true, (some .isNone)⟩]
  init := ["vector"]

/-- src/pymcnp/inp/mesh/Jints.py:13-19; setter conditions: lines 70. -/
def mesh_Jints : Cls where
  info := ⟨"Jints", .option, c!"jints", ["number"]⟩
  shape := .flat ⟨.no, c!"jints", .no, .no⟩ [⟨.ty (.base .int), .many⟩]
  attrs := [⟨"number", (.base .int), true, (some .isNone)⟩]
  init := ["number"]

/-- src/pymcnp/inp/mesh/Kmesh.py:13-19; setter conditions: lines 70. -/
def mesh_Kmesh : Cls where
  info := ⟨"Kmesh", .option, c!"kmesh", ["vector"]⟩
  shape := .flat ⟨.no, c!"kmesh", .no, .no⟩ [⟨.ty (.base .real), .many⟩]
  attrs := [⟨"vector", (.base .real), true, (some .isNone)⟩]
  init := ["vector"]

/-- src/pymcnp/inp/mesh/Kints.py:13-19; setter conditions: lines 70. -/
def mesh_Kints : Cls where
  info := ⟨"Kints", .option, c!"kints", ["number"]⟩
  shape := .flat ⟨.no, c!"kints", .no, .no⟩ [⟨.ty (.base .int), .many⟩]
  attrs := [⟨"number", (.base .int), true, (some .isNone)⟩]
  init := ["number"]

/-- src/pymcnp/inp/mesh/_option.py:4 and src/pymcnp/inp/mesh/__init__.py (order of definition). -/
def T_mesh_MeshOption : Ty := unionTy "mesh.MeshOption" [mesh_Geom, mesh_Ref, mesh_Origin, mesh_Axs, mesh_Vec, mesh_Imesh, mesh_Iints, mesh_Jmesh, mesh_Jints, mesh_Kmesh, mesh_Kints]

/-- src/pymcnp/inp/pert/Cell.py:13-19; setter conditions: lines 70. -/
def pert_Cell : Cls where
  info := ⟨"Cell", .option, c!"cell", ["numbers"]⟩
  shape := .flat ⟨.no, c!"cell", .no, .no⟩ [⟨.ty (.base .int), .many⟩]
  attrs := [⟨"numbers", (.base .int), true, (some .isNone)⟩]
  init := ["numbers"]

/-- src/pymcnp/inp/pert/Mat.py:13-19; setter conditions: lines 67. -/
def pert_Mat : Cls where
  info := ⟨"Mat", .option, c!"mat", ["material"]⟩
  shape := .flat ⟨.no, c!"mat", .no, .no⟩ [⟨.ty (.base .int), .req⟩]
  attrs := [⟨"material", (.base .int), false, (some (.or .isNone (.not (.and (.cmp .ge (0) 0) (.cmp .le (99999999) 0)))))⟩]
  init := ["material"]

/-- src/pymcnp/inp/pert/Rho.py:13-19; setter conditions: lines 67. -/
def pert_Rho : Cls where
  info := ⟨"Rho", .option, c!"rho", ["density"]⟩
  shape := .flat ⟨.no, c!"rho", .no, .no⟩ [⟨.ty (.base .real), .req⟩]
  attrs := [⟨"density", (.base .real), false, (some .isNone)⟩]
  init := ["density"]

/-- src/pymcnp/inp/pert/Method.py:13-19; setter conditions: lines 67. -/
def pert_Method : Cls where
  info := ⟨"Method", .option, c!"method", ["setting"]⟩
  shape := .flat ⟨.no, c!"method", .no, .no⟩ [⟨.ty (.base .int), .req⟩]
  attrs := [⟨"setting", (.base .int), false, (some (.or .isNone (.not (.inInts [1, -1, 2, -2, 3, -3]))))⟩]
  init := ["setting"]

/-- src/pymcnp/inp/pert/Erg.py:13-20; setter conditions: lines 70, 108. -/
def pert_Erg : Cls where
  info := ⟨"Erg", .option, c!"erg", ["energy_lower_bound", "energy_upper_bound"]⟩
  shape := .flat ⟨.no, c!"erg", .no, .no⟩ [⟨.ty (.base .real), .req⟩, ⟨.ty (.base .real), .req⟩]
  attrs := [⟨"energy_lower_bound", (.base .real), false, (some .isNone)⟩,
    ⟨"energy_upper_bound", (.base .real), false, (some .isNone)⟩]
  init := ["energy_lower_bound", "energy_upper_bound"]

/-- src/pymcnp/inp/pert/Rxn.py:13-19; setter conditions: lines 70. -/
def pert_Rxn : Cls where
  info := ⟨"Rxn", .option, c!"rxn", ["numbers"]⟩
  shape := .flat ⟨.no, c!"rxn", .no, .no⟩ [⟨.ty (.base .int), .many⟩]
  attrs := [⟨"numbers", (.base .int), true, (some .isNone)⟩]
  init := ["numbers"]

/-- src/pymcnp/inp/pert/_option.py:4 and src/pymcnp/inp/pert/__init__.py (order of definition). -/
def T_pert_PertOption : Ty := unionTy "pert.PertOption" [pert_Cell, pert_Mat, pert_Rho, pert_Method, pert_Erg, pert_Rxn]

/-- src/pymcnp/inp/pikmt/Photonbias.py:13-20; setter conditions: lines 68, 106. -/
def pikmt_Photonbias : Cls where
  info := ⟨"Photonbias", .entry, c!"", ["zaid", "ipiki"]⟩
  shape := .other (.seq (.grp (.ty (.base .zaid))) (.seq (.lits c!" ") (.grp (.ty (.base .int)))))
  attrs := [⟨"zaid", (.base .zaid), false, (some .isNone)⟩,
    ⟨"ipiki", (.base .int), false, (some .isNone)⟩]
  init := ["zaid", "ipiki"]

/-- pikmt.Photonbias as an attribute type. -/
def T_pikmt_Photonbias : Ty := pikmt_Photonbias.asTy "pikmt.Photonbias"

/-- src/pymcnp/inp/pikmt/_entry.py:4 and src/pymcnp/inp/pikmt/__init__.py (order of definition). -/
def T_pikmt_PikmtEntry : Ty := unionTy "pikmt.PikmtEntry" [pikmt_Photonbias]

/-- src/pymcnp/inp/ptrac/Buffer.py:13-19; setter conditions: lines 67. -/
def ptrac_Buffer : Cls where
  info := ⟨"Buffer", .option, c!"buffer", ["storage"]⟩
  shape := .flat ⟨.no, c!"buffer", .no, .no⟩ [⟨.ty (.base .int), .req⟩]
  attrs := [⟨"storage", (.base .int), false, (some (.or .isNone (.not (.cmp .gt (0) 0))))⟩]
  init := ["storage"]

/-- src/pymcnp/inp/ptrac/File.py:13-19; setter conditions: lines 65. -/
def ptrac_File : Cls where
  info := ⟨"File", .option, c!"file", ["setting"]⟩
  shape := .other (.seq (.lits c!"file") (.ngrp (.seq (.lits c!" ") (.grp (.alt (.lits c!"asc") (.alt (.lits c!"bin") (.alt (.lits c!"aov") (.lits c!"bov"))))))))
  attrs := [⟨"setting", (.base .str), false, (some (.or .isNone (.not (.lowIn ["asc", "bin", "aov", "bov"]))))⟩]
  init := ["setting"]

/-- src/pymcnp/inp/ptrac/Max.py:13-19; setter conditions: lines 67. -/
def ptrac_Max : Cls where
  info := ⟨"Max", .option, c!"max", ["events"]⟩
  shape := .flat ⟨.no, c!"max", .no, .no⟩ [⟨.ty (.base .int), .req⟩]
  attrs := [⟨"events", (.base .int), false, (some (.or .isNone (.not (.cmp .ne (0) 0))))⟩]
  init := ["events"]

/-- src/pymcnp/inp/ptrac/Meph.py:13-19; setter conditions: lines 67. -/
def ptrac_Meph : Cls where
  info := ⟨"Meph", .option, c!"meph", ["events"]⟩
  shape := .flat ⟨.no, c!"meph", .no, .no⟩ [⟨.ty (.base .int), .req⟩]
  attrs := [⟨"events", (.base .int), false, (some (.or .isNone (.not (.cmp .gt (0) 0))))⟩]
  init := ["events"]

/-- src/pymcnp/inp/ptrac/Write.py:13-19; setter conditions: lines 65. -/
def ptrac_Write : Cls where
  info := ⟨"Write", .option, c!"write", ["setting"]⟩
  shape := .other (.seq (.lits c!"write") (.ngrp (.seq (.lits c!" ") (.grp (.alt (.lits c!"pos") (.lits c!"all"))))))
  attrs := [⟨"setting", (.base .str), false, (some (.or .isNone (.not (.lowIn ["pos", "all"]))))⟩]
  init := ["setting"]

/-- src/pymcnp/inp/ptrac/Conic.py:13-19; setter conditions: lines 65. -/
def ptrac_Conic : Cls where
  info := ⟨"Conic", .option, c!"conic", ["setting"]⟩
  shape := .other (.seq (.lits c!"conic") (.ngrp (.seq (.lits c!" ") (.grp (.alt (.lits c!"col") (.lits c!"lin"))))))
  attrs := [⟨"setting", (.base .str), false, (some (.or .isNone (.not (.lowIn ["col", "lin"]))))⟩]
  init := ["setting"]

/-- src/pymcnp/inp/ptrac/Event.py:13-19; setter conditions: lines 68. -/
def ptrac_Event : Cls where
  info := ⟨"Event", .option, c!"event", ["settings"]⟩
  shape := .flat ⟨.no, c!"event", .no, .no⟩ [⟨.ty (.base .str), .many⟩]
  attrs := [⟨"settings", (.base .str), true, (some .isNone)⟩]
  init := ["settings"]

/-- src/pymcnp/inp/ptrac/filter/Entry.py:13-21; setter conditions: lines 83, 154. -/
def ptrac_filter_Entry : Cls where
  info := ⟨"Entry", .filter, c!"", ["lower", "variable", "upper"]⟩
  shape := .other (.seq (.grp (.plus true (.cls (.set true [.s, .ch ','])))) (.seq (.lits c!",") (.seq (.grp (.plus true (.cls (.set true [.s, .ch ','])))) (.opt (.ngrp (.seq (.lits c!",") (.grp (.plus true (.cls (.set true [.s, .ch ',']))))))))))
  attrs := [⟨"lower", (.base .real), false, (some .isNone)⟩,
    ⟨"variable", (.base .str), false, none⟩,
    ⟨"upper", (.base .real), false, (some .isNone)⟩]
  init := ["lower", "variable", "upper"]

/-- filter.Entry as an attribute type. -/
def T_ptrac_filter_Entry : Ty := ptrac_filter_Entry.asTy "filter.Entry"

/-- src/pymcnp/inp/ptrac/Filter.py:14-20; setter conditions: lines 69. -/
def ptrac_Filter : Cls where
  info := ⟨"Filter", .option, c!"filter", ["variables"]⟩
  shape := .flat ⟨.no, c!"filter", .no, .no⟩ [⟨.ty T_ptrac_filter_Entry, .many⟩]
  attrs := [⟨"variables", T_ptrac_filter_Entry, true, (some .isNone)⟩]
  init := ["variables"]

/-- src/pymcnp/inp/ptrac/Type.py:13-19; setter conditions: lines 68. -/
def ptrac_Type : Cls where
  info := ⟨"Type", .option, c!"type", ["particles"]⟩
  shape := .flat ⟨.no, c!"type", .no, .no⟩ [⟨.ty (.base .desig), .many⟩]
  attrs := [⟨"particles", (.base .desig), true, (some .isNone)⟩]
  init := ["particles"]

/-- src/pymcnp/inp/ptrac/Nps.py:13-19; setter conditions: lines 70. -/
def ptrac_Nps : Cls where
  info := ⟨"Nps", .option, c!"nps", ["particles"]⟩
  shape := .flat ⟨.no, c!"nps", .no, .no⟩ [⟨.ty (.base .int), .many⟩]
  attrs := [⟨"particles", (.base .int), true, (some .isNone)⟩]
  init := ["particles"]

/-- src/pymcnp/inp/ptrac/Cell.py:13-19; setter conditions: lines 70. -/
def ptrac_Cell : Cls where
  info := ⟨"Cell", .option, c!"cell", ["numbers"]⟩
  shape := .flat ⟨.no, c!"cell", .no, .no⟩ [⟨.ty (.base .int), .many⟩]
  attrs := [⟨"numbers", (.base .int), true, (some .isNone)⟩]
  init := ["numbers"]

/-- src/pymcnp/inp/ptrac/Surface.py:13-19; setter conditions: lines 70. -/
def ptrac_Surface : Cls where
  info := ⟨"Surface", .option, c!"surface", ["numbers"]⟩
  shape := .flat ⟨.no, c!"surface", .no, .no⟩ [⟨.ty (.base .int), .many⟩]
  attrs := [⟨"numbers", (.base .int), true, (some .isNone)⟩]
  init := ["numbers"]

/-- src/pymcnp/inp/ptrac/Tally.py:13-19; setter conditions: lines 70. -/
def ptrac_Tally : Cls where
  info := ⟨"Tally", .option, c!"tally", ["numbers"]⟩
  shape := .flat ⟨.no, c!"tally", .no, .no⟩ [⟨.ty (.base .int), .many⟩]
  attrs := [⟨"numbers", (.base .int), true, (some .isNone)⟩]
  init := ["numbers"]

/-- src/pymcnp/inp/ptrac/Value.py:13-19; setter conditions: lines 67. -/
def ptrac_Value : Cls where
  info := ⟨"Value", .option, c!"value", ["cutoff"]⟩
  shape := .flat ⟨.no, c!"value", .no, .no⟩ [⟨.ty (.base .real), .req⟩]
  attrs := [⟨"cutoff", (.base .real), false, (some .isNone)⟩]
  init := ["cutoff"]

/-- src/pymcnp/inp/ptrac/_option.py:4 and src/pymcnp/inp/ptrac/__init__.py (order of definition). -/
def T_ptrac_PtracOption : Ty := unionTy "ptrac.PtracOption" [ptrac_Buffer, ptrac_File, ptrac_Max, ptrac_Meph, ptrac_Write, ptrac_Conic, ptrac_Event, ptrac_Filter, ptrac_Type, ptrac_Nps, ptrac_Cell, ptrac_Surface, ptrac_Tally, ptrac_Value]

/-- src/pymcnp/inp/ptrac/filter/_entry.py:4 and src/pymcnp/inp/ptrac/filter/__init__.py (order of definition). -/
def T_ptrac_filter_FilterEntry : Ty := unionTy "filter.FilterEntry" [ptrac_filter_Entry]

/-- src/pymcnp/inp/rand/Gen.py:13-19; setter conditions: lines 67. -/
def rand_Gen : Cls where
  info := ⟨"Gen", .option, c!"gen", ["setting"]⟩
  shape := .flat ⟨.no, c!"gen", .no, .no⟩ [⟨.ty (.base .int), .req⟩]
  attrs := [⟨"setting", (.base .int), false, (some (.or .isNone (.not (.inInts [1, 2, 3, 4]))))⟩]
  init := ["setting"]

/-- src/pymcnp/inp/rand/Seed.py:13-19; setter conditions: lines 67. -/
def rand_Seed : Cls where
  info := ⟨"Seed", .option, c!"seed", ["seed"]⟩
  shape := .flat ⟨.no, c!"seed", .no, .no⟩ [⟨.ty (.base .int), .req⟩]
  attrs := [⟨"seed", (.base .int), false, (some (.or .isNone (.not (.modEq 2 1))))⟩]
  init := ["seed"]

/-- src/pymcnp/inp/rand/Stride.py:13-19; setter conditions: lines 67. -/
def rand_Stride : Cls where
  info := ⟨"Stride", .option, c!"stride", ["stride"]⟩
  shape := .flat ⟨.no, c!"stride", .no, .no⟩ [⟨.ty (.base .int), .req⟩]
  attrs := [⟨"stride", (.base .int), false, (some .isNone)⟩]
  init := ["stride"]

/-- src/pymcnp/inp/rand/Hist.py:13-19; setter conditions: lines 67. -/
def rand_Hist : Cls where
  info := ⟨"Hist", .option, c!"hist", ["hist"]⟩
  shape := .flat ⟨.no, c!"hist", .no, .no⟩ [⟨.ty (.base .int), .req⟩]
  attrs := [⟨"hist", (.base .int), false, (some .isNone)⟩]
  init := ["hist"]

/-- src/pymcnp/inp/rand/_option.py:4 and src/pymcnp/inp/rand/__init__.py (order of definition). -/
def T_rand_RandOption : Ty := unionTy "rand.RandOption" [rand_Gen, rand_Seed, rand_Stride, rand_Hist]

/-- src/pymcnp/inp/ssr/Old.py:13-19; setter conditions: lines 70. -/
def ssr_Old : Cls where
  info := ⟨"Old", .option, c!"old", ["numbers"]⟩
  shape := .flat ⟨.no, c!"old", .no, .no⟩ [⟨.ty (.base .int), .many⟩]
  attrs := [⟨"numbers", (.base .int), true, (some .isNone)⟩]
  init := ["numbers"]

/-- src/pymcnp/inp/ssr/Cel.py:13-19; setter conditions: lines 70. -/
def ssr_Cel : Cls where
  info := ⟨"Cel", .option, c!"cel", ["numbers"]⟩
  shape := .flat ⟨.no, c!"cel", .no, .no⟩ [⟨.ty (.base .int), .many⟩]
  attrs := [⟨"numbers", (.base .int), true, (some .isNone)⟩]
  init := ["numbers"]

/-- src/pymcnp/inp/ssr/New.py:13-19; setter conditions: lines 70. -/
def ssr_New : Cls where
  info := ⟨"New", .option, c!"new", ["numbers"]⟩
  shape := .flat ⟨.no, c!"new", .no, .no⟩ [⟨.ty (.base .int), .many⟩]
  attrs := [⟨"numbers", (.base .int), true, (some .isNone)⟩]
  init := ["numbers"]

/-- src/pymcnp/inp/ssr/Pty.py:13-19; setter conditions: lines 68. -/
def ssr_Pty : Cls where
  info := ⟨"Pty", .option, c!"pty", ["particles"]⟩
  shape := .flat ⟨.no, c!"pty", .no, .no⟩ [⟨.ty (.base .desig), .many⟩]
  attrs := [⟨"particles", (.base .desig), true, (some .isNone)⟩]
  init := ["particles"]

/-- src/pymcnp/inp/ssr/Col.py:13-19; setter conditions: lines 67. -/
def ssr_Col : Cls where
  info := ⟨"Col", .option, c!"col", ["setting"]⟩
  shape := .flat ⟨.no, c!"col", .no, .no⟩ [⟨.ty (.base .int), .req⟩]
  attrs := [⟨"setting", (.base .int), false, (some (.or .isNone (.not (.inInts [-1, 0, 1]))))⟩]
  init := ["setting"]

/-- src/pymcnp/inp/ssr/Wgt.py:13-19; setter conditions: lines 67. -/
def ssr_Wgt : Cls where
  info := ⟨"Wgt", .option, c!"wgt", ["constant"]⟩
  shape := .flat ⟨.no, c!"wgt", .no, .no⟩ [⟨.ty (.base .real), .req⟩]
  attrs := [⟨"constant", (.base .real), false, (some .isNone)⟩]
  init := ["constant"]

/-- src/pymcnp/inp/ssr/Tr_0.py:13-19; setter conditions: lines 65. -/
def ssr_Tr_0 : Cls where
  info := ⟨"Tr_0", .option, c!"tr", ["number"]⟩
  shape := .flat ⟨.no, c!"tr", .no, .no⟩ [⟨.ty (.base .dist), .req⟩]
  attrs := [⟨"number", (.base .dist), false, (some .isNone)⟩]
  init := ["number"]

/-- src/pymcnp/inp/ssr/Tr_1.py:13-19; setter conditions: lines 67. -/
def ssr_Tr_1 : Cls where
  info := ⟨"Tr_1", .option, c!"tr", ["number"]⟩
  shape := .flat ⟨.no, c!"tr", .no, .no⟩ [⟨.ty (.base .int), .req⟩]
  attrs := [⟨"number", (.base .int), false, (some .isNone)⟩]
  init := ["number"]

/-- src/pymcnp/inp/ssr/Psc.py:13-19; setter conditions: lines 67. -/
def ssr_Psc : Cls where
  info := ⟨"Psc", .option, c!"psc", ["constant"]⟩
  shape := .flat ⟨.no, c!"psc", .no, .no⟩ [⟨.ty (.base .real), .req⟩]
  attrs := [⟨"constant", (.base .real), false, (some (.or .isNone (.not (.cmp .ge (0) 0))))⟩]
  init := ["constant"]

/-- src/pymcnp/inp/ssr/Axs.py:13-19; setter conditions: lines 70. -/
def ssr_Axs : Cls where
  info := ⟨"Axs", .option, c!"axs", ["cosines"]⟩
  shape := .flat ⟨.no, c!"axs", .no, .no⟩ [⟨.ty (.base .real), .many⟩]
  attrs := [⟨"cosines", (.base .real), true, (some .isNone)⟩]
  init := ["cosines"]

/-- src/pymcnp/inp/ssr/Ext.py:13-19; setter conditions: lines 65. -/
def ssr_Ext : Cls where
  info := ⟨"Ext", .option, c!"ext", ["number"]⟩
  shape := .flat ⟨.no, c!"ext", .no, .no⟩ [⟨.ty (.base .dist), .req⟩]
  attrs := [⟨"number", (.base .dist), false, (some .isNone)⟩]
  init := ["number"]

/-- src/pymcnp/inp/ssr/Poa.py:13-19; setter conditions: lines 67. -/
def ssr_Poa : Cls where
  info := ⟨"Poa", .option, c!"poa", ["angle"]⟩
  shape := .flat ⟨.no, c!"poa", .no, .no⟩ [⟨.ty (.base .real), .req⟩]
  attrs := [⟨"angle", (.base .real), false, (some .isNone)⟩]
  init := ["angle"]

/-- src/pymcnp/inp/ssr/Bcw.py:13-21; setter conditions: lines 73, 111, 149. -/
def ssr_Bcw : Cls where
  info := ⟨"Bcw", .option, c!"bcw", ["radius", "zb", "ze"]⟩
  shape := .flat ⟨.no, c!"bcw", .no, .no⟩ [⟨.ty (.base .real), .req⟩, ⟨.ty (.base .real), .req⟩, ⟨.ty (.base .real), .req⟩]
  attrs := [⟨"radius", (.base .real), false, (some .isNone)⟩,
    ⟨"zb", (.base .real), false, (some (.or .isNone (.not (.cmp .gt (0) 0))))⟩,
    ⟨"ze", (.base .real), false, (some (.or .isNone (.not (.and (.self "zb" (.cmp .gt (0) 0)) (.ltSelf "zb")))))⟩]
  init := ["radius", "zb", "ze"]

/-- src/pymcnp/inp/ssr/_option.py:4 and src/pymcnp/inp/ssr/__init__.py (order of definition). -/
def T_ssr_SsrOption : Ty := unionTy "ssr.SsrOption" [ssr_Old, ssr_Cel, ssr_New, ssr_Pty, ssr_Col, ssr_Wgt, ssr_Tr_0, ssr_Tr_1, ssr_Psc, ssr_Axs, ssr_Ext, ssr_Poa, ssr_Bcw]

/-- src/pymcnp/inp/ssw/Sym.py:13-19; setter conditions: lines 67. -/
def ssw_Sym : Cls where
  info := ⟨"Sym", .option, c!"sym", ["setting"]⟩
  shape := .flat ⟨.no, c!"sym", .no, .no⟩ [⟨.ty (.base .int), .req⟩]
  attrs := [⟨"setting", (.base .int), false, (some (.or .isNone (.not (.inInts [0, 1, 2]))))⟩]
  init := ["setting"]

/-- src/pymcnp/inp/ssw/Pty.py:13-19; setter conditions: lines 68. -/
def ssw_Pty : Cls where
  info := ⟨"Pty", .option, c!"pty", ["tracks"]⟩
  shape := .flat ⟨.no, c!"pty", .no, .no⟩ [⟨.ty (.base .desig), .many⟩]
  attrs := [⟨"tracks", (.base .desig), true, (some .isNone)⟩]
  init := ["tracks"]

/-- src/pymcnp/inp/ssw/Cel.py:13-19; setter conditions: lines 70. -/
def ssw_Cel : Cls where
  info := ⟨"Cel", .option, c!"cel", ["cfs"]⟩
  shape := .flat ⟨.no, c!"cel", .no, .no⟩ [⟨.ty (.base .int), .many⟩]
  attrs := [⟨"cfs", (.base .int), true, (some .isNone)⟩]
  init := ["cfs"]

/-- src/pymcnp/inp/ssw/_option.py:4 and src/pymcnp/inp/ssw/__init__.py (order of definition). -/
def T_ssw_SswOption : Ty := unionTy "ssw.SswOption" [ssw_Sym, ssw_Pty, ssw_Cel]

/-- src/pymcnp/inp/stop/Nps.py:13-20; setter conditions: lines 70. -/
def stop_Nps : Cls where
  info := ⟨"Nps", .option, c!"nps", ["npp", "npsmg"]⟩
  shape := .flat ⟨.no, c!"nps", .no, .no⟩ [⟨.ty (.base .int), .req⟩, ⟨.ty (.base .int), .opt⟩]
  attrs := [⟨"npp", (.base .int), false, (some .isNone)⟩,
    ⟨"npsmg", (.base .int), false, none⟩]
  init := ["npp", "npsmg"]

/-- src/pymcnp/inp/stop/Ctme.py:13-19; setter conditions: lines 67. -/
def stop_Ctme : Cls where
  info := ⟨"Ctme", .option, c!"ctme", ["tme"]⟩
  shape := .flat ⟨.no, c!"ctme", .no, .no⟩ [⟨.ty (.base .real), .req⟩]
  attrs := [⟨"tme", (.base .real), false, (some .isNone)⟩]
  init := ["tme"]

/-- src/pymcnp/inp/stop/F.py:13-20; setter conditions: lines 70, 108. -/
def stop_F : Cls where
  info := ⟨"F", .option, c!"f", ["suffix", "e"]⟩
  shape := .flat ⟨.no, c!"f", .req, .no⟩ [⟨.ty (.base .int), .req⟩]
  attrs := [⟨"suffix", (.base .int), false, (some (.or .isNone (.not (.cmp .le (99999999) 0))))⟩,
    ⟨"e", (.base .int), false, (some .isNone)⟩]
  init := ["suffix", "e"]

/-- src/pymcnp/inp/stop/_option.py:4 and src/pymcnp/inp/stop/__init__.py (order of definition). -/
def T_stop_StopOption : Ty := unionTy "stop.StopOption" [stop_Nps, stop_Ctme, stop_F]

/-- src/pymcnp/inp/t_1/Cbeg.py:13-19; setter conditions: lines 67. -/
def t_1_Cbeg : Cls where
  info := ⟨"Cbeg", .option, c!"cbeg", ["time"]⟩
  shape := .flat ⟨.no, c!"cbeg", .no, .no⟩ [⟨.ty (.base .real), .req⟩]
  attrs := [⟨"time", (.base .real), false, (some .isNone)⟩]
  init := ["time"]

/-- src/pymcnp/inp/t_1/Cfrq.py:13-19; setter conditions: lines 67. -/
def t_1_Cfrq : Cls where
  info := ⟨"Cfrq", .option, c!"cfrq", ["frequency"]⟩
  shape := .flat ⟨.no, c!"cfrq", .no, .no⟩ [⟨.ty (.base .real), .req⟩]
  attrs := [⟨"frequency", (.base .real), false, (some .isNone)⟩]
  init := ["frequency"]

/-- src/pymcnp/inp/t_1/Cofi.py:13-19; setter conditions: lines 67. -/
def t_1_Cofi : Cls where
  info := ⟨"Cofi", .option, c!"cofi", ["time"]⟩
  shape := .flat ⟨.no, c!"cofi", .no, .no⟩ [⟨.ty (.base .real), .req⟩]
  attrs := [⟨"time", (.base .real), false, (some .isNone)⟩]
  init := ["time"]

/-- src/pymcnp/inp/t_1/Coni.py:13-19; setter conditions: lines 67. -/
def t_1_Coni : Cls where
  info := ⟨"Coni", .option, c!"coni", ["time"]⟩
  shape := .flat ⟨.no, c!"coni", .no, .no⟩ [⟨.ty (.base .real), .req⟩]
  attrs := [⟨"time", (.base .real), false, (some .isNone)⟩]
  init := ["time"]

/-- src/pymcnp/inp/t_1/Csub.py:13-19; setter conditions: lines 67. -/
def t_1_Csub : Cls where
  info := ⟨"Csub", .option, c!"csub", ["count"]⟩
  shape := .flat ⟨.no, c!"csub", .no, .no⟩ [⟨.ty (.base .int), .req⟩]
  attrs := [⟨"count", (.base .int), false, (some .isNone)⟩]
  init := ["count"]

/-- src/pymcnp/inp/t_1/Cend.py:13-19; setter conditions: lines 67. -/
def t_1_Cend : Cls where
  info := ⟨"Cend", .option, c!"cend", ["time"]⟩
  shape := .flat ⟨.no, c!"cend", .no, .no⟩ [⟨.ty (.base .real), .req⟩]
  attrs := [⟨"time", (.base .real), false, (some .isNone)⟩]
  init := ["time"]

/-- src/pymcnp/inp/t_1/_option.py:4 and src/pymcnp/inp/t_1/__init__.py (order of definition). -/
def T_t_1_TOption_1 : Ty := unionTy "t_1.TOption_1" [t_1_Cbeg, t_1_Cfrq, t_1_Cofi, t_1_Coni, t_1_Csub, t_1_Cend]

/-- src/pymcnp/inp/tropt/Mcscat.py:13-19; setter conditions: lines 65. -/
def tropt_Mcscat : Cls where
  info := ⟨"Mcscat", .option, c!"mcscat", ["setting"]⟩
  shape := .flat ⟨.no, c!"mcscat", .no, .no⟩ [⟨.ty (.base .str), .req⟩]
  attrs := [⟨"setting", (.base .str), false, (some (.or .isNone (.not (.lowIn ["off", "fnal1", "gaussian", "fnal2"]))))⟩]
  init := ["setting"]

/-- src/pymcnp/inp/tropt/Eloss.py:13-19; setter conditions: lines 65. -/
def tropt_Eloss : Cls where
  info := ⟨"Eloss", .option, c!"eloss", ["setting"]⟩
  shape := .flat ⟨.no, c!"eloss", .no, .no⟩ [⟨.ty (.base .str), .req⟩]
  attrs := [⟨"setting", (.base .str), false, (some (.or .isNone (.not (.lowIn ["off", "strag1", "csda"]))))⟩]
  init := ["setting"]

/-- src/pymcnp/inp/tropt/Nreact.py:13-19; setter conditions: lines 65. -/
def tropt_Nreact : Cls where
  info := ⟨"Nreact", .option, c!"nreact", ["setting"]⟩
  shape := .flat ⟨.no, c!"nreact", .no, .no⟩ [⟨.ty (.base .str), .req⟩]
  attrs := [⟨"setting", (.base .str), false, (some (.or .isNone (.not (.lowIn ["off", "on", "atten", "remove"]))))⟩]
  init := ["setting"]

/-- src/pymcnp/inp/tropt/Nescat.py:13-19; setter conditions: lines 65. -/
def tropt_Nescat : Cls where
  info := ⟨"Nescat", .option, c!"nescat", ["setting"]⟩
  shape := .flat ⟨.no, c!"nescat", .no, .no⟩ [⟨.ty (.base .str), .req⟩]
  attrs := [⟨"setting", (.base .str), false, (some (.or .isNone (.not (.lowIn ["off", "on"]))))⟩]
  init := ["setting"]

/-- src/pymcnp/inp/tropt/Genxs.py:12-18. -/
def tropt_Genxs : Cls where
  info := ⟨"Genxs", .option, c!"genxs", ["filename"]⟩
  shape := .flat ⟨.no, c!"genxs", .no, .no⟩ [⟨.ty (.base .str), .opt⟩]
  attrs := [⟨"filename", (.base .str), false, none⟩]
  init := ["filename"]

/-- src/pymcnp/inp/tropt/_option.py:4 and src/pymcnp/inp/tropt/__init__.py (order of definition). -/
def T_tropt_TroptOption : Ty := unionTy "tropt.TroptOption" [tropt_Mcscat, tropt_Eloss, tropt_Nreact, tropt_Nescat, tropt_Genxs]

/-- src/pymcnp/inp/uran/Stochastic.py:13-22; setter conditions: lines 76, 114, 152, 190. -/
def uran_Stochastic : Cls where
  info := ⟨"Stochastic", .entry, c!"", ["universe", "maximum_x", "maximum_y", "maximum_z"]⟩
  shape := .other (.seq (.grp (.ty (.base .int))) (.seq (.lits c!" ") (.seq (.grp (.ty (.base .real))) (.seq (.lits c!" ") (.seq (.grp (.ty (.base .real))) (.seq (.lits c!" ") (.grp (.ty (.base .real)))))))))
  attrs := [⟨"universe", (.base .int), false, (some (.or .isNone (.not (.and (.cmp .ge (0) 0) (.cmp .le (99999999) 0)))))⟩,
    ⟨"maximum_x", (.base .real), false, (some .isNone)⟩,
    ⟨"maximum_y", (.base .real), false, (some .isNone)⟩,
    ⟨"maximum_z", (.base .real), false, (some .isNone)⟩]
  init := ["universe", "maximum_x", "maximum_y", "maximum_z"]

/-- uran.Stochastic as an attribute type. -/
def T_uran_Stochastic : Ty := uran_Stochastic.asTy "uran.Stochastic"

/-- src/pymcnp/inp/uran/_entry.py:4 and src/pymcnp/inp/uran/__init__.py (order of definition). -/
def T_uran_UranEntry : Ty := unionTy "uran.UranEntry" [uran_Stochastic]

/-- src/pymcnp/inp/var/Rr.py:13-19; setter conditions: lines 65. -/
def var_Rr : Cls where
  info := ⟨"Rr", .option, c!"rr", ["setting"]⟩
  shape := .flat ⟨.no, c!"rr", .no, .no⟩ [⟨.ty (.base .str), .req⟩]
  attrs := [⟨"setting", (.base .str), false, (some (.or .isNone (.not (.lowIn ["no", "off"]))))⟩]
  init := ["setting"]

/-- src/pymcnp/inp/var/_option.py:4 and src/pymcnp/inp/var/__init__.py (order of definition). -/
def T_var_VarOption : Ty := unionTy "var.VarOption" [var_Rr]

/-- Classes 1 to 20 of this file with the text of their patterns between `\A` and `\Z`. -/
def sourcesOptions0 : List (Cls × Str) := [
  (act_Fission, c!"fission( {types.String._REGEX.pattern[2:-2]})"),
  (act_Nonfiss, c!"nonfiss( {types.String._REGEX.pattern[2:-2]})"),
  (act_Dn, c!"dn( {types.String._REGEX.pattern[2:-2]})"),
  (act_Dg, c!"dg( {types.String._REGEX.pattern[2:-2]})"),
  (act_Thresh, c!"thresh( {types.Real._REGEX.pattern[2:-2]})"),
  (act_Dnbais, c!"dnbais( {types.Integer._REGEX.pattern[2:-2]})"),
  (act_Nap, c!"nap( {types.Integer._REGEX.pattern[2:-2]})"),
  (act_dneb_Bias, c!"({types.Real._REGEX.pattern[2:-2]}) ({types.Real._REGEX.pattern[2:-2]})"),
  (act_Dneb, c!"dneb((?: {dneb.Bias._REGEX.pattern[2:-2]})+?)"),
  (act_dgeb_Bias, c!"({types.Real._REGEX.pattern[2:-2]}) ({types.Real._REGEX.pattern[2:-2]})"),
  (act_Dgeb, c!"dgeb((?: {dgeb.Bias._REGEX.pattern[2:-2]})+?)"),
  (act_Pecut, c!"pecut( {types.Real._REGEX.pattern[2:-2]})"),
  (act_Hlcut, c!"hlcut( {types.Real._REGEX.pattern[2:-2]})"),
  (act_Sample, c!"sample( {types.String._REGEX.pattern[2:-2]})"),
  (bfld_Field, c!"field( {types.Real._REGEX.pattern[2:-2]})"),
  (bfld_Vec, c!"vec((?: {types.Real._REGEX.pattern[2:-2]})+?)"),
  (bfld_Maxdeflc, c!"maxdeflc( {types.Real._REGEX.pattern[2:-2]})"),
  (bfld_Maxstep, c!"maxstep( {types.Real._REGEX.pattern[2:-2]})"),
  (bfld_Axs, c!"axs((?: {types.Real._REGEX.pattern[2:-2]})+?)"),
  (bfld_Ffedges, c!"ffedges((?: {types.Real._REGEX.pattern[2:-2]})+?)")]

theorem sourcesOptions0_ok : sourcesOptions0.all (fun p => p.1.pat.src == p.2) = true := by decide +kernel

/-- Classes 21 to 40 of this file with the text of their patterns between `\A` and `\Z`. -/
def sourcesOptions1 : List (Cls × Str) := [
  (bfld_Refpnt, c!"refpnt((?: {types.Real._REGEX.pattern[2:-2]})+?)"),
  (dd_Diagnostic, c!"({types.Real._REGEX.pattern[2:-2]}) ({types.Real._REGEX.pattern[2:-2]})"),
  (df_1_Iu, c!"iu( {types.Integer._REGEX.pattern[2:-2]})"),
  (df_1_Fac, c!"fac( {types.Integer._REGEX.pattern[2:-2]})"),
  (df_1_Ic, c!"ic( {types.Integer._REGEX.pattern[2:-2]})"),
  (df_1_Log, c!"log"),
  (df_1_Lin, c!"lin"),
  (ds_1_Variables, c!"({types.Real._REGEX.pattern[2:-2]}) ({types.Real._REGEX.pattern[2:-2]})"),
  (ds_2_Variables, c!"({types.Distribution._REGEX.pattern[2:-2]}) ({types.Real._REGEX.pattern[2:-2]})"),
  (dxt_Shell, c!"({types.Real._REGEX.pattern[2:-2]}) ({types.Real._REGEX.pattern[2:-2]}) ({types.Real._REGEX.pattern[2:-2]}) ({types.Integer._REGEX.pattern[2:-2]}) ({types.Integer._REGEX.pattern[2:-2]})"),
  (embed_Background, c!"background( {types.Integer._REGEX.pattern[2:-2]})"),
  (embed_matcell_Entry, c!"({types.Integer._REGEX.pattern[2:-2]}) ({types.Integer._REGEX.pattern[2:-2]})"),
  (embed_Matcell, c!"matcell((?: {matcell.Entry._REGEX.pattern[2:-2]})+?)"),
  (embed_Meshgeo, c!"meshgeo( {types.String._REGEX.pattern[2:-2]})"),
  (embed_Mgeoin, c!"mgeoin( {types.String._REGEX.pattern[2:-2]})"),
  (embed_Meeout, c!"meeout( {types.String._REGEX.pattern[2:-2]})"),
  (embed_Meein, c!"meein( {types.String._REGEX.pattern[2:-2]})"),
  (embed_Calcvols, c!"calc_vols( {types.String._REGEX.pattern[2:-2]})"),
  (embed_Debug, c!"debug( {types.String._REGEX.pattern[2:-2]})"),
  (embed_Filetype, c!"filetype( {types.String._REGEX.pattern[2:-2]})")]

theorem sourcesOptions1_ok : sourcesOptions1.all (fun p => p.1.pat.src == p.2) = true := by decide +kernel

/-- Classes 41 to 60 of this file with the text of their patterns between `\A` and `\Z`. -/
def sourcesOptions2 : List (Cls × Str) := [
  (embed_Gmvfile, c!"gmvfile( {types.String._REGEX.pattern[2:-2]})"),
  (embed_Length, c!"length( {types.Real._REGEX.pattern[2:-2]})"),
  (embed_Mcnpumfile, c!"mcnpumfile( {types.String._REGEX.pattern[2:-2]})"),
  (embee_Embed, c!"embed( {types.Integer._REGEX.pattern[2:-2]})"),
  (embee_Energy, c!"energy( {types.Real._REGEX.pattern[2:-2]})"),
  (embee_Time, c!"time( {types.Real._REGEX.pattern[2:-2]})"),
  (embee_Atom, c!"atom( {types.String._REGEX.pattern[2:-2]})"),
  (embee_Factor, c!"factor( {types.Real._REGEX.pattern[2:-2]})"),
  (embee_List, c!"list( {types.Real._REGEX.pattern[2:-2]})"),
  (embee_Mat, c!"mat( {types.Integer._REGEX.pattern[2:-2]})"),
  (embee_Mtype, c!"mtype( {types.String._REGEX.pattern[2:-2]})"),
  (f_1_Sphere, c!"({types.Real._REGEX.pattern[2:-2]}) ({types.Real._REGEX.pattern[2:-2]}) ({types.Integer._REGEX.pattern[2:-2]}) ({types.Integer._REGEX.pattern[2:-2]})"),
  (f_2_Ring, c!"({types.Real._REGEX.pattern[2:-2]}) ({types.Real._REGEX.pattern[2:-2]}) ({types.Integer._REGEX.pattern[2:-2]})"),
  (files_File, c!"(\\S+) (\\S+)(?: (\\S+))?(?: (\\S+))?(?: (\\S+))?"),
  (fmesh_Geom, c!"geom(?: (xyz|rec|rzt|cyl))"),
  (fmesh_Origin, c!"origin( {types.Real._REGEX.pattern[2:-2]})( {types.Real._REGEX.pattern[2:-2]})( {types.Real._REGEX.pattern[2:-2]})"),
  (fmesh_Axs, c!"axs( {types.Real._REGEX.pattern[2:-2]})( {types.Real._REGEX.pattern[2:-2]})( {types.Real._REGEX.pattern[2:-2]})"),
  (fmesh_Vec, c!"vec( {types.Real._REGEX.pattern[2:-2]})( {types.Real._REGEX.pattern[2:-2]})( {types.Real._REGEX.pattern[2:-2]})"),
  (fmesh_Imesh, c!"imesh((?: {types.Real._REGEX.pattern[2:-2]})+?)"),
  (fmesh_Iints, c!"iints((?: {types.Integer._REGEX.pattern[2:-2]})+?)")]

theorem sourcesOptions2_ok : sourcesOptions2.all (fun p => p.1.pat.src == p.2) = true := by decide +kernel

/-- Classes 61 to 80 of this file with the text of their patterns between `\A` and `\Z`. -/
def sourcesOptions3 : List (Cls × Str) := [
  (fmesh_Jmesh, c!"jmesh((?: {types.Real._REGEX.pattern[2:-2]})+?)"),
  (fmesh_Jints, c!"jints((?: {types.Integer._REGEX.pattern[2:-2]})+?)"),
  (fmesh_Kmesh, c!"kmesh((?: {types.Real._REGEX.pattern[2:-2]})+?)"),
  (fmesh_Kints, c!"kints((?: {types.Integer._REGEX.pattern[2:-2]})+?)"),
  (fmesh_Emesh, c!"emesh( {types.Real._REGEX.pattern[2:-2]})"),
  (fmesh_Eints, c!"eints( {types.Integer._REGEX.pattern[2:-2]})"),
  (fmesh_Enorm, c!"enorm( {types.String._REGEX.pattern[2:-2]})"),
  (fmesh_Tmesh, c!"tmesh( {types.Real._REGEX.pattern[2:-2]})"),
  (fmesh_Tints, c!"tints( {types.Integer._REGEX.pattern[2:-2]})"),
  (fmesh_Tnorm, c!"tnorm( {types.String._REGEX.pattern[2:-2]})"),
  (fmesh_Factor, c!"factor( {types.Real._REGEX.pattern[2:-2]})"),
  (fmesh_Out, c!"out( {types.String._REGEX.pattern[2:-2]})"),
  (fmesh_Tr, c!"tr( {types.Integer._REGEX.pattern[2:-2]})"),
  (fmesh_Inc, c!"inc( {types.Real._REGEX.pattern[2:-2]})( {types.Real._REGEX.pattern[2:-2]})?"),
  (fmesh_Type, c!"type( {types.String._REGEX.pattern[2:-2]})"),
  (fmesh_Kclear, c!"kclear( {types.Integer._REGEX.pattern[2:-2]})"),
  (fmult_Sfnu, c!"sfnu((?: {types.Real._REGEX.pattern[2:-2]})+?)"),
  (fmult_Width, c!"width( {types.Real._REGEX.pattern[2:-2]})"),
  (fmult_Sfyield, c!"sfyield( {types.Real._REGEX.pattern[2:-2]})"),
  (fmult_Watt, c!"watt( {types.Real._REGEX.pattern[2:-2]})( {types.Real._REGEX.pattern[2:-2]})")]

theorem sourcesOptions3_ok : sourcesOptions3.all (fun p => p.1.pat.src == p.2) = true := by decide +kernel

/-- Classes 81 to 100 of this file with the text of their patterns between `\A` and `\Z`. -/
def sourcesOptions4 : List (Cls × Str) := [
  (fmult_Method, c!"method( {types.Integer._REGEX.pattern[2:-2]})"),
  (fmult_Data, c!"data( {types.Integer._REGEX.pattern[2:-2]})"),
  (fmult_Shift, c!"shift( {types.Integer._REGEX.pattern[2:-2]})"),
  (kopts_Blocksize, c!"blocksize( {types.Integer._REGEX.pattern[2:-2]})"),
  (kopts_Kinetics, c!"kinetics( {types.String._REGEX.pattern[2:-2]})"),
  (kopts_Precursor, c!"precursor( {types.String._REGEX.pattern[2:-2]})"),
  (kopts_Ksental, c!"ksental( {types.String._REGEX.pattern[2:-2]})"),
  (kopts_Fmat, c!"fmat( {types.String._REGEX.pattern[2:-2]})"),
  (kopts_Fmatskpt, c!"fmatskpt( {types.Real._REGEX.pattern[2:-2]})"),
  (kopts_Fmatncyc, c!"fmatncyc( {types.Real._REGEX.pattern[2:-2]})"),
  (kopts_Fmatspace, c!"fmatspace( {types.Real._REGEX.pattern[2:-2]})"),
  (kopts_Fmataccel, c!"fmataccel( {types.String._REGEX.pattern[2:-2]})"),
  (kopts_Fmatreduce, c!"fmatreduce( {types.String._REGEX.pattern[2:-2]})"),
  (kopts_Fmatnx, c!"fmatnx( {types.Real._REGEX.pattern[2:-2]})"),
  (kopts_Fmatny, c!"fmatny( {types.Real._REGEX.pattern[2:-2]})"),
  (kopts_Fmatnz, c!"fmatnz( {types.Real._REGEX.pattern[2:-2]})"),
  (kpert_Cell, c!"cell((?: {types.Integer._REGEX.pattern[2:-2]})+?)"),
  (kpert_Mat, c!"mat((?: {types.Integer._REGEX.pattern[2:-2]})+?)"),
  (kpert_Rho, c!"rho((?: {types.Real._REGEX.pattern[2:-2]})+?)"),
  (kpert_Iso, c!"iso((?: {types.Zaid._REGEX.pattern[2:-2]})+?)")]

theorem sourcesOptions4_ok : sourcesOptions4.all (fun p => p.1.pat.src == p.2) = true := by decide +kernel

/-- Classes 101 to 120 of this file with the text of their patterns between `\A` and `\Z`. -/
def sourcesOptions5 : List (Cls × Str) := [
  (kpert_Rxn, c!"rxn((?: {types.Integer._REGEX.pattern[2:-2]})+?)"),
  (kpert_Erg, c!"erg((?: {types.Real._REGEX.pattern[2:-2]})+?)"),
  (kpert_Linear, c!"linear( {types.String._REGEX.pattern[2:-2]})"),
  (ksen_Iso, c!"iso((?: {types.Zaid._REGEX.pattern[2:-2]})+?)"),
  (ksen_Rxn, c!"rxn((?: {types.Integer._REGEX.pattern[2:-2]})+?)"),
  (ksen_Mt, c!"mt((?: {types.Integer._REGEX.pattern[2:-2]})+?)"),
  (ksen_Erg, c!"erg((?: {types.Real._REGEX.pattern[2:-2]})+?)"),
  (ksen_Ein, c!"ein((?: {types.Real._REGEX.pattern[2:-2]})+?)"),
  (ksen_Legendre, c!"legendre( {types.Integer._REGEX.pattern[2:-2]})"),
  (ksen_Cos, c!"cos((?: {types.Real._REGEX.pattern[2:-2]})+?)"),
  (ksen_Constrain, c!"constrain( {types.String._REGEX.pattern[2:-2]})"),
  (ksrc_Location, c!"({types.Real._REGEX.pattern[2:-2]}) ({types.Real._REGEX.pattern[2:-2]}) ({types.Real._REGEX.pattern[2:-2]})"),
  (m_0_Gas, c!"gas( {types.String._REGEX.pattern[2:-2]})"),
  (m_0_Estep, c!"estep( {types.Integer._REGEX.pattern[2:-2]})"),
  (m_0_Hstep, c!"hstep( {types.Integer._REGEX.pattern[2:-2]})"),
  (m_0_Nlib, c!"nlib( {types.String._REGEX.pattern[2:-2]})"),
  (m_0_Plib, c!"plib( {types.String._REGEX.pattern[2:-2]})"),
  (m_0_Pnlib, c!"pnlib( {types.String._REGEX.pattern[2:-2]})"),
  (m_0_Elib, c!"elib( {types.String._REGEX.pattern[2:-2]})"),
  (m_0_Hlib, c!"hlib( {types.String._REGEX.pattern[2:-2]})")]

theorem sourcesOptions5_ok : sourcesOptions5.all (fun p => p.1.pat.src == p.2) = true := by decide +kernel

/-- Classes 121 to 140 of this file with the text of their patterns between `\A` and `\Z`. -/
def sourcesOptions6 : List (Cls × Str) := [
  (m_0_Alib, c!"alib( {types.String._REGEX.pattern[2:-2]})"),
  (m_0_Slib, c!"slib( {types.String._REGEX.pattern[2:-2]})"),
  (m_0_Tlib, c!"tlib( {types.String._REGEX.pattern[2:-2]})"),
  (m_0_Dlib, c!"dlib( {types.String._REGEX.pattern[2:-2]})"),
  (m_0_Cond, c!"cond( {types.Real._REGEX.pattern[2:-2]})"),
  (m_0_Refi, c!"refi( {types.Real._REGEX.pattern[2:-2]})"),
  (m_0_Refc, c!"refc((?: {types.Real._REGEX.pattern[2:-2]})+?)"),
  (m_0_Refs, c!"refs((?: {types.Real._REGEX.pattern[2:-2]})+?)"),
  (mesh_Geom, c!"geom( {types.String._REGEX.pattern[2:-2]})"),
  (mesh_Ref, c!"ref((?: {types.Real._REGEX.pattern[2:-2]})+?)"),
  (mesh_Origin, c!"origin((?: {types.Real._REGEX.pattern[2:-2]})+?)"),
  (mesh_Axs, c!"axs((?: {types.Real._REGEX.pattern[2:-2]})+?)"),
  (mesh_Vec, c!"vec((?: {types.Real._REGEX.pattern[2:-2]})+?)"),
  (mesh_Imesh, c!"imesh((?: {types.Real._REGEX.pattern[2:-2]})+?)"),
  (mesh_Iints, c!"iints((?: {types.Integer._REGEX.pattern[2:-2]})+?)"),
  (mesh_Jmesh, c!"jmesh((?: {types.Real._REGEX.pattern[2:-2]})+?)"),
  (mesh_Jints, c!"jints((?: {types.Integer._REGEX.pattern[2:-2]})+?)"),
  (mesh_Kmesh, c!"kmesh((?: {types.Real._REGEX.pattern[2:-2]})+?)"),
  (mesh_Kints, c!"kints((?: {types.Integer._REGEX.pattern[2:-2]})+?)"),
  (pert_Cell, c!"cell((?: {types.Integer._REGEX.pattern[2:-2]})+?)")]

theorem sourcesOptions6_ok : sourcesOptions6.all (fun p => p.1.pat.src == p.2) = true := by decide +kernel

/-- Classes 141 to 160 of this file with the text of their patterns between `\A` and `\Z`. -/
def sourcesOptions7 : List (Cls × Str) := [
  (pert_Mat, c!"mat( {types.Integer._REGEX.pattern[2:-2]})"),
  (pert_Rho, c!"rho( {types.Real._REGEX.pattern[2:-2]})"),
  (pert_Method, c!"method( {types.Integer._REGEX.pattern[2:-2]})"),
  (pert_Erg, c!"erg( {types.Real._REGEX.pattern[2:-2]})( {types.Real._REGEX.pattern[2:-2]})"),
  (pert_Rxn, c!"rxn((?: {types.Integer._REGEX.pattern[2:-2]})+?)"),
  (pikmt_Photonbias, c!"({types.Zaid._REGEX.pattern[2:-2]}) ({types.Integer._REGEX.pattern[2:-2]})"),
  (ptrac_Buffer, c!"buffer( {types.Integer._REGEX.pattern[2:-2]})"),
  (ptrac_File, c!"file(?: (asc|bin|aov|bov))"),
  (ptrac_Max, c!"max( {types.Integer._REGEX.pattern[2:-2]})"),
  (ptrac_Meph, c!"meph( {types.Integer._REGEX.pattern[2:-2]})"),
  (ptrac_Write, c!"write(?: (pos|all))"),
  (ptrac_Conic, c!"conic(?: (col|lin))"),
  (ptrac_Event, c!"event((?: {types.String._REGEX.pattern[2:-2]})+?)"),
  (ptrac_filter_Entry, c!"([^\\s,]+),([^\\s,]+)(?:,([^\\s,]+))?"),
  (ptrac_Filter, c!"filter((?: {filter.Entry._REGEX.pattern[2:-2]})+?)"),
  (ptrac_Type, c!"type((?: {types.Designator._REGEX.pattern[2:-2]})+?)"),
  (ptrac_Nps, c!"nps((?: {types.Integer._REGEX.pattern[2:-2]})+?)"),
  (ptrac_Cell, c!"cell((?: {types.Integer._REGEX.pattern[2:-2]})+?)"),
  (ptrac_Surface, c!"surface((?: {types.Integer._REGEX.pattern[2:-2]})+?)"),
  (ptrac_Tally, c!"tally((?: {types.Integer._REGEX.pattern[2:-2]})+?)")]

theorem sourcesOptions7_ok : sourcesOptions7.all (fun p => p.1.pat.src == p.2) = true := by decide +kernel

/-- Classes 161 to 180 of this file with the text of their patterns between `\A` and `\Z`. -/
def sourcesOptions8 : List (Cls × Str) := [
  (ptrac_Value, c!"value( {types.Real._REGEX.pattern[2:-2]})"),
  (rand_Gen, c!"gen( {types.Integer._REGEX.pattern[2:-2]})"),
  (rand_Seed, c!"seed( {types.Integer._REGEX.pattern[2:-2]})"),
  (rand_Stride, c!"stride( {types.Integer._REGEX.pattern[2:-2]})"),
  (rand_Hist, c!"hist( {types.Integer._REGEX.pattern[2:-2]})"),
  (ssr_Old, c!"old((?: {types.Integer._REGEX.pattern[2:-2]})+?)"),
  (ssr_Cel, c!"cel((?: {types.Integer._REGEX.pattern[2:-2]})+?)"),
  (ssr_New, c!"new((?: {types.Integer._REGEX.pattern[2:-2]})+?)"),
  (ssr_Pty, c!"pty((?: {types.Designator._REGEX.pattern[2:-2]})+?)"),
  (ssr_Col, c!"col( {types.Integer._REGEX.pattern[2:-2]})"),
  (ssr_Wgt, c!"wgt( {types.Real._REGEX.pattern[2:-2]})"),
  (ssr_Tr_0, c!"tr( {types.Distribution._REGEX.pattern[2:-2]})"),
  (ssr_Tr_1, c!"tr( {types.Integer._REGEX.pattern[2:-2]})"),
  (ssr_Psc, c!"psc( {types.Real._REGEX.pattern[2:-2]})"),
  (ssr_Axs, c!"axs((?: {types.Real._REGEX.pattern[2:-2]})+?)"),
  (ssr_Ext, c!"ext( {types.Distribution._REGEX.pattern[2:-2]})"),
  (ssr_Poa, c!"poa( {types.Real._REGEX.pattern[2:-2]})"),
  (ssr_Bcw, c!"bcw( {types.Real._REGEX.pattern[2:-2]})( {types.Real._REGEX.pattern[2:-2]})( {types.Real._REGEX.pattern[2:-2]})"),
  (ssw_Sym, c!"sym( {types.Integer._REGEX.pattern[2:-2]})"),
  (ssw_Pty, c!"pty((?: {types.Designator._REGEX.pattern[2:-2]})+?)")]

theorem sourcesOptions8_ok : sourcesOptions8.all (fun p => p.1.pat.src == p.2) = true := by decide +kernel

/-- Classes 181 to 197 of this file with the text of their patterns between `\A` and `\Z`. -/
def sourcesOptions9 : List (Cls × Str) := [
  (ssw_Cel, c!"cel((?: {types.Integer._REGEX.pattern[2:-2]})+?)"),
  (stop_Nps, c!"nps( {types.Integer._REGEX.pattern[2:-2]})( {types.Integer._REGEX.pattern[2:-2]})?"),
  (stop_Ctme, c!"ctme( {types.Real._REGEX.pattern[2:-2]})"),
  (stop_F, c!"f(\\d+)( {types.Integer._REGEX.pattern[2:-2]})"),
  (t_1_Cbeg, c!"cbeg( {types.Real._REGEX.pattern[2:-2]})"),
  (t_1_Cfrq, c!"cfrq( {types.Real._REGEX.pattern[2:-2]})"),
  (t_1_Cofi, c!"cofi( {types.Real._REGEX.pattern[2:-2]})"),
  (t_1_Coni, c!"coni( {types.Real._REGEX.pattern[2:-2]})"),
  (t_1_Csub, c!"csub( {types.Integer._REGEX.pattern[2:-2]})"),
  (t_1_Cend, c!"cend( {types.Real._REGEX.pattern[2:-2]})"),
  (tropt_Mcscat, c!"mcscat( {types.String._REGEX.pattern[2:-2]})"),
  (tropt_Eloss, c!"eloss( {types.String._REGEX.pattern[2:-2]})"),
  (tropt_Nreact, c!"nreact( {types.String._REGEX.pattern[2:-2]})"),
  (tropt_Nescat, c!"nescat( {types.String._REGEX.pattern[2:-2]})"),
  (tropt_Genxs, c!"genxs( {types.String._REGEX.pattern[2:-2]})?"),
  (uran_Stochastic, c!"({types.Integer._REGEX.pattern[2:-2]}) ({types.Real._REGEX.pattern[2:-2]}) ({types.Real._REGEX.pattern[2:-2]}) ({types.Real._REGEX.pattern[2:-2]})"),
  (var_Rr, c!"rr( {types.String._REGEX.pattern[2:-2]})")]

theorem sourcesOptions9_ok : sourcesOptions9.all (fun p => p.1.pat.src == p.2) = true := by decide +kernel

/-- All classes of this file. -/
def classesOptions : List Cls := sourcesOptions0.map (·.1) ++ sourcesOptions1.map (·.1) ++ sourcesOptions2.map (·.1) ++ sourcesOptions3.map (·.1) ++ sourcesOptions4.map (·.1) ++ sourcesOptions5.map (·.1) ++ sourcesOptions6.map (·.1) ++ sourcesOptions7.map (·.1) ++ sourcesOptions8.map (·.1) ++ sourcesOptions9.map (·.1)

end Inp.Tab
