import Verif.Inp.Card
/-!
# Class table: sdef

One definition per class: `_KEYWORD`, `_ATTRS`, `_REGEX`, the conditions of the setters and the order in
which `__init__` calls them.  The final theorems check that each pattern, written out, is the text of the
source.
-/
namespace Inp.Tab
open Py Types

set_option maxRecDepth 20000

/-- src/pymcnp/inp/sdef/Ara_0.py:13-19; setter conditions: lines 67. -/
def sdef_Ara_0 : Cls where
  info := ⟨"Ara_0", .option, c!"ara", ["area"]⟩
  shape := .flat ⟨.no, c!"ara", .no, .no⟩ [⟨.ty (.base .real), .req⟩]
  attrs := [⟨"area", (.base .real), false, (some .isNone)⟩]
  init := ["area"]

/-- src/pymcnp/inp/sdef/f/Fcel.py:13-19; setter conditions: lines 65. -/
def sdef_f_Fcel : Cls where
  info := ⟨"Fcel", .option, c!"fcel", ["distribution"]⟩
  shape := .flat ⟨.no, c!"fcel", .no, .no⟩ [⟨.ty (.base .dist), .req⟩]
  attrs := [⟨"distribution", (.base .dist), false, (some .isNone)⟩]
  init := ["distribution"]

/-- src/pymcnp/inp/sdef/f/Fsur.py:13-19; setter conditions: lines 65. -/
def sdef_f_Fsur : Cls where
  info := ⟨"Fsur", .option, c!"fsur", ["distribution"]⟩
  shape := .flat ⟨.no, c!"fsur", .no, .no⟩ [⟨.ty (.base .dist), .req⟩]
  attrs := [⟨"distribution", (.base .dist), false, (some .isNone)⟩]
  init := ["distribution"]

/-- src/pymcnp/inp/sdef/f/Ferg.py:13-19; setter conditions: lines 65. -/
def sdef_f_Ferg : Cls where
  info := ⟨"Ferg", .option, c!"ferg", ["distribution"]⟩
  shape := .flat ⟨.no, c!"ferg", .no, .no⟩ [⟨.ty (.base .dist), .req⟩]
  attrs := [⟨"distribution", (.base .dist), false, (some .isNone)⟩]
  init := ["distribution"]

/-- src/pymcnp/inp/sdef/f/Ftme.py:13-19; setter conditions: lines 65. -/
def sdef_f_Ftme : Cls where
  info := ⟨"Ftme", .option, c!"ftme", ["distribution"]⟩
  shape := .flat ⟨.no, c!"ftme", .no, .no⟩ [⟨.ty (.base .dist), .req⟩]
  attrs := [⟨"distribution", (.base .dist), false, (some .isNone)⟩]
  init := ["distribution"]

/-- src/pymcnp/inp/sdef/f/Fdir.py:13-19; setter conditions: lines 65. -/
def sdef_f_Fdir : Cls where
  info := ⟨"Fdir", .option, c!"fdir", ["distribution"]⟩
  shape := .flat ⟨.no, c!"fdir", .no, .no⟩ [⟨.ty (.base .dist), .req⟩]
  attrs := [⟨"distribution", (.base .dist), false, (some .isNone)⟩]
  init := ["distribution"]

/-- src/pymcnp/inp/sdef/f/Fvec.py:13-19; setter conditions: lines 65. -/
def sdef_f_Fvec : Cls where
  info := ⟨"Fvec", .option, c!"fvec", ["distribution"]⟩
  shape := .flat ⟨.no, c!"fvec", .no, .no⟩ [⟨.ty (.base .dist), .req⟩]
  attrs := [⟨"distribution", (.base .dist), false, (some .isNone)⟩]
  init := ["distribution"]

/-- src/pymcnp/inp/sdef/f/Fnrm.py:13-19; setter conditions: lines 65. -/
def sdef_f_Fnrm : Cls where
  info := ⟨"Fnrm", .option, c!"fnrm", ["distribution"]⟩
  shape := .flat ⟨.no, c!"fnrm", .no, .no⟩ [⟨.ty (.base .dist), .req⟩]
  attrs := [⟨"distribution", (.base .dist), false, (some .isNone)⟩]
  init := ["distribution"]

/-- src/pymcnp/inp/sdef/f/Fpos.py:13-19; setter conditions: lines 65. -/
def sdef_f_Fpos : Cls where
  info := ⟨"Fpos", .option, c!"fpos", ["distribution"]⟩
  shape := .flat ⟨.no, c!"fpos", .no, .no⟩ [⟨.ty (.base .dist), .req⟩]
  attrs := [⟨"distribution", (.base .dist), false, (some .isNone)⟩]
  init := ["distribution"]

/-- src/pymcnp/inp/sdef/f/Frad.py:13-19; setter conditions: lines 65. -/
def sdef_f_Frad : Cls where
  info := ⟨"Frad", .option, c!"frad", ["distribution"]⟩
  shape := .flat ⟨.no, c!"frad", .no, .no⟩ [⟨.ty (.base .dist), .req⟩]
  attrs := [⟨"distribution", (.base .dist), false, (some .isNone)⟩]
  init := ["distribution"]

/-- src/pymcnp/inp/sdef/f/Fext.py:13-19; setter conditions: lines 65. -/
def sdef_f_Fext : Cls where
  info := ⟨"Fext", .option, c!"fext", ["distribution"]⟩
  shape := .flat ⟨.no, c!"fext", .no, .no⟩ [⟨.ty (.base .dist), .req⟩]
  attrs := [⟨"distribution", (.base .dist), false, (some .isNone)⟩]
  init := ["distribution"]

/-- src/pymcnp/inp/sdef/f/Faxs.py:13-19; setter conditions: lines 65. -/
def sdef_f_Faxs : Cls where
  info := ⟨"Faxs", .option, c!"faxs", ["distribution"]⟩
  shape := .flat ⟨.no, c!"faxs", .no, .no⟩ [⟨.ty (.base .dist), .req⟩]
  attrs := [⟨"distribution", (.base .dist), false, (some .isNone)⟩]
  init := ["distribution"]

/-- src/pymcnp/inp/sdef/f/Fx.py:13-19; setter conditions: lines 65. -/
def sdef_f_Fx : Cls where
  info := ⟨"Fx", .option, c!"fx", ["distribution"]⟩
  shape := .flat ⟨.no, c!"fx", .no, .no⟩ [⟨.ty (.base .dist), .req⟩]
  attrs := [⟨"distribution", (.base .dist), false, (some .isNone)⟩]
  init := ["distribution"]

/-- src/pymcnp/inp/sdef/f/Fy.py:13-19; setter conditions: lines 65. -/
def sdef_f_Fy : Cls where
  info := ⟨"Fy", .option, c!"fy", ["distribution"]⟩
  shape := .flat ⟨.no, c!"fy", .no, .no⟩ [⟨.ty (.base .dist), .req⟩]
  attrs := [⟨"distribution", (.base .dist), false, (some .isNone)⟩]
  init := ["distribution"]

/-- src/pymcnp/inp/sdef/f/Fz.py:13-19; setter conditions: lines 65. -/
def sdef_f_Fz : Cls where
  info := ⟨"Fz", .option, c!"fz", ["distribution"]⟩
  shape := .flat ⟨.no, c!"fz", .no, .no⟩ [⟨.ty (.base .dist), .req⟩]
  attrs := [⟨"distribution", (.base .dist), false, (some .isNone)⟩]
  init := ["distribution"]

/-- src/pymcnp/inp/sdef/f/Fccc.py:13-19; setter conditions: lines 65. -/
def sdef_f_Fccc : Cls where
  info := ⟨"Fccc", .option, c!"fccc", ["distribution"]⟩
  shape := .flat ⟨.no, c!"fccc", .no, .no⟩ [⟨.ty (.base .dist), .req⟩]
  attrs := [⟨"distribution", (.base .dist), false, (some .isNone)⟩]
  init := ["distribution"]

/-- src/pymcnp/inp/sdef/f/Fara.py:13-19; setter conditions: lines 65. -/
def sdef_f_Fara : Cls where
  info := ⟨"Fara", .option, c!"fara", ["distribution"]⟩
  shape := .flat ⟨.no, c!"fara", .no, .no⟩ [⟨.ty (.base .dist), .req⟩]
  attrs := [⟨"distribution", (.base .dist), false, (some .isNone)⟩]
  init := ["distribution"]

/-- src/pymcnp/inp/sdef/f/Fwgt.py:13-19; setter conditions: lines 65. -/
def sdef_f_Fwgt : Cls where
  info := ⟨"Fwgt", .option, c!"fwgt", ["distribution"]⟩
  shape := .flat ⟨.no, c!"fwgt", .no, .no⟩ [⟨.ty (.base .dist), .req⟩]
  attrs := [⟨"distribution", (.base .dist), false, (some .isNone)⟩]
  init := ["distribution"]

/-- src/pymcnp/inp/sdef/f/Ftr.py:13-19; setter conditions: lines 65. -/
def sdef_f_Ftr : Cls where
  info := ⟨"Ftr", .option, c!"ftr", ["distribution"]⟩
  shape := .flat ⟨.no, c!"ftr", .no, .no⟩ [⟨.ty (.base .dist), .req⟩]
  attrs := [⟨"distribution", (.base .dist), false, (some .isNone)⟩]
  init := ["distribution"]

/-- src/pymcnp/inp/sdef/f/Feff.py:13-19; setter conditions: lines 65. -/
def sdef_f_Feff : Cls where
  info := ⟨"Feff", .option, c!"feff", ["distribution"]⟩
  shape := .flat ⟨.no, c!"feff", .no, .no⟩ [⟨.ty (.base .dist), .req⟩]
  attrs := [⟨"distribution", (.base .dist), false, (some .isNone)⟩]
  init := ["distribution"]

/-- src/pymcnp/inp/sdef/f/Fpar.py:13-19; setter conditions: lines 65. -/
def sdef_f_Fpar : Cls where
  info := ⟨"Fpar", .option, c!"fpar", ["distribution"]⟩
  shape := .flat ⟨.no, c!"fpar", .no, .no⟩ [⟨.ty (.base .dist), .req⟩]
  attrs := [⟨"distribution", (.base .dist), false, (some .isNone)⟩]
  init := ["distribution"]

/-- src/pymcnp/inp/sdef/f/Fdat.py:13-19; setter conditions: lines 65. -/
def sdef_f_Fdat : Cls where
  info := ⟨"Fdat", .option, c!"fdat", ["distribution"]⟩
  shape := .flat ⟨.no, c!"fdat", .no, .no⟩ [⟨.ty (.base .dist), .req⟩]
  attrs := [⟨"distribution", (.base .dist), false, (some .isNone)⟩]
  init := ["distribution"]

/-- src/pymcnp/inp/sdef/f/Floc.py:13-19; setter conditions: lines 65. -/
def sdef_f_Floc : Cls where
  info := ⟨"Floc", .option, c!"floc", ["distribution"]⟩
  shape := .flat ⟨.no, c!"floc", .no, .no⟩ [⟨.ty (.base .dist), .req⟩]
  attrs := [⟨"distribution", (.base .dist), false, (some .isNone)⟩]
  init := ["distribution"]

/-- src/pymcnp/inp/sdef/f/Fbem.py:13-19; setter conditions: lines 65. -/
def sdef_f_Fbem : Cls where
  info := ⟨"Fbem", .option, c!"fbem", ["distribution"]⟩
  shape := .flat ⟨.no, c!"fbem", .no, .no⟩ [⟨.ty (.base .dist), .req⟩]
  attrs := [⟨"distribution", (.base .dist), false, (some .isNone)⟩]
  init := ["distribution"]

/-- src/pymcnp/inp/sdef/f/Fbap.py:13-19; setter conditions: lines 65. -/
def sdef_f_Fbap : Cls where
  info := ⟨"Fbap", .option, c!"fbap", ["distribution"]⟩
  shape := .flat ⟨.no, c!"fbap", .no, .no⟩ [⟨.ty (.base .dist), .req⟩]
  attrs := [⟨"distribution", (.base .dist), false, (some .isNone)⟩]
  init := ["distribution"]

/-- src/pymcnp/inp/sdef/f/_option.py:4 and src/pymcnp/inp/sdef/f/__init__.py (order of definition). -/
def T_sdef_f_FOption : Ty := unionTy "f.FOption" [sdef_f_Fcel, sdef_f_Fsur, sdef_f_Ferg, sdef_f_Ftme, sdef_f_Fdir, sdef_f_Fvec, sdef_f_Fnrm, sdef_f_Fpos, sdef_f_Frad, sdef_f_Fext, sdef_f_Faxs, sdef_f_Fx, sdef_f_Fy, sdef_f_Fz, sdef_f_Fccc, sdef_f_Fara, sdef_f_Fwgt, sdef_f_Ftr, sdef_f_Feff, sdef_f_Fpar, sdef_f_Fdat, sdef_f_Floc, sdef_f_Fbem, sdef_f_Fbap]

/-- src/pymcnp/inp/sdef/Ara_1.py:13-19; setter conditions: lines 65. -/
def sdef_Ara_1 : Cls where
  info := ⟨"Ara_1", .option, c!"ara", ["option"]⟩
  shape := .flat ⟨.no, c!"ara", .no, .no⟩ [⟨.ngrp (.ty T_sdef_f_FOption), .req⟩]
  attrs := [⟨"option", T_sdef_f_FOption, false, (some .isNone)⟩]
  init := ["option"]

/-- src/pymcnp/inp/sdef/Axs_0.py:13-21; setter conditions: lines 73, 111, 149. -/
def sdef_Axs_0 : Cls where
  info := ⟨"Axs_0", .option, c!"axs", ["x", "y", "z"]⟩
  shape := .flat ⟨.no, c!"axs", .no, .no⟩ [⟨.ty (.base .real), .req⟩, ⟨.ty (.base .real), .req⟩, ⟨.ty (.base .real), .req⟩]
  attrs := [⟨"x", (.base .real), false, (some .isNone)⟩,
    ⟨"y", (.base .real), false, (some .isNone)⟩,
    ⟨"z", (.base .real), false, (some .isNone)⟩]
  init := ["x", "y", "z"]

/-- src/pymcnp/inp/sdef/Axs_1.py:13-19; setter conditions: lines 65. -/
def sdef_Axs_1 : Cls where
  info := ⟨"Axs_1", .option, c!"axs", ["option"]⟩
  shape := .flat ⟨.no, c!"axs", .no, .no⟩ [⟨.ngrp (.ty T_sdef_f_FOption), .req⟩]
  attrs := [⟨"option", T_sdef_f_FOption, false, (some .isNone)⟩]
  init := ["option"]

/-- src/pymcnp/inp/sdef/Bap_0.py:13-21; setter conditions: lines 73, 111, 149. -/
def sdef_Bap_0 : Cls where
  info := ⟨"Bap_0", .option, c!"bap", ["ba1", "ba2", "u"]⟩
  shape := .flat ⟨.no, c!"bap", .no, .no⟩ [⟨.ty (.base .real), .req⟩, ⟨.ty (.base .real), .req⟩, ⟨.ty (.base .real), .req⟩]
  attrs := [⟨"ba1", (.base .real), false, (some .isNone)⟩,
    ⟨"ba2", (.base .real), false, (some .isNone)⟩,
    ⟨"u", (.base .real), false, (some .isNone)⟩]
  init := ["ba1", "ba2", "u"]

/-- src/pymcnp/inp/sdef/Bap_1.py:13-19; setter conditions: lines 65. -/
def sdef_Bap_1 : Cls where
  info := ⟨"Bap_1", .option, c!"bap", ["option"]⟩
  shape := .flat ⟨.no, c!"bap", .no, .no⟩ [⟨.ngrp (.ty T_sdef_f_FOption), .req⟩]
  attrs := [⟨"option", T_sdef_f_FOption, false, (some .isNone)⟩]
  init := ["option"]

/-- src/pymcnp/inp/sdef/Bem_0.py:13-21; setter conditions: lines 73, 111, 149. -/
def sdef_Bem_0 : Cls where
  info := ⟨"Bem_0", .option, c!"bem", ["exn", "eyn", "bml"]⟩
  shape := .flat ⟨.no, c!"bem", .no, .no⟩ [⟨.ty (.base .real), .req⟩, ⟨.ty (.base .real), .req⟩, ⟨.ty (.base .real), .req⟩]
  attrs := [⟨"exn", (.base .real), false, (some .isNone)⟩,
    ⟨"eyn", (.base .real), false, (some .isNone)⟩,
    ⟨"bml", (.base .real), false, (some (.or .isNone (.not (.cmp .ge (0) 0))))⟩]
  init := ["exn", "eyn", "bml"]

/-- src/pymcnp/inp/sdef/Bem_1.py:13-19; setter conditions: lines 65. -/
def sdef_Bem_1 : Cls where
  info := ⟨"Bem_1", .option, c!"bem", ["option"]⟩
  shape := .flat ⟨.no, c!"bem", .no, .no⟩ [⟨.ngrp (.ty T_sdef_f_FOption), .req⟩]
  attrs := [⟨"option", T_sdef_f_FOption, false, (some .isNone)⟩]
  init := ["option"]

/-- src/pymcnp/inp/sdef/Ccc_0.py:13-19; setter conditions: lines 67. -/
def sdef_Ccc_0 : Cls where
  info := ⟨"Ccc_0", .option, c!"ccc", ["number"]⟩
  shape := .flat ⟨.no, c!"ccc", .no, .no⟩ [⟨.ty (.base .int), .req⟩]
  attrs := [⟨"number", (.base .int), false, (some (.or .isNone (.not (.and (.cmp .ge (0) 0) (.cmp .le (99999999) 0)))))⟩]
  init := ["number"]

/-- src/pymcnp/inp/sdef/Ccc_1.py:13-19; setter conditions: lines 65. -/
def sdef_Ccc_1 : Cls where
  info := ⟨"Ccc_1", .option, c!"ccc", ["option"]⟩
  shape := .flat ⟨.no, c!"ccc", .no, .no⟩ [⟨.ngrp (.ty T_sdef_f_FOption), .req⟩]
  attrs := [⟨"option", T_sdef_f_FOption, false, (some .isNone)⟩]
  init := ["option"]

/-- src/pymcnp/inp/sdef/Cel_0.py:13-19; setter conditions: lines 67. -/
def sdef_Cel_0 : Cls where
  info := ⟨"Cel_0", .option, c!"cel", ["number"]⟩
  shape := .flat ⟨.no, c!"cel", .no, .no⟩ [⟨.ty (.base .int), .req⟩]
  attrs := [⟨"number", (.base .int), false, (some (.or .isNone (.not (.or .isJump (.and (.cmp .ge (0) 0) (.cmp .le (99999999) 0))))))⟩]
  init := ["number"]

/-- src/pymcnp/inp/sdef/Cel_1.py:13-19; setter conditions: lines 65. -/
def sdef_Cel_1 : Cls where
  info := ⟨"Cel_1", .option, c!"cel", ["number"]⟩
  shape := .flat ⟨.no, c!"cel", .no, .no⟩ [⟨.ty (.base .dist), .req⟩]
  attrs := [⟨"number", (.base .dist), false, (some .isNone)⟩]
  init := ["number"]

/-- src/pymcnp/inp/sdef/Cel_2.py:13-19; setter conditions: lines 65. -/
def sdef_Cel_2 : Cls where
  info := ⟨"Cel_2", .option, c!"cel", ["option"]⟩
  shape := .flat ⟨.no, c!"cel", .no, .no⟩ [⟨.ngrp (.ty T_sdef_f_FOption), .req⟩]
  attrs := [⟨"option", T_sdef_f_FOption, false, (some .isNone)⟩]
  init := ["option"]

/-- src/pymcnp/inp/sdef/Dat_0.py:13-21; setter conditions: lines 73, 111, 149. -/
def sdef_Dat_0 : Cls where
  info := ⟨"Dat_0", .option, c!"dat", ["month", "day", "year"]⟩
  shape := .flat ⟨.no, c!"dat", .no, .no⟩ [⟨.ty (.base .int), .req⟩, ⟨.ty (.base .int), .req⟩, ⟨.ty (.base .int), .req⟩]
  attrs := [⟨"month", (.base .int), false, (some (.or .isNone (.not (.and (.cmp .ge (1) 0) (.cmp .le (12) 0)))))⟩,
    ⟨"day", (.base .int), false, (some (.or .isNone (.not (.and (.cmp .ge (1) 0) (.cmp .le (31) 0)))))⟩,
    ⟨"year", (.base .int), false, (some (.or .isNone (.not (.and (.cmp .ge (1) 0) (.cmp .le (9999) 0)))))⟩]
  init := ["month", "day", "year"]

/-- src/pymcnp/inp/sdef/Dat_1.py:13-19; setter conditions: lines 65. -/
def sdef_Dat_1 : Cls where
  info := ⟨"Dat_1", .option, c!"dat", ["option"]⟩
  shape := .flat ⟨.no, c!"dat", .no, .no⟩ [⟨.ngrp (.ty T_sdef_f_FOption), .req⟩]
  attrs := [⟨"option", T_sdef_f_FOption, false, (some .isNone)⟩]
  init := ["option"]

/-- src/pymcnp/inp/sdef/Dir_1.py:13-19; setter conditions: lines 65. -/
def sdef_Dir_1 : Cls where
  info := ⟨"Dir_1", .option, c!"dir", ["cosine"]⟩
  shape := .flat ⟨.no, c!"dir", .no, .no⟩ [⟨.ty (.base .dist), .req⟩]
  attrs := [⟨"cosine", (.base .dist), false, (some .isNone)⟩]
  init := ["cosine"]

/-- src/pymcnp/inp/sdef/Dir_2.py:13-19; setter conditions: lines 65. -/
def sdef_Dir_2 : Cls where
  info := ⟨"Dir_2", .option, c!"dir", ["option"]⟩
  shape := .flat ⟨.no, c!"dir", .no, .no⟩ [⟨.ngrp (.ty T_sdef_f_FOption), .req⟩]
  attrs := [⟨"option", T_sdef_f_FOption, false, (some .isNone)⟩]
  init := ["option"]

/-- src/pymcnp/inp/sdef/Dir_0.py:12-18. -/
def sdef_Dir_0 : Cls where
  info := ⟨"Dir_0", .option, c!"dir", ["cosine"]⟩
  shape := .flat ⟨.no, c!"dir", .no, .no⟩ [⟨.ty (.base .real), .opt⟩]
  attrs := [⟨"cosine", (.base .real), false, none⟩]
  init := ["cosine"]

/-- src/pymcnp/inp/sdef/Eff_0.py:13-19; setter conditions: lines 67. -/
def sdef_Eff_0 : Cls where
  info := ⟨"Eff_0", .option, c!"eff", ["criterion"]⟩
  shape := .flat ⟨.no, c!"eff", .no, .no⟩ [⟨.ty (.base .real), .req⟩]
  attrs := [⟨"criterion", (.base .real), false, (some .isNone)⟩]
  init := ["criterion"]

/-- src/pymcnp/inp/sdef/Eff_1.py:13-19; setter conditions: lines 65. -/
def sdef_Eff_1 : Cls where
  info := ⟨"Eff_1", .option, c!"eff", ["option"]⟩
  shape := .flat ⟨.no, c!"eff", .no, .no⟩ [⟨.ngrp (.ty T_sdef_f_FOption), .req⟩]
  attrs := [⟨"option", T_sdef_f_FOption, false, (some .isNone)⟩]
  init := ["option"]

/-- src/pymcnp/inp/sdef/Erg_0.py:13-19; setter conditions: lines 67. -/
def sdef_Erg_0 : Cls where
  info := ⟨"Erg_0", .option, c!"erg", ["energy"]⟩
  shape := .flat ⟨.no, c!"erg", .no, .no⟩ [⟨.ty (.base .real), .req⟩]
  attrs := [⟨"energy", (.base .real), false, (some .isNone)⟩]
  init := ["energy"]

/-- src/pymcnp/inp/sdef/Erg_1.py:13-19; setter conditions: lines 65. -/
def sdef_Erg_1 : Cls where
  info := ⟨"Erg_1", .option, c!"erg", ["energy"]⟩
  shape := .flat ⟨.no, c!"erg", .no, .no⟩ [⟨.ty (.base .dist), .req⟩]
  attrs := [⟨"energy", (.base .dist), false, (some .isNone)⟩]
  init := ["energy"]

/-- src/pymcnp/inp/sdef/Erg_2.py:13-19; setter conditions: lines 65. -/
def sdef_Erg_2 : Cls where
  info := ⟨"Erg_2", .option, c!"erg", ["option"]⟩
  shape := .flat ⟨.no, c!"erg", .no, .no⟩ [⟨.ngrp (.ty T_sdef_f_FOption), .req⟩]
  attrs := [⟨"option", T_sdef_f_FOption, false, (some .isNone)⟩]
  init := ["option"]

/-- src/pymcnp/inp/sdef/Ext_0.py:13-19; setter conditions: lines 67. -/
def sdef_Ext_0 : Cls where
  info := ⟨"Ext_0", .option, c!"ext", ["distance_cosine"]⟩
  shape := .flat ⟨.no, c!"ext", .no, .no⟩ [⟨.ty (.base .real), .req⟩]
  attrs := [⟨"distance_cosine", (.base .real), false, (some .isNone)⟩]
  init := ["distance_cosine"]

/-- src/pymcnp/inp/sdef/Ext_1.py:13-19; setter conditions: lines 65. -/
def sdef_Ext_1 : Cls where
  info := ⟨"Ext_1", .option, c!"ext", ["distance_cosine"]⟩
  shape := .flat ⟨.no, c!"ext", .no, .no⟩ [⟨.ty (.base .dist), .req⟩]
  attrs := [⟨"distance_cosine", (.base .dist), false, (some .isNone)⟩]
  init := ["distance_cosine"]

/-- src/pymcnp/inp/sdef/Ext_2.py:13-19; setter conditions: lines 65. -/
def sdef_Ext_2 : Cls where
  info := ⟨"Ext_2", .option, c!"ext", ["option"]⟩
  shape := .flat ⟨.no, c!"ext", .no, .no⟩ [⟨.ngrp (.ty T_sdef_f_FOption), .req⟩]
  attrs := [⟨"option", T_sdef_f_FOption, false, (some .isNone)⟩]
  init := ["option"]

/-- src/pymcnp/inp/sdef/Loc_0.py:13-21; setter conditions: lines 73, 111, 149. -/
def sdef_Loc_0 : Cls where
  info := ⟨"Loc_0", .option, c!"loc", ["latitude", "longitude", "altitude"]⟩
  shape := .flat ⟨.no, c!"loc", .no, .no⟩ [⟨.ty (.base .real), .req⟩, ⟨.ty (.base .real), .req⟩, ⟨.ty (.base .real), .req⟩]
  attrs := [⟨"latitude", (.base .real), false, (some (.or .isNone (.not (.and (.cmp .ge (0) 0) (.cmp .le (90) 0)))))⟩,
    ⟨"longitude", (.base .real), false, (some (.or .isNone (.not (.and (.cmp .ge (0) 0) (.cmp .le (180) 0)))))⟩,
    ⟨"altitude", (.base .real), false, (some (.or .isNone (.not (.cmp .ge (0) 0))))⟩]
  init := ["latitude", "longitude", "altitude"]

/-- src/pymcnp/inp/sdef/Loc_1.py:13-19; setter conditions: lines 65. -/
def sdef_Loc_1 : Cls where
  info := ⟨"Loc_1", .option, c!"loc", ["option"]⟩
  shape := .flat ⟨.no, c!"loc", .no, .no⟩ [⟨.ngrp (.ty T_sdef_f_FOption), .req⟩]
  attrs := [⟨"option", T_sdef_f_FOption, false, (some .isNone)⟩]
  init := ["option"]

/-- src/pymcnp/inp/sdef/Nrm_0.py:13-19; setter conditions: lines 67. -/
def sdef_Nrm_0 : Cls where
  info := ⟨"Nrm_0", .option, c!"nrm", ["sign"]⟩
  shape := .flat ⟨.no, c!"nrm", .no, .no⟩ [⟨.ty (.base .int), .req⟩]
  attrs := [⟨"sign", (.base .int), false, (some .isNone)⟩]
  init := ["sign"]

/-- src/pymcnp/inp/sdef/Nrm_1.py:13-19; setter conditions: lines 65. -/
def sdef_Nrm_1 : Cls where
  info := ⟨"Nrm_1", .option, c!"nrm", ["option"]⟩
  shape := .flat ⟨.no, c!"nrm", .no, .no⟩ [⟨.ngrp (.ty T_sdef_f_FOption), .req⟩]
  attrs := [⟨"option", T_sdef_f_FOption, false, (some .isNone)⟩]
  init := ["option"]

/-- src/pymcnp/inp/sdef/Par_0.py:13-19; setter conditions: lines 65. -/
def sdef_Par_0 : Cls where
  info := ⟨"Par_0", .option, c!"par", ["kind"]⟩
  shape := .flat ⟨.no, c!"par", .no, .no⟩ [⟨.ty (.base .str), .req⟩]
  attrs := [⟨"kind", (.base .str), false, (some .isNone)⟩]
  init := ["kind"]

/-- src/pymcnp/inp/sdef/Par_1.py:13-19; setter conditions: lines 65. -/
def sdef_Par_1 : Cls where
  info := ⟨"Par_1", .option, c!"par", ["option"]⟩
  shape := .flat ⟨.no, c!"par", .no, .no⟩ [⟨.ngrp (.ty T_sdef_f_FOption), .req⟩]
  attrs := [⟨"option", T_sdef_f_FOption, false, (some .isNone)⟩]
  init := ["option"]

/-- src/pymcnp/inp/sdef/Pos_0.py:13-21; setter conditions: lines 73, 111, 149. -/
def sdef_Pos_0 : Cls where
  info := ⟨"Pos_0", .option, c!"pos", ["x", "y", "z"]⟩
  shape := .flat ⟨.no, c!"pos", .no, .no⟩ [⟨.ty (.base .real), .req⟩, ⟨.ty (.base .real), .req⟩, ⟨.ty (.base .real), .req⟩]
  attrs := [⟨"x", (.base .real), false, (some .isNone)⟩,
    ⟨"y", (.base .real), false, (some .isNone)⟩,
    ⟨"z", (.base .real), false, (some .isNone)⟩]
  init := ["x", "y", "z"]

/-- src/pymcnp/inp/sdef/Pos_1.py:13-19; setter conditions: lines 64. -/
def sdef_Pos_1 : Cls where
  info := ⟨"Pos_1", .option, c!"pos", ["vector"]⟩
  shape := .flat ⟨.no, c!"pos", .no, .no⟩ [⟨.ty (.base .dist), .req⟩]
  attrs := [⟨"vector", (.base .dist), false, (some .isNone)⟩]
  init := ["vector"]

/-- src/pymcnp/inp/sdef/Pos_2.py:13-19; setter conditions: lines 65. -/
def sdef_Pos_2 : Cls where
  info := ⟨"Pos_2", .option, c!"pos", ["option"]⟩
  shape := .flat ⟨.no, c!"pos", .no, .no⟩ [⟨.ngrp (.ty T_sdef_f_FOption), .req⟩]
  attrs := [⟨"option", T_sdef_f_FOption, false, (some .isNone)⟩]
  init := ["option"]

/-- src/pymcnp/inp/sdef/Rad_0.py:13-19; setter conditions: lines 67. -/
def sdef_Rad_0 : Cls where
  info := ⟨"Rad_0", .option, c!"rad", ["radial_distance"]⟩
  shape := .flat ⟨.no, c!"rad", .no, .no⟩ [⟨.ty (.base .real), .req⟩]
  attrs := [⟨"radial_distance", (.base .real), false, (some .isNone)⟩]
  init := ["radial_distance"]

/-- src/pymcnp/inp/sdef/Rad_1.py:13-19; setter conditions: lines 65. -/
def sdef_Rad_1 : Cls where
  info := ⟨"Rad_1", .option, c!"rad", ["radial_distance"]⟩
  shape := .flat ⟨.no, c!"rad", .no, .no⟩ [⟨.ty (.base .dist), .req⟩]
  attrs := [⟨"radial_distance", (.base .dist), false, (some .isNone)⟩]
  init := ["radial_distance"]

/-- src/pymcnp/inp/sdef/Rad_2.py:13-19; setter conditions: lines 65. -/
def sdef_Rad_2 : Cls where
  info := ⟨"Rad_2", .option, c!"rad", ["option"]⟩
  shape := .flat ⟨.no, c!"rad", .no, .no⟩ [⟨.ngrp (.ty T_sdef_f_FOption), .req⟩]
  attrs := [⟨"option", T_sdef_f_FOption, false, (some .isNone)⟩]
  init := ["option"]

/-- src/pymcnp/inp/sdef/Sur_0.py:13-19; setter conditions: lines 67. -/
def sdef_Sur_0 : Cls where
  info := ⟨"Sur_0", .option, c!"sur", ["number"]⟩
  shape := .flat ⟨.no, c!"sur", .no, .no⟩ [⟨.ty (.base .int), .req⟩]
  attrs := [⟨"number", (.base .int), false, (some (.or .isNone (.not (.or .isJump (.and (.cmp .ge (0) 0) (.cmp .le (99999999) 0))))))⟩]
  init := ["number"]

/-- src/pymcnp/inp/sdef/Sur_1.py:13-19; setter conditions: lines 65. -/
def sdef_Sur_1 : Cls where
  info := ⟨"Sur_1", .option, c!"sur", ["option"]⟩
  shape := .flat ⟨.no, c!"sur", .no, .no⟩ [⟨.ngrp (.ty T_sdef_f_FOption), .req⟩]
  attrs := [⟨"option", T_sdef_f_FOption, false, (some .isNone)⟩]
  init := ["option"]

/-- src/pymcnp/inp/sdef/Tme_0.py:13-19; setter conditions: lines 67. -/
def sdef_Tme_0 : Cls where
  info := ⟨"Tme_0", .option, c!"tme", ["time"]⟩
  shape := .flat ⟨.no, c!"tme", .no, .no⟩ [⟨.ty (.base .real), .req⟩]
  attrs := [⟨"time", (.base .real), false, (some .isNone)⟩]
  init := ["time"]

/-- src/pymcnp/inp/sdef/Tme_1.py:13-19; setter conditions: lines 65. -/
def sdef_Tme_1 : Cls where
  info := ⟨"Tme_1", .option, c!"tme", ["time"]⟩
  shape := .flat ⟨.no, c!"tme", .no, .no⟩ [⟨.ty (.other "tme_1.Embedded" embeddedPat.re embeddedPat.ng embeddedParse), .req⟩]
  attrs := [⟨"time", (.other "tme_1.Embedded" embeddedPat.re embeddedPat.ng embeddedParse), false, (some .isNone)⟩]
  init := ["time"]

/-- src/pymcnp/inp/sdef/Tme_2.py:13-19; setter conditions: lines 65. -/
def sdef_Tme_2 : Cls where
  info := ⟨"Tme_2", .option, c!"tme", ["option"]⟩
  shape := .flat ⟨.no, c!"tme", .no, .no⟩ [⟨.ngrp (.ty T_sdef_f_FOption), .req⟩]
  attrs := [⟨"option", T_sdef_f_FOption, false, (some .isNone)⟩]
  init := ["option"]

/-- src/pymcnp/inp/sdef/Tr_0.py:13-19; setter conditions: lines 67. -/
def sdef_Tr_0 : Cls where
  info := ⟨"Tr_0", .option, c!"tr", ["number"]⟩
  shape := .flat ⟨.no, c!"tr", .no, .no⟩ [⟨.ty (.base .int), .req⟩]
  attrs := [⟨"number", (.base .int), false, (some .isNone)⟩]
  init := ["number"]

/-- src/pymcnp/inp/sdef/Tr_1.py:13-19; setter conditions: lines 65. -/
def sdef_Tr_1 : Cls where
  info := ⟨"Tr_1", .option, c!"tr", ["number"]⟩
  shape := .flat ⟨.no, c!"tr", .no, .no⟩ [⟨.ty (.base .dist), .req⟩]
  attrs := [⟨"number", (.base .dist), false, (some .isNone)⟩]
  init := ["number"]

/-- src/pymcnp/inp/sdef/Tr_2.py:13-19; setter conditions: lines 65. -/
def sdef_Tr_2 : Cls where
  info := ⟨"Tr_2", .option, c!"tr", ["option"]⟩
  shape := .flat ⟨.no, c!"tr", .no, .no⟩ [⟨.ngrp (.ty T_sdef_f_FOption), .req⟩]
  attrs := [⟨"option", T_sdef_f_FOption, false, (some .isNone)⟩]
  init := ["option"]

/-- src/pymcnp/inp/sdef/Vec_0.py:13-21; setter conditions: lines 73, 111, 149. -/
def sdef_Vec_0 : Cls where
  info := ⟨"Vec_0", .option, c!"vec", ["x", "y", "z"]⟩
  shape := .flat ⟨.no, c!"vec", .no, .no⟩ [⟨.ty (.base .real), .req⟩, ⟨.ty (.base .real), .req⟩, ⟨.ty (.base .real), .req⟩]
  attrs := [⟨"x", (.base .real), false, (some .isNone)⟩,
    ⟨"y", (.base .real), false, (some .isNone)⟩,
    ⟨"z", (.base .real), false, (some .isNone)⟩]
  init := ["x", "y", "z"]

/-- src/pymcnp/inp/sdef/Vec_1.py:13-19; setter conditions: lines 65. -/
def sdef_Vec_1 : Cls where
  info := ⟨"Vec_1", .option, c!"vec", ["option"]⟩
  shape := .flat ⟨.no, c!"vec", .no, .no⟩ [⟨.ngrp (.ty T_sdef_f_FOption), .req⟩]
  attrs := [⟨"option", T_sdef_f_FOption, false, (some .isNone)⟩]
  init := ["option"]

/-- src/pymcnp/inp/sdef/Wgt_0.py:13-19; setter conditions: lines 67. -/
def sdef_Wgt_0 : Cls where
  info := ⟨"Wgt_0", .option, c!"wgt", ["weight"]⟩
  shape := .flat ⟨.no, c!"wgt", .no, .no⟩ [⟨.ty (.base .real), .req⟩]
  attrs := [⟨"weight", (.base .real), false, (some .isNone)⟩]
  init := ["weight"]

/-- src/pymcnp/inp/sdef/Wgt_1.py:13-19; setter conditions: lines 65. -/
def sdef_Wgt_1 : Cls where
  info := ⟨"Wgt_1", .option, c!"wgt", ["option"]⟩
  shape := .flat ⟨.no, c!"wgt", .no, .no⟩ [⟨.ngrp (.ty T_sdef_f_FOption), .req⟩]
  attrs := [⟨"option", T_sdef_f_FOption, false, (some .isNone)⟩]
  init := ["option"]

/-- src/pymcnp/inp/sdef/X_0.py:13-19; setter conditions: lines 67. -/
def sdef_X_0 : Cls where
  info := ⟨"X_0", .option, c!"x", ["position"]⟩
  shape := .flat ⟨.no, c!"x", .no, .no⟩ [⟨.ty (.base .real), .req⟩]
  attrs := [⟨"position", (.base .real), false, (some .isNone)⟩]
  init := ["position"]

/-- src/pymcnp/inp/sdef/X_1.py:13-19; setter conditions: lines 65. -/
def sdef_X_1 : Cls where
  info := ⟨"X_1", .option, c!"x", ["position"]⟩
  shape := .flat ⟨.no, c!"x", .no, .no⟩ [⟨.ty (.base .dist), .req⟩]
  attrs := [⟨"position", (.base .dist), false, (some .isNone)⟩]
  init := ["position"]

/-- src/pymcnp/inp/sdef/X_2.py:13-19; setter conditions: lines 65. -/
def sdef_X_2 : Cls where
  info := ⟨"X_2", .option, c!"x", ["option"]⟩
  shape := .flat ⟨.no, c!"x", .no, .no⟩ [⟨.ngrp (.ty T_sdef_f_FOption), .req⟩]
  attrs := [⟨"option", T_sdef_f_FOption, false, (some .isNone)⟩]
  init := ["option"]

/-- src/pymcnp/inp/sdef/Y_0.py:13-19; setter conditions: lines 67. -/
def sdef_Y_0 : Cls where
  info := ⟨"Y_0", .option, c!"y", ["position"]⟩
  shape := .flat ⟨.no, c!"y", .no, .no⟩ [⟨.ty (.base .real), .req⟩]
  attrs := [⟨"position", (.base .real), false, (some .isNone)⟩]
  init := ["position"]

/-- src/pymcnp/inp/sdef/Y_1.py:13-19; setter conditions: lines 65. -/
def sdef_Y_1 : Cls where
  info := ⟨"Y_1", .option, c!"y", ["position"]⟩
  shape := .flat ⟨.no, c!"y", .no, .no⟩ [⟨.ty (.base .dist), .req⟩]
  attrs := [⟨"position", (.base .dist), false, (some .isNone)⟩]
  init := ["position"]

/-- src/pymcnp/inp/sdef/Y_2.py:13-19; setter conditions: lines 65. -/
def sdef_Y_2 : Cls where
  info := ⟨"Y_2", .option, c!"y", ["option"]⟩
  shape := .flat ⟨.no, c!"y", .no, .no⟩ [⟨.ngrp (.ty T_sdef_f_FOption), .req⟩]
  attrs := [⟨"option", T_sdef_f_FOption, false, (some .isNone)⟩]
  init := ["option"]

/-- src/pymcnp/inp/sdef/Z_0.py:13-19; setter conditions: lines 67. -/
def sdef_Z_0 : Cls where
  info := ⟨"Z_0", .option, c!"z", ["position"]⟩
  shape := .flat ⟨.no, c!"z", .no, .no⟩ [⟨.ty (.base .real), .req⟩]
  attrs := [⟨"position", (.base .real), false, (some .isNone)⟩]
  init := ["position"]

/-- src/pymcnp/inp/sdef/Z_1.py:13-19; setter conditions: lines 65. -/
def sdef_Z_1 : Cls where
  info := ⟨"Z_1", .option, c!"z", ["position"]⟩
  shape := .flat ⟨.no, c!"z", .no, .no⟩ [⟨.ty (.base .dist), .req⟩]
  attrs := [⟨"position", (.base .dist), false, (some .isNone)⟩]
  init := ["position"]

/-- src/pymcnp/inp/sdef/Z_2.py:13-19; setter conditions: lines 65. -/
def sdef_Z_2 : Cls where
  info := ⟨"Z_2", .option, c!"z", ["option"]⟩
  shape := .flat ⟨.no, c!"z", .no, .no⟩ [⟨.ngrp (.ty T_sdef_f_FOption), .req⟩]
  attrs := [⟨"option", T_sdef_f_FOption, false, (some .isNone)⟩]
  init := ["option"]

/-- src/pymcnp/inp/sdef/_option.py:4 and src/pymcnp/inp/sdef/__init__.py (order of definition). -/
def T_sdef_SdefOption : Ty := unionTy "sdef.SdefOption" [sdef_Ara_0, sdef_Ara_1, sdef_Axs_0, sdef_Axs_1, sdef_Bap_0, sdef_Bap_1, sdef_Bem_0, sdef_Bem_1, sdef_Ccc_0, sdef_Ccc_1, sdef_Cel_0, sdef_Cel_1, sdef_Cel_2, sdef_Dat_0, sdef_Dat_1, sdef_Dir_1, sdef_Dir_2, sdef_Dir_0, sdef_Eff_0, sdef_Eff_1, sdef_Erg_0, sdef_Erg_1, sdef_Erg_2, sdef_Ext_0, sdef_Ext_1, sdef_Ext_2, sdef_Loc_0, sdef_Loc_1, sdef_Nrm_0, sdef_Nrm_1, sdef_Par_0, sdef_Par_1, sdef_Pos_0, sdef_Pos_1, sdef_Pos_2, sdef_Rad_0, sdef_Rad_1, sdef_Rad_2, sdef_Sur_0, sdef_Sur_1, sdef_Tme_0, sdef_Tme_1, sdef_Tme_2, sdef_Tr_0, sdef_Tr_1, sdef_Tr_2, sdef_Vec_0, sdef_Vec_1, sdef_Wgt_0, sdef_Wgt_1, sdef_X_0, sdef_X_1, sdef_X_2, sdef_Y_0, sdef_Y_1, sdef_Y_2, sdef_Z_0, sdef_Z_1, sdef_Z_2]

/-- Classes 1 to 20 of this file with the text of their patterns between `\A` and `\Z`. -/
def sourcesSdef0 : List (Cls × Str) := [
  (sdef_Ara_0, c!"ara( {types.Real._REGEX.pattern[2:-2]})"),
  (sdef_f_Fcel, c!"fcel( {types.Distribution._REGEX.pattern[2:-2]})"),
  (sdef_f_Fsur, c!"fsur( {types.Distribution._REGEX.pattern[2:-2]})"),
  (sdef_f_Ferg, c!"ferg( {types.Distribution._REGEX.pattern[2:-2]})"),
  (sdef_f_Ftme, c!"ftme( {types.Distribution._REGEX.pattern[2:-2]})"),
  (sdef_f_Fdir, c!"fdir( {types.Distribution._REGEX.pattern[2:-2]})"),
  (sdef_f_Fvec, c!"fvec( {types.Distribution._REGEX.pattern[2:-2]})"),
  (sdef_f_Fnrm, c!"fnrm( {types.Distribution._REGEX.pattern[2:-2]})"),
  (sdef_f_Fpos, c!"fpos( {types.Distribution._REGEX.pattern[2:-2]})"),
  (sdef_f_Frad, c!"frad( {types.Distribution._REGEX.pattern[2:-2]})"),
  (sdef_f_Fext, c!"fext( {types.Distribution._REGEX.pattern[2:-2]})"),
  (sdef_f_Faxs, c!"faxs( {types.Distribution._REGEX.pattern[2:-2]})"),
  (sdef_f_Fx, c!"fx( {types.Distribution._REGEX.pattern[2:-2]})"),
  (sdef_f_Fy, c!"fy( {types.Distribution._REGEX.pattern[2:-2]})"),
  (sdef_f_Fz, c!"fz( {types.Distribution._REGEX.pattern[2:-2]})"),
  (sdef_f_Fccc, c!"fccc( {types.Distribution._REGEX.pattern[2:-2]})"),
  (sdef_f_Fara, c!"fara( {types.Distribution._REGEX.pattern[2:-2]})"),
  (sdef_f_Fwgt, c!"fwgt( {types.Distribution._REGEX.pattern[2:-2]})"),
  (sdef_f_Ftr, c!"ftr( {types.Distribution._REGEX.pattern[2:-2]})"),
  (sdef_f_Feff, c!"feff( {types.Distribution._REGEX.pattern[2:-2]})")]

theorem sourcesSdef0_ok : sourcesSdef0.all (fun p => p.1.pat.src == p.2) = true := by decide +kernel

/-- Classes 21 to 40 of this file with the text of their patterns between `\A` and `\Z`. -/
def sourcesSdef1 : List (Cls × Str) := [
  (sdef_f_Fpar, c!"fpar( {types.Distribution._REGEX.pattern[2:-2]})"),
  (sdef_f_Fdat, c!"fdat( {types.Distribution._REGEX.pattern[2:-2]})"),
  (sdef_f_Floc, c!"floc( {types.Distribution._REGEX.pattern[2:-2]})"),
  (sdef_f_Fbem, c!"fbem( {types.Distribution._REGEX.pattern[2:-2]})"),
  (sdef_f_Fbap, c!"fbap( {types.Distribution._REGEX.pattern[2:-2]})"),
  (sdef_Ara_1, c!"ara( (?:{f.FOption._REGEX.pattern[2:-2]}))"),
  (sdef_Axs_0, c!"axs( {types.Real._REGEX.pattern[2:-2]})( {types.Real._REGEX.pattern[2:-2]})( {types.Real._REGEX.pattern[2:-2]})"),
  (sdef_Axs_1, c!"axs( (?:{f.FOption._REGEX.pattern[2:-2]}))"),
  (sdef_Bap_0, c!"bap( {types.Real._REGEX.pattern[2:-2]})( {types.Real._REGEX.pattern[2:-2]})( {types.Real._REGEX.pattern[2:-2]})"),
  (sdef_Bap_1, c!"bap( (?:{f.FOption._REGEX.pattern[2:-2]}))"),
  (sdef_Bem_0, c!"bem( {types.Real._REGEX.pattern[2:-2]})( {types.Real._REGEX.pattern[2:-2]})( {types.Real._REGEX.pattern[2:-2]})"),
  (sdef_Bem_1, c!"bem( (?:{f.FOption._REGEX.pattern[2:-2]}))"),
  (sdef_Ccc_0, c!"ccc( {types.Integer._REGEX.pattern[2:-2]})"),
  (sdef_Ccc_1, c!"ccc( (?:{f.FOption._REGEX.pattern[2:-2]}))"),
  (sdef_Cel_0, c!"cel( {types.Integer._REGEX.pattern[2:-2]})"),
  (sdef_Cel_1, c!"cel( {types.Distribution._REGEX.pattern[2:-2]})"),
  (sdef_Cel_2, c!"cel( (?:{f.FOption._REGEX.pattern[2:-2]}))"),
  (sdef_Dat_0, c!"dat( {types.Integer._REGEX.pattern[2:-2]})( {types.Integer._REGEX.pattern[2:-2]})( {types.Integer._REGEX.pattern[2:-2]})"),
  (sdef_Dat_1, c!"dat( (?:{f.FOption._REGEX.pattern[2:-2]}))"),
  (sdef_Dir_1, c!"dir( {types.Distribution._REGEX.pattern[2:-2]})")]

theorem sourcesSdef1_ok : sourcesSdef1.all (fun p => p.1.pat.src == p.2) = true := by decide +kernel

/-- Classes 41 to 60 of this file with the text of their patterns between `\A` and `\Z`. -/
def sourcesSdef2 : List (Cls × Str) := [
  (sdef_Dir_2, c!"dir( (?:{f.FOption._REGEX.pattern[2:-2]}))"),
  (sdef_Dir_0, c!"dir( {types.Real._REGEX.pattern[2:-2]})?"),
  (sdef_Eff_0, c!"eff( {types.Real._REGEX.pattern[2:-2]})"),
  (sdef_Eff_1, c!"eff( (?:{f.FOption._REGEX.pattern[2:-2]}))"),
  (sdef_Erg_0, c!"erg( {types.Real._REGEX.pattern[2:-2]})"),
  (sdef_Erg_1, c!"erg( {types.Distribution._REGEX.pattern[2:-2]})"),
  (sdef_Erg_2, c!"erg( (?:{f.FOption._REGEX.pattern[2:-2]}))"),
  (sdef_Ext_0, c!"ext( {types.Real._REGEX.pattern[2:-2]})"),
  (sdef_Ext_1, c!"ext( {types.Distribution._REGEX.pattern[2:-2]})"),
  (sdef_Ext_2, c!"ext( (?:{f.FOption._REGEX.pattern[2:-2]}))"),
  (sdef_Loc_0, c!"loc( {types.Real._REGEX.pattern[2:-2]})( {types.Real._REGEX.pattern[2:-2]})( {types.Real._REGEX.pattern[2:-2]})"),
  (sdef_Loc_1, c!"loc( (?:{f.FOption._REGEX.pattern[2:-2]}))"),
  (sdef_Nrm_0, c!"nrm( {types.Integer._REGEX.pattern[2:-2]})"),
  (sdef_Nrm_1, c!"nrm( (?:{f.FOption._REGEX.pattern[2:-2]}))"),
  (sdef_Par_0, c!"par( {types.String._REGEX.pattern[2:-2]})"),
  (sdef_Par_1, c!"par( (?:{f.FOption._REGEX.pattern[2:-2]}))"),
  (sdef_Pos_0, c!"pos( {types.Real._REGEX.pattern[2:-2]})( {types.Real._REGEX.pattern[2:-2]})( {types.Real._REGEX.pattern[2:-2]})"),
  (sdef_Pos_1, c!"pos( {types.Distribution._REGEX.pattern[2:-2]})"),
  (sdef_Pos_2, c!"pos( (?:{f.FOption._REGEX.pattern[2:-2]}))"),
  (sdef_Rad_0, c!"rad( {types.Real._REGEX.pattern[2:-2]})")]

theorem sourcesSdef2_ok : sourcesSdef2.all (fun p => p.1.pat.src == p.2) = true := by decide +kernel

/-- Classes 61 to 80 of this file with the text of their patterns between `\A` and `\Z`. -/
def sourcesSdef3 : List (Cls × Str) := [
  (sdef_Rad_1, c!"rad( {types.Distribution._REGEX.pattern[2:-2]})"),
  (sdef_Rad_2, c!"rad( (?:{f.FOption._REGEX.pattern[2:-2]}))"),
  (sdef_Sur_0, c!"sur( {types.Integer._REGEX.pattern[2:-2]})"),
  (sdef_Sur_1, c!"sur( (?:{f.FOption._REGEX.pattern[2:-2]}))"),
  (sdef_Tme_0, c!"tme( {types.Real._REGEX.pattern[2:-2]})"),
  (sdef_Tme_1, c!"tme( {tme_1.Embedded._REGEX.pattern[2:-2]})"),
  (sdef_Tme_2, c!"tme( (?:{f.FOption._REGEX.pattern[2:-2]}))"),
  (sdef_Tr_0, c!"tr( {types.Integer._REGEX.pattern[2:-2]})"),
  (sdef_Tr_1, c!"tr( {types.Distribution._REGEX.pattern[2:-2]})"),
  (sdef_Tr_2, c!"tr( (?:{f.FOption._REGEX.pattern[2:-2]}))"),
  (sdef_Vec_0, c!"vec( {types.Real._REGEX.pattern[2:-2]})( {types.Real._REGEX.pattern[2:-2]})( {types.Real._REGEX.pattern[2:-2]})"),
  (sdef_Vec_1, c!"vec( (?:{f.FOption._REGEX.pattern[2:-2]}))"),
  (sdef_Wgt_0, c!"wgt( {types.Real._REGEX.pattern[2:-2]})"),
  (sdef_Wgt_1, c!"wgt( (?:{f.FOption._REGEX.pattern[2:-2]}))"),
  (sdef_X_0, c!"x( {types.Real._REGEX.pattern[2:-2]})"),
  (sdef_X_1, c!"x( {types.Distribution._REGEX.pattern[2:-2]})"),
  (sdef_X_2, c!"x( (?:{f.FOption._REGEX.pattern[2:-2]}))"),
  (sdef_Y_0, c!"y( {types.Real._REGEX.pattern[2:-2]})"),
  (sdef_Y_1, c!"y( {types.Distribution._REGEX.pattern[2:-2]})"),
  (sdef_Y_2, c!"y( (?:{f.FOption._REGEX.pattern[2:-2]}))")]

theorem sourcesSdef3_ok : sourcesSdef3.all (fun p => p.1.pat.src == p.2) = true := by decide +kernel

/-- Classes 81 to 83 of this file with the text of their patterns between `\A` and `\Z`. -/
def sourcesSdef4 : List (Cls × Str) := [
  (sdef_Z_0, c!"z( {types.Real._REGEX.pattern[2:-2]})"),
  (sdef_Z_1, c!"z( {types.Distribution._REGEX.pattern[2:-2]})"),
  (sdef_Z_2, c!"z( (?:{f.FOption._REGEX.pattern[2:-2]}))")]

theorem sourcesSdef4_ok : sourcesSdef4.all (fun p => p.1.pat.src == p.2) = true := by decide +kernel

/-- All classes of this file. -/
def classesSdef : List Cls := sourcesSdef0.map (·.1) ++ sourcesSdef1.map (·.1) ++ sourcesSdef2.map (·.1) ++ sourcesSdef3.map (·.1) ++ sourcesSdef4.map (·.1)

end Inp.Tab
