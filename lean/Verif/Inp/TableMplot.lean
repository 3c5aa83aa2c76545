import Verif.Inp.Card
/-!
# Class table: mplot

One definition per class: `_KEYWORD`, `_ATTRS`, `_REGEX`, the conditions of the setters and the order in
which `__init__` calls them.  The final theorems check that each pattern, written out, is the text of the
source.
-/
namespace Inp.Tab
open Py Types

set_option maxRecDepth 20000

/-- src/pymcnp/inp/mplot/Term.py:13-19; setter conditions: lines 67. -/
def mplot_Term : Cls where
  info := ⟨"Term", .option, c!"term", ["n"]⟩
  shape := .flat ⟨.no, c!"term", .no, .no⟩ [⟨.ty (.base .int), .req⟩]
  attrs := [⟨"n", (.base .int), false, (some (.or .isNone (.not (.inInts [0, 1]))))⟩]
  init := ["n"]

/-- src/pymcnp/inp/mplot/File.py:13-19; setter conditions: lines 65. -/
def mplot_File : Cls where
  info := ⟨"File", .option, c!"file", ["aa"]⟩
  shape := .other (.seq (.lits c!"file") (.opt (.ngrp (.seq (.lits c!" ") (.grp (.alt (.lits c!"all") (.lits c!"none")))))))
  attrs := [⟨"aa", (.base .str), false, (some (.and .notNone (.not (.lowIn ["all", "none"]))))⟩]
  init := ["aa"]

/-- src/pymcnp/inp/mplot/Coplot.py:11-15. -/
def mplot_Coplot : Cls where
  info := ⟨"Coplot", .option, c!"coplot", []⟩
  shape := .flat ⟨.no, c!"coplot", .no, .no⟩ []
  attrs := []
  init := []

/-- src/pymcnp/inp/mplot/Freq.py:13-19; setter conditions: lines 67. -/
def mplot_Freq : Cls where
  info := ⟨"Freq", .option, c!"freq", ["n"]⟩
  shape := .flat ⟨.no, c!"freq", .no, .no⟩ [⟨.ty (.base .int), .req⟩]
  attrs := [⟨"n", (.base .int), false, (some .isNone)⟩]
  init := ["n"]

/-- src/pymcnp/inp/mplot/Return.py:11-15. -/
def mplot_Return : Cls where
  info := ⟨"Return", .option, c!"return", []⟩
  shape := .flat ⟨.no, c!"return", .no, .no⟩ []
  attrs := []
  init := []

/-- src/pymcnp/inp/mplot/Plot.py:11-15. -/
def mplot_Plot : Cls where
  info := ⟨"Plot", .option, c!"plot", []⟩
  shape := .flat ⟨.no, c!"plot", .no, .no⟩ []
  attrs := []
  init := []

/-- src/pymcnp/inp/mplot/Pause.py:12-18. -/
def mplot_Pause : Cls where
  info := ⟨"Pause", .option, c!"pause", ["n"]⟩
  shape := .flat ⟨.no, c!"pause", .no, .no⟩ [⟨.ty (.base .int), .opt⟩]
  attrs := [⟨"n", (.base .int), false, none⟩]
  init := ["n"]

/-- src/pymcnp/inp/mplot/End.py:11-15. -/
def mplot_End : Cls where
  info := ⟨"End", .option, c!"end", []⟩
  shape := .flat ⟨.no, c!"end", .no, .no⟩ []
  attrs := []
  init := []

/-- src/pymcnp/inp/mplot/Options.py:11-15. -/
def mplot_Options : Cls where
  info := ⟨"Options", .option, c!"options", []⟩
  shape := .flat ⟨.no, c!"options", .no, .no⟩ []
  attrs := []
  init := []

/-- src/pymcnp/inp/mplot/Help.py:11-15. -/
def mplot_Help : Cls where
  info := ⟨"Help", .option, c!"help", []⟩
  shape := .flat ⟨.no, c!"help", .no, .no⟩ []
  attrs := []
  init := []

/-- src/pymcnp/inp/mplot/Status.py:11-15. -/
def mplot_Status : Cls where
  info := ⟨"Status", .option, c!"status", []⟩
  shape := .flat ⟨.no, c!"status", .no, .no⟩ []
  attrs := []
  init := []

/-- src/pymcnp/inp/mplot/Printal.py:11-15. -/
def mplot_Printal : Cls where
  info := ⟨"Printal", .option, c!"printal", []⟩
  shape := .flat ⟨.no, c!"printal", .no, .no⟩ []
  attrs := []
  init := []

/-- src/pymcnp/inp/mplot/Iptal.py:11-15. -/
def mplot_Iptal : Cls where
  info := ⟨"Iptal", .option, c!"iptal", []⟩
  shape := .flat ⟨.no, c!"iptal", .no, .no⟩ []
  attrs := []
  init := []

/-- src/pymcnp/inp/mplot/Printpts.py:11-15. -/
def mplot_Printpts : Cls where
  info := ⟨"Printpts", .option, c!"printpts", []⟩
  shape := .flat ⟨.no, c!"printpts", .no, .no⟩ []
  attrs := []
  init := []

/-- src/pymcnp/inp/mplot/Runtpe.py:13-20; setter conditions: lines 68. -/
def mplot_Runtpe : Cls where
  info := ⟨"Runtpe", .option, c!"runtpe", ["filename", "n"]⟩
  shape := .flat ⟨.no, c!"runtpe", .no, .no⟩ [⟨.ty (.base .str), .req⟩, ⟨.ty (.base .int), .opt⟩]
  attrs := [⟨"filename", (.base .str), false, (some .isNone)⟩,
    ⟨"n", (.base .int), false, none⟩]
  init := ["filename", "n"]

/-- src/pymcnp/inp/mplot/Dump.py:12-18. -/
def mplot_Dump : Cls where
  info := ⟨"Dump", .option, c!"dump", ["n"]⟩
  shape := .flat ⟨.no, c!"dump", .no, .no⟩ [⟨.ty (.base .int), .opt⟩]
  attrs := [⟨"n", (.base .int), false, none⟩]
  init := ["n"]

/-- src/pymcnp/inp/mplot/Wmctal.py:13-19; setter conditions: lines 65. -/
def mplot_Wmctal : Cls where
  info := ⟨"Wmctal", .option, c!"wmctal", ["filename"]⟩
  shape := .flat ⟨.no, c!"wmctal", .no, .no⟩ [⟨.ty (.base .str), .req⟩]
  attrs := [⟨"filename", (.base .str), false, (some .isNone)⟩]
  init := ["filename"]

/-- src/pymcnp/inp/mplot/Rmctal.py:13-19; setter conditions: lines 65. -/
def mplot_Rmctal : Cls where
  info := ⟨"Rmctal", .option, c!"rmctal", ["filename"]⟩
  shape := .flat ⟨.no, c!"rmctal", .no, .no⟩ [⟨.ty (.base .str), .req⟩]
  attrs := [⟨"filename", (.base .str), false, (some .isNone)⟩]
  init := ["filename"]

/-- src/pymcnp/inp/mplot/Tally.py:12-18. -/
def mplot_Tally : Cls where
  info := ⟨"Tally", .option, c!"tally", ["n"]⟩
  shape := .flat ⟨.no, c!"tally", .no, .no⟩ [⟨.ty (.base .int), .opt⟩]
  attrs := [⟨"n", (.base .int), false, none⟩]
  init := ["n"]

/-- src/pymcnp/inp/mplot/Pert.py:12-18. -/
def mplot_Pert : Cls where
  info := ⟨"Pert", .option, c!"pert", ["n"]⟩
  shape := .flat ⟨.no, c!"pert", .no, .no⟩ [⟨.ty (.base .int), .opt⟩]
  attrs := [⟨"n", (.base .int), false, none⟩]
  init := ["n"]

/-- src/pymcnp/inp/mplot/Lethargy.py:11-15. -/
def mplot_Lethargy : Cls where
  info := ⟨"Lethargy", .option, c!"lethargy", []⟩
  shape := .flat ⟨.no, c!"lethargy", .no, .no⟩ []
  attrs := []
  init := []

/-- src/pymcnp/inp/mplot/Nonorm.py:11-15. -/
def mplot_Nonorm : Cls where
  info := ⟨"Nonorm", .option, c!"nonorm", []⟩
  shape := .flat ⟨.no, c!"nonorm", .no, .no⟩ []
  attrs := []
  init := []

/-- src/pymcnp/inp/mplot/Factor.py:13-21; setter conditions: lines 71, 109. -/
def mplot_Factor : Cls where
  info := ⟨"Factor", .option, c!"factor", ["a", "f", "s"]⟩
  shape := .flat ⟨.no, c!"factor", .no, .no⟩ [⟨.ty (.base .str), .req⟩, ⟨.ty (.base .real), .req⟩, ⟨.ty (.base .real), .opt⟩]
  attrs := [⟨"a", (.base .str), false, (some (.or .isNone (.not (.lowIn ["x", "y", "z"]))))⟩,
    ⟨"f", (.base .real), false, (some .isNone)⟩,
    ⟨"s", (.base .real), false, none⟩]
  init := ["a", "f", "s"]

/-- src/pymcnp/inp/mplot/Reset.py:13-19; setter conditions: lines 65. -/
def mplot_Reset : Cls where
  info := ⟨"Reset", .option, c!"reset", ["aa"]⟩
  shape := .other (.seq (.lits c!"reset") (.opt (.ngrp (.seq (.lits c!" ") (.grp (.alt (.lits c!"all") (.lits c!"coplot")))))))
  attrs := [⟨"aa", (.base .str), false, (some (.and .notNone (.not (.lowIn ["all", "coplot"]))))⟩]
  init := ["aa"]

/-- src/pymcnp/inp/mplot/Title.py:13-20; setter conditions: lines 70, 106. -/
def mplot_Title : Cls where
  info := ⟨"Title", .option, c!"title", ["n", "aa"]⟩
  shape := .other (.seq (.lits c!"title") (.seq (.grp (.seq (.lits c!" ") (.ty (.base .int)))) (.grp (.seq (.lits c!" \"") (.seq (.ty (.base .str)) (.lits c!"\""))))))
  attrs := [⟨"n", (.base .int), false, (some (.or .isNone (.not (.cmp .gt (0) 0))))⟩,
    ⟨"aa", (.base .str), false, (some (.or .isNone (.not (.lenLe 40))))⟩]
  init := ["n", "aa"]

/-- src/pymcnp/inp/mplot/Below.py:11-15. -/
def mplot_Below : Cls where
  info := ⟨"Below", .option, c!"below", []⟩
  shape := .flat ⟨.no, c!"below", .no, .no⟩ []
  attrs := []
  init := []

/-- src/pymcnp/inp/mplot/Subtitle.py:13-21; setter conditions: lines 73, 111, 147. -/
def mplot_Subtitle : Cls where
  info := ⟨"Subtitle", .option, c!"subtitle", ["x", "y", "aa"]⟩
  shape := .other (.seq (.lits c!"subtitle") (.seq (.grp (.seq (.lits c!" ") (.ty (.base .int)))) (.seq (.grp (.seq (.lits c!" ") (.ty (.base .int)))) (.grp (.seq (.lits c!" \"") (.seq (.ty (.base .str)) (.lits c!"\"")))))))
  attrs := [⟨"x", (.base .int), false, (some .isNone)⟩,
    ⟨"y", (.base .int), false, (some .isNone)⟩,
    ⟨"aa", (.base .str), false, (some (.or .isNone (.not (.lenLe 40))))⟩]
  init := ["x", "y", "aa"]

/-- src/pymcnp/inp/mplot/Xtitle.py:13-19; setter conditions: lines 65. -/
def mplot_Xtitle : Cls where
  info := ⟨"Xtitle", .option, c!"xtitle", ["aa"]⟩
  shape := .other (.seq (.lits c!"xtitle") (.grp (.seq (.lits c!" \"") (.seq (.ty (.base .str)) (.lits c!"\"")))))
  attrs := [⟨"aa", (.base .str), false, (some (.or .isNone (.not (.lenLe 40))))⟩]
  init := ["aa"]

/-- src/pymcnp/inp/mplot/Ytitle.py:13-19; setter conditions: lines 65. -/
def mplot_Ytitle : Cls where
  info := ⟨"Ytitle", .option, c!"ytitle", ["aa"]⟩
  shape := .other (.seq (.lits c!"ytitle") (.grp (.seq (.lits c!" \"") (.seq (.ty (.base .str)) (.lits c!"\"")))))
  attrs := [⟨"aa", (.base .str), false, (some (.or .isNone (.not (.lenLe 40))))⟩]
  init := ["aa"]

/-- src/pymcnp/inp/mplot/Ztitle.py:13-19; setter conditions: lines 65. -/
def mplot_Ztitle : Cls where
  info := ⟨"Ztitle", .option, c!"ztitle", ["aa"]⟩
  shape := .other (.seq (.lits c!"ztitle") (.grp (.seq (.lits c!" \"") (.seq (.ty (.base .str)) (.lits c!"\"")))))
  attrs := [⟨"aa", (.base .str), false, (some (.or .isNone (.not (.lenLe 40))))⟩]
  init := ["aa"]

/-- src/pymcnp/inp/mplot/Label.py:13-19; setter conditions: lines 65. -/
def mplot_Label : Cls where
  info := ⟨"Label", .option, c!"label", ["aa"]⟩
  shape := .other (.seq (.lits c!"label") (.grp (.seq (.lits c!" \"") (.seq (.ty (.base .str)) (.lits c!"\"")))))
  attrs := [⟨"aa", (.base .str), false, (some (.or .isNone (.not (.lenLe 10))))⟩]
  init := ["aa"]

/-- src/pymcnp/inp/mplot/free/All.py:11-15. -/
def mplot_free_All : Cls where
  info := ⟨"All", .option, c!"all", []⟩
  shape := .flat ⟨.no, c!"all", .no, .no⟩ []
  attrs := []
  init := []

/-- src/pymcnp/inp/mplot/free/Noall.py:11-15. -/
def mplot_free_Noall : Cls where
  info := ⟨"Noall", .option, c!"noall", []⟩
  shape := .flat ⟨.no, c!"noall", .no, .no⟩ []
  attrs := []
  init := []

/-- src/pymcnp/inp/mplot/free/_option.py:4 and src/pymcnp/inp/mplot/free/__init__.py (order of definition). -/
def T_mplot_free_FreeOption : Ty := unionTy "free.FreeOption" [mplot_free_All, mplot_free_Noall]

/-- src/pymcnp/inp/mplot/Free.py:14-22; setter conditions: lines 72, 108. -/
def mplot_Free : Cls where
  info := ⟨"Free", .option, c!"free", ["x", "y", "option"]⟩
  shape := .flat ⟨.no, c!"free", .no, .no⟩ [⟨.ty (.base .str), .req⟩, ⟨.ty (.base .str), .req⟩, ⟨.ngrp (.ty T_mplot_free_FreeOption), .opt⟩]
  attrs := [⟨"x", (.base .str), false, (some (.or .isNone (.not (.lowIn ["f", "d", "u", "s", "m", "c", "e", "t", "i", "j", "k"]))))⟩,
    ⟨"y", (.base .str), false, (some (.or .isNone (.not (.lowIn ["f", "d", "u", "s", "m", "c", "e", "t", "i", "j", "k"]))))⟩,
    ⟨"option", T_mplot_free_FreeOption, false, none⟩]
  init := ["x", "y", "option"]

/-- src/pymcnp/inp/mplot/Fixed.py:13-20; setter conditions: lines 68, 106. -/
def mplot_Fixed : Cls where
  info := ⟨"Fixed", .option, c!"fixed", ["q", "n"]⟩
  shape := .flat ⟨.no, c!"fixed", .no, .no⟩ [⟨.ty (.base .str), .req⟩, ⟨.ty (.base .int), .req⟩]
  attrs := [⟨"q", (.base .str), false, (some (.or .isNone (.not (.lowIn ["f", "d", "u", "s", "m", "c", "e", "t", "i", "j", "k"]))))⟩,
    ⟨"n", (.base .int), false, (some .isNone)⟩]
  init := ["q", "n"]

/-- src/pymcnp/inp/mplot/Set.py:13-26; setter conditions: lines 101, 139, 177, 215, 253, 291, 329, 367. -/
def mplot_Set : Cls where
  info := ⟨"Set", .option, c!"set", ["f", "d", "u", "s", "m", "c", "e", "t"]⟩
  shape := .flat ⟨.no, c!"set", .no, .no⟩ [⟨.ty (.base .int), .req⟩, ⟨.ty (.base .int), .req⟩, ⟨.ty (.base .int), .req⟩, ⟨.ty (.base .int), .req⟩, ⟨.ty (.base .int), .req⟩, ⟨.ty (.base .int), .req⟩, ⟨.ty (.base .int), .req⟩, ⟨.ty (.base .int), .req⟩]
  attrs := [⟨"f", (.base .int), false, (some .isNone)⟩,
    ⟨"d", (.base .int), false, (some .isNone)⟩,
    ⟨"u", (.base .int), false, (some .isNone)⟩,
    ⟨"s", (.base .int), false, (some .isNone)⟩,
    ⟨"m", (.base .int), false, (some .isNone)⟩,
    ⟨"c", (.base .int), false, (some .isNone)⟩,
    ⟨"e", (.base .int), false, (some .isNone)⟩,
    ⟨"t", (.base .int), false, (some .isNone)⟩]
  init := ["f", "d", "u", "s", "m", "c", "e", "t"]

/-- src/pymcnp/inp/mplot/Tfc.py:13-19; setter conditions: lines 65. -/
def mplot_Tfc : Cls where
  info := ⟨"Tfc", .option, c!"tfc", ["x"]⟩
  shape := .flat ⟨.no, c!"tfc", .no, .no⟩ [⟨.ty (.base .str), .req⟩]
  attrs := [⟨"x", (.base .str), false, (some .isNone)⟩]
  init := ["x"]

/-- src/pymcnp/inp/mplot/Kcode.py:13-19; setter conditions: lines 67. -/
def mplot_Kcode : Cls where
  info := ⟨"Kcode", .option, c!"kcode", ["i"]⟩
  shape := .flat ⟨.no, c!"kcode", .no, .no⟩ [⟨.ty (.base .int), .req⟩]
  attrs := [⟨"i", (.base .int), false, (some (.or .isNone (.not (.or (.and (.cmp .ge (1) 0) (.cmp .le (6) 0)) (.and (.cmp .ge (1) 0) (.cmp .le (19) 0))))))⟩]
  init := ["i"]

/-- src/pymcnp/inp/mplot/Xs_0.py:13-19; setter conditions: lines 67. -/
def mplot_Xs_0 : Cls where
  info := ⟨"Xs_0", .option, c!"xs", ["m"]⟩
  shape := .flat ⟨.no, c!"xs", .no, .no⟩ [⟨.ty (.base .int), .req⟩]
  attrs := [⟨"m", (.base .int), false, (some .isNone)⟩]
  init := ["m"]

/-- src/pymcnp/inp/mplot/Xs_1.py:13-19; setter conditions: lines 65. -/
def mplot_Xs_1 : Cls where
  info := ⟨"Xs_1", .option, c!"xs", ["m"]⟩
  shape := .flat ⟨.no, c!"xs", .no, .no⟩ [⟨.ty (.base .zaid), .req⟩]
  attrs := [⟨"m", (.base .zaid), false, (some .isNone)⟩]
  init := ["m"]

/-- src/pymcnp/inp/mplot/Xs_2.py:13-19; setter conditions: lines 65. -/
def mplot_Xs_2 : Cls where
  info := ⟨"Xs_2", .option, c!"xs", ["m"]⟩
  shape := .flat ⟨.no, c!"xs", .no, .no⟩ [⟨.ty (.base .str), .req⟩]
  attrs := [⟨"m", (.base .str), false, (some (.or .isNone (.not (.eqStr "?"))))⟩]
  init := ["m"]

/-- src/pymcnp/inp/mplot/Mt.py:13-19; setter conditions: lines 67. -/
def mplot_Mt : Cls where
  info := ⟨"Mt", .option, c!"mt", ["n"]⟩
  shape := .flat ⟨.no, c!"mt", .no, .no⟩ [⟨.ty (.base .int), .req⟩]
  attrs := [⟨"n", (.base .int), false, (some .isNone)⟩]
  init := ["n"]

/-- src/pymcnp/inp/mplot/Par.py:13-19; setter conditions: lines 65. -/
def mplot_Par : Cls where
  info := ⟨"Par", .option, c!"par", ["particle"]⟩
  shape := .flat ⟨.no, c!"par", .no, .no⟩ [⟨.ty (.base .desig), .req⟩]
  attrs := [⟨"particle", (.base .desig), false, (some .isNone)⟩]
  init := ["particle"]

/-- src/pymcnp/inp/mplot/Linlin.py:11-15. -/
def mplot_Linlin : Cls where
  info := ⟨"Linlin", .option, c!"linlin", []⟩
  shape := .flat ⟨.no, c!"linlin", .no, .no⟩ []
  attrs := []
  init := []

/-- src/pymcnp/inp/mplot/Linlog.py:11-15. -/
def mplot_Linlog : Cls where
  info := ⟨"Linlog", .option, c!"linlog", []⟩
  shape := .flat ⟨.no, c!"linlog", .no, .no⟩ []
  attrs := []
  init := []

/-- src/pymcnp/inp/mplot/Loglin.py:11-15. -/
def mplot_Loglin : Cls where
  info := ⟨"Loglin", .option, c!"loglin", []⟩
  shape := .flat ⟨.no, c!"loglin", .no, .no⟩ []
  attrs := []
  init := []

/-- src/pymcnp/inp/mplot/Loglog.py:11-15. -/
def mplot_Loglog : Cls where
  info := ⟨"Loglog", .option, c!"loglog", []⟩
  shape := .flat ⟨.no, c!"loglog", .no, .no⟩ []
  attrs := []
  init := []

/-- src/pymcnp/inp/mplot/Xlims.py:13-21; setter conditions: lines 73, 111, 149. -/
def mplot_Xlims : Cls where
  info := ⟨"Xlims", .option, c!"xlims", ["lower", "upper", "nsteps"]⟩
  shape := .flat ⟨.no, c!"xlims", .no, .no⟩ [⟨.ty (.base .real), .req⟩, ⟨.ty (.base .real), .req⟩, ⟨.ty (.base .real), .opt⟩]
  attrs := [⟨"lower", (.base .real), false, (some .isNone)⟩,
    ⟨"upper", (.base .real), false, (some (.or .isNone (.not (.ltSelf "lower"))))⟩,
    ⟨"nsteps", (.base .real), false, (some (.and .notNone (.not (.cmp .ge (0) 0))))⟩]
  init := ["lower", "upper", "nsteps"]

/-- src/pymcnp/inp/mplot/Ylims.py:13-21; setter conditions: lines 73, 111, 149. -/
def mplot_Ylims : Cls where
  info := ⟨"Ylims", .option, c!"ylims", ["lower", "upper", "nsteps"]⟩
  shape := .flat ⟨.no, c!"ylims", .no, .no⟩ [⟨.ty (.base .real), .req⟩, ⟨.ty (.base .real), .req⟩, ⟨.ty (.base .real), .opt⟩]
  attrs := [⟨"lower", (.base .real), false, (some .isNone)⟩,
    ⟨"upper", (.base .real), false, (some (.or .isNone (.not (.ltSelf "lower"))))⟩,
    ⟨"nsteps", (.base .real), false, (some (.and .notNone (.not (.cmp .ge (0) 0))))⟩]
  init := ["lower", "upper", "nsteps"]

/-- src/pymcnp/inp/mplot/Scales.py:13-19; setter conditions: lines 67. -/
def mplot_Scales : Cls where
  info := ⟨"Scales", .option, c!"scales", ["n"]⟩
  shape := .flat ⟨.no, c!"scales", .no, .no⟩ [⟨.ty (.base .int), .req⟩]
  attrs := [⟨"n", (.base .int), false, (some (.or .isNone (.not (.inInts [1, 2, 3]))))⟩]
  init := ["n"]

/-- src/pymcnp/inp/mplot/Hist.py:11-15. -/
def mplot_Hist : Cls where
  info := ⟨"Hist", .option, c!"hist", []⟩
  shape := .flat ⟨.no, c!"hist", .no, .no⟩ []
  attrs := []
  init := []

/-- src/pymcnp/inp/mplot/Plinear.py:11-15. -/
def mplot_Plinear : Cls where
  info := ⟨"Plinear", .option, c!"plinear", []⟩
  shape := .flat ⟨.no, c!"plinear", .no, .no⟩ []
  attrs := []
  init := []

/-- src/pymcnp/inp/mplot/Spline.py:12-18. -/
def mplot_Spline : Cls where
  info := ⟨"Spline", .option, c!"spline", ["x"]⟩
  shape := .flat ⟨.no, c!"spline", .no, .no⟩ [⟨.ty (.base .real), .opt⟩]
  attrs := [⟨"x", (.base .real), false, none⟩]
  init := ["x"]

/-- src/pymcnp/inp/mplot/Bar.py:11-15. -/
def mplot_Bar : Cls where
  info := ⟨"Bar", .option, c!"bar", []⟩
  shape := .flat ⟨.no, c!"bar", .no, .no⟩ []
  attrs := []
  init := []

/-- src/pymcnp/inp/mplot/Noerrbar.py:11-15. -/
def mplot_Noerrbar : Cls where
  info := ⟨"Noerrbar", .option, c!"noerrbar", []⟩
  shape := .flat ⟨.no, c!"noerrbar", .no, .no⟩ []
  attrs := []
  init := []

/-- src/pymcnp/inp/mplot/Thick.py:13-19; setter conditions: lines 67. -/
def mplot_Thick : Cls where
  info := ⟨"Thick", .option, c!"thick", ["x"]⟩
  shape := .flat ⟨.no, c!"thick", .no, .no⟩ [⟨.ty (.base .real), .req⟩]
  attrs := [⟨"x", (.base .real), false, (some .isNone)⟩]
  init := ["x"]

/-- src/pymcnp/inp/mplot/Thin.py:11-15. -/
def mplot_Thin : Cls where
  info := ⟨"Thin", .option, c!"thin", []⟩
  shape := .flat ⟨.no, c!"thin", .no, .no⟩ []
  attrs := []
  init := []

/-- src/pymcnp/inp/mplot/Legend.py:12-19. -/
def mplot_Legend : Cls where
  info := ⟨"Legend", .option, c!"legend", ["x", "y"]⟩
  shape := .flat ⟨.no, c!"legend", .no, .no⟩ [⟨.ty (.base .real), .opt⟩, ⟨.ty (.base .real), .opt⟩]
  attrs := [⟨"x", (.base .real), false, none⟩,
    ⟨"y", (.base .real), false, none⟩]
  init := ["x", "y"]

/-- src/pymcnp/inp/mplot/contour/Pct.py:11-15. -/
def mplot_contour_Pct : Cls where
  info := ⟨"Pct", .option, c!"pct", []⟩
  shape := .flat ⟨.no, c!"pct", .no, .no⟩ []
  attrs := []
  init := []

/-- src/pymcnp/inp/mplot/contour/Lin.py:11-15. -/
def mplot_contour_Lin : Cls where
  info := ⟨"Lin", .option, c!"lin", []⟩
  shape := .flat ⟨.no, c!"lin", .no, .no⟩ []
  attrs := []
  init := []

/-- src/pymcnp/inp/mplot/contour/Log.py:11-15. -/
def mplot_contour_Log : Cls where
  info := ⟨"Log", .option, c!"log", []⟩
  shape := .flat ⟨.no, c!"log", .no, .no⟩ []
  attrs := []
  init := []

/-- src/pymcnp/inp/mplot/contour/All.py:11-15. -/
def mplot_contour_All : Cls where
  info := ⟨"All", .option, c!"all", []⟩
  shape := .flat ⟨.no, c!"all", .no, .no⟩ []
  attrs := []
  init := []

/-- src/pymcnp/inp/mplot/contour/Noall.py:11-15. -/
def mplot_contour_Noall : Cls where
  info := ⟨"Noall", .option, c!"noall", []⟩
  shape := .flat ⟨.no, c!"noall", .no, .no⟩ []
  attrs := []
  init := []

/-- src/pymcnp/inp/mplot/contour/Line.py:11-15. -/
def mplot_contour_Line : Cls where
  info := ⟨"Line", .option, c!"line", []⟩
  shape := .flat ⟨.no, c!"line", .no, .no⟩ []
  attrs := []
  init := []

/-- src/pymcnp/inp/mplot/contour/Noline.py:11-15. -/
def mplot_contour_Noline : Cls where
  info := ⟨"Noline", .option, c!"noline", []⟩
  shape := .flat ⟨.no, c!"noline", .no, .no⟩ []
  attrs := []
  init := []

/-- src/pymcnp/inp/mplot/contour/Color.py:11-15. -/
def mplot_contour_Color : Cls where
  info := ⟨"Color", .option, c!"color", []⟩
  shape := .flat ⟨.no, c!"color", .no, .no⟩ []
  attrs := []
  init := []

/-- src/pymcnp/inp/mplot/contour/Nocolor.py:11-15. -/
def mplot_contour_Nocolor : Cls where
  info := ⟨"Nocolor", .option, c!"nocolor", []⟩
  shape := .flat ⟨.no, c!"nocolor", .no, .no⟩ []
  attrs := []
  init := []

/-- src/pymcnp/inp/mplot/contour/_option.py:4 and src/pymcnp/inp/mplot/contour/__init__.py (order of definition). -/
def T_mplot_contour_ContourOption : Ty := unionTy "contour.ContourOption" [mplot_contour_Pct, mplot_contour_Lin, mplot_contour_Log, mplot_contour_All, mplot_contour_Noall, mplot_contour_Line, mplot_contour_Noline, mplot_contour_Color, mplot_contour_Nocolor]

/-- src/pymcnp/inp/mplot/Contour.py:14-23; setter conditions: lines 80, 118, 156. -/
def mplot_Contour : Cls where
  info := ⟨"Contour", .option, c!"contour", ["cmin", "cmax", "cstep", "options"]⟩
  shape := .flat ⟨.no, c!"contour", .no, .no⟩ [⟨.ty (.base .real), .req⟩, ⟨.ty (.base .real), .req⟩, ⟨.ty (.base .real), .req⟩, ⟨.ngrp (.ty T_mplot_contour_ContourOption), .manyOpt⟩]
  attrs := [⟨"cmin", (.base .real), false, (some .isNone)⟩,
    ⟨"cmax", (.base .real), false, (some .isNone)⟩,
    ⟨"cstep", (.base .real), false, (some .isNone)⟩,
    ⟨"options", T_mplot_contour_ContourOption, true, none⟩]
  init := ["cmin", "cmax", "cstep", "options"]

/-- src/pymcnp/inp/mplot/Wash.py:13-19; setter conditions: lines 65. -/
def mplot_Wash : Cls where
  info := ⟨"Wash", .option, c!"wash", ["aa"]⟩
  shape := .flat ⟨.no, c!"wash", .no, .no⟩ [⟨.ty (.base .str), .req⟩]
  attrs := [⟨"aa", (.base .str), false, (some (.or .isNone (.not (.lowIn ["on", "off"]))))⟩]
  init := ["aa"]

/-- src/pymcnp/inp/mplot/Fmesh.py:13-19; setter conditions: lines 67. -/
def mplot_Fmesh : Cls where
  info := ⟨"Fmesh", .option, c!"fmesh", ["n"]⟩
  shape := .flat ⟨.no, c!"fmesh", .no, .no⟩ [⟨.ty (.base .int), .req⟩]
  attrs := [⟨"n", (.base .int), false, (some .isNone)⟩]
  init := ["n"]

/-- src/pymcnp/inp/mplot/Fmrelerr.py:13-19; setter conditions: lines 67. -/
def mplot_Fmrelerr : Cls where
  info := ⟨"Fmrelerr", .option, c!"fmrelerr", ["n"]⟩
  shape := .flat ⟨.no, c!"fmrelerr", .no, .no⟩ [⟨.ty (.base .int), .req⟩]
  attrs := [⟨"n", (.base .int), false, (some .isNone)⟩]
  init := ["n"]

/-- src/pymcnp/inp/mplot/Zlev.py:13-19; setter conditions: lines 68. -/
def mplot_Zlev : Cls where
  info := ⟨"Zlev", .option, c!"zlev", ["n"]⟩
  shape := .flat ⟨.no, c!"zlev", .no, .no⟩ [⟨.ty (.base .str), .many⟩]
  attrs := [⟨"n", (.base .str), true, (some .isNone)⟩]
  init := ["n"]

/-- src/pymcnp/inp/mplot/Ebin.py:13-19; setter conditions: lines 67. -/
def mplot_Ebin : Cls where
  info := ⟨"Ebin", .option, c!"ebin", ["n"]⟩
  shape := .flat ⟨.no, c!"ebin", .no, .no⟩ [⟨.ty (.base .int), .req⟩]
  attrs := [⟨"n", (.base .int), false, (some .isNone)⟩]
  init := ["n"]

/-- src/pymcnp/inp/mplot/Tbin.py:13-19; setter conditions: lines 67. -/
def mplot_Tbin : Cls where
  info := ⟨"Tbin", .option, c!"tbin", ["n"]⟩
  shape := .flat ⟨.no, c!"tbin", .no, .no⟩ [⟨.ty (.base .int), .req⟩]
  attrs := [⟨"n", (.base .int), false, (some .isNone)⟩]
  init := ["n"]

/-- src/pymcnp/inp/mplot/Cop.py:11-15. -/
def mplot_Cop : Cls where
  info := ⟨"Cop", .option, c!"cop", []⟩
  shape := .flat ⟨.no, c!"cop", .no, .no⟩ []
  attrs := []
  init := []

/-- src/pymcnp/inp/mplot/Tal.py:13-19; setter conditions: lines 67. -/
def mplot_Tal : Cls where
  info := ⟨"Tal", .option, c!"tal", ["n"]⟩
  shape := .flat ⟨.no, c!"tal", .no, .no⟩ [⟨.ty (.base .int), .req⟩]
  attrs := [⟨"n", (.base .int), false, (some .isNone)⟩]
  init := ["n"]

/-- src/pymcnp/inp/mplot/_option.py:4 and src/pymcnp/inp/mplot/__init__.py (order of definition). -/
def T_mplot_MplotOption : Ty := unionTy "mplot.MplotOption" [mplot_Term, mplot_File, mplot_Coplot, mplot_Freq, mplot_Return, mplot_Plot, mplot_Pause, mplot_End, mplot_Options, mplot_Help, mplot_Status, mplot_Printal, mplot_Iptal, mplot_Printpts, mplot_Runtpe, mplot_Dump, mplot_Wmctal, mplot_Rmctal, mplot_Tally, mplot_Pert, mplot_Lethargy, mplot_Nonorm, mplot_Factor, mplot_Reset, mplot_Title, mplot_Below, mplot_Subtitle, mplot_Xtitle, mplot_Ytitle, mplot_Ztitle, mplot_Label, mplot_Free, mplot_Fixed, mplot_Set, mplot_Tfc, mplot_Kcode, mplot_Xs_0, mplot_Xs_1, mplot_Xs_2, mplot_Mt, mplot_Par, mplot_Linlin, mplot_Linlog, mplot_Loglin, mplot_Loglog, mplot_Xlims, mplot_Ylims, mplot_Scales, mplot_Hist, mplot_Plinear, mplot_Spline, mplot_Bar, mplot_Noerrbar, mplot_Thick, mplot_Thin, mplot_Legend, mplot_Contour, mplot_Wash, mplot_Fmesh, mplot_Fmrelerr, mplot_Zlev, mplot_Ebin, mplot_Tbin, mplot_Cop, mplot_Tal]

/-- Classes 1 to 20 of this file with the text of their patterns between `\A` and `\Z`. -/
def sourcesMplot0 : List (Cls × Str) := [
  (mplot_Term, c!"term( {types.Integer._REGEX.pattern[2:-2]})"),
  (mplot_File, c!"file(?: (all|none))?"),
  (mplot_Coplot, c!"coplot"),
  (mplot_Freq, c!"freq( {types.Integer._REGEX.pattern[2:-2]})"),
  (mplot_Return, c!"return"),
  (mplot_Plot, c!"plot"),
  (mplot_Pause, c!"pause( {types.Integer._REGEX.pattern[2:-2]})?"),
  (mplot_End, c!"end"),
  (mplot_Options, c!"options"),
  (mplot_Help, c!"help"),
  (mplot_Status, c!"status"),
  (mplot_Printal, c!"printal"),
  (mplot_Iptal, c!"iptal"),
  (mplot_Printpts, c!"printpts"),
  (mplot_Runtpe, c!"runtpe( {types.String._REGEX.pattern[2:-2]})( {types.Integer._REGEX.pattern[2:-2]})?"),
  (mplot_Dump, c!"dump( {types.Integer._REGEX.pattern[2:-2]})?"),
  (mplot_Wmctal, c!"wmctal( {types.String._REGEX.pattern[2:-2]})"),
  (mplot_Rmctal, c!"rmctal( {types.String._REGEX.pattern[2:-2]})"),
  (mplot_Tally, c!"tally( {types.Integer._REGEX.pattern[2:-2]})?"),
  (mplot_Pert, c!"pert( {types.Integer._REGEX.pattern[2:-2]})?")]

theorem sourcesMplot0_ok : sourcesMplot0.all (fun p => p.1.pat.src == p.2) = true := by decide +kernel

/-- Classes 21 to 40 of this file with the text of their patterns between `\A` and `\Z`. -/
def sourcesMplot1 : List (Cls × Str) := [
  (mplot_Lethargy, c!"lethargy"),
  (mplot_Nonorm, c!"nonorm"),
  (mplot_Factor, c!"factor( {types.String._REGEX.pattern[2:-2]})( {types.Real._REGEX.pattern[2:-2]})( {types.Real._REGEX.pattern[2:-2]})?"),
  (mplot_Reset, c!"reset(?: (all|coplot))?"),
  (mplot_Title, c!"title( {types.Integer._REGEX.pattern[2:-2]})( \\\"{types.String._REGEX.pattern[2:-2]}\\\")"),
  (mplot_Below, c!"below"),
  (mplot_Subtitle, c!"subtitle( {types.Integer._REGEX.pattern[2:-2]})( {types.Integer._REGEX.pattern[2:-2]})( \\\"{types.String._REGEX.pattern[2:-2]}\\\")"),
  (mplot_Xtitle, c!"xtitle( \\\"{types.String._REGEX.pattern[2:-2]}\\\")"),
  (mplot_Ytitle, c!"ytitle( \\\"{types.String._REGEX.pattern[2:-2]}\\\")"),
  (mplot_Ztitle, c!"ztitle( \\\"{types.String._REGEX.pattern[2:-2]}\\\")"),
  (mplot_Label, c!"label( \\\"{types.String._REGEX.pattern[2:-2]}\\\")"),
  (mplot_free_All, c!"all"),
  (mplot_free_Noall, c!"noall"),
  (mplot_Free, c!"free( {types.String._REGEX.pattern[2:-2]})( {types.String._REGEX.pattern[2:-2]})( (?:{free.FreeOption._REGEX.pattern[2:-2]}))?"),
  (mplot_Fixed, c!"fixed( {types.String._REGEX.pattern[2:-2]})( {types.Integer._REGEX.pattern[2:-2]})"),
  (mplot_Set, c!"set( {types.Integer._REGEX.pattern[2:-2]})( {types.Integer._REGEX.pattern[2:-2]})( {types.Integer._REGEX.pattern[2:-2]})( {types.Integer._REGEX.pattern[2:-2]})( {types.Integer._REGEX.pattern[2:-2]})( {types.Integer._REGEX.pattern[2:-2]})( {types.Integer._REGEX.pattern[2:-2]})( {types.Integer._REGEX.pattern[2:-2]})"),
  (mplot_Tfc, c!"tfc( {types.String._REGEX.pattern[2:-2]})"),
  (mplot_Kcode, c!"kcode( {types.Integer._REGEX.pattern[2:-2]})"),
  (mplot_Xs_0, c!"xs( {types.Integer._REGEX.pattern[2:-2]})"),
  (mplot_Xs_1, c!"xs( {types.Zaid._REGEX.pattern[2:-2]})")]

theorem sourcesMplot1_ok : sourcesMplot1.all (fun p => p.1.pat.src == p.2) = true := by decide +kernel

/-- Classes 41 to 60 of this file with the text of their patterns between `\A` and `\Z`. -/
def sourcesMplot2 : List (Cls × Str) := [
  (mplot_Xs_2, c!"xs( {types.String._REGEX.pattern[2:-2]})"),
  (mplot_Mt, c!"mt( {types.Integer._REGEX.pattern[2:-2]})"),
  (mplot_Par, c!"par( {types.Designator._REGEX.pattern[2:-2]})"),
  (mplot_Linlin, c!"linlin"),
  (mplot_Linlog, c!"linlog"),
  (mplot_Loglin, c!"loglin"),
  (mplot_Loglog, c!"loglog"),
  (mplot_Xlims, c!"xlims( {types.Real._REGEX.pattern[2:-2]})( {types.Real._REGEX.pattern[2:-2]})( {types.Real._REGEX.pattern[2:-2]})?"),
  (mplot_Ylims, c!"ylims( {types.Real._REGEX.pattern[2:-2]})( {types.Real._REGEX.pattern[2:-2]})( {types.Real._REGEX.pattern[2:-2]})?"),
  (mplot_Scales, c!"scales( {types.Integer._REGEX.pattern[2:-2]})"),
  (mplot_Hist, c!"hist"),
  (mplot_Plinear, c!"plinear"),
  (mplot_Spline, c!"spline( {types.Real._REGEX.pattern[2:-2]})?"),
  (mplot_Bar, c!"bar"),
  (mplot_Noerrbar, c!"noerrbar"),
  (mplot_Thick, c!"thick( {types.Real._REGEX.pattern[2:-2]})"),
  (mplot_Thin, c!"thin"),
  (mplot_Legend, c!"legend( {types.Real._REGEX.pattern[2:-2]})?( {types.Real._REGEX.pattern[2:-2]})?"),
  (mplot_contour_Pct, c!"pct"),
  (mplot_contour_Lin, c!"lin")]

theorem sourcesMplot2_ok : sourcesMplot2.all (fun p => p.1.pat.src == p.2) = true := by decide +kernel

/-- Classes 61 to 76 of this file with the text of their patterns between `\A` and `\Z`. -/
def sourcesMplot3 : List (Cls × Str) := [
  (mplot_contour_Log, c!"log"),
  (mplot_contour_All, c!"all"),
  (mplot_contour_Noall, c!"noall"),
  (mplot_contour_Line, c!"line"),
  (mplot_contour_Noline, c!"noline"),
  (mplot_contour_Color, c!"color"),
  (mplot_contour_Nocolor, c!"nocolor"),
  (mplot_Contour, c!"contour( {types.Real._REGEX.pattern[2:-2]})( {types.Real._REGEX.pattern[2:-2]})( {types.Real._REGEX.pattern[2:-2]})((?: (?:{contour.ContourOption._REGEX.pattern[2:-2]}))+?)?"),
  (mplot_Wash, c!"wash( {types.String._REGEX.pattern[2:-2]})"),
  (mplot_Fmesh, c!"fmesh( {types.Integer._REGEX.pattern[2:-2]})"),
  (mplot_Fmrelerr, c!"fmrelerr( {types.Integer._REGEX.pattern[2:-2]})"),
  (mplot_Zlev, c!"zlev((?: {types.String._REGEX.pattern[2:-2]})+?)"),
  (mplot_Ebin, c!"ebin( {types.Integer._REGEX.pattern[2:-2]})"),
  (mplot_Tbin, c!"tbin( {types.Integer._REGEX.pattern[2:-2]})"),
  (mplot_Cop, c!"cop"),
  (mplot_Tal, c!"tal( {types.Integer._REGEX.pattern[2:-2]})")]

theorem sourcesMplot3_ok : sourcesMplot3.all (fun p => p.1.pat.src == p.2) = true := by decide +kernel

/-- All classes of this file. -/
def classesMplot : List Cls := sourcesMplot0.map (·.1) ++ sourcesMplot1.map (·.1) ++ sourcesMplot2.map (·.1) ++ sourcesMplot3.map (·.1)

end Inp.Tab
