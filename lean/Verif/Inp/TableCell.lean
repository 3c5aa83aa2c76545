import Verif.Inp.Card
/-!
# Class table: cell

One definition per class: `_KEYWORD`, `_ATTRS`, `_REGEX`, the conditions of the setters and the order in
which `__init__` calls them.  The final theorems check that each pattern, written out, is the text of the
source.
-/
namespace Inp.Tab
open Py Types

set_option maxRecDepth 20000

/-- src/pymcnp/inp/cell/Imp.py:13-20; setter conditions: lines 68, 106. -/
def cell_Imp : Cls where
  info := ⟨"Imp", .option, c!"imp", ["designator", "importance"]⟩
  shape := .flat ⟨.no, c!"imp", .no, .req⟩ [⟨.ty (.base .real), .req⟩]
  attrs := [⟨"designator", (.base .desig), false, (some .isNone)⟩,
    ⟨"importance", (.base .real), false, (some .isNone)⟩]
  init := ["designator", "importance"]

/-- src/pymcnp/inp/cell/Vol.py:13-19; setter conditions: lines 67. -/
def cell_Vol : Cls where
  info := ⟨"Vol", .option, c!"vol", ["volume"]⟩
  shape := .flat ⟨.no, c!"vol", .no, .no⟩ [⟨.ty (.base .real), .req⟩]
  attrs := [⟨"volume", (.base .real), false, (some (.or .isNone (.not (.cmp .ge (0) 0))))⟩]
  init := ["volume"]

/-- src/pymcnp/inp/cell/Pwt.py:13-19; setter conditions: lines 67. -/
def cell_Pwt : Cls where
  info := ⟨"Pwt", .option, c!"pwt", ["weight"]⟩
  shape := .flat ⟨.no, c!"pwt", .no, .no⟩ [⟨.ty (.base .real), .req⟩]
  attrs := [⟨"weight", (.base .real), false, (some .isNone)⟩]
  init := ["weight"]

/-- src/pymcnp/inp/cell/Ext.py:13-20; setter conditions: lines 68, 104. -/
def cell_Ext : Cls where
  info := ⟨"Ext", .option, c!"ext", ["designator", "stretch"]⟩
  shape := .flat ⟨.no, c!"ext", .no, .req⟩ [⟨.ty (.base .str), .req⟩]
  attrs := [⟨"designator", (.base .desig), false, (some .isNone)⟩,
    ⟨"stretch", (.base .str), false, (some .isNone)⟩]
  init := ["designator", "stretch"]

/-- src/pymcnp/inp/cell/Fcl.py:13-20; setter conditions: lines 68, 106. -/
def cell_Fcl : Cls where
  info := ⟨"Fcl", .option, c!"fcl", ["designator", "control"]⟩
  shape := .flat ⟨.no, c!"fcl", .no, .req⟩ [⟨.ty (.base .real), .req⟩]
  attrs := [⟨"designator", (.base .desig), false, (some .isNone)⟩,
    ⟨"control", (.base .real), false, (some (.or .isNone (.not (.and (.cmp .ge (-1) 0) (.cmp .le (1) 0)))))⟩]
  init := ["designator", "control"]

/-- src/pymcnp/inp/cell/Wwn.py:13-21; setter conditions: lines 73, 109, 147. -/
def cell_Wwn : Cls where
  info := ⟨"Wwn", .option, c!"wwn", ["suffix", "designator", "bound"]⟩
  shape := .flat ⟨.no, c!"wwn", .req, .req⟩ [⟨.ty (.base .real), .req⟩]
  attrs := [⟨"suffix", (.base .int), false, (some .isNone)⟩,
    ⟨"designator", (.base .desig), false, (some .isNone)⟩,
    ⟨"bound", (.base .real), false, (some (.or .isNone (.not (.or (.cmp .eq (-1) 0) (.cmp .ge (0) 0)))))⟩]
  init := ["suffix", "designator", "bound"]

/-- src/pymcnp/inp/cell/Dxc.py:13-21; setter conditions: lines 73, 109, 147. -/
def cell_Dxc : Cls where
  info := ⟨"Dxc", .option, c!"dxc", ["suffix", "designator", "probability"]⟩
  shape := .flat ⟨.no, c!"dxc", .req, .req⟩ [⟨.ty (.base .real), .req⟩]
  attrs := [⟨"suffix", (.base .int), false, (some .isNone)⟩,
    ⟨"designator", (.base .desig), false, (some .isNone)⟩,
    ⟨"probability", (.base .real), false, (some (.or .isNone (.not (.and (.cmp .ge (0) 0) (.cmp .le (1) 0)))))⟩]
  init := ["suffix", "designator", "probability"]

/-- src/pymcnp/inp/cell/Nonu.py:13-19; setter conditions: lines 67. -/
def cell_Nonu : Cls where
  info := ⟨"Nonu", .option, c!"nonu", ["setting"]⟩
  shape := .flat ⟨.no, c!"nonu", .no, .no⟩ [⟨.ty (.base .int), .req⟩]
  attrs := [⟨"setting", (.base .int), false, (some (.or .isNone (.not (.inInts [0, 1, 2]))))⟩]
  init := ["setting"]

/-- src/pymcnp/inp/cell/Pd.py:13-20; setter conditions: lines 70, 108. -/
def cell_Pd : Cls where
  info := ⟨"Pd", .option, c!"pd", ["suffix", "probability"]⟩
  shape := .flat ⟨.no, c!"pd", .req, .no⟩ [⟨.ty (.base .real), .req⟩]
  attrs := [⟨"suffix", (.base .int), false, (some .isNone)⟩,
    ⟨"probability", (.base .real), false, (some (.or .isNone (.not (.and (.cmp .ge (0) 0) (.cmp .le (1) 0)))))⟩]
  init := ["suffix", "probability"]

/-- src/pymcnp/inp/cell/U.py:13-19; setter conditions: lines 67. -/
def cell_U : Cls where
  info := ⟨"U", .option, c!"u", ["number"]⟩
  shape := .flat ⟨.no, c!"u", .no, .no⟩ [⟨.ty (.base .int), .req⟩]
  attrs := [⟨"number", (.base .int), false, (some (.or .isNone (.not (.or (.cmp .eq (10000000000) 0) (.and (.cmp .ge (-9) 0) (.cmp .le (99999999) 0))))))⟩]
  init := ["number"]

/-- src/pymcnp/inp/cell/Trcl_1.py:13-20; setter conditions: lines 68, 104. -/
def cell_Trcl_1 : Cls where
  info := ⟨"Trcl_1", .option, c!"trcl", ["prefix", "transformation"]⟩
  shape := .flat ⟨.star, c!"trcl", .no, .no⟩ [⟨.ty (.base (.trans 0)), .req⟩]
  attrs := [⟨"prefix", (.base .str), false, (some (.and .notNone (.not (.lowIn ["*"]))))⟩,
    ⟨"transformation", (.base (.trans 0)), false, (some .isNone)⟩]
  init := ["prefix", "transformation"]

/-- src/pymcnp/inp/cell/Trcl_2.py:13-20; setter conditions: lines 68, 104. -/
def cell_Trcl_2 : Cls where
  info := ⟨"Trcl_2", .option, c!"trcl", ["prefix", "transformation"]⟩
  shape := .flat ⟨.star, c!"trcl", .no, .no⟩ [⟨.ty (.base (.trans 1)), .req⟩]
  attrs := [⟨"prefix", (.base .str), false, (some (.and .notNone (.not (.lowIn ["*"]))))⟩,
    ⟨"transformation", (.base (.trans 1)), false, (some .isNone)⟩]
  init := ["prefix", "transformation"]

/-- src/pymcnp/inp/cell/Trcl_3.py:13-20; setter conditions: lines 68, 104. -/
def cell_Trcl_3 : Cls where
  info := ⟨"Trcl_3", .option, c!"trcl", ["prefix", "transformation"]⟩
  shape := .flat ⟨.star, c!"trcl", .no, .no⟩ [⟨.ty (.base (.trans 2)), .req⟩]
  attrs := [⟨"prefix", (.base .str), false, (some (.and .notNone (.not (.lowIn ["*"]))))⟩,
    ⟨"transformation", (.base (.trans 2)), false, (some .isNone)⟩]
  init := ["prefix", "transformation"]

/-- src/pymcnp/inp/cell/Trcl_4.py:13-20; setter conditions: lines 68, 104. -/
def cell_Trcl_4 : Cls where
  info := ⟨"Trcl_4", .option, c!"trcl", ["prefix", "transformation"]⟩
  shape := .flat ⟨.star, c!"trcl", .no, .no⟩ [⟨.ty (.base (.trans 3)), .req⟩]
  attrs := [⟨"prefix", (.base .str), false, (some (.and .notNone (.not (.lowIn ["*"]))))⟩,
    ⟨"transformation", (.base (.trans 3)), false, (some .isNone)⟩]
  init := ["prefix", "transformation"]

/-- src/pymcnp/inp/cell/Trcl_5.py:13-20; setter conditions: lines 68, 104. -/
def cell_Trcl_5 : Cls where
  info := ⟨"Trcl_5", .option, c!"trcl", ["prefix", "transformation"]⟩
  shape := .flat ⟨.star, c!"trcl", .no, .no⟩ [⟨.ty (.base (.trans 4)), .req⟩]
  attrs := [⟨"prefix", (.base .str), false, (some (.and .notNone (.not (.lowIn ["*"]))))⟩,
    ⟨"transformation", (.base (.trans 4)), false, (some .isNone)⟩]
  init := ["prefix", "transformation"]

/-- src/pymcnp/inp/cell/Trcl_0.py:13-20; setter conditions: lines 68, 106. -/
def cell_Trcl_0 : Cls where
  info := ⟨"Trcl_0", .option, c!"trcl", ["prefix", "transformation"]⟩
  shape := .flat ⟨.star, c!"trcl", .no, .no⟩ [⟨.ty (.base .int), .req⟩]
  attrs := [⟨"prefix", (.base .str), false, (some (.and .notNone (.not (.lowIn ["*"]))))⟩,
    ⟨"transformation", (.base .int), false, (some (.or .isNone (.not (.and (.cmp .ge (0) 0) (.cmp .le (999) 0)))))⟩]
  init := ["prefix", "transformation"]

/-- src/pymcnp/inp/cell/Lat.py:13-19; setter conditions: lines 67. -/
def cell_Lat : Cls where
  info := ⟨"Lat", .option, c!"lat", ["shape"]⟩
  shape := .flat ⟨.no, c!"lat", .no, .no⟩ [⟨.ty (.base .int), .req⟩]
  attrs := [⟨"shape", (.base .int), false, (some (.or .isNone (.not (.inInts [1, 2]))))⟩]
  init := ["shape"]

/-- src/pymcnp/inp/cell/Fill_0.py:13-24; setter conditions: lines 88, 124, 160, 196, 237. -/
def cell_Fill_0 : Cls where
  info := ⟨"Fill_0", .option, c!"fill", ["prefix", "i", "j", "k", "universes", "m"]⟩
  shape := .other (.seq (.opt (.grp (.cls (.set false [.ch '*'])))) (.seq (.lits c!"fill ") (.seq (.grp (.seq (.plus true (.cls (.one .S))) (.seq (.lits c!":") (.plus true (.cls (.one .S)))))) (.seq (.lits c!" ") (.seq (.grp (.seq (.plus true (.cls (.one .S))) (.seq (.lits c!":") (.plus true (.cls (.one .S)))))) (.seq (.lits c!" ") (.seq (.grp (.seq (.plus true (.cls (.one .S))) (.seq (.lits c!":") (.plus true (.cls (.one .S)))))) (.seq (.grp (.plus false (.ngrp (.seq (.lits c!" ") (.ty (.base .int)))))) (.opt (.ngrp (.seq (.lits c!" ") (.seq (.cls (.set false [.ch '('])) (.seq (.grp (.ty (.base .int))) (.cls (.set false [.ch ')'])))))))))))))))
  attrs := [⟨"prefix", (.base .str), false, (some (.and .notNone (.not (.lowIn ["*"]))))⟩,
    ⟨"i", (.base .index), false, (some .isNone)⟩,
    ⟨"j", (.base .index), false, (some .isNone)⟩,
    ⟨"k", (.base .index), false, (some .isNone)⟩,
    ⟨"universes", (.base .int), true, (some .isNone)⟩,
    ⟨"m", (.base .int), false, none⟩]
  init := ["prefix", "i", "j", "k", "universes", "m"]

/-- src/pymcnp/inp/cell/Fill_1.py:13-21; setter conditions: lines 71, 109. -/
def cell_Fill_1 : Cls where
  info := ⟨"Fill_1", .option, c!"fill", ["prefix", "universe", "transformation"]⟩
  shape := .other (.seq (.opt (.grp (.cls (.set false [.ch '*'])))) (.seq (.lits c!"fill") (.seq (.grp (.seq (.lits c!" ") (.ty (.base .int)))) (.opt (.grp (.alt (.seq (.lits c!" ") (.ty (.base (.trans 0)))) (.seq (.lits c!" ") (.seq (.cls (.set false [.ch '('])) (.seq (.ty (.base (.trans 0))) (.cls (.set false [.ch ')'])))))))))))
  attrs := [⟨"prefix", (.base .str), false, (some (.and .notNone (.not (.lowIn ["*"]))))⟩,
    ⟨"universe", (.base .int), false, (some (.or .isNone (.not (.or (.cmp .eq (10000000000) 0) (.and (.cmp .ge (0) 0) (.cmp .le (99999999) 0))))))⟩,
    ⟨"transformation", (.base (.trans 0)), false, none⟩]
  init := ["prefix", "universe", "transformation"]

/-- src/pymcnp/inp/cell/Fill_2.py:13-21; setter conditions: lines 71, 109. -/
def cell_Fill_2 : Cls where
  info := ⟨"Fill_2", .option, c!"fill", ["prefix", "universe", "transformation"]⟩
  shape := .other (.seq (.opt (.grp (.cls (.set false [.ch '*'])))) (.seq (.lits c!"fill") (.seq (.grp (.seq (.lits c!" ") (.ty (.base .int)))) (.opt (.grp (.alt (.seq (.lits c!" ") (.ty (.base (.trans 1)))) (.seq (.lits c!" ") (.seq (.cls (.set false [.ch '('])) (.seq (.ty (.base (.trans 1))) (.cls (.set false [.ch ')'])))))))))))
  attrs := [⟨"prefix", (.base .str), false, (some (.and .notNone (.not (.lowIn ["*"]))))⟩,
    ⟨"universe", (.base .int), false, (some (.or .isNone (.not (.or (.cmp .eq (10000000000) 0) (.and (.cmp .ge (0) 0) (.cmp .le (99999999) 0))))))⟩,
    ⟨"transformation", (.base (.trans 1)), false, none⟩]
  init := ["prefix", "universe", "transformation"]

/-- src/pymcnp/inp/cell/Fill_3.py:13-21; setter conditions: lines 71, 109. -/
def cell_Fill_3 : Cls where
  info := ⟨"Fill_3", .option, c!"fill", ["prefix", "universe", "transformation"]⟩
  shape := .other (.seq (.opt (.grp (.cls (.set false [.ch '*'])))) (.seq (.lits c!"fill") (.seq (.grp (.seq (.lits c!" ") (.ty (.base .int)))) (.opt (.grp (.alt (.seq (.lits c!" ") (.ty (.base (.trans 2)))) (.seq (.lits c!" ") (.seq (.cls (.set false [.ch '('])) (.seq (.ty (.base (.trans 2))) (.cls (.set false [.ch ')'])))))))))))
  attrs := [⟨"prefix", (.base .str), false, (some (.and .notNone (.not (.lowIn ["*"]))))⟩,
    ⟨"universe", (.base .int), false, (some (.or .isNone (.not (.or (.cmp .eq (10000000000) 0) (.and (.cmp .ge (0) 0) (.cmp .le (99999999) 0))))))⟩,
    ⟨"transformation", (.base (.trans 2)), false, none⟩]
  init := ["prefix", "universe", "transformation"]

/-- src/pymcnp/inp/cell/Fill_4.py:13-21; setter conditions: lines 71, 109. -/
def cell_Fill_4 : Cls where
  info := ⟨"Fill_4", .option, c!"fill", ["prefix", "universe", "transformation"]⟩
  shape := .other (.seq (.opt (.grp (.cls (.set false [.ch '*'])))) (.seq (.lits c!"fill") (.seq (.grp (.seq (.lits c!" ") (.ty (.base .int)))) (.opt (.grp (.alt (.seq (.lits c!" ") (.ty (.base (.trans 3)))) (.seq (.lits c!" ") (.seq (.cls (.set false [.ch '('])) (.seq (.ty (.base (.trans 3))) (.cls (.set false [.ch ')'])))))))))))
  attrs := [⟨"prefix", (.base .str), false, (some (.and .notNone (.not (.lowIn ["*"]))))⟩,
    ⟨"universe", (.base .int), false, (some (.or .isNone (.not (.or (.cmp .eq (10000000000) 0) (.and (.cmp .ge (0) 0) (.cmp .le (99999999) 0))))))⟩,
    ⟨"transformation", (.base (.trans 3)), false, none⟩]
  init := ["prefix", "universe", "transformation"]

/-- src/pymcnp/inp/cell/Fill_5.py:13-21; setter conditions: lines 71, 109. -/
def cell_Fill_5 : Cls where
  info := ⟨"Fill_5", .option, c!"fill", ["prefix", "universe", "transformation"]⟩
  shape := .other (.seq (.opt (.grp (.cls (.set false [.ch '*'])))) (.seq (.lits c!"fill") (.seq (.grp (.seq (.lits c!" ") (.ty (.base .int)))) (.opt (.grp (.alt (.seq (.lits c!" ") (.ty (.base (.trans 4)))) (.seq (.lits c!" ") (.seq (.cls (.set false [.ch '('])) (.seq (.ty (.base (.trans 4))) (.cls (.set false [.ch ')'])))))))))))
  attrs := [⟨"prefix", (.base .str), false, (some (.and .notNone (.not (.lowIn ["*"]))))⟩,
    ⟨"universe", (.base .int), false, (some (.or .isNone (.not (.or (.cmp .eq (10000000000) 0) (.and (.cmp .ge (0) 0) (.cmp .le (99999999) 0))))))⟩,
    ⟨"transformation", (.base (.trans 4)), false, none⟩]
  init := ["prefix", "universe", "transformation"]

/-- src/pymcnp/inp/cell/Fill_6.py:13-21; setter conditions: lines 71, 109, 147. -/
def cell_Fill_6 : Cls where
  info := ⟨"Fill_6", .option, c!"fill", ["prefix", "universe", "transformation"]⟩
  shape := .other (.seq (.opt (.grp (.cls (.set false [.ch '*'])))) (.seq (.lits c!"fill") (.seq (.grp (.seq (.lits c!" ") (.ty (.base .int)))) (.opt (.grp (.alt (.seq (.lits c!" ") (.ty (.base .int))) (.seq (.lits c!" ") (.seq (.cls (.set false [.ch '('])) (.seq (.ty (.base .int)) (.cls (.set false [.ch ')'])))))))))))
  attrs := [⟨"prefix", (.base .str), false, (some (.and .notNone (.not (.lowIn ["*"]))))⟩,
    ⟨"universe", (.base .int), false, (some (.or .isNone (.not (.or (.cmp .eq (10000000000) 0) (.and (.cmp .ge (0) 0) (.cmp .le (99999999) 0))))))⟩,
    ⟨"transformation", (.base .int), false, (some (.and .notNone (.not (.and (.cmp .ge (0) 0) (.cmp .le (999) 0)))))⟩]
  init := ["prefix", "universe", "transformation"]

/-- src/pymcnp/inp/cell/Elpt.py:13-20; setter conditions: lines 68, 106. -/
def cell_Elpt : Cls where
  info := ⟨"Elpt", .option, c!"elpt", ["designator", "cutoff"]⟩
  shape := .flat ⟨.no, c!"elpt", .no, .req⟩ [⟨.ty (.base .real), .req⟩]
  attrs := [⟨"designator", (.base .desig), false, (some .isNone)⟩,
    ⟨"cutoff", (.base .real), false, (some .isNone)⟩]
  init := ["designator", "cutoff"]

/-- src/pymcnp/inp/cell/Tmp.py:13-20; setter conditions: lines 108. -/
def cell_Tmp : Cls where
  info := ⟨"Tmp", .option, c!"tmp", ["suffix", "temperature"]⟩
  shape := .flat ⟨.no, c!"tmp", .req, .no⟩ [⟨.ty (.base .real), .many⟩]
  attrs := [⟨"suffix", (.base .int), false, none⟩,
    ⟨"temperature", (.base .real), true, (some (.or .isNone (.not .minPos)))⟩]
  init := ["suffix", "temperature"]

/-- src/pymcnp/inp/cell/Cosy.py:13-19; setter conditions: lines 67. -/
def cell_Cosy : Cls where
  info := ⟨"Cosy", .option, c!"cosy", ["number"]⟩
  shape := .flat ⟨.no, c!"cosy", .no, .no⟩ [⟨.ty (.base .int), .req⟩]
  attrs := [⟨"number", (.base .int), false, (some (.or .isNone (.not (.inInts [1, 2, 3, 4, 5, 6]))))⟩]
  init := ["number"]

/-- src/pymcnp/inp/cell/Bflcl.py:13-19; setter conditions: lines 67. -/
def cell_Bflcl : Cls where
  info := ⟨"Bflcl", .option, c!"bflcl", ["number"]⟩
  shape := .flat ⟨.no, c!"bflcl", .no, .no⟩ [⟨.ty (.base .int), .req⟩]
  attrs := [⟨"number", (.base .int), false, (some (.or .isNone (.not (.cmp .ge (0) 0))))⟩]
  init := ["number"]

/-- src/pymcnp/inp/cell/Unc.py:13-20; setter conditions: lines 68, 106. -/
def cell_Unc : Cls where
  info := ⟨"Unc", .option, c!"unc", ["designator", "setting"]⟩
  shape := .flat ⟨.no, c!"unc", .no, .req⟩ [⟨.ty (.base .int), .req⟩]
  attrs := [⟨"designator", (.base .desig), false, (some .isNone)⟩,
    ⟨"setting", (.base .int), false, (some (.or .isNone (.not (.inInts [0, 1]))))⟩]
  init := ["designator", "setting"]

/-- src/pymcnp/inp/cell/_option.py:4 and src/pymcnp/inp/cell/__init__.py (order of definition). -/
def T_cell_CellOption : Ty := unionTy "cell.CellOption" [cell_Imp, cell_Vol, cell_Pwt, cell_Ext, cell_Fcl, cell_Wwn, cell_Dxc, cell_Nonu, cell_Pd, cell_U, cell_Trcl_1, cell_Trcl_2, cell_Trcl_3, cell_Trcl_4, cell_Trcl_5, cell_Trcl_0, cell_Lat, cell_Fill_0, cell_Fill_1, cell_Fill_2, cell_Fill_3, cell_Fill_4, cell_Fill_5, cell_Fill_6, cell_Elpt, cell_Tmp, cell_Cosy, cell_Bflcl, cell_Unc]

/-- src/pymcnp/inp/like/Imp.py:13-20; setter conditions: lines 67, 104. -/
def like_Imp : Cls where
  info := ⟨"Imp", .option, c!"imp", ["designator", "importance"]⟩
  shape := .flat ⟨.no, c!"imp", .no, .req⟩ [⟨.ty (.base .real), .req⟩]
  attrs := [⟨"designator", (.base .desig), false, (some .isNone)⟩,
    ⟨"importance", (.base .real), false, (some .isNone)⟩]
  init := ["designator", "importance"]

/-- src/pymcnp/inp/like/Vol.py:13-19; setter conditions: lines 66. -/
def like_Vol : Cls where
  info := ⟨"Vol", .option, c!"vol", ["volume"]⟩
  shape := .flat ⟨.no, c!"vol", .no, .no⟩ [⟨.ty (.base .real), .req⟩]
  attrs := [⟨"volume", (.base .real), false, (some (.or .isNone (.not (.cmp .ge (0) 0))))⟩]
  init := ["volume"]

/-- src/pymcnp/inp/like/Pwt.py:13-19; setter conditions: lines 66. -/
def like_Pwt : Cls where
  info := ⟨"Pwt", .option, c!"pwt", ["weight"]⟩
  shape := .flat ⟨.no, c!"pwt", .no, .no⟩ [⟨.ty (.base .real), .req⟩]
  attrs := [⟨"weight", (.base .real), false, (some .isNone)⟩]
  init := ["weight"]

/-- src/pymcnp/inp/like/Ext.py:13-20; setter conditions: lines 67, 102. -/
def like_Ext : Cls where
  info := ⟨"Ext", .option, c!"ext", ["designator", "stretch"]⟩
  shape := .flat ⟨.no, c!"ext", .no, .req⟩ [⟨.ty (.base .str), .req⟩]
  attrs := [⟨"designator", (.base .desig), false, (some .isNone)⟩,
    ⟨"stretch", (.base .str), false, (some .isNone)⟩]
  init := ["designator", "stretch"]

/-- src/pymcnp/inp/like/Fcl.py:13-20; setter conditions: lines 67, 104. -/
def like_Fcl : Cls where
  info := ⟨"Fcl", .option, c!"fcl", ["designator", "control"]⟩
  shape := .flat ⟨.no, c!"fcl", .no, .req⟩ [⟨.ty (.base .real), .req⟩]
  attrs := [⟨"designator", (.base .desig), false, (some .isNone)⟩,
    ⟨"control", (.base .real), false, (some (.or .isNone (.not (.and (.cmp .ge (-1) 0) (.cmp .le (1) 0)))))⟩]
  init := ["designator", "control"]

/-- src/pymcnp/inp/like/Wwn.py:13-21; setter conditions: lines 72, 107, 144. -/
def like_Wwn : Cls where
  info := ⟨"Wwn", .option, c!"wwn", ["suffix", "designator", "bound"]⟩
  shape := .flat ⟨.no, c!"wwn", .req, .req⟩ [⟨.ty (.base .real), .req⟩]
  attrs := [⟨"suffix", (.base .int), false, (some .isNone)⟩,
    ⟨"designator", (.base .desig), false, (some .isNone)⟩,
    ⟨"bound", (.base .real), false, (some (.or .isNone (.not (.or (.cmp .eq (-1) 0) (.cmp .ge (0) 0)))))⟩]
  init := ["suffix", "designator", "bound"]

/-- src/pymcnp/inp/like/Dxc.py:13-21; setter conditions: lines 72, 107, 144. -/
def like_Dxc : Cls where
  info := ⟨"Dxc", .option, c!"dxc", ["suffix", "designator", "probability"]⟩
  shape := .flat ⟨.no, c!"dxc", .req, .req⟩ [⟨.ty (.base .real), .req⟩]
  attrs := [⟨"suffix", (.base .int), false, (some .isNone)⟩,
    ⟨"designator", (.base .desig), false, (some .isNone)⟩,
    ⟨"probability", (.base .real), false, (some (.or .isNone (.not (.and (.cmp .ge (0) 0) (.cmp .le (1) 0)))))⟩]
  init := ["suffix", "designator", "probability"]

/-- src/pymcnp/inp/like/Nonu.py:13-19; setter conditions: lines 66. -/
def like_Nonu : Cls where
  info := ⟨"Nonu", .option, c!"nonu", ["setting"]⟩
  shape := .flat ⟨.no, c!"nonu", .no, .no⟩ [⟨.ty (.base .int), .req⟩]
  attrs := [⟨"setting", (.base .int), false, (some (.or .isNone (.not (.inInts [0, 1, 2]))))⟩]
  init := ["setting"]

/-- src/pymcnp/inp/like/Pd.py:13-20; setter conditions: lines 69, 106. -/
def like_Pd : Cls where
  info := ⟨"Pd", .option, c!"pd", ["suffix", "probability"]⟩
  shape := .flat ⟨.no, c!"pd", .req, .no⟩ [⟨.ty (.base .real), .req⟩]
  attrs := [⟨"suffix", (.base .int), false, (some .isNone)⟩,
    ⟨"probability", (.base .real), false, (some (.or .isNone (.not (.and (.cmp .ge (0) 0) (.cmp .le (1) 0)))))⟩]
  init := ["suffix", "probability"]

/-- src/pymcnp/inp/like/U.py:13-19; setter conditions: lines 66. -/
def like_U : Cls where
  info := ⟨"U", .option, c!"u", ["number"]⟩
  shape := .flat ⟨.no, c!"u", .no, .no⟩ [⟨.ty (.base .int), .req⟩]
  attrs := [⟨"number", (.base .int), false, (some (.or .isNone (.not (.or (.cmp .eq (10000000000) 0) (.and (.cmp .ge (-9) 0) (.cmp .le (99999999) 0))))))⟩]
  init := ["number"]

/-- src/pymcnp/inp/like/Trcl_1.py:13-20; setter conditions: lines 67, 102. -/
def like_Trcl_1 : Cls where
  info := ⟨"Trcl_1", .option, c!"trcl", ["prefix", "transformation"]⟩
  shape := .flat ⟨.star, c!"trcl", .no, .no⟩ [⟨.ty (.base (.trans 0)), .req⟩]
  attrs := [⟨"prefix", (.base .str), false, (some (.and .notNone (.not (.lowIn ["*"]))))⟩,
    ⟨"transformation", (.base (.trans 0)), false, (some .isNone)⟩]
  init := ["prefix", "transformation"]

/-- src/pymcnp/inp/like/Trcl_2.py:13-20; setter conditions: lines 67, 102. -/
def like_Trcl_2 : Cls where
  info := ⟨"Trcl_2", .option, c!"trcl", ["prefix", "transformation"]⟩
  shape := .flat ⟨.star, c!"trcl", .no, .no⟩ [⟨.ty (.base (.trans 1)), .req⟩]
  attrs := [⟨"prefix", (.base .str), false, (some (.and .notNone (.not (.lowIn ["*"]))))⟩,
    ⟨"transformation", (.base (.trans 1)), false, (some .isNone)⟩]
  init := ["prefix", "transformation"]

/-- src/pymcnp/inp/like/Trcl_3.py:13-20; setter conditions: lines 67, 102. -/
def like_Trcl_3 : Cls where
  info := ⟨"Trcl_3", .option, c!"trcl", ["prefix", "transformation"]⟩
  shape := .flat ⟨.star, c!"trcl", .no, .no⟩ [⟨.ty (.base (.trans 2)), .req⟩]
  attrs := [⟨"prefix", (.base .str), false, (some (.and .notNone (.not (.lowIn ["*"]))))⟩,
    ⟨"transformation", (.base (.trans 2)), false, (some .isNone)⟩]
  init := ["prefix", "transformation"]

/-- src/pymcnp/inp/like/Trcl_4.py:13-20; setter conditions: lines 67, 102. -/
def like_Trcl_4 : Cls where
  info := ⟨"Trcl_4", .option, c!"trcl", ["prefix", "transformation"]⟩
  shape := .flat ⟨.star, c!"trcl", .no, .no⟩ [⟨.ty (.base (.trans 3)), .req⟩]
  attrs := [⟨"prefix", (.base .str), false, (some (.and .notNone (.not (.lowIn ["*"]))))⟩,
    ⟨"transformation", (.base (.trans 3)), false, (some .isNone)⟩]
  init := ["prefix", "transformation"]

/-- src/pymcnp/inp/like/Trcl_5.py:13-20; setter conditions: lines 67, 102. -/
def like_Trcl_5 : Cls where
  info := ⟨"Trcl_5", .option, c!"trcl", ["prefix", "transformation"]⟩
  shape := .flat ⟨.star, c!"trcl", .no, .no⟩ [⟨.ty (.base (.trans 4)), .req⟩]
  attrs := [⟨"prefix", (.base .str), false, (some (.and .notNone (.not (.lowIn ["*"]))))⟩,
    ⟨"transformation", (.base (.trans 4)), false, (some .isNone)⟩]
  init := ["prefix", "transformation"]

/-- src/pymcnp/inp/like/Trcl_0.py:13-20; setter conditions: lines 67, 104. -/
def like_Trcl_0 : Cls where
  info := ⟨"Trcl_0", .option, c!"trcl", ["prefix", "transformation"]⟩
  shape := .flat ⟨.star, c!"trcl", .no, .no⟩ [⟨.ty (.base .int), .req⟩]
  attrs := [⟨"prefix", (.base .str), false, (some (.and .notNone (.not (.lowIn ["*"]))))⟩,
    ⟨"transformation", (.base .int), false, (some (.or .isNone (.not (.and (.cmp .ge (0) 0) (.cmp .le (999) 0)))))⟩]
  init := ["prefix", "transformation"]

/-- src/pymcnp/inp/like/Lat.py:13-19; setter conditions: lines 66. -/
def like_Lat : Cls where
  info := ⟨"Lat", .option, c!"lat", ["shape"]⟩
  shape := .flat ⟨.no, c!"lat", .no, .no⟩ [⟨.ty (.base .int), .req⟩]
  attrs := [⟨"shape", (.base .int), false, (some (.or .isNone (.not (.inInts [1, 2]))))⟩]
  init := ["shape"]

/-- src/pymcnp/inp/like/Mat.py:13-19; setter conditions: lines 66. -/
def like_Mat : Cls where
  info := ⟨"Mat", .option, c!"mat", ["material"]⟩
  shape := .flat ⟨.no, c!"mat", .no, .no⟩ [⟨.ty (.base .int), .req⟩]
  attrs := [⟨"material", (.base .int), false, (some (.or .isNone (.not (.and (.cmp .ge (0) 0) (.cmp .le (99999999) 0)))))⟩]
  init := ["material"]

/-- src/pymcnp/inp/like/Fill_0.py:13-24; setter conditions: lines 87, 122, 157, 192, 233. -/
def like_Fill_0 : Cls where
  info := ⟨"Fill_0", .option, c!"fill", ["prefix", "i", "j", "k", "universes", "m"]⟩
  shape := .other (.seq (.opt (.grp (.cls (.set false [.ch '*'])))) (.seq (.lits c!"fill ") (.seq (.grp (.seq (.plus true (.cls (.one .S))) (.seq (.lits c!":") (.plus true (.cls (.one .S)))))) (.seq (.lits c!" ") (.seq (.grp (.seq (.plus true (.cls (.one .S))) (.seq (.lits c!":") (.plus true (.cls (.one .S)))))) (.seq (.lits c!" ") (.seq (.grp (.seq (.plus true (.cls (.one .S))) (.seq (.lits c!":") (.plus true (.cls (.one .S)))))) (.seq (.grp (.plus false (.ngrp (.seq (.lits c!" ") (.ty (.base .int)))))) (.opt (.ngrp (.seq (.lits c!" ") (.seq (.cls (.set false [.ch '('])) (.seq (.grp (.ty (.base .int))) (.cls (.set false [.ch ')'])))))))))))))))
  attrs := [⟨"prefix", (.base .str), false, (some (.and .notNone (.not (.lowIn ["*"]))))⟩,
    ⟨"i", (.base .index), false, (some .isNone)⟩,
    ⟨"j", (.base .index), false, (some .isNone)⟩,
    ⟨"k", (.base .index), false, (some .isNone)⟩,
    ⟨"universes", (.base .int), true, (some .isNone)⟩,
    ⟨"m", (.base .int), false, none⟩]
  init := ["prefix", "i", "j", "k", "universes", "m"]

/-- src/pymcnp/inp/like/Fill_1.py:13-21; setter conditions: lines 70, 107. -/
def like_Fill_1 : Cls where
  info := ⟨"Fill_1", .option, c!"fill", ["prefix", "universe", "transformation"]⟩
  shape := .other (.seq (.opt (.grp (.cls (.set false [.ch '*'])))) (.seq (.lits c!"fill") (.seq (.grp (.seq (.lits c!" ") (.ty (.base .int)))) (.opt (.grp (.alt (.seq (.lits c!" ") (.ty (.base (.trans 0)))) (.seq (.lits c!" ") (.seq (.cls (.set false [.ch '('])) (.seq (.ty (.base (.trans 0))) (.cls (.set false [.ch ')'])))))))))))
  attrs := [⟨"prefix", (.base .str), false, (some (.and .notNone (.not (.lowIn ["*"]))))⟩,
    ⟨"universe", (.base .int), false, (some (.or .isNone (.not (.or (.cmp .eq (10000000000) 0) (.and (.cmp .ge (0) 0) (.cmp .le (99999999) 0))))))⟩,
    ⟨"transformation", (.base (.trans 0)), false, none⟩]
  init := ["prefix", "universe", "transformation"]

/-- src/pymcnp/inp/like/Fill_2.py:13-21; setter conditions: lines 70, 107. -/
def like_Fill_2 : Cls where
  info := ⟨"Fill_2", .option, c!"fill", ["prefix", "universe", "transformation"]⟩
  shape := .other (.seq (.opt (.grp (.cls (.set false [.ch '*'])))) (.seq (.lits c!"fill") (.seq (.grp (.seq (.lits c!" ") (.ty (.base .int)))) (.opt (.grp (.alt (.seq (.lits c!" ") (.ty (.base (.trans 1)))) (.seq (.lits c!" ") (.seq (.cls (.set false [.ch '('])) (.seq (.ty (.base (.trans 1))) (.cls (.set false [.ch ')'])))))))))))
  attrs := [⟨"prefix", (.base .str), false, (some (.and .notNone (.not (.lowIn ["*"]))))⟩,
    ⟨"universe", (.base .int), false, (some (.or .isNone (.not (.or (.cmp .eq (10000000000) 0) (.and (.cmp .ge (0) 0) (.cmp .le (99999999) 0))))))⟩,
    ⟨"transformation", (.base (.trans 1)), false, none⟩]
  init := ["prefix", "universe", "transformation"]

/-- src/pymcnp/inp/like/Fill_3.py:13-21; setter conditions: lines 70, 107. -/
def like_Fill_3 : Cls where
  info := ⟨"Fill_3", .option, c!"fill", ["prefix", "universe", "transformation"]⟩
  shape := .other (.seq (.opt (.grp (.cls (.set false [.ch '*'])))) (.seq (.lits c!"fill") (.seq (.grp (.seq (.lits c!" ") (.ty (.base .int)))) (.opt (.grp (.alt (.seq (.lits c!" ") (.ty (.base (.trans 2)))) (.seq (.lits c!" ") (.seq (.cls (.set false [.ch '('])) (.seq (.ty (.base (.trans 2))) (.cls (.set false [.ch ')'])))))))))))
  attrs := [⟨"prefix", (.base .str), false, (some (.and .notNone (.not (.lowIn ["*"]))))⟩,
    ⟨"universe", (.base .int), false, (some (.or .isNone (.not (.or (.cmp .eq (10000000000) 0) (.and (.cmp .ge (0) 0) (.cmp .le (99999999) 0))))))⟩,
    ⟨"transformation", (.base (.trans 2)), false, none⟩]
  init := ["prefix", "universe", "transformation"]

/-- src/pymcnp/inp/like/Fill_4.py:13-21; setter conditions: lines 70, 107. -/
def like_Fill_4 : Cls where
  info := ⟨"Fill_4", .option, c!"fill", ["prefix", "universe", "transformation"]⟩
  shape := .other (.seq (.opt (.grp (.cls (.set false [.ch '*'])))) (.seq (.lits c!"fill") (.seq (.grp (.seq (.lits c!" ") (.ty (.base .int)))) (.opt (.grp (.alt (.seq (.lits c!" ") (.ty (.base (.trans 3)))) (.seq (.lits c!" ") (.seq (.cls (.set false [.ch '('])) (.seq (.ty (.base (.trans 3))) (.cls (.set false [.ch ')'])))))))))))
  attrs := [⟨"prefix", (.base .str), false, (some (.and .notNone (.not (.lowIn ["*"]))))⟩,
    ⟨"universe", (.base .int), false, (some (.or .isNone (.not (.or (.cmp .eq (10000000000) 0) (.and (.cmp .ge (0) 0) (.cmp .le (99999999) 0))))))⟩,
    ⟨"transformation", (.base (.trans 3)), false, none⟩]
  init := ["prefix", "universe", "transformation"]

/-- src/pymcnp/inp/like/Fill_5.py:13-21; setter conditions: lines 70, 107. -/
def like_Fill_5 : Cls where
  info := ⟨"Fill_5", .option, c!"fill", ["prefix", "universe", "transformation"]⟩
  shape := .other (.seq (.opt (.grp (.cls (.set false [.ch '*'])))) (.seq (.lits c!"fill") (.seq (.grp (.seq (.lits c!" ") (.ty (.base .int)))) (.opt (.grp (.alt (.seq (.lits c!" ") (.ty (.base (.trans 4)))) (.seq (.lits c!" ") (.seq (.cls (.set false [.ch '('])) (.seq (.ty (.base (.trans 4))) (.cls (.set false [.ch ')'])))))))))))
  attrs := [⟨"prefix", (.base .str), false, (some (.and .notNone (.not (.lowIn ["*"]))))⟩,
    ⟨"universe", (.base .int), false, (some (.or .isNone (.not (.or (.cmp .eq (10000000000) 0) (.and (.cmp .ge (0) 0) (.cmp .le (99999999) 0))))))⟩,
    ⟨"transformation", (.base (.trans 4)), false, none⟩]
  init := ["prefix", "universe", "transformation"]

/-- src/pymcnp/inp/like/Fill_6.py:13-21; setter conditions: lines 70, 107, 144. -/
def like_Fill_6 : Cls where
  info := ⟨"Fill_6", .option, c!"fill", ["prefix", "universe", "transformation"]⟩
  shape := .other (.seq (.opt (.grp (.cls (.set false [.ch '*'])))) (.seq (.lits c!"fill") (.seq (.grp (.seq (.lits c!" ") (.ty (.base .int)))) (.opt (.grp (.alt (.seq (.lits c!" ") (.ty (.base .int))) (.seq (.lits c!" ") (.seq (.cls (.set false [.ch '('])) (.seq (.ty (.base .int)) (.cls (.set false [.ch ')'])))))))))))
  attrs := [⟨"prefix", (.base .str), false, (some (.and .notNone (.not (.lowIn ["*"]))))⟩,
    ⟨"universe", (.base .int), false, (some (.or .isNone (.not (.or (.cmp .eq (10000000000) 0) (.and (.cmp .ge (0) 0) (.cmp .le (99999999) 0))))))⟩,
    ⟨"transformation", (.base .int), false, (some (.and .notNone (.not (.and (.cmp .ge (0) 0) (.cmp .le (999) 0)))))⟩]
  init := ["prefix", "universe", "transformation"]

/-- src/pymcnp/inp/like/Elpt.py:13-20; setter conditions: lines 67, 104. -/
def like_Elpt : Cls where
  info := ⟨"Elpt", .option, c!"elpt", ["designator", "cutoff"]⟩
  shape := .flat ⟨.no, c!"elpt", .no, .req⟩ [⟨.ty (.base .real), .req⟩]
  attrs := [⟨"designator", (.base .desig), false, (some .isNone)⟩,
    ⟨"cutoff", (.base .real), false, (some .isNone)⟩]
  init := ["designator", "cutoff"]

/-- src/pymcnp/inp/like/Rho.py:13-19; setter conditions: lines 66. -/
def like_Rho : Cls where
  info := ⟨"Rho", .option, c!"rho", ["density"]⟩
  shape := .flat ⟨.no, c!"rho", .no, .no⟩ [⟨.ty (.base .real), .req⟩]
  attrs := [⟨"density", (.base .real), false, (some .isNone)⟩]
  init := ["density"]

/-- src/pymcnp/inp/like/Tmp.py:13-20; setter conditions: lines 107. -/
def like_Tmp : Cls where
  info := ⟨"Tmp", .option, c!"tmp", ["suffix", "temperature"]⟩
  shape := .flat ⟨.no, c!"tmp", .req, .no⟩ [⟨.ty (.base .real), .many⟩]
  attrs := [⟨"suffix", (.base .int), false, none⟩,
    ⟨"temperature", (.base .real), true, (some (.or .isNone (.not .minPos)))⟩]
  init := ["suffix", "temperature"]

/-- src/pymcnp/inp/like/Cosy.py:13-19; setter conditions: lines 66. -/
def like_Cosy : Cls where
  info := ⟨"Cosy", .option, c!"cosy", ["number"]⟩
  shape := .flat ⟨.no, c!"cosy", .no, .no⟩ [⟨.ty (.base .int), .req⟩]
  attrs := [⟨"number", (.base .int), false, (some (.or .isNone (.not (.inInts [1, 2, 3, 4, 5, 6]))))⟩]
  init := ["number"]

/-- src/pymcnp/inp/like/Bflcl.py:13-19; setter conditions: lines 66. -/
def like_Bflcl : Cls where
  info := ⟨"Bflcl", .option, c!"bflcl", ["number"]⟩
  shape := .flat ⟨.no, c!"bflcl", .no, .no⟩ [⟨.ty (.base .int), .req⟩]
  attrs := [⟨"number", (.base .int), false, (some (.or .isNone (.not (.cmp .ge (0) 0))))⟩]
  init := ["number"]

/-- src/pymcnp/inp/like/Unc.py:13-20; setter conditions: lines 67, 104. -/
def like_Unc : Cls where
  info := ⟨"Unc", .option, c!"unc", ["designator", "setting"]⟩
  shape := .flat ⟨.no, c!"unc", .no, .req⟩ [⟨.ty (.base .int), .req⟩]
  attrs := [⟨"designator", (.base .desig), false, (some .isNone)⟩,
    ⟨"setting", (.base .int), false, (some (.or .isNone (.not (.inInts [0, 1]))))⟩]
  init := ["designator", "setting"]

/-- src/pymcnp/inp/like/_option.py:4 and src/pymcnp/inp/like/__init__.py (order of definition). -/
def T_like_LikeOption : Ty := unionTy "like.LikeOption" [like_Imp, like_Vol, like_Pwt, like_Ext, like_Fcl, like_Wwn, like_Dxc, like_Nonu, like_Pd, like_U, like_Trcl_1, like_Trcl_2, like_Trcl_3, like_Trcl_4, like_Trcl_5, like_Trcl_0, like_Lat, like_Mat, like_Fill_0, like_Fill_1, like_Fill_2, like_Fill_3, like_Fill_4, like_Fill_5, like_Fill_6, like_Elpt, like_Rho, like_Tmp, like_Cosy, like_Bflcl, like_Unc]

/-- Classes 1 to 20 of this file with the text of their patterns between `\A` and `\Z`. -/
def sourcesCell0 : List (Cls × Str) := [
  (cell_Imp, c!"imp:(\\S+)( {types.Real._REGEX.pattern[2:-2]})"),
  (cell_Vol, c!"vol( {types.Real._REGEX.pattern[2:-2]})"),
  (cell_Pwt, c!"pwt( {types.Real._REGEX.pattern[2:-2]})"),
  (cell_Ext, c!"ext:(\\S+)( {types.String._REGEX.pattern[2:-2]})"),
  (cell_Fcl, c!"fcl:(\\S+)( {types.Real._REGEX.pattern[2:-2]})"),
  (cell_Wwn, c!"wwn(\\d+):(\\S+)( {types.Real._REGEX.pattern[2:-2]})"),
  (cell_Dxc, c!"dxc(\\d+):(\\S+)( {types.Real._REGEX.pattern[2:-2]})"),
  (cell_Nonu, c!"nonu( {types.Integer._REGEX.pattern[2:-2]})"),
  (cell_Pd, c!"pd(\\d+)( {types.Real._REGEX.pattern[2:-2]})"),
  (cell_U, c!"u( {types.Integer._REGEX.pattern[2:-2]})"),
  (cell_Trcl_1, c!"([*])?trcl( {types.Transformation_0._REGEX.pattern[2:-2]})"),
  (cell_Trcl_2, c!"([*])?trcl( {types.Transformation_1._REGEX.pattern[2:-2]})"),
  (cell_Trcl_3, c!"([*])?trcl( {types.Transformation_2._REGEX.pattern[2:-2]})"),
  (cell_Trcl_4, c!"([*])?trcl( {types.Transformation_3._REGEX.pattern[2:-2]})"),
  (cell_Trcl_5, c!"([*])?trcl( {types.Transformation_4._REGEX.pattern[2:-2]})"),
  (cell_Trcl_0, c!"([*])?trcl( {types.Integer._REGEX.pattern[2:-2]})"),
  (cell_Lat, c!"lat( {types.Integer._REGEX.pattern[2:-2]})"),
  (cell_Fill_0, c!"([*])?fill (\\S+:\\S+) (\\S+:\\S+) (\\S+:\\S+)((?: {types.Integer._REGEX.pattern[2:-2]})+?)(?: [(]({types.Integer._REGEX.pattern[2:-2]})[)])?"),
  (cell_Fill_1, c!"([*])?fill( {types.Integer._REGEX.pattern[2:-2]})( {types.Transformation_0._REGEX.pattern[2:-2]}| [(]{types.Transformation_0._REGEX.pattern[2:-2]}[)])?"),
  (cell_Fill_2, c!"([*])?fill( {types.Integer._REGEX.pattern[2:-2]})( {types.Transformation_1._REGEX.pattern[2:-2]}| [(]{types.Transformation_1._REGEX.pattern[2:-2]}[)])?")]

theorem sourcesCell0_ok : sourcesCell0.all (fun p => p.1.pat.src == p.2) = true := by decide +kernel

/-- Classes 21 to 40 of this file with the text of their patterns between `\A` and `\Z`. -/
def sourcesCell1 : List (Cls × Str) := [
  (cell_Fill_3, c!"([*])?fill( {types.Integer._REGEX.pattern[2:-2]})( {types.Transformation_2._REGEX.pattern[2:-2]}| [(]{types.Transformation_2._REGEX.pattern[2:-2]}[)])?"),
  (cell_Fill_4, c!"([*])?fill( {types.Integer._REGEX.pattern[2:-2]})( {types.Transformation_3._REGEX.pattern[2:-2]}| [(]{types.Transformation_3._REGEX.pattern[2:-2]}[)])?"),
  (cell_Fill_5, c!"([*])?fill( {types.Integer._REGEX.pattern[2:-2]})( {types.Transformation_4._REGEX.pattern[2:-2]}| [(]{types.Transformation_4._REGEX.pattern[2:-2]}[)])?"),
  (cell_Fill_6, c!"([*])?fill( {types.Integer._REGEX.pattern[2:-2]})( {types.Integer._REGEX.pattern[2:-2]}| [(]{types.Integer._REGEX.pattern[2:-2]}[)])?"),
  (cell_Elpt, c!"elpt:(\\S+)( {types.Real._REGEX.pattern[2:-2]})"),
  (cell_Tmp, c!"tmp(\\d+)((?: {types.Real._REGEX.pattern[2:-2]})+?)"),
  (cell_Cosy, c!"cosy( {types.Integer._REGEX.pattern[2:-2]})"),
  (cell_Bflcl, c!"bflcl( {types.Integer._REGEX.pattern[2:-2]})"),
  (cell_Unc, c!"unc:(\\S+)( {types.Integer._REGEX.pattern[2:-2]})"),
  (like_Imp, c!"imp:(\\S+)( {types.Real._REGEX.pattern[2:-2]})"),
  (like_Vol, c!"vol( {types.Real._REGEX.pattern[2:-2]})"),
  (like_Pwt, c!"pwt( {types.Real._REGEX.pattern[2:-2]})"),
  (like_Ext, c!"ext:(\\S+)( {types.String._REGEX.pattern[2:-2]})"),
  (like_Fcl, c!"fcl:(\\S+)( {types.Real._REGEX.pattern[2:-2]})"),
  (like_Wwn, c!"wwn(\\d+):(\\S+)( {types.Real._REGEX.pattern[2:-2]})"),
  (like_Dxc, c!"dxc(\\d+):(\\S+)( {types.Real._REGEX.pattern[2:-2]})"),
  (like_Nonu, c!"nonu( {types.Integer._REGEX.pattern[2:-2]})"),
  (like_Pd, c!"pd(\\d+)( {types.Real._REGEX.pattern[2:-2]})"),
  (like_U, c!"u( {types.Integer._REGEX.pattern[2:-2]})"),
  (like_Trcl_1, c!"([*])?trcl( {types.Transformation_0._REGEX.pattern[2:-2]})")]

theorem sourcesCell1_ok : sourcesCell1.all (fun p => p.1.pat.src == p.2) = true := by decide +kernel

/-- Classes 41 to 60 of this file with the text of their patterns between `\A` and `\Z`. -/
def sourcesCell2 : List (Cls × Str) := [
  (like_Trcl_2, c!"([*])?trcl( {types.Transformation_1._REGEX.pattern[2:-2]})"),
  (like_Trcl_3, c!"([*])?trcl( {types.Transformation_2._REGEX.pattern[2:-2]})"),
  (like_Trcl_4, c!"([*])?trcl( {types.Transformation_3._REGEX.pattern[2:-2]})"),
  (like_Trcl_5, c!"([*])?trcl( {types.Transformation_4._REGEX.pattern[2:-2]})"),
  (like_Trcl_0, c!"([*])?trcl( {types.Integer._REGEX.pattern[2:-2]})"),
  (like_Lat, c!"lat( {types.Integer._REGEX.pattern[2:-2]})"),
  (like_Mat, c!"mat( {types.Integer._REGEX.pattern[2:-2]})"),
  (like_Fill_0, c!"([*])?fill (\\S+:\\S+) (\\S+:\\S+) (\\S+:\\S+)((?: {types.Integer._REGEX.pattern[2:-2]})+?)(?: [(]({types.Integer._REGEX.pattern[2:-2]})[)])?"),
  (like_Fill_1, c!"([*])?fill( {types.Integer._REGEX.pattern[2:-2]})( {types.Transformation_0._REGEX.pattern[2:-2]}| [(]{types.Transformation_0._REGEX.pattern[2:-2]}[)])?"),
  (like_Fill_2, c!"([*])?fill( {types.Integer._REGEX.pattern[2:-2]})( {types.Transformation_1._REGEX.pattern[2:-2]}| [(]{types.Transformation_1._REGEX.pattern[2:-2]}[)])?"),
  (like_Fill_3, c!"([*])?fill( {types.Integer._REGEX.pattern[2:-2]})( {types.Transformation_2._REGEX.pattern[2:-2]}| [(]{types.Transformation_2._REGEX.pattern[2:-2]}[)])?"),
  (like_Fill_4, c!"([*])?fill( {types.Integer._REGEX.pattern[2:-2]})( {types.Transformation_3._REGEX.pattern[2:-2]}| [(]{types.Transformation_3._REGEX.pattern[2:-2]}[)])?"),
  (like_Fill_5, c!"([*])?fill( {types.Integer._REGEX.pattern[2:-2]})( {types.Transformation_4._REGEX.pattern[2:-2]}| [(]{types.Transformation_4._REGEX.pattern[2:-2]}[)])?"),
  (like_Fill_6, c!"([*])?fill( {types.Integer._REGEX.pattern[2:-2]})( {types.Integer._REGEX.pattern[2:-2]}| [(]{types.Integer._REGEX.pattern[2:-2]}[)])?"),
  (like_Elpt, c!"elpt:(\\S+)( {types.Real._REGEX.pattern[2:-2]})"),
  (like_Rho, c!"rho( {types.Real._REGEX.pattern[2:-2]})"),
  (like_Tmp, c!"tmp(\\d+)((?: {types.Real._REGEX.pattern[2:-2]})+?)"),
  (like_Cosy, c!"cosy( {types.Integer._REGEX.pattern[2:-2]})"),
  (like_Bflcl, c!"bflcl( {types.Integer._REGEX.pattern[2:-2]})"),
  (like_Unc, c!"unc:(\\S+)( {types.Integer._REGEX.pattern[2:-2]})")]

theorem sourcesCell2_ok : sourcesCell2.all (fun p => p.1.pat.src == p.2) = true := by decide +kernel

/-- All classes of this file. -/
def classesCell : List Cls := sourcesCell0.map (·.1) ++ sourcesCell1.map (·.1) ++ sourcesCell2.map (·.1)

end Inp.Tab
