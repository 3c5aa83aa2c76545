import Verif.Inp.TableOptions
import Verif.Inp.TableDawwg
import Verif.Inp.TableMplot
import Verif.Inp.TableSdef
import Verif.Inp.TableCell
import Verif.Inp.TableSurface
/-!
# Class table: cards

One definition per class: `_KEYWORD`, `_ATTRS`, `_REGEX`, the conditions of the setters and the order in
which `__init__` calls them.  The final theorems check that each pattern, written out, is the text of the
source.
-/
namespace Inp.Tab
open Py Types

set_option maxRecDepth 20000

/-- src/pymcnp/inp/Act.py:13-19. -/
def Act : Cls where
  info := ⟨"Act", .card, c!"act", ["options"]⟩
  shape := .flat ⟨.no, c!"act", .no, .no⟩ [⟨.ngrp (.ty T_act_ActOption), .manyOpt⟩]
  attrs := [⟨"options", T_act_ActOption, true, none⟩]
  init := ["options"]

/-- src/pymcnp/inp/Area.py:13-19; setter conditions: lines 70. -/
def Area : Cls where
  info := ⟨"Area", .card, c!"area", ["areas"]⟩
  shape := .flat ⟨.no, c!"area", .no, .no⟩ [⟨.ty (.base .real), .many⟩]
  attrs := [⟨"areas", (.base .real), true, (some .isNone)⟩]
  init := ["areas"]

/-- src/pymcnp/inp/Awtab.py:13-19; setter conditions: lines 68. -/
def Awtab : Cls where
  info := ⟨"Awtab", .card, c!"awtab", ["weight_ratios"]⟩
  shape := .flat ⟨.no, c!"awtab", .no, .no⟩ [⟨.ty (.base .subst), .many⟩]
  attrs := [⟨"weight_ratios", (.base .subst), true, (some .isNone)⟩]
  init := ["weight_ratios"]

/-- src/pymcnp/inp/Bbrem.py:13-68; setter conditions: lines 269, 307, 345, 383, 421, 459, 497, 535, 573, 611, 649, 687, 725, 763, 801, 839, 877, 915, 953, 991, 1029, 1067, 1105, 1143, 1181, 1219, 1257, 1295, 1333, 1371, 1409, 1447, 1485, 1523, 1561, 1599, 1637, 1675, 1713, 1751, 1789, 1827, 1865, 1903, 1941, 1979, 2017, 2055, 2093, 2134. -/
def Bbrem : Cls where
  info := ⟨"Bbrem", .card, c!"bbrem", ["bias_1", "bias_2", "bias_3", "bias_4", "bias_5", "bias_6", "bias_7", "bias_8", "bias_9", "bias_10", "bias_11", "bias_12", "bias_13", "bias_14", "bias_15", "bias_16", "bias_17", "bias_18", "bias_19", "bias_20", "bias_21", "bias_22", "bias_23", "bias_24", "bias_25", "bias_26", "bias_27", "bias_28", "bias_29", "bias_30", "bias_31", "bias_32", "bias_33", "bias_34", "bias_35", "bias_36", "bias_37", "bias_38", "bias_39", "bias_40", "bias_41", "bias_42", "bias_43", "bias_44", "bias_45", "bias_46", "bias_47", "bias_48", "bias_49", "materials"]⟩
  shape := .flat ⟨.no, c!"bbrem", .no, .no⟩ [⟨.ty (.base .real), .req⟩, ⟨.ty (.base .real), .req⟩, ⟨.ty (.base .real), .req⟩, ⟨.ty (.base .real), .req⟩, ⟨.ty (.base .real), .req⟩, ⟨.ty (.base .real), .req⟩, ⟨.ty (.base .real), .req⟩, ⟨.ty (.base .real), .req⟩, ⟨.ty (.base .real), .req⟩, ⟨.ty (.base .real), .req⟩, ⟨.ty (.base .real), .req⟩, ⟨.ty (.base .real), .req⟩, ⟨.ty (.base .real), .req⟩, ⟨.ty (.base .real), .req⟩, ⟨.ty (.base .real), .req⟩, ⟨.ty (.base .real), .req⟩, ⟨.ty (.base .real), .req⟩, ⟨.ty (.base .real), .req⟩, ⟨.ty (.base .real), .req⟩, ⟨.ty (.base .real), .req⟩, ⟨.ty (.base .real), .req⟩, ⟨.ty (.base .real), .req⟩, ⟨.ty (.base .real), .req⟩, ⟨.ty (.base .real), .req⟩, ⟨.ty (.base .real), .req⟩, ⟨.ty (.base .real), .req⟩, ⟨.ty (.base .real), .req⟩, ⟨.ty (.base .real), .req⟩, ⟨.ty (.base .real), .req⟩, ⟨.ty (.base .real), .req⟩, ⟨.ty (.base .real), .req⟩, ⟨.ty (.base .real), .req⟩, ⟨.ty (.base .real), .req⟩, ⟨.ty (.base .real), .req⟩, ⟨.ty (.base .real), .req⟩, ⟨.ty (.base .real), .req⟩, ⟨.ty (.base .real), .req⟩, ⟨.ty (.base .real), .req⟩, ⟨.ty (.base .real), .req⟩, ⟨.ty (.base .real), .req⟩, ⟨.ty (.base .real), .req⟩, ⟨.ty (.base .real), .req⟩, ⟨.ty (.base .real), .req⟩, ⟨.ty (.base .real), .req⟩, ⟨.ty (.base .real), .req⟩, ⟨.ty (.base .real), .req⟩, ⟨.ty (.base .real), .req⟩, ⟨.ty (.base .real), .req⟩, ⟨.ty (.base .real), .req⟩, ⟨.ty (.base .int), .many⟩]
  attrs := [⟨"bias_1", (.base .real), false, (some .isNone)⟩,
    ⟨"bias_2", (.base .real), false, (some .isNone)⟩,
    ⟨"bias_3", (.base .real), false, (some .isNone)⟩,
    ⟨"bias_4", (.base .real), false, (some .isNone)⟩,
    ⟨"bias_5", (.base .real), false, (some .isNone)⟩,
    ⟨"bias_6", (.base .real), false, (some .isNone)⟩,
    ⟨"bias_7", (.base .real), false, (some .isNone)⟩,
    ⟨"bias_8", (.base .real), false, (some .isNone)⟩,
    ⟨"bias_9", (.base .real), false, (some .isNone)⟩,
    ⟨"bias_10", (.base .real), false, (some .isNone)⟩,
    ⟨"bias_11", (.base .real), false, (some .isNone)⟩,
    ⟨"bias_12", (.base .real), false, (some .isNone)⟩,
    ⟨"bias_13", (.base .real), false, (some .isNone)⟩,
    ⟨"bias_14", (.base .real), false, (some .isNone)⟩,
    ⟨"bias_15", (.base .real), false, (some .isNone)⟩,
    ⟨"bias_16", (.base .real), false, (some .isNone)⟩,
    ⟨"bias_17", (.base .real), false, (some .isNone)⟩,
    ⟨"bias_18", (.base .real), false, (some .isNone)⟩,
    ⟨"bias_19", (.base .real), false, (some .isNone)⟩,
    ⟨"bias_20", (.base .real), false, (some .isNone)⟩,
    ⟨"bias_21", (.base .real), false, (some .isNone)⟩,
    ⟨"bias_22", (.base .real), false, (some .isNone)⟩,
    ⟨"bias_23", (.base .real), false, (some .isNone)⟩,
    ⟨"bias_24", (.base .real), false, (some .isNone)⟩,
    ⟨"bias_25", (.base .real), false, (some .isNone)⟩,
    ⟨"bias_26", (.base .real), false, (some .isNone)⟩,
    ⟨"bias_27", (.base .real), false, (some .isNone)⟩,
    ⟨"bias_28", (.base .real), false, (some .isNone)⟩,
    ⟨"bias_29", (.base .real), false, (some .isNone)⟩,
    ⟨"bias_30", (.base .real), false, (some .isNone)⟩,
    ⟨"bias_31", (.base .real), false, (some .isNone)⟩,
    ⟨"bias_32", (.base .real), false, (some .isNone)⟩,
    ⟨"bias_33", (.base .real), false, (some .isNone)⟩,
    ⟨"bias_34", (.base .real), false, (some .isNone)⟩,
    ⟨"bias_35", (.base .real), false, (some .isNone)⟩,
    ⟨"bias_36", (.base .real), false, (some .isNone)⟩,
    ⟨"bias_37", (.base .real), false, (some .isNone)⟩,
    ⟨"bias_38", (.base .real), false, (some .isNone)⟩,
    ⟨"bias_39", (.base .real), false, (some .isNone)⟩,
    ⟨"bias_40", (.base .real), false, (some .isNone)⟩,
    ⟨"bias_41", (.base .real), false, (some .isNone)⟩,
    ⟨"bias_42", (.base .real), false, (some .isNone)⟩,
    ⟨"bias_43", (.base .real), false, (some .isNone)⟩,
    ⟨"bias_44", (.base .real), false, (some .isNone)⟩,
    ⟨"bias_45", (.base .real), false, (some .isNone)⟩,
    ⟨"bias_46", (.base .real), false, (some .isNone)⟩,
    ⟨"bias_47", (.base .real), false, (some .isNone)⟩,
    ⟨"bias_48", (.base .real), false, (some .isNone)⟩,
    ⟨"bias_49", (.base .real), false, (some .isNone)⟩,
    ⟨"materials", (.base .int), true, (some .isNone)⟩]
  init := ["bias_1", "bias_2", "bias_3", "bias_4", "bias_5", "bias_6", "bias_7", "bias_8", "bias_9", "bias_10", "bias_11", "bias_12", "bias_13", "bias_14", "bias_15", "bias_16", "bias_17", "bias_18", "bias_19", "bias_20", "bias_21", "bias_22", "bias_23", "bias_24", "bias_25", "bias_26", "bias_27", "bias_28", "bias_29", "bias_30", "bias_31", "bias_32", "bias_33", "bias_34", "bias_35", "bias_36", "bias_37", "bias_38", "bias_39", "bias_40", "bias_41", "bias_42", "bias_43", "bias_44", "bias_45", "bias_46", "bias_47", "bias_48", "bias_49", "materials"]

/-- src/pymcnp/inp/Bflcl.py:13-19; setter conditions: lines 70. -/
def Bflcl : Cls where
  info := ⟨"Bflcl", .card, c!"bflcl", ["numbers"]⟩
  shape := .flat ⟨.no, c!"bflcl", .no, .no⟩ [⟨.ty (.base .int), .many⟩]
  attrs := [⟨"numbers", (.base .int), true, (some .isNone)⟩]
  init := ["numbers"]

/-- src/pymcnp/inp/Bfld.py:14-22; setter conditions: lines 74, 110. -/
def Bfld : Cls where
  info := ⟨"Bfld", .card, c!"bfld", ["suffix", "kind", "options"]⟩
  shape := .flat ⟨.no, c!"bfld", .req, .no⟩ [⟨.ty (.base .str), .req⟩, ⟨.ngrp (.ty T_bfld_BfldOption), .manyOpt⟩]
  attrs := [⟨"suffix", (.base .int), false, (some .isNone)⟩,
    ⟨"kind", (.base .str), false, (some (.or .isNone (.not (.lowIn ["const", "quad", "quadff"]))))⟩,
    ⟨"options", T_bfld_BfldOption, true, none⟩]
  init := ["suffix", "kind", "options"]

/-- src/pymcnp/inp/C.py:13-23; setter conditions: lines 79, 117, 158. -/
def C : Cls where
  info := ⟨"C", .card, c!"c", ["prefix", "suffix", "bounds", "t", "c"]⟩
  shape := .other (.seq (.grp (.opt (.cls (.set false [.ch '*'])))) (.seq (.lits c!"c") (.seq (.grp (.plus true (.cls (.one .d)))) (.seq (.grp (.plus false (.ngrp (.seq (.lits c!" ") (.ty (.base .real)))))) (.seq (.opt (.grp (.seq (.lits c!" ") (.ty (.base .str))))) (.opt (.grp (.seq (.lits c!" ") (.ty (.base .str))))))))))
  attrs := [⟨"prefix", (.base .str), false, (some (.and .notNone (.not (.lowIn ["*", "+"]))))⟩,
    ⟨"suffix", (.base .int), false, (some .isNone)⟩,
    ⟨"bounds", (.base .real), true, (some .isNone)⟩,
    ⟨"t", (.base .str), false, none⟩,
    ⟨"c", (.base .str), false, none⟩]
  init := ["prefix", "suffix", "bounds", "t", "c"]

/-- src/pymcnp/inp/Cell.py:20-28; setter conditions: lines 121, 161, 199, 237. -/
def Cell : Cls where
  info := ⟨"Cell", .cell, c!"", ["number", "material", "density", "geometry", "options"]⟩
  shape := .other (.seq (.grp (.plus true (.cls (.one .S)))) (.seq (.grp (.seq (.lits c!" ") (.plus true (.cls (.one .S))))) (.seq (.grp (.alt (.seq (.behind false c!" 0") (.seq (.lits c!" ") (.plus true (.cls (.one .S))))) (.behind true c!" 0"))) (.seq (.grp (.seq (.lits c!" ") (.plus true (.cls (.set true [.range 'a' 'z']))))) (.opt (.grp (.plus false (.ngrp (.seq (.lits c!" ") (.ngrp (.ty T_cell_CellOption)))))))))))
  attrs := [⟨"number", (.base .int), false, (some (.or .isNone (.not (.and (.cmp .ge (1) 0) (.cmp .le (99999999) 0)))))⟩,
    ⟨"material", (.base .int), false, (some (.or .isNone (.not (.and (.cmp .ge (0) 0) (.cmp .le (99999999) 0)))))⟩,
    ⟨"density", (.base .real), false, (some (.or (.and .notNone (.self "material" (.cmp .eq (0) 0))) (.and .isNone (.self "material" (.cmp .ne (0) 0)))))⟩,
    ⟨"geometry", (.base .geo), false, (some .isNone)⟩,
    ⟨"options", T_cell_CellOption, true, none⟩]
  init := ["number", "material", "density", "geometry", "options"]

/-- src/pymcnp/inp/Cf.py:13-20; setter conditions: lines 70, 111. -/
def Cf : Cls where
  info := ⟨"Cf", .card, c!"cf", ["suffix", "numbers"]⟩
  shape := .flat ⟨.no, c!"cf", .req, .no⟩ [⟨.ty (.base .int), .many⟩]
  attrs := [⟨"suffix", (.base .int), false, (some (.or .isNone (.not (.cmp .le (99999999) 0))))⟩,
    ⟨"numbers", (.base .int), true, (some .isNone)⟩]
  init := ["suffix", "numbers"]

/-- src/pymcnp/inp/Cm.py:13-20; setter conditions: lines 70, 111. -/
def Cm : Cls where
  info := ⟨"Cm", .card, c!"cm", ["suffix", "multipliers"]⟩
  shape := .flat ⟨.no, c!"cm", .req, .no⟩ [⟨.ty (.base .real), .many⟩]
  attrs := [⟨"suffix", (.base .int), false, (some (.or .isNone (.not (.cmp .le (99999999) 0))))⟩,
    ⟨"multipliers", (.base .real), true, (some .isNone)⟩]
  init := ["suffix", "multipliers"]

/-- src/pymcnp/inp/Comment.py:12-14. -/
def Comment : Cls where
  info := ⟨"Comment", .comment, c!"", ["text"]⟩
  shape := .other (.seq (.lits c!"c") (.opt (.ngrp (.seq (.lits c!" ") (.grp (.star (.cls .dot)))))))
  attrs := [⟨"text", (.base .str), false, none⟩]
  init := ["text"]

/-- src/pymcnp/inp/Cosy.py:13-19; setter conditions: lines 70. -/
def Cosy : Cls where
  info := ⟨"Cosy", .card, c!"cosy", ["numbers"]⟩
  shape := .flat ⟨.no, c!"cosy", .no, .no⟩ [⟨.ty (.base .int), .many⟩]
  attrs := [⟨"numbers", (.base .int), true, (some .isNone)⟩]
  init := ["numbers"]

/-- src/pymcnp/inp/Cosyp.py:13-22; setter conditions: lines 78, 116, 154, 195. -/
def Cosyp : Cls where
  info := ⟨"Cosyp", .card, c!"cosyp", ["pre", "axsh", "axsv", "emaps"]⟩
  shape := .flat ⟨.no, c!"cosyp", .no, .no⟩ [⟨.ty (.base .int), .req⟩, ⟨.ty (.base .int), .req⟩, ⟨.ty (.base .int), .req⟩, ⟨.ty (.base .real), .many⟩]
  attrs := [⟨"pre", (.base .int), false, (some .isNone)⟩,
    ⟨"axsh", (.base .int), false, (some (.or .isNone (.not (.inInts [1, 2, 3]))))⟩,
    ⟨"axsv", (.base .int), false, (some (.or .isNone (.not (.inInts [1, 2, 3]))))⟩,
    ⟨"emaps", (.base .real), true, (some .isNone)⟩]
  init := ["pre", "axsh", "axsv", "emaps"]

/-- src/pymcnp/inp/Ctme.py:13-19; setter conditions: lines 67. -/
def Ctme : Cls where
  info := ⟨"Ctme", .card, c!"ctme", ["tme"]⟩
  shape := .flat ⟨.no, c!"ctme", .no, .no⟩ [⟨.ty (.base .int), .req⟩]
  attrs := [⟨"tme", (.base .int), false, (some (.or .isNone (.not (.cmp .ge (0) 0))))⟩]
  init := ["tme"]

/-- src/pymcnp/inp/Cut.py:13-24; setter conditions: lines 91. -/
def Cut : Cls where
  info := ⟨"Cut", .card, c!"cut", ["designator", "time_cutoff", "energy_cutoff", "weight_cutoff1", "weight_cutoff2", "source_weight"]⟩
  shape := .flat ⟨.no, c!"cut", .no, .req⟩ [⟨.ty (.base .real), .opt⟩, ⟨.ty (.base .real), .opt⟩, ⟨.ty (.base .real), .opt⟩, ⟨.ty (.base .real), .opt⟩, ⟨.ty (.base .real), .opt⟩]
  attrs := [⟨"designator", (.base .desig), false, (some .isNone)⟩,
    ⟨"time_cutoff", (.base .real), false, none⟩,
    ⟨"energy_cutoff", (.base .real), false, none⟩,
    ⟨"weight_cutoff1", (.base .real), false, none⟩,
    ⟨"weight_cutoff2", (.base .real), false, none⟩,
    ⟨"source_weight", (.base .real), false, none⟩]
  init := ["designator", "time_cutoff", "energy_cutoff", "weight_cutoff1", "weight_cutoff2", "source_weight"]

/-- src/pymcnp/inp/Dawwg.py:13-19. -/
def Dawwg : Cls where
  info := ⟨"Dawwg", .card, c!"dawwg", ["options"]⟩
  shape := .flat ⟨.no, c!"dawwg", .no, .no⟩ [⟨.ngrp (.ty T_dawwg_DawwgOption), .manyOpt⟩]
  attrs := [⟨"options", T_dawwg_DawwgOption, true, none⟩]
  init := ["options"]

/-- src/pymcnp/inp/Dbcn.py:13-118; setter conditions: lines 469, 647. -/
def Dbcn : Cls where
  info := ⟨"Dbcn", .card, c!"dbcn", ["x1", "x2", "x3", "x4", "x5", "x6", "x7", "x8", "x9", "x10", "x11", "x12", "x13", "x14", "x15", "x16", "x17", "x18", "x19", "x20", "x21", "x22", "x23", "x24", "x25", "x26", "x27", "x28", "x29", "x30", "x31", "x32", "x33", "x34", "x35", "x36", "x37", "x38", "x39", "x40", "x41", "x42", "x43", "x44", "x45", "x46", "x47", "x48", "x49", "x50", "x51", "x52", "x53", "x54", "x55", "x56", "x57", "x58", "x59", "x60", "x61", "x62", "x63", "x64", "x65", "x66", "x67", "x68", "x69", "x70", "x71", "x72", "x73", "x74", "x75", "x76", "x77", "x78", "x79", "x80", "x81", "x82", "x83", "x84", "x85", "x86", "x87", "x88", "x89", "x90", "x91", "x92", "x93", "x94", "x95", "x96", "x97", "x98", "x99", "x100"]⟩
  shape := .flat ⟨.no, c!"dbcn", .no, .no⟩ [⟨.ty (.base .int), .opt⟩, ⟨.ty (.base .int), .opt⟩, ⟨.ty (.base .int), .opt⟩, ⟨.ty (.base .int), .opt⟩, ⟨.ty (.base .int), .opt⟩, ⟨.ty (.base .int), .opt⟩, ⟨.ty (.base .int), .opt⟩, ⟨.ty (.base .int), .opt⟩, ⟨.ty (.base .int), .opt⟩, ⟨.ty (.base .int), .opt⟩, ⟨.ty (.base .int), .opt⟩, ⟨.ty (.base .int), .opt⟩, ⟨.ty (.base .int), .opt⟩, ⟨.ty (.base .int), .opt⟩, ⟨.ty (.base .int), .opt⟩, ⟨.ty (.base .int), .opt⟩, ⟨.ty (.base .int), .opt⟩, ⟨.ty (.base .int), .opt⟩, ⟨.ty (.base .int), .opt⟩, ⟨.ty (.base .int), .opt⟩, ⟨.ty (.base .int), .opt⟩, ⟨.ty (.base .int), .opt⟩, ⟨.ty (.base .int), .opt⟩, ⟨.ty (.base .int), .opt⟩, ⟨.ty (.base .int), .opt⟩, ⟨.ty (.base .int), .opt⟩, ⟨.ty (.base .int), .opt⟩, ⟨.ty (.base .int), .opt⟩, ⟨.ty (.base .int), .opt⟩, ⟨.ty (.base .int), .opt⟩, ⟨.ty (.base .int), .opt⟩, ⟨.ty (.base .int), .opt⟩, ⟨.ty (.base .int), .opt⟩, ⟨.ty (.base .int), .opt⟩, ⟨.ty (.base .int), .opt⟩, ⟨.ty (.base .int), .opt⟩, ⟨.ty (.base .int), .opt⟩, ⟨.ty (.base .int), .opt⟩, ⟨.ty (.base .int), .opt⟩, ⟨.ty (.base .int), .opt⟩, ⟨.ty (.base .int), .opt⟩, ⟨.ty (.base .int), .opt⟩, ⟨.ty (.base .int), .opt⟩, ⟨.ty (.base .int), .opt⟩, ⟨.ty (.base .int), .opt⟩, ⟨.ty (.base .int), .opt⟩, ⟨.ty (.base .int), .opt⟩, ⟨.ty (.base .int), .opt⟩, ⟨.ty (.base .int), .opt⟩, ⟨.ty (.base .int), .opt⟩, ⟨.ty (.base .int), .opt⟩, ⟨.ty (.base .int), .opt⟩, ⟨.ty (.base .int), .opt⟩, ⟨.ty (.base .int), .opt⟩, ⟨.ty (.base .int), .opt⟩, ⟨.ty (.base .int), .opt⟩, ⟨.ty (.base .int), .opt⟩, ⟨.ty (.base .int), .opt⟩, ⟨.ty (.base .int), .opt⟩, ⟨.ty (.base .int), .opt⟩, ⟨.ty (.base .int), .opt⟩, ⟨.ty (.base .int), .opt⟩, ⟨.ty (.base .int), .opt⟩, ⟨.ty (.base .int), .opt⟩, ⟨.ty (.base .int), .opt⟩, ⟨.ty (.base .int), .opt⟩, ⟨.ty (.base .int), .opt⟩, ⟨.ty (.base .int), .opt⟩, ⟨.ty (.base .int), .opt⟩, ⟨.ty (.base .int), .opt⟩, ⟨.ty (.base .int), .opt⟩, ⟨.ty (.base .int), .opt⟩, ⟨.ty (.base .int), .opt⟩, ⟨.ty (.base .int), .opt⟩, ⟨.ty (.base .int), .opt⟩, ⟨.ty (.base .int), .opt⟩, ⟨.ty (.base .int), .opt⟩, ⟨.ty (.base .int), .opt⟩, ⟨.ty (.base .int), .opt⟩, ⟨.ty (.base .int), .opt⟩, ⟨.ty (.base .int), .opt⟩, ⟨.ty (.base .int), .opt⟩, ⟨.ty (.base .int), .opt⟩, ⟨.ty (.base .int), .opt⟩, ⟨.ty (.base .int), .opt⟩, ⟨.ty (.base .int), .opt⟩, ⟨.ty (.base .int), .opt⟩, ⟨.ty (.base .int), .opt⟩, ⟨.ty (.base .int), .opt⟩, ⟨.ty (.base .int), .opt⟩, ⟨.ty (.base .int), .opt⟩, ⟨.ty (.base .int), .opt⟩, ⟨.ty (.base .int), .opt⟩, ⟨.ty (.base .int), .opt⟩, ⟨.ty (.base .int), .opt⟩, ⟨.ty (.base .int), .opt⟩, ⟨.ty (.base .int), .opt⟩, ⟨.ty (.base .int), .opt⟩, ⟨.ty (.base .int), .opt⟩, ⟨.ty (.base .int), .opt⟩]
  attrs := [⟨"x1", (.base .int), false, (some (.and .notNone (.not (.cmp .ge (0) 0))))⟩,
    ⟨"x2", (.base .int), false, none⟩,
    ⟨"x3", (.base .int), false, none⟩,
    ⟨"x4", (.base .int), false, none⟩,
    ⟨"x5", (.base .int), false, none⟩,
    ⟨"x6", (.base .int), false, (some (.and .notNone (.not (.and (.cmp .ge (50) 0) (.cmp .le (200) 0)))))⟩,
    ⟨"x7", (.base .int), false, none⟩,
    ⟨"x8", (.base .int), false, none⟩,
    ⟨"x9", (.base .int), false, none⟩,
    ⟨"x10", (.base .int), false, none⟩,
    ⟨"x11", (.base .int), false, none⟩,
    ⟨"x12", (.base .int), false, none⟩,
    ⟨"x13", (.base .int), false, none⟩,
    ⟨"x14", (.base .int), false, none⟩,
    ⟨"x15", (.base .int), false, none⟩,
    ⟨"x16", (.base .int), false, none⟩,
    ⟨"x17", (.base .int), false, none⟩,
    ⟨"x18", (.base .int), false, none⟩,
    ⟨"x19", (.base .int), false, none⟩,
    ⟨"x20", (.base .int), false, none⟩,
    ⟨"x21", (.base .int), false, none⟩,
    ⟨"x22", (.base .int), false, none⟩,
    ⟨"x23", (.base .int), false, none⟩,
    ⟨"x24", (.base .int), false, none⟩,
    ⟨"x25", (.base .int), false, none⟩,
    ⟨"x26", (.base .int), false, none⟩,
    ⟨"x27", (.base .int), false, none⟩,
    ⟨"x28", (.base .int), false, none⟩,
    ⟨"x29", (.base .int), false, none⟩,
    ⟨"x30", (.base .int), false, none⟩,
    ⟨"x31", (.base .int), false, none⟩,
    ⟨"x32", (.base .int), false, none⟩,
    ⟨"x33", (.base .int), false, none⟩,
    ⟨"x34", (.base .int), false, none⟩,
    ⟨"x35", (.base .int), false, none⟩,
    ⟨"x36", (.base .int), false, none⟩,
    ⟨"x37", (.base .int), false, none⟩,
    ⟨"x38", (.base .int), false, none⟩,
    ⟨"x39", (.base .int), false, none⟩,
    ⟨"x40", (.base .int), false, none⟩,
    ⟨"x41", (.base .int), false, none⟩,
    ⟨"x42", (.base .int), false, none⟩,
    ⟨"x43", (.base .int), false, none⟩,
    ⟨"x44", (.base .int), false, none⟩,
    ⟨"x45", (.base .int), false, none⟩,
    ⟨"x46", (.base .int), false, none⟩,
    ⟨"x47", (.base .int), false, none⟩,
    ⟨"x48", (.base .int), false, none⟩,
    ⟨"x49", (.base .int), false, none⟩,
    ⟨"x50", (.base .int), false, none⟩,
    ⟨"x51", (.base .int), false, none⟩,
    ⟨"x52", (.base .int), false, none⟩,
    ⟨"x53", (.base .int), false, none⟩,
    ⟨"x54", (.base .int), false, none⟩,
    ⟨"x55", (.base .int), false, none⟩,
    ⟨"x56", (.base .int), false, none⟩,
    ⟨"x57", (.base .int), false, none⟩,
    ⟨"x58", (.base .int), false, none⟩,
    ⟨"x59", (.base .int), false, none⟩,
    ⟨"x60", (.base .int), false, none⟩,
    ⟨"x61", (.base .int), false, none⟩,
    ⟨"x62", (.base .int), false, none⟩,
    ⟨"x63", (.base .int), false, none⟩,
    ⟨"x64", (.base .int), false, none⟩,
    ⟨"x65", (.base .int), false, none⟩,
    ⟨"x66", (.base .int), false, none⟩,
    ⟨"x67", (.base .int), false, none⟩,
    ⟨"x68", (.base .int), false, none⟩,
    ⟨"x69", (.base .int), false, none⟩,
    ⟨"x70", (.base .int), false, none⟩,
    ⟨"x71", (.base .int), false, none⟩,
    ⟨"x72", (.base .int), false, none⟩,
    ⟨"x73", (.base .int), false, none⟩,
    ⟨"x74", (.base .int), false, none⟩,
    ⟨"x75", (.base .int), false, none⟩,
    ⟨"x76", (.base .int), false, none⟩,
    ⟨"x77", (.base .int), false, none⟩,
    ⟨"x78", (.base .int), false, none⟩,
    ⟨"x79", (.base .int), false, none⟩,
    ⟨"x80", (.base .int), false, none⟩,
    ⟨"x81", (.base .int), false, none⟩,
    ⟨"x82", (.base .int), false, none⟩,
    ⟨"x83", (.base .int), false, none⟩,
    ⟨"x84", (.base .int), false, none⟩,
    ⟨"x85", (.base .int), false, none⟩,
    ⟨"x86", (.base .int), false, none⟩,
    ⟨"x87", (.base .int), false, none⟩,
    ⟨"x88", (.base .int), false, none⟩,
    ⟨"x89", (.base .int), false, none⟩,
    ⟨"x90", (.base .int), false, none⟩,
    ⟨"x91", (.base .int), false, none⟩,
    ⟨"x92", (.base .int), false, none⟩,
    ⟨"x93", (.base .int), false, none⟩,
    ⟨"x94", (.base .int), false, none⟩,
    ⟨"x95", (.base .int), false, none⟩,
    ⟨"x96", (.base .int), false, none⟩,
    ⟨"x97", (.base .int), false, none⟩,
    ⟨"x98", (.base .int), false, none⟩,
    ⟨"x99", (.base .int), false, none⟩,
    ⟨"x100", (.base .int), false, none⟩]
  init := ["x1", "x2", "x3", "x4", "x5", "x6", "x7", "x8", "x9", "x10", "x11", "x12", "x13", "x14", "x15", "x16", "x17", "x18", "x19", "x20", "x21", "x22", "x23", "x24", "x25", "x26", "x27", "x28", "x29", "x30", "x31", "x32", "x33", "x34", "x35", "x36", "x37", "x38", "x39", "x40", "x41", "x42", "x43", "x44", "x45", "x46", "x47", "x48", "x49", "x50", "x51", "x52", "x53", "x54", "x55", "x56", "x57", "x58", "x59", "x60", "x61", "x62", "x63", "x64", "x65", "x66", "x67", "x68", "x69", "x70", "x71", "x72", "x73", "x74", "x75", "x76", "x77", "x78", "x79", "x80", "x81", "x82", "x83", "x84", "x85", "x86", "x87", "x88", "x89", "x90", "x91", "x92", "x93", "x94", "x95", "x96", "x97", "x98", "x99", "x100"]

/-- src/pymcnp/inp/Dd.py:14-21; setter conditions: lines 107. -/
def Dd : Cls where
  info := ⟨"Dd", .card, c!"dd", ["suffix", "diagnostics"]⟩
  shape := .flat ⟨.no, c!"dd", .opt, .no⟩ [⟨.ty T_dd_Diagnostic, .many⟩]
  attrs := [⟨"suffix", (.base .int), false, none⟩,
    ⟨"diagnostics", T_dd_Diagnostic, true, (some .isNone)⟩]
  init := ["suffix", "diagnostics"]

/-- src/pymcnp/inp/De.py:13-21; setter conditions: lines 73, 109, 150. -/
def De : Cls where
  info := ⟨"De", .card, c!"de", ["suffix", "method", "values"]⟩
  shape := .flat ⟨.no, c!"de", .req, .no⟩ [⟨.ngrp (.alt (.lits c!"log") (.lits c!"lin")), .opt⟩, ⟨.ty (.base .real), .many⟩]
  attrs := [⟨"suffix", (.base .int), false, (some (.or .isNone (.not (.cmp .le (99999999) 0))))⟩,
    ⟨"method", (.base .str), false, (some (.and .notNone (.not (.lowIn ["log", "lin"]))))⟩,
    ⟨"values", (.base .real), true, (some .isNone)⟩]
  init := ["suffix", "method", "values"]

/-- src/pymcnp/inp/Df_0.py:13-21; setter conditions: lines 73, 109, 150. -/
def Df_0 : Cls where
  info := ⟨"Df_0", .card, c!"df", ["suffix", "method", "values"]⟩
  shape := .flat ⟨.no, c!"df", .req, .no⟩ [⟨.ngrp (.alt (.lits c!"log") (.lits c!"lin")), .opt⟩, ⟨.ty (.base .real), .many⟩]
  attrs := [⟨"suffix", (.base .int), false, (some (.or .isNone (.not (.cmp .le (99999999) 0))))⟩,
    ⟨"method", (.base .str), false, (some (.and .notNone (.not (.lowIn ["log", "lin"]))))⟩,
    ⟨"values", (.base .real), true, (some .isNone)⟩]
  init := ["suffix", "method", "values"]

/-- src/pymcnp/inp/Df_1.py:14-21; setter conditions: lines 71, 110. -/
def Df_1 : Cls where
  info := ⟨"Df_1", .card, c!"df", ["suffix", "options"]⟩
  shape := .flat ⟨.no, c!"df", .req, .no⟩ [⟨.ngrp (.ty T_df_1_DfOption_1), .many⟩]
  attrs := [⟨"suffix", (.base .int), false, (some (.or .isNone (.not (.cmp .le (99999999) 0))))⟩,
    ⟨"options", T_df_1_DfOption_1, true, (some .isNone)⟩]
  init := ["suffix", "options"]

/-- src/pymcnp/inp/Dm.py:13-20; setter conditions: lines 70, 109. -/
def Dm : Cls where
  info := ⟨"Dm", .card, c!"dm", ["suffix", "zaids"]⟩
  shape := .flat ⟨.no, c!"dm", .req, .no⟩ [⟨.ty (.base .zaid), .many⟩]
  attrs := [⟨"suffix", (.base .int), false, (some .isNone)⟩,
    ⟨"zaids", (.base .zaid), true, (some .isNone)⟩]
  init := ["suffix", "zaids"]

/-- src/pymcnp/inp/Drxs.py:12-18. -/
def Drxs : Cls where
  info := ⟨"Drxs", .card, c!"drxs", ["zaids"]⟩
  shape := .flat ⟨.no, c!"drxs", .no, .no⟩ [⟨.ty (.base .zaid), .manyOpt⟩]
  attrs := [⟨"zaids", (.base .zaid), true, none⟩]
  init := ["zaids"]

/-- src/pymcnp/inp/Ds_0.py:13-21; setter conditions: lines 73, 109, 150. -/
def Ds_0 : Cls where
  info := ⟨"Ds_0", .card, c!"ds", ["suffix", "option", "js"]⟩
  shape := .flat ⟨.no, c!"ds", .req, .no⟩ [⟨.cls (.set false [.ch 'h', .ch 'l', .ch 's']), .opt⟩, ⟨.ty (.base .real), .many⟩]
  attrs := [⟨"suffix", (.base .int), false, (some (.or .isNone (.not (.and (.cmp .ge (1) 0) (.cmp .le (999) 0)))))⟩,
    ⟨"option", (.base .str), false, (some (.and .notNone (.not (.lowIn ["h", "l", "s"]))))⟩,
    ⟨"js", (.base .real), true, (some .isNone)⟩]
  init := ["suffix", "option", "js"]

/-- src/pymcnp/inp/Ds_1.py:14-21; setter conditions: lines 80, 119. -/
def Ds_1 : Cls where
  info := ⟨"Ds_1", (.ds 't'), c!"ds", ["suffix", "ijs"]⟩
  shape := .other (.seq (.lits c!"ds") (.seq (.grp (.plus true (.cls (.one .d)))) (.seq (.lits c!" t") (.grp (.plus false (.ngrp (.seq (.lits c!" ") (.ty T_ds_1_Variables))))))))
  attrs := [⟨"suffix", (.base .int), false, (some (.or .isNone (.not (.and (.cmp .ge (1) 0) (.cmp .le (999) 0)))))⟩,
    ⟨"ijs", T_ds_1_Variables, true, (some .isNone)⟩]
  init := ["suffix", "ijs"]

/-- src/pymcnp/inp/Ds_2.py:14-21; setter conditions: lines 80, 119. -/
def Ds_2 : Cls where
  info := ⟨"Ds_2", (.ds 'q'), c!"ds", ["suffix", "vss"]⟩
  shape := .other (.seq (.lits c!"ds") (.seq (.grp (.plus true (.cls (.one .d)))) (.seq (.lits c!" q") (.grp (.plus false (.ngrp (.seq (.lits c!" ") (.ty T_ds_2_Variables))))))))
  attrs := [⟨"suffix", (.base .int), false, (some (.or .isNone (.not (.and (.cmp .ge (1) 0) (.cmp .le (999) 0)))))⟩,
    ⟨"vss", T_ds_2_Variables, true, (some .isNone)⟩]
  init := ["suffix", "vss"]

/-- src/pymcnp/inp/Ds_3.py:13-20; setter conditions: lines 79, 118. -/
def Ds_3 : Cls where
  info := ⟨"Ds_3", (.ds 's'), c!"ds", ["suffix", "distributions"]⟩
  shape := .other (.seq (.lits c!"ds") (.seq (.grp (.plus true (.cls (.one .d)))) (.seq (.lits c!" s") (.grp (.plus true (.ngrp (.seq (.lits c!" ") (.ty (.base .dist)))))))))
  attrs := [⟨"suffix", (.base .int), false, (some (.or .isNone (.not (.and (.cmp .ge (1) 0) (.cmp .le (999) 0)))))⟩,
    ⟨"distributions", (.base .dist), true, (some .isNone)⟩]
  init := ["suffix", "distributions"]

/-- src/pymcnp/inp/Dxc.py:13-21; setter conditions: lines 73, 109, 150. -/
def Dxc : Cls where
  info := ⟨"Dxc", .card, c!"dxc", ["suffix", "designator", "probabilities"]⟩
  shape := .flat ⟨.no, c!"dxc", .req, .req⟩ [⟨.ty (.base .real), .many⟩]
  attrs := [⟨"suffix", (.base .int), false, (some (.or .isNone (.not (.cmp .le (99999999) 0))))⟩,
    ⟨"designator", (.base .desig), false, (some .isNone)⟩,
    ⟨"probabilities", (.base .real), true, (some .isNone)⟩]
  init := ["suffix", "designator", "probabilities"]

/-- src/pymcnp/inp/Dxt.py:14-33; setter conditions: lines 124, 160, 196, 232, 268, 304, 340, 376, 412, 448, 484, 522, 560, 598. -/
def Dxt : Cls where
  info := ⟨"Dxt", .card, c!"dxt", ["designator", "spheres_1", "spheres_2", "spheres_3", "spheres_4", "spheres_5", "spheres_6", "spheres_7", "spheres_8", "spheres_9", "spheres_10", "cutoff_1", "cutoff_2", "weight"]⟩
  shape := .flat ⟨.no, c!"dxt", .no, .req⟩ [⟨.seq (.plus true (.cls (.one .S))) (.seq (.lits c!" ") (.seq (.plus true (.cls (.one .S))) (.seq (.lits c!" ") (.seq (.plus true (.cls (.one .S))) (.seq (.lits c!" ") (.seq (.plus true (.cls (.one .S))) (.seq (.lits c!" ") (.plus true (.cls (.one .S)))))))))), .req⟩, ⟨.seq (.plus true (.cls (.one .S))) (.seq (.lits c!" ") (.seq (.plus true (.cls (.one .S))) (.seq (.lits c!" ") (.seq (.plus true (.cls (.one .S))) (.seq (.lits c!" ") (.seq (.plus true (.cls (.one .S))) (.seq (.lits c!" ") (.plus true (.cls (.one .S)))))))))), .req⟩, ⟨.seq (.plus true (.cls (.one .S))) (.seq (.lits c!" ") (.seq (.plus true (.cls (.one .S))) (.seq (.lits c!" ") (.seq (.plus true (.cls (.one .S))) (.seq (.lits c!" ") (.seq (.plus true (.cls (.one .S))) (.seq (.lits c!" ") (.plus true (.cls (.one .S)))))))))), .req⟩, ⟨.seq (.plus true (.cls (.one .S))) (.seq (.lits c!" ") (.seq (.plus true (.cls (.one .S))) (.seq (.lits c!" ") (.seq (.plus true (.cls (.one .S))) (.seq (.lits c!" ") (.seq (.plus true (.cls (.one .S))) (.seq (.lits c!" ") (.plus true (.cls (.one .S)))))))))), .req⟩, ⟨.seq (.plus true (.cls (.one .S))) (.seq (.lits c!" ") (.seq (.plus true (.cls (.one .S))) (.seq (.lits c!" ") (.seq (.plus true (.cls (.one .S))) (.seq (.lits c!" ") (.seq (.plus true (.cls (.one .S))) (.seq (.lits c!" ") (.plus true (.cls (.one .S)))))))))), .req⟩, ⟨.seq (.plus true (.cls (.one .S))) (.seq (.lits c!" ") (.seq (.plus true (.cls (.one .S))) (.seq (.lits c!" ") (.seq (.plus true (.cls (.one .S))) (.seq (.lits c!" ") (.seq (.plus true (.cls (.one .S))) (.seq (.lits c!" ") (.plus true (.cls (.one .S)))))))))), .req⟩, ⟨.seq (.plus true (.cls (.one .S))) (.seq (.lits c!" ") (.seq (.plus true (.cls (.one .S))) (.seq (.lits c!" ") (.seq (.plus true (.cls (.one .S))) (.seq (.lits c!" ") (.seq (.plus true (.cls (.one .S))) (.seq (.lits c!" ") (.plus true (.cls (.one .S)))))))))), .req⟩, ⟨.seq (.plus true (.cls (.one .S))) (.seq (.lits c!" ") (.seq (.plus true (.cls (.one .S))) (.seq (.lits c!" ") (.seq (.plus true (.cls (.one .S))) (.seq (.lits c!" ") (.seq (.plus true (.cls (.one .S))) (.seq (.lits c!" ") (.plus true (.cls (.one .S)))))))))), .req⟩, ⟨.seq (.plus true (.cls (.one .S))) (.seq (.lits c!" ") (.seq (.plus true (.cls (.one .S))) (.seq (.lits c!" ") (.seq (.plus true (.cls (.one .S))) (.seq (.lits c!" ") (.seq (.plus true (.cls (.one .S))) (.seq (.lits c!" ") (.plus true (.cls (.one .S)))))))))), .req⟩, ⟨.seq (.plus true (.cls (.one .S))) (.seq (.lits c!" ") (.seq (.plus true (.cls (.one .S))) (.seq (.lits c!" ") (.seq (.plus true (.cls (.one .S))) (.seq (.lits c!" ") (.seq (.plus true (.cls (.one .S))) (.seq (.lits c!" ") (.plus true (.cls (.one .S)))))))))), .req⟩, ⟨.ty (.base .real), .req⟩, ⟨.ty (.base .real), .req⟩, ⟨.ty (.base .real), .req⟩]
  attrs := [⟨"designator", (.base .desig), false, (some .isNone)⟩,
    ⟨"spheres_1", T_dxt_Shell, false, (some .isNone)⟩,
    ⟨"spheres_2", T_dxt_Shell, false, (some .isNone)⟩,
    ⟨"spheres_3", T_dxt_Shell, false, (some .isNone)⟩,
    ⟨"spheres_4", T_dxt_Shell, false, (some .isNone)⟩,
    ⟨"spheres_5", T_dxt_Shell, false, (some .isNone)⟩,
    ⟨"spheres_6", T_dxt_Shell, false, (some .isNone)⟩,
    ⟨"spheres_7", T_dxt_Shell, false, (some .isNone)⟩,
    ⟨"spheres_8", T_dxt_Shell, false, (some .isNone)⟩,
    ⟨"spheres_9", T_dxt_Shell, false, (some .isNone)⟩,
    ⟨"spheres_10", T_dxt_Shell, false, (some .isNone)⟩,
    ⟨"cutoff_1", (.base .real), false, (some .isNone)⟩,
    ⟨"cutoff_2", (.base .real), false, (some .isNone)⟩,
    ⟨"weight", (.base .real), false, (some .isNone)⟩]
  init := ["designator", "spheres_1", "spheres_2", "spheres_3", "spheres_4", "spheres_5", "spheres_6", "spheres_7", "spheres_8", "spheres_9", "spheres_10", "cutoff_1", "cutoff_2", "weight"]

/-- src/pymcnp/inp/E.py:13-22; setter conditions: lines 76, 117. -/
def E : Cls where
  info := ⟨"E", .card, c!"e", ["suffix", "bounds", "nt", "c"]⟩
  shape := .flat ⟨.no, c!"e", .req, .no⟩ [⟨.ty (.base .real), .many⟩, ⟨.ty (.base .str), .opt⟩, ⟨.ty (.base .str), .opt⟩]
  attrs := [⟨"suffix", (.base .int), false, (some .isNone)⟩,
    ⟨"bounds", (.base .real), true, (some .isNone)⟩,
    ⟨"nt", (.base .str), false, none⟩,
    ⟨"c", (.base .str), false, none⟩]
  init := ["suffix", "bounds", "nt", "c"]

/-- src/pymcnp/inp/Elpt.py:13-19; setter conditions: lines 70. -/
def Elpt : Cls where
  info := ⟨"Elpt", .card, c!"elpt", ["cutoffs"]⟩
  shape := .flat ⟨.no, c!"elpt", .no, .no⟩ [⟨.ty (.base .real), .many⟩]
  attrs := [⟨"cutoffs", (.base .real), true, (some .isNone)⟩]
  init := ["cutoffs"]

/-- src/pymcnp/inp/Em.py:13-20; setter conditions: lines 70, 111. -/
def Em : Cls where
  info := ⟨"Em", .card, c!"em", ["suffix", "multipliers"]⟩
  shape := .flat ⟨.no, c!"em", .req, .no⟩ [⟨.ty (.base .real), .many⟩]
  attrs := [⟨"suffix", (.base .int), false, (some (.or .isNone (.not (.cmp .le (99999999) 0))))⟩,
    ⟨"multipliers", (.base .real), true, (some .isNone)⟩]
  init := ["suffix", "multipliers"]

/-- src/pymcnp/inp/Embdb.py:13-20; setter conditions: lines 70, 111. -/
def Embdb : Cls where
  info := ⟨"Embdb", .card, c!"embdb", ["suffix", "bounds"]⟩
  shape := .flat ⟨.no, c!"embdb", .req, .no⟩ [⟨.ty (.base .real), .many⟩]
  attrs := [⟨"suffix", (.base .int), false, (some .isNone)⟩,
    ⟨"bounds", (.base .real), true, (some .isNone)⟩]
  init := ["suffix", "bounds"]

/-- src/pymcnp/inp/Embdf.py:13-20; setter conditions: lines 70, 111. -/
def Embdf : Cls where
  info := ⟨"Embdf", .card, c!"embdf", ["suffix", "multipliers"]⟩
  shape := .flat ⟨.no, c!"embdf", .req, .no⟩ [⟨.ty (.base .real), .many⟩]
  attrs := [⟨"suffix", (.base .int), false, (some .isNone)⟩,
    ⟨"multipliers", (.base .real), true, (some .isNone)⟩]
  init := ["suffix", "multipliers"]

/-- src/pymcnp/inp/Embeb.py:13-20; setter conditions: lines 70, 111. -/
def Embeb : Cls where
  info := ⟨"Embeb", .card, c!"embeb", ["suffix", "bounds"]⟩
  shape := .flat ⟨.no, c!"embeb", .req, .no⟩ [⟨.ty (.base .real), .many⟩]
  attrs := [⟨"suffix", (.base .int), false, (some .isNone)⟩,
    ⟨"bounds", (.base .real), true, (some .isNone)⟩]
  init := ["suffix", "bounds"]

/-- src/pymcnp/inp/Embed.py:14-21; setter conditions: lines 71. -/
def Embed : Cls where
  info := ⟨"Embed", .card, c!"embed", ["suffix", "options"]⟩
  shape := .flat ⟨.no, c!"embed", .opt, .no⟩ [⟨.ngrp (.ty T_embed_EmbedOption), .manyOpt⟩]
  attrs := [⟨"suffix", (.base .int), false, (some .isNone)⟩,
    ⟨"options", T_embed_EmbedOption, true, none⟩]
  init := ["suffix", "options"]

/-- src/pymcnp/inp/Embee.py:14-22; setter conditions: lines 74, 110. -/
def Embee : Cls where
  info := ⟨"Embee", .card, c!"embee", ["suffix", "designator", "options"]⟩
  shape := .flat ⟨.no, c!"embee", .req, .req⟩ [⟨.ngrp (.ty T_embee_EmbeeOption), .manyOpt⟩]
  attrs := [⟨"suffix", (.base .int), false, (some .isNone)⟩,
    ⟨"designator", (.base .desig), false, (some .isNone)⟩,
    ⟨"options", T_embee_EmbeeOption, true, none⟩]
  init := ["suffix", "designator", "options"]

/-- src/pymcnp/inp/Embem.py:13-20; setter conditions: lines 70, 111. -/
def Embem : Cls where
  info := ⟨"Embem", .card, c!"embem", ["suffix", "multipliers"]⟩
  shape := .flat ⟨.no, c!"embem", .req, .no⟩ [⟨.ty (.base .real), .many⟩]
  attrs := [⟨"suffix", (.base .int), false, (some .isNone)⟩,
    ⟨"multipliers", (.base .real), true, (some .isNone)⟩]
  init := ["suffix", "multipliers"]

/-- src/pymcnp/inp/Embtb.py:13-20; setter conditions: lines 70, 111. -/
def Embtb : Cls where
  info := ⟨"Embtb", .card, c!"embtb", ["suffix", "bounds"]⟩
  shape := .flat ⟨.no, c!"embtb", .req, .no⟩ [⟨.ty (.base .real), .many⟩]
  attrs := [⟨"suffix", (.base .int), false, (some .isNone)⟩,
    ⟨"bounds", (.base .real), true, (some .isNone)⟩]
  init := ["suffix", "bounds"]

/-- src/pymcnp/inp/Embtm.py:13-20; setter conditions: lines 70, 111. -/
def Embtm : Cls where
  info := ⟨"Embtm", .card, c!"embtm", ["suffix", "multipliers"]⟩
  shape := .flat ⟨.no, c!"embtm", .req, .no⟩ [⟨.ty (.base .real), .many⟩]
  attrs := [⟨"suffix", (.base .int), false, (some .isNone)⟩,
    ⟨"multipliers", (.base .real), true, (some .isNone)⟩]
  init := ["suffix", "multipliers"]

/-- src/pymcnp/inp/Esplt.py:13-59; setter conditions: lines 231. -/
def Esplt : Cls where
  info := ⟨"Esplt", .card, c!"esplt", ["designator", "ratio_1", "energy_1", "ratio_2", "energy_2", "ratio_3", "energy_3", "ratio_4", "energy_4", "ratio_5", "energy_5", "ratio_6", "energy_6", "ratio_7", "energy_7", "ratio_8", "energy_8", "ratio_9", "energy_9", "ratio_10", "energy_10", "ratio_11", "energy_11", "ratio_12", "energy_12", "ratio_13", "energy_13", "ratio_14", "energy_14", "ratio_15", "energy_15", "ratio_16", "energy_16", "ratio_17", "energy_17", "ratio_18", "energy_18", "ratio_19", "energy_19", "ratio_20", "energy_20"]⟩
  shape := .flat ⟨.no, c!"esplt", .no, .req⟩ [⟨.ty (.base .real), .opt⟩, ⟨.ty (.base .real), .opt⟩, ⟨.ty (.base .real), .opt⟩, ⟨.ty (.base .real), .opt⟩, ⟨.ty (.base .real), .opt⟩, ⟨.ty (.base .real), .opt⟩, ⟨.ty (.base .real), .opt⟩, ⟨.ty (.base .real), .opt⟩, ⟨.ty (.base .real), .opt⟩, ⟨.ty (.base .real), .opt⟩, ⟨.ty (.base .real), .opt⟩, ⟨.ty (.base .real), .opt⟩, ⟨.ty (.base .real), .opt⟩, ⟨.ty (.base .real), .opt⟩, ⟨.ty (.base .real), .opt⟩, ⟨.ty (.base .real), .opt⟩, ⟨.ty (.base .real), .opt⟩, ⟨.ty (.base .real), .opt⟩, ⟨.ty (.base .real), .opt⟩, ⟨.ty (.base .real), .opt⟩, ⟨.ty (.base .real), .opt⟩, ⟨.ty (.base .real), .opt⟩, ⟨.ty (.base .real), .opt⟩, ⟨.ty (.base .real), .opt⟩, ⟨.ty (.base .real), .opt⟩, ⟨.ty (.base .real), .opt⟩, ⟨.ty (.base .real), .opt⟩, ⟨.ty (.base .real), .opt⟩, ⟨.ty (.base .real), .opt⟩, ⟨.ty (.base .real), .opt⟩, ⟨.ty (.base .real), .opt⟩, ⟨.ty (.base .real), .opt⟩, ⟨.ty (.base .real), .opt⟩, ⟨.ty (.base .real), .opt⟩, ⟨.ty (.base .real), .opt⟩, ⟨.ty (.base .real), .opt⟩, ⟨.ty (.base .real), .opt⟩, ⟨.ty (.base .real), .opt⟩, ⟨.ty (.base .real), .opt⟩, ⟨.ty (.base .real), .opt⟩]
  attrs := [⟨"designator", (.base .desig), false, (some .isNone)⟩,
    ⟨"ratio_1", (.base .real), false, none⟩,
    ⟨"energy_1", (.base .real), false, none⟩,
    ⟨"ratio_2", (.base .real), false, none⟩,
    ⟨"energy_2", (.base .real), false, none⟩,
    ⟨"ratio_3", (.base .real), false, none⟩,
    ⟨"energy_3", (.base .real), false, none⟩,
    ⟨"ratio_4", (.base .real), false, none⟩,
    ⟨"energy_4", (.base .real), false, none⟩,
    ⟨"ratio_5", (.base .real), false, none⟩,
    ⟨"energy_5", (.base .real), false, none⟩,
    ⟨"ratio_6", (.base .real), false, none⟩,
    ⟨"energy_6", (.base .real), false, none⟩,
    ⟨"ratio_7", (.base .real), false, none⟩,
    ⟨"energy_7", (.base .real), false, none⟩,
    ⟨"ratio_8", (.base .real), false, none⟩,
    ⟨"energy_8", (.base .real), false, none⟩,
    ⟨"ratio_9", (.base .real), false, none⟩,
    ⟨"energy_9", (.base .real), false, none⟩,
    ⟨"ratio_10", (.base .real), false, none⟩,
    ⟨"energy_10", (.base .real), false, none⟩,
    ⟨"ratio_11", (.base .real), false, none⟩,
    ⟨"energy_11", (.base .real), false, none⟩,
    ⟨"ratio_12", (.base .real), false, none⟩,
    ⟨"energy_12", (.base .real), false, none⟩,
    ⟨"ratio_13", (.base .real), false, none⟩,
    ⟨"energy_13", (.base .real), false, none⟩,
    ⟨"ratio_14", (.base .real), false, none⟩,
    ⟨"energy_14", (.base .real), false, none⟩,
    ⟨"ratio_15", (.base .real), false, none⟩,
    ⟨"energy_15", (.base .real), false, none⟩,
    ⟨"ratio_16", (.base .real), false, none⟩,
    ⟨"energy_16", (.base .real), false, none⟩,
    ⟨"ratio_17", (.base .real), false, none⟩,
    ⟨"energy_17", (.base .real), false, none⟩,
    ⟨"ratio_18", (.base .real), false, none⟩,
    ⟨"energy_18", (.base .real), false, none⟩,
    ⟨"ratio_19", (.base .real), false, none⟩,
    ⟨"energy_19", (.base .real), false, none⟩,
    ⟨"ratio_20", (.base .real), false, none⟩,
    ⟨"energy_20", (.base .real), false, none⟩]
  init := ["designator", "ratio_1", "energy_1", "ratio_2", "energy_2", "ratio_3", "energy_3", "ratio_4", "energy_4", "ratio_5", "energy_5", "ratio_6", "energy_6", "ratio_7", "energy_7", "ratio_8", "energy_8", "ratio_9", "energy_9", "ratio_10", "energy_10", "ratio_11", "energy_11", "ratio_12", "energy_12", "ratio_13", "energy_13", "ratio_14", "energy_14", "ratio_15", "energy_15", "ratio_16", "energy_16", "ratio_17", "energy_17", "ratio_18", "energy_18", "ratio_19", "energy_19", "ratio_20", "energy_20"]

/-- src/pymcnp/inp/Ext.py:13-20; setter conditions: lines 68, 107. -/
def Ext : Cls where
  info := ⟨"Ext", .card, c!"ext", ["designator", "stretching"]⟩
  shape := .flat ⟨.no, c!"ext", .no, .req⟩ [⟨.ty (.base .str), .many⟩]
  attrs := [⟨"designator", (.base .desig), false, (some .isNone)⟩,
    ⟨"stretching", (.base .str), true, (some .isNone)⟩]
  init := ["designator", "stretching"]

/-- src/pymcnp/inp/F_0.py:13-23; setter conditions: lines 84, 122, 196, 232. -/
def F_0 : Cls where
  info := ⟨"F_0", .card, c!"f", ["prefix", "suffix", "designator", "problems", "t"]⟩
  shape := .other (.seq (.opt (.grp (.cls (.set false [.ch '*', .ch '+'])))) (.seq (.lits c!"f") (.seq (.grp (.seq (.star (.cls (.one .d))) (.cls (.set false [.ch '1', .ch '2', .ch '3', .ch '4', .ch '6', .ch '7'])))) (.seq (.opt (.ngrp (.seq (.lits c!":") (.grp (.plus true (.cls (.one .S))))))) (.seq (.grp (.plus false (.ngrp (.seq (.lits c!" ") (.ty (.base .int)))))) (.opt (.grp (.lits c!" t"))))))))
  attrs := [⟨"prefix", (.base .str), false, (some (.and .notNone (.not (.lowIn ["*", "+"]))))⟩,
    ⟨"suffix", (.base .int), false, (some (.or .isNone (.not (.and (.cmp .le (99999999) 0) (.modIn 10 [1, 2, 4, 6, 7])))))⟩,
    ⟨"designator", (.base .desig), false, none⟩,
    ⟨"problems", (.base .int), true, (some .isNone)⟩,
    ⟨"t", (.base .str), false, (some (.and .notNone (.not (.lowIn ["t"]))))⟩]
  init := ["prefix", "suffix", "designator", "problems", "t"]

/-- src/pymcnp/inp/F_1.py:14-24; setter conditions: lines 80, 118, 190, 226. -/
def F_1 : Cls where
  info := ⟨"F_1", .card, c!"f", ["prefix", "suffix", "designator", "spheres", "nd"]⟩
  shape := .other (.seq (.opt (.grp (.cls (.set false [.ch '*', .ch '+'])))) (.seq (.lits c!"f") (.seq (.grp (.seq (.star (.cls (.one .d))) (.cls (.set false [.ch '5'])))) (.seq (.opt (.ngrp (.seq (.lits c!":") (.grp (.plus true (.cls (.one .S))))))) (.seq (.grp (.plus false (.ngrp (.seq (.lits c!" ") (.seq (.plus true (.cls (.one .S))) (.seq (.lits c!" ") (.seq (.plus true (.cls (.one .S))) (.seq (.lits c!" ") (.seq (.plus true (.cls (.one .S))) (.seq (.lits c!" ") (.plus true (.cls (.one .S))))))))))))) (.opt (.grp (.lits c!" nd"))))))))
  attrs := [⟨"prefix", (.base .str), false, (some (.and .notNone (.not (.lowIn ["*", "+"]))))⟩,
    ⟨"suffix", (.base .int), false, (some (.or .isNone (.not (.and (.cmp .le (99999999) 0) (.modEq 10 5)))))⟩,
    ⟨"designator", (.base .desig), false, none⟩,
    ⟨"spheres", T_f_1_Sphere, true, (some .isNone)⟩,
    ⟨"nd", (.base .str), false, (some (.and .notNone (.not (.eqStr "nd"))))⟩]
  init := ["prefix", "suffix", "designator", "spheres", "nd"]

/-- src/pymcnp/inp/F_2.py:14-25; setter conditions: lines 99, 137, 173, 245, 281. -/
def F_2 : Cls where
  info := ⟨"F_2", .ring, c!"f", ["prefix", "suffix", "a", "designator", "rings", "nd"]⟩
  shape := .other (.seq (.opt (.grp (.cls (.set false [.ch '*', .ch '+'])))) (.seq (.lits c!"f") (.seq (.grp (.seq (.star (.cls (.one .d))) (.cls (.set false [.ch '5'])))) (.seq (.grp (.cls (.set false [.ch 'x', .ch 'y', .ch 'z']))) (.seq (.opt (.ngrp (.seq (.lits c!":") (.grp (.plus true (.cls (.one .S))))))) (.seq (.grp (.plus false (.ngrp (.seq (.lits c!" ") (.seq (.plus true (.cls (.one .S))) (.seq (.lits c!" ") (.seq (.plus true (.cls (.one .S))) (.seq (.lits c!" ") (.plus true (.cls (.one .S))))))))))) (.opt (.grp (.lits c!" nd")))))))))
  attrs := [⟨"prefix", (.base .str), false, (some (.and .notNone (.not (.lowIn ["*", "+"]))))⟩,
    ⟨"suffix", (.base .int), false, (some (.or .isNone (.not (.and (.cmp .le (99999999) 0) (.modEq 10 5)))))⟩,
    ⟨"a", (.base .str), false, (some (.or .isNone (.not (.lowIn ["x", "y", "z"]))))⟩,
    ⟨"designator", (.base .desig), false, none⟩,
    ⟨"rings", T_f_2_Ring, true, (some .isNone)⟩,
    ⟨"nd", (.base .str), false, (some (.and .notNone (.not (.eqStr "nd"))))⟩]
  init := ["prefix", "suffix", "a", "designator", "rings", "nd"]

/-- src/pymcnp/inp/F_3.py:13-23; setter conditions: lines 84, 122, 196. -/
def F_3 : Cls where
  info := ⟨"F_3", .card, c!"f", ["prefix", "suffix", "designator", "problems", "t"]⟩
  shape := .other (.seq (.opt (.grp (.cls (.set false [.ch '*', .ch '+'])))) (.seq (.lits c!"f") (.seq (.grp (.seq (.star (.cls (.one .d))) (.cls (.set false [.ch '8'])))) (.seq (.opt (.ngrp (.seq (.lits c!":") (.grp (.plus true (.cls (.one .S))))))) (.seq (.grp (.plus false (.ngrp (.seq (.lits c!" ") (.ty (.base .int)))))) (.opt (.grp (.lits c!" t"))))))))
  attrs := [⟨"prefix", (.base .str), false, (some (.and .notNone (.not (.lowIn ["*", "+"]))))⟩,
    ⟨"suffix", (.base .int), false, (some (.or .isNone (.not (.and (.cmp .le (99999999) 0) (.modEq 10 8)))))⟩,
    ⟨"designator", (.base .desig), false, none⟩,
    ⟨"problems", (.base .int), true, (some .isNone)⟩,
    ⟨"t", (.base .str), false, none⟩]
  init := ["prefix", "suffix", "designator", "problems", "t"]

/-- src/pymcnp/inp/F_4.py:13-23; setter conditions: lines 84, 122, 194, 230. -/
def F_4 : Cls where
  info := ⟨"F_4", .card, c!"f", ["prefix", "suffix", "designator", "problems", "t"]⟩
  shape := .other (.seq (.opt (.grp (.cls (.set false [.ch '*', .ch '+'])))) (.seq (.lits c!"f") (.seq (.grp (.seq (.star (.cls (.one .d))) (.cls (.set false [.ch '1', .ch '2', .ch '3', .ch '4', .ch '6', .ch '7'])))) (.seq (.opt (.ngrp (.seq (.lits c!":") (.grp (.plus true (.cls (.one .S))))))) (.seq (.grp (.plus false (.ngrp (.seq (.lits c!" ") (.ty (.base .lat)))))) (.opt (.grp (.lits c!" t"))))))))
  attrs := [⟨"prefix", (.base .str), false, (some (.and .notNone (.not (.lowIn ["*", "+"]))))⟩,
    ⟨"suffix", (.base .int), false, (some (.or .isNone (.not (.and (.cmp .le (99999999) 0) (.modIn 10 [1, 2, 4, 6, 7])))))⟩,
    ⟨"designator", (.base .desig), false, none⟩,
    ⟨"problems", (.base .lat), true, (some .isNone)⟩,
    ⟨"t", (.base .str), false, (some (.and .notNone (.not (.lowIn ["t"]))))⟩]
  init := ["prefix", "suffix", "designator", "problems", "t"]

/-- src/pymcnp/inp/Fc.py:13-20; setter conditions: lines 70, 106. -/
def Fc : Cls where
  info := ⟨"Fc", .card, c!"fc", ["suffix", "info"]⟩
  shape := .flat ⟨.no, c!"fc", .req, .no⟩ [⟨.plus true (.cls (.set false [.S, .s])), .req⟩]
  attrs := [⟨"suffix", (.base .int), false, (some (.or .isNone (.not (.cmp .le (99999999) 0))))⟩,
    ⟨"info", (.base .str), false, (some .isNone)⟩]
  init := ["suffix", "info"]

/-- src/pymcnp/inp/Fcl.py:13-20; setter conditions: lines 68, 109. -/
def Fcl : Cls where
  info := ⟨"Fcl", .card, c!"fcl", ["designator", "control"]⟩
  shape := .flat ⟨.no, c!"fcl", .no, .req⟩ [⟨.ty (.base .real), .many⟩]
  attrs := [⟨"designator", (.base .desig), false, (some .isNone)⟩,
    ⟨"control", (.base .real), true, (some .isNone)⟩]
  init := ["designator", "control"]

/-- src/pymcnp/inp/Fic.py:13-30; setter conditions: lines 117, 153, 191, 229, 267, 305, 343, 381, 419, 457, 495, 533. -/
def Fic : Cls where
  info := ⟨"Fic", .card, c!"fic", ["suffix", "designator", "x1", "y1", "z1", "ro", "x2", "y2", "z2", "f1", "f2", "f3"]⟩
  shape := .flat ⟨.no, c!"fic", .req, .req⟩ [⟨.ty (.base .real), .req⟩, ⟨.ty (.base .real), .req⟩, ⟨.ty (.base .real), .req⟩, ⟨.ty (.base .real), .req⟩, ⟨.ty (.base .real), .req⟩, ⟨.ty (.base .real), .req⟩, ⟨.ty (.base .real), .req⟩, ⟨.ty (.base .real), .req⟩, ⟨.ty (.base .real), .req⟩, ⟨.ty (.base .real), .req⟩]
  attrs := [⟨"suffix", (.base .int), false, (some (.or .isNone (.not (.and (.cmp .le (99999999) 0) (.modEq 10 5)))))⟩,
    ⟨"designator", (.base .desig), false, (some .isNone)⟩,
    ⟨"x1", (.base .real), false, (some .isNone)⟩,
    ⟨"y1", (.base .real), false, (some .isNone)⟩,
    ⟨"z1", (.base .real), false, (some .isNone)⟩,
    ⟨"ro", (.base .real), false, (some (.or .isNone (.not (.cmp .eq (0) 0))))⟩,
    ⟨"x2", (.base .real), false, (some .isNone)⟩,
    ⟨"y2", (.base .real), false, (some .isNone)⟩,
    ⟨"z2", (.base .real), false, (some .isNone)⟩,
    ⟨"f1", (.base .real), false, (some (.or .isNone (.not (.inInts [0, -1]))))⟩,
    ⟨"f2", (.base .real), false, (some (.or .isNone (.not (.cmp .ne (0) 0))))⟩,
    ⟨"f3", (.base .real), false, (some (.or .isNone (.not (.inInts [0, -1]))))⟩]
  init := ["suffix", "designator", "x1", "y1", "z1", "ro", "x2", "y2", "z2", "f1", "f2", "f3"]

/-- src/pymcnp/inp/Files.py:14-20; setter conditions: lines 69. -/
def Files : Cls where
  info := ⟨"Files", .card, c!"files", ["creations"]⟩
  shape := .flat ⟨.no, c!"files", .no, .no⟩ [⟨.ty T_files_File, .many⟩]
  attrs := [⟨"creations", T_files_File, true, (some .isNone)⟩]
  init := ["creations"]

/-- src/pymcnp/inp/Fill.py:13-19; setter conditions: lines 70. -/
def Fill : Cls where
  info := ⟨"Fill", .card, c!"fill", ["numbers"]⟩
  shape := .flat ⟨.no, c!"fill", .no, .no⟩ [⟨.ty (.base .int), .many⟩]
  attrs := [⟨"numbers", (.base .int), true, (some .isNone)⟩]
  init := ["numbers"]

/-- src/pymcnp/inp/Fip.py:13-30; setter conditions: lines 117, 153, 191, 229, 267, 305, 343, 381, 419, 457, 495, 533. -/
def Fip : Cls where
  info := ⟨"Fip", .card, c!"fip", ["suffix", "designator", "x1", "y1", "z1", "ro", "x2", "y2", "z2", "f1", "f2", "f3"]⟩
  shape := .flat ⟨.no, c!"fip", .req, .req⟩ [⟨.ty (.base .real), .req⟩, ⟨.ty (.base .real), .req⟩, ⟨.ty (.base .real), .req⟩, ⟨.ty (.base .real), .req⟩, ⟨.ty (.base .real), .req⟩, ⟨.ty (.base .real), .req⟩, ⟨.ty (.base .real), .req⟩, ⟨.ty (.base .real), .req⟩, ⟨.ty (.base .real), .req⟩, ⟨.ty (.base .real), .req⟩]
  attrs := [⟨"suffix", (.base .int), false, (some (.or .isNone (.not (.and (.cmp .le (99999999) 0) (.modEq 10 5)))))⟩,
    ⟨"designator", (.base .desig), false, (some .isNone)⟩,
    ⟨"x1", (.base .real), false, (some .isNone)⟩,
    ⟨"y1", (.base .real), false, (some .isNone)⟩,
    ⟨"z1", (.base .real), false, (some .isNone)⟩,
    ⟨"ro", (.base .real), false, (some (.or .isNone (.not (.cmp .eq (0) 0))))⟩,
    ⟨"x2", (.base .real), false, (some .isNone)⟩,
    ⟨"y2", (.base .real), false, (some .isNone)⟩,
    ⟨"z2", (.base .real), false, (some .isNone)⟩,
    ⟨"f1", (.base .real), false, (some (.or .isNone (.not (.cmp .ge (0) 0))))⟩,
    ⟨"f2", (.base .real), false, (some (.or .isNone (.not (.cmp .ge (0) 0))))⟩,
    ⟨"f3", (.base .real), false, (some (.or .isNone (.not (.cmp .ge (0) 0))))⟩]
  init := ["suffix", "designator", "x1", "y1", "z1", "ro", "x2", "y2", "z2", "f1", "f2", "f3"]

/-- src/pymcnp/inp/Fir.py:13-30; setter conditions: lines 117, 188, 226, 264, 302, 340, 378, 416, 454, 492, 530. -/
def Fir : Cls where
  info := ⟨"Fir", .card, c!"fir", ["suffix", "designator", "x1", "y1", "z1", "ro", "x2", "y2", "z2", "f1", "f2", "f3"]⟩
  shape := .flat ⟨.no, c!"fir", .req, .opt⟩ [⟨.ty (.base .real), .req⟩, ⟨.ty (.base .real), .req⟩, ⟨.ty (.base .real), .req⟩, ⟨.ty (.base .real), .req⟩, ⟨.ty (.base .real), .req⟩, ⟨.ty (.base .real), .req⟩, ⟨.ty (.base .real), .req⟩, ⟨.ty (.base .real), .req⟩, ⟨.ty (.base .real), .req⟩, ⟨.ty (.base .real), .req⟩]
  attrs := [⟨"suffix", (.base .int), false, (some (.or .isNone (.not (.and (.cmp .le (99999999) 0) (.modEq 10 5)))))⟩,
    ⟨"designator", (.base .desig), false, none⟩,
    ⟨"x1", (.base .real), false, (some .isNone)⟩,
    ⟨"y1", (.base .real), false, (some .isNone)⟩,
    ⟨"z1", (.base .real), false, (some .isNone)⟩,
    ⟨"ro", (.base .real), false, (some (.or .isNone (.not (.cmp .eq (0) 0))))⟩,
    ⟨"x2", (.base .real), false, (some .isNone)⟩,
    ⟨"y2", (.base .real), false, (some .isNone)⟩,
    ⟨"z2", (.base .real), false, (some .isNone)⟩,
    ⟨"f1", (.base .real), false, (some (.or .isNone (.not (.inInts [0, -1, 1]))))⟩,
    ⟨"f2", (.base .real), false, (some .isNone)⟩,
    ⟨"f3", (.base .real), false, (some (.or .isNone (.not (.inInts [0, -1, 1]))))⟩]
  init := ["suffix", "designator", "x1", "y1", "z1", "ro", "x2", "y2", "z2", "f1", "f2", "f3"]

/-- src/pymcnp/inp/Fm.py:13-21; setter conditions: lines 71, 109, 145. -/
def Fm : Cls where
  info := ⟨"Fm", .card, c!"fm", ["prefix", "suffix", "bins"]⟩
  shape := .flat ⟨.plusStar, c!"fm", .req, .no⟩ [⟨.plus true (.cls (.set false [.S, .s])), .req⟩]
  attrs := [⟨"prefix", (.base .str), false, (some (.and .notNone (.not (.lowIn ["*", "+"]))))⟩,
    ⟨"suffix", (.base .int), false, (some (.or .isNone (.not (.cmp .le (99999999) 0))))⟩,
    ⟨"bins", (.base .str), false, (some .isNone)⟩]
  init := ["prefix", "suffix", "bins"]

/-- src/pymcnp/inp/Fmesh.py:14-22; setter conditions: lines 74, 110. -/
def Fmesh : Cls where
  info := ⟨"Fmesh", .card, c!"fmesh", ["suffix", "designator", "options"]⟩
  shape := .flat ⟨.no, c!"fmesh", .req, .req⟩ [⟨.ngrp (.ty T_fmesh_FmeshOption), .manyOpt⟩]
  attrs := [⟨"suffix", (.base .int), false, (some (.or .isNone (.not (.and (.cmp .gt (0) 0) (.cmp .le (999) 0)))))⟩,
    ⟨"designator", (.base .desig), false, (some .isNone)⟩,
    ⟨"options", T_fmesh_FmeshOption, true, none⟩]
  init := ["suffix", "designator", "options"]

/-- src/pymcnp/inp/Fmult.py:14-21; setter conditions: lines 69. -/
def Fmult : Cls where
  info := ⟨"Fmult", .card, c!"fmult", ["zaid", "options"]⟩
  shape := .flat ⟨.no, c!"fmult", .no, .no⟩ [⟨.ty (.base .zaid), .req⟩, ⟨.ngrp (.ty T_fmult_FmultOption), .manyOpt⟩]
  attrs := [⟨"zaid", (.base .zaid), false, (some .isNone)⟩,
    ⟨"options", T_fmult_FmultOption, true, none⟩]
  init := ["zaid", "options"]

/-- src/pymcnp/inp/Fq.py:13-27; setter conditions: lines 105, 141, 177, 213, 249, 285, 321, 357, 393. -/
def Fq : Cls where
  info := ⟨"Fq", .card, c!"fq", ["suffix", "a1", "a2", "a3", "a4", "a5", "a6", "a7", "a8"]⟩
  shape := .flat ⟨.no, c!"fq", .opt, .no⟩ [⟨.ty (.base .str), .opt⟩, ⟨.ty (.base .str), .opt⟩, ⟨.ty (.base .str), .opt⟩, ⟨.ty (.base .str), .opt⟩, ⟨.ty (.base .str), .opt⟩, ⟨.ty (.base .str), .opt⟩, ⟨.ty (.base .str), .opt⟩, ⟨.ty (.base .str), .opt⟩]
  attrs := [⟨"suffix", (.base .int), false, (some (.and .notNone (.not (.cmp .le (99999999) 0))))⟩,
    ⟨"a1", (.base .str), false, (some (.and .notNone (.not (.lowIn ["f", "d", "u", "s", "m", "c", "e", "t"]))))⟩,
    ⟨"a2", (.base .str), false, (some (.and .notNone (.not (.lowIn ["f", "d", "u", "s", "m", "c", "e", "t"]))))⟩,
    ⟨"a3", (.base .str), false, (some (.and .notNone (.not (.lowIn ["f", "d", "u", "s", "m", "c", "e", "t"]))))⟩,
    ⟨"a4", (.base .str), false, (some (.and .notNone (.not (.lowIn ["f", "d", "u", "s", "m", "c", "e", "t"]))))⟩,
    ⟨"a5", (.base .str), false, (some (.and .notNone (.not (.lowIn ["f", "d", "u", "s", "m", "c", "e", "t"]))))⟩,
    ⟨"a6", (.base .str), false, (some (.and .notNone (.not (.lowIn ["f", "d", "u", "s", "m", "c", "e", "t"]))))⟩,
    ⟨"a7", (.base .str), false, (some (.and .notNone (.not (.lowIn ["f", "d", "u", "s", "m", "c", "e", "t"]))))⟩,
    ⟨"a8", (.base .str), false, (some (.and .notNone (.not (.lowIn ["f", "d", "u", "s", "m", "c", "e", "t"]))))⟩]
  init := ["suffix", "a1", "a2", "a3", "a4", "a5", "a6", "a7", "a8"]

/-- src/pymcnp/inp/Fs.py:13-22; setter conditions: lines 76, 117, 153, 189. -/
def Fs : Cls where
  info := ⟨"Fs", .card, c!"fs", ["suffix", "numbers", "t", "c"]⟩
  shape := .flat ⟨.no, c!"fs", .req, .no⟩ [⟨.ty (.base .int), .many⟩, ⟨.lits c!"t", .opt⟩, ⟨.lits c!"c", .opt⟩]
  attrs := [⟨"suffix", (.base .int), false, (some (.or .isNone (.not (.cmp .le (99999999) 0))))⟩,
    ⟨"numbers", (.base .int), true, (some .isNone)⟩,
    ⟨"t", (.base .str), false, (some (.and .notNone (.not (.lowIn ["t"]))))⟩,
    ⟨"c", (.base .str), false, (some (.and .notNone (.not (.lowIn ["c"]))))⟩]
  init := ["suffix", "numbers", "t", "c"]

/-- src/pymcnp/inp/Ft.py:13-20; setter conditions: lines 70, 106. -/
def Ft : Cls where
  info := ⟨"Ft", .card, c!"ft", ["suffix", "treatments"]⟩
  shape := .flat ⟨.no, c!"ft", .req, .no⟩ [⟨.plus true (.cls (.set false [.S, .s])), .req⟩]
  attrs := [⟨"suffix", (.base .int), false, (some (.or .isNone (.not (.cmp .le (99999999) 0))))⟩,
    ⟨"treatments", (.base .str), false, (some .isNone)⟩]
  init := ["suffix", "treatments"]

/-- src/pymcnp/inp/Fu.py:13-22; setter conditions: lines 76, 117, 153, 189. -/
def Fu : Cls where
  info := ⟨"Fu", .card, c!"fu", ["suffix", "bounds", "nt", "c"]⟩
  shape := .other (.seq (.lits c!"fu") (.seq (.grp (.plus true (.cls (.one .d)))) (.seq (.grp (.plus false (.ngrp (.seq (.lits c!" ") (.ty (.base .real)))))) (.seq (.opt (.ngrp (.seq (.lits c!" ") (.grp (.lits c!"nt"))))) (.opt (.ngrp (.seq (.lits c!" ") (.grp (.lits c!"c")))))))))
  attrs := [⟨"suffix", (.base .int), false, (some (.or .isNone (.not (.cmp .le (99999999) 0))))⟩,
    ⟨"bounds", (.base .real), true, (some .isNone)⟩,
    ⟨"nt", (.base .str), false, (some (.and .notNone (.not (.lowIn ["nt"]))))⟩,
    ⟨"c", (.base .str), false, (some (.and .notNone (.not (.lowIn ["c"]))))⟩]
  init := ["suffix", "bounds", "nt", "c"]

/-- src/pymcnp/inp/Histp.py:12-19. -/
def Histp : Cls where
  info := ⟨"Histp", .card, c!"histp", ["lhist", "cells"]⟩
  shape := .flat ⟨.no, c!"histp", .no, .no⟩ [⟨.ty (.base .int), .opt⟩, ⟨.ty (.base .int), .manyOpt⟩]
  attrs := [⟨"lhist", (.base .int), false, none⟩,
    ⟨"cells", (.base .int), true, none⟩]
  init := ["lhist", "cells"]

/-- src/pymcnp/inp/Hsrc.py:13-27; setter conditions: lines 105, 143, 181, 219, 257, 295, 333, 371, 409. -/
def Hsrc : Cls where
  info := ⟨"Hsrc", .card, c!"hsrc", ["x_number", "x_minimum", "x_maximum", "y_number", "y_minimum", "y_maximum", "z_number", "z_minimum", "z_maximum"]⟩
  shape := .flat ⟨.no, c!"hsrc", .no, .no⟩ [⟨.ty (.base .int), .req⟩, ⟨.ty (.base .real), .req⟩, ⟨.ty (.base .real), .req⟩, ⟨.ty (.base .int), .req⟩, ⟨.ty (.base .real), .req⟩, ⟨.ty (.base .real), .req⟩, ⟨.ty (.base .int), .req⟩, ⟨.ty (.base .real), .req⟩, ⟨.ty (.base .real), .req⟩]
  attrs := [⟨"x_number", (.base .int), false, (some (.or .isNone (.not (.cmp .gt (0) 0))))⟩,
    ⟨"x_minimum", (.base .real), false, (some .isNone)⟩,
    ⟨"x_maximum", (.base .real), false, (some .isNone)⟩,
    ⟨"y_number", (.base .int), false, (some (.or .isNone (.not (.cmp .gt (0) 0))))⟩,
    ⟨"y_minimum", (.base .real), false, (some .isNone)⟩,
    ⟨"y_maximum", (.base .real), false, (some .isNone)⟩,
    ⟨"z_number", (.base .int), false, (some (.or .isNone (.not (.cmp .gt (0) 0))))⟩,
    ⟨"z_minimum", (.base .real), false, (some .isNone)⟩,
    ⟨"z_maximum", (.base .real), false, (some .isNone)⟩]
  init := ["x_number", "x_minimum", "x_maximum", "y_number", "y_minimum", "y_maximum", "z_number", "z_minimum", "z_maximum"]

/-- src/pymcnp/inp/Idum.py:13-19; setter conditions: lines 70. -/
def Idum : Cls where
  info := ⟨"Idum", .card, c!"idum", ["intergers"]⟩
  shape := .flat ⟨.no, c!"idum", .no, .no⟩ [⟨.ty (.base .int), .many⟩]
  attrs := [⟨"intergers", (.base .int), true, (some .isNone)⟩]
  init := ["intergers"]

/-- src/pymcnp/inp/Imp.py:13-20; setter conditions: lines 68, 109. -/
def Imp : Cls where
  info := ⟨"Imp", .card, c!"imp", ["designator", "importances"]⟩
  shape := .flat ⟨.no, c!"imp", .no, .req⟩ [⟨.ty (.base .real), .many⟩]
  attrs := [⟨"designator", (.base .desig), false, (some .isNone)⟩,
    ⟨"importances", (.base .real), true, (some .isNone)⟩]
  init := ["designator", "importances"]

/-- src/pymcnp/inp/Kcode.py:13-26; setter conditions: lines 101, 209, 247, 285, 323, 361. -/
def Kcode : Cls where
  info := ⟨"Kcode", .card, c!"kcode", ["nsrck", "rkk", "ikz", "kct", "msrk", "knrm", "mrkp", "kc8"]⟩
  shape := .flat ⟨.no, c!"kcode", .no, .no⟩ [⟨.ty (.base .int), .opt⟩, ⟨.ty (.base .real), .opt⟩, ⟨.ty (.base .int), .opt⟩, ⟨.ty (.base .int), .opt⟩, ⟨.ty (.base .int), .opt⟩, ⟨.ty (.base .int), .opt⟩, ⟨.ty (.base .int), .opt⟩, ⟨.ty (.base .int), .opt⟩]
  attrs := [⟨"nsrck", (.base .int), false, (some (.and .notNone (.not (.or .isJump (.cmp .ge (0) 0)))))⟩,
    ⟨"rkk", (.base .real), false, none⟩,
    ⟨"ikz", (.base .int), false, none⟩,
    ⟨"kct", (.base .int), false, (some (.and .notNone (.not (.or .isJump (.cmp .gt (0) 0)))))⟩,
    ⟨"msrk", (.base .int), false, (some (.and .notNone (.not (.or .isJump .kcode))))⟩,
    ⟨"knrm", (.base .int), false, (some (.and .notNone (.not (.or .isJump (.inInts [0, 1])))))⟩,
    ⟨"mrkp", (.base .int), false, (some (.and .notNone (.not (.or .isJump (.cmp .gt (0) 0)))))⟩,
    ⟨"kc8", (.base .int), false, (some (.and .notNone (.not (.or .isJump (.inInts [0, 1])))))⟩]
  init := ["nsrck", "rkk", "ikz", "kct", "msrk", "knrm", "mrkp", "kc8"]

/-- src/pymcnp/inp/Kopts.py:13-19. -/
def Kopts : Cls where
  info := ⟨"Kopts", .card, c!"kopts", ["options"]⟩
  shape := .flat ⟨.no, c!"kopts", .no, .no⟩ [⟨.ngrp (.ty T_kopts_KoptsOption), .manyOpt⟩]
  attrs := [⟨"options", T_kopts_KoptsOption, true, none⟩]
  init := ["options"]

/-- src/pymcnp/inp/Kpert.py:14-21; setter conditions: lines 71. -/
def Kpert : Cls where
  info := ⟨"Kpert", .card, c!"kpert", ["suffix", "options"]⟩
  shape := .flat ⟨.no, c!"kpert", .req, .no⟩ [⟨.ngrp (.ty T_kpert_KpertOption), .manyOpt⟩]
  attrs := [⟨"suffix", (.base .int), false, (some (.or .isNone (.not (.and (.cmp .gt (0) 0) (.cmp .le (10000) 0)))))⟩,
    ⟨"options", T_kpert_KpertOption, true, none⟩]
  init := ["suffix", "options"]

/-- src/pymcnp/inp/Ksen.py:14-22; setter conditions: lines 74, 110. -/
def Ksen : Cls where
  info := ⟨"Ksen", .card, c!"ksen", ["suffix", "sen", "options"]⟩
  shape := .flat ⟨.no, c!"ksen", .req, .no⟩ [⟨.ty (.base .str), .req⟩, ⟨.ngrp (.ty T_ksen_KsenOption), .manyOpt⟩]
  attrs := [⟨"suffix", (.base .int), false, (some (.or .isNone (.not (.and (.cmp .gt (0) 0) (.cmp .le (999) 0)))))⟩,
    ⟨"sen", (.base .str), false, (some .isNone)⟩,
    ⟨"options", T_ksen_KsenOption, true, none⟩]
  init := ["suffix", "sen", "options"]

/-- src/pymcnp/inp/Ksrc.py:14-20; setter conditions: lines 69. -/
def Ksrc : Cls where
  info := ⟨"Ksrc", .card, c!"ksrc", ["locations"]⟩
  shape := .flat ⟨.no, c!"ksrc", .no, .no⟩ [⟨.ty T_ksrc_Location, .many⟩]
  attrs := [⟨"locations", T_ksrc_Location, true, (some .isNone)⟩]
  init := ["locations"]

/-- src/pymcnp/inp/Lat.py:13-19; setter conditions: lines 70. -/
def Lat : Cls where
  info := ⟨"Lat", .card, c!"lat", ["type"]⟩
  shape := .flat ⟨.no, c!"lat", .no, .no⟩ [⟨.ty (.base .int), .many⟩]
  attrs := [⟨"type", (.base .int), true, (some .isNone)⟩]
  init := ["type"]

/-- src/pymcnp/inp/Lca.py:13-29; setter conditions: lines 113, 151, 189, 262, 300, 338, 376, 414, 452. -/
def Lca : Cls where
  info := ⟨"Lca", .card, c!"lca", ["ielas", "ipreg", "iexisa", "ichoic", "jcoul", "nexite", "npidk", "noact", "icem", "ilaq", "nevtype"]⟩
  shape := .flat ⟨.no, c!"lca", .no, .no⟩ [⟨.ty (.base .int), .opt⟩, ⟨.ty (.base .int), .opt⟩, ⟨.ty (.base .int), .opt⟩, ⟨.ty (.base .int), .opt⟩, ⟨.ty (.base .int), .opt⟩, ⟨.ty (.base .int), .opt⟩, ⟨.ty (.base .int), .opt⟩, ⟨.ty (.base .int), .opt⟩, ⟨.ty (.base .int), .opt⟩, ⟨.ty (.base .int), .opt⟩, ⟨.ty (.base .int), .opt⟩]
  attrs := [⟨"ielas", (.base .int), false, (some (.and .notNone (.not (.or .isJump (.or (.cmp .eq (0) 0) (.or (.cmp .eq (1) 0) (.cmp .eq (2) 0)))))))⟩,
    ⟨"ipreg", (.base .int), false, (some (.and .notNone (.not (.or .isJump (.or (.cmp .eq (0) 0) (.or (.cmp .eq (1) 0) (.or (.cmp .eq (2) 0) (.cmp .eq (3) 0))))))))⟩,
    ⟨"iexisa", (.base .int), false, (some (.and .notNone (.not (.or .isJump (.or (.cmp .eq (0) 0) (.or (.cmp .eq (1) 0) (.cmp .eq (2) 0)))))))⟩,
    ⟨"ichoic", (.base .int), false, none⟩,
    ⟨"jcoul", (.base .int), false, (some (.and .notNone (.not (.or .isJump (.or (.cmp .eq (0) 0) (.cmp .eq (1) 0))))))⟩,
    ⟨"nexite", (.base .int), false, (some (.and .notNone (.not (.or .isJump (.or (.cmp .eq (0) 0) (.cmp .eq (1) 0))))))⟩,
    ⟨"npidk", (.base .int), false, (some (.and .notNone (.not (.or .isJump (.or (.cmp .eq (0) 0) (.cmp .eq (1) 0))))))⟩,
    ⟨"noact", (.base .int), false, (some (.and .notNone (.not (.or .isJump (.or (.cmp .eq (-2) 0) (.or (.cmp .eq (-1) 0) (.or (.cmp .eq (0) 0) (.or (.cmp .eq (1) 0) (.cmp .eq (2) 0)))))))))⟩,
    ⟨"icem", (.base .int), false, (some (.and .notNone (.not (.or .isJump (.or (.cmp .eq (0) 0) (.or (.cmp .eq (1) 0) (.cmp .eq (2) 0)))))))⟩,
    ⟨"ilaq", (.base .int), false, (some (.and .notNone (.not (.or .isJump (.or (.cmp .eq (0) 0) (.cmp .eq (1) 0))))))⟩,
    ⟨"nevtype", (.base .int), false, none⟩]
  init := ["ielas", "ipreg", "iexisa", "ichoic", "jcoul", "nexite", "npidk", "noact", "icem", "ilaq", "nevtype"]

/-- src/pymcnp/inp/Lcb.py:12-25. -/
def Lcb : Cls where
  info := ⟨"Lcb", .card, c!"lcb", ["flenb1", "flenb2", "flenb3", "flenb4", "flenb5", "flenb6", "cotfe", "film0"]⟩
  shape := .flat ⟨.no, c!"lcb", .no, .no⟩ [⟨.ty (.base .real), .opt⟩, ⟨.ty (.base .real), .opt⟩, ⟨.ty (.base .real), .opt⟩, ⟨.ty (.base .real), .opt⟩, ⟨.ty (.base .real), .opt⟩, ⟨.ty (.base .real), .opt⟩, ⟨.ty (.base .real), .opt⟩, ⟨.ty (.base .real), .opt⟩]
  attrs := [⟨"flenb1", (.base .real), false, none⟩,
    ⟨"flenb2", (.base .real), false, none⟩,
    ⟨"flenb3", (.base .real), false, none⟩,
    ⟨"flenb4", (.base .real), false, none⟩,
    ⟨"flenb5", (.base .real), false, none⟩,
    ⟨"flenb6", (.base .real), false, none⟩,
    ⟨"cotfe", (.base .real), false, none⟩,
    ⟨"film0", (.base .real), false, none⟩]
  init := ["flenb1", "flenb2", "flenb3", "flenb4", "flenb5", "flenb6", "cotfe", "film0"]

/-- src/pymcnp/inp/Lcc.py:13-26; setter conditions: lines 206, 244. -/
def Lcc : Cls where
  info := ⟨"Lcc", .card, c!"lcc", ["stincl", "v0incl", "xfoisaincl", "npaulincl", "nosurfincl", "ecutincl", "ebankincl", "ebankabia"]⟩
  shape := .flat ⟨.no, c!"lcc", .no, .no⟩ [⟨.ty (.base .real), .opt⟩, ⟨.ty (.base .real), .opt⟩, ⟨.ty (.base .real), .opt⟩, ⟨.ty (.base .int), .opt⟩, ⟨.ty (.base .int), .opt⟩, ⟨.ty (.base .real), .opt⟩, ⟨.ty (.base .real), .opt⟩, ⟨.ty (.base .real), .opt⟩]
  attrs := [⟨"stincl", (.base .real), false, none⟩,
    ⟨"v0incl", (.base .real), false, none⟩,
    ⟨"xfoisaincl", (.base .real), false, none⟩,
    ⟨"npaulincl", (.base .int), false, (some (.and .notNone (.not (.or (.cmp .eq (0) 0) (.or (.cmp .eq (-1) 0) (.cmp .eq (1) 0))))))⟩,
    ⟨"nosurfincl", (.base .int), false, (some (.and .notNone (.not (.inInts [-2, -1, 0, 1]))))⟩,
    ⟨"ecutincl", (.base .real), false, none⟩,
    ⟨"ebankincl", (.base .real), false, none⟩,
    ⟨"ebankabia", (.base .real), false, none⟩]
  init := ["stincl", "v0incl", "xfoisaincl", "npaulincl", "nosurfincl", "ecutincl", "ebankincl", "ebankabia"]

/-- src/pymcnp/inp/Lea.py:13-26; setter conditions: lines 101, 139, 177, 215, 253, 291, 329, 367. -/
def Lea : Cls where
  info := ⟨"Lea", .card, c!"lea", ["ipht", "icc", "nobalc", "nobale", "ifbrk", "ilvden", "ievap", "nofis"]⟩
  shape := .flat ⟨.no, c!"lea", .no, .no⟩ [⟨.ty (.base .int), .opt⟩, ⟨.ty (.base .int), .opt⟩, ⟨.ty (.base .int), .opt⟩, ⟨.ty (.base .int), .opt⟩, ⟨.ty (.base .int), .opt⟩, ⟨.ty (.base .int), .opt⟩, ⟨.ty (.base .int), .opt⟩, ⟨.ty (.base .int), .opt⟩]
  attrs := [⟨"ipht", (.base .int), false, (some (.and .notNone (.not (.or .isJump (.inInts [0, 1])))))⟩,
    ⟨"icc", (.base .int), false, (some (.and .notNone (.not (.or .isJump (.inInts [0, 1, 2, 3, 4])))))⟩,
    ⟨"nobalc", (.base .int), false, (some (.and .notNone (.not (.or .isJump (.inInts [0, 1])))))⟩,
    ⟨"nobale", (.base .int), false, (some (.and .notNone (.not (.or .isJump (.inInts [0, 1])))))⟩,
    ⟨"ifbrk", (.base .int), false, (some (.and .notNone (.not (.or .isJump (.inInts [0, 1])))))⟩,
    ⟨"ilvden", (.base .int), false, (some (.and .notNone (.not (.or .isJump (.inInts [0, 1, -1])))))⟩,
    ⟨"ievap", (.base .int), false, (some (.and .notNone (.not (.or .isJump (.inInts [0, 1, -1, 2])))))⟩,
    ⟨"nofis", (.base .int), false, (some (.and .notNone (.not (.or .isJump (.inInts [0, 1])))))⟩]
  init := ["ipht", "icc", "nobalc", "nobale", "ifbrk", "ilvden", "ievap", "nofis"]

/-- src/pymcnp/inp/Leb.py:13-22; setter conditions: lines 78, 116, 154, 192. -/
def Leb : Cls where
  info := ⟨"Leb", .card, c!"leb", ["yzere", "bzere", "yzero", "bzero"]⟩
  shape := .flat ⟨.no, c!"leb", .no, .no⟩ [⟨.ty (.base .real), .opt⟩, ⟨.ty (.base .real), .opt⟩, ⟨.ty (.base .real), .opt⟩, ⟨.ty (.base .real), .opt⟩]
  attrs := [⟨"yzere", (.base .real), false, (some (.and .notNone (.not (.or .isJump (.cmp .gt (0) 0)))))⟩,
    ⟨"bzere", (.base .real), false, (some (.and .notNone (.not (.or .isJump (.cmp .gt (0) 0)))))⟩,
    ⟨"yzero", (.base .real), false, (some (.and .notNone (.not (.or .isJump (.cmp .gt (0) 0)))))⟩,
    ⟨"bzero", (.base .real), false, (some (.and .notNone (.not (.or .isJump (.cmp .gt (0) 0)))))⟩]
  init := ["yzere", "bzere", "yzero", "bzero"]

/-- src/pymcnp/inp/Like.py:14-20; setter conditions: lines 90, 128. -/
def Like : Cls where
  info := ⟨"Like", .like, c!"", ["number", "cell", "options"]⟩
  shape := .other (.seq (.grp (.plus true (.cls (.one .S)))) (.seq (.lits c!" like ") (.seq (.grp (.plus true (.cls (.one .S)))) (.seq (.lits c!" but") (.opt (.grp (.plus false (.ngrp (.seq (.lits c!" ") (.ngrp (.ty T_like_LikeOption)))))))))))
  attrs := [⟨"number", (.base .int), false, (some (.or .isNone (.not (.and (.cmp .ge (1) 0) (.cmp .le (99999999) 0)))))⟩,
    ⟨"cell", (.base .int), false, (some (.or .isNone (.not (.and (.cmp .ge (1) 0) (.cmp .le (99999999) 0)))))⟩,
    ⟨"options", T_like_LikeOption, true, none⟩]
  init := ["number", "cell", "options"]

/-- src/pymcnp/inp/Lost.py:13-20; setter conditions: lines 70, 108. -/
def Lost : Cls where
  info := ⟨"Lost", .card, c!"lost", ["lost1", "lost2"]⟩
  shape := .flat ⟨.no, c!"lost", .no, .no⟩ [⟨.ty (.base .int), .req⟩, ⟨.ty (.base .int), .req⟩]
  attrs := [⟨"lost1", (.base .int), false, (some (.or .isNone (.not (.cmp .ge (0) 0))))⟩,
    ⟨"lost2", (.base .int), false, (some (.or .isNone (.not (.cmp .ge (0) 0))))⟩]
  init := ["lost1", "lost2"]

/-- src/pymcnp/inp/M_0.py:20-28; setter conditions: lines 83, 122. -/
def M_0 : Cls where
  info := ⟨"M_0", .card, c!"m", ["suffix", "substances", "options"]⟩
  shape := .flat ⟨.no, c!"m", .req, .no⟩ [⟨.ty (.base .subst), .many⟩, ⟨.ngrp (.ty T_m_0_MOption_0), .manyOpt⟩]
  attrs := [⟨"suffix", (.base .int), false, (some .isNone)⟩,
    ⟨"substances", (.base .subst), true, (some .isNone)⟩,
    ⟨"options", T_m_0_MOption_0, true, none⟩]
  init := ["suffix", "substances", "options"]

/-- src/pymcnp/inp/M_1.py:13-20; setter conditions: lines 70, 106. -/
def M_1 : Cls where
  info := ⟨"M_1", .card, c!"m", ["suffix", "abx"]⟩
  shape := .flat ⟨.no, c!"m", .req, .no⟩ [⟨.ty (.base .str), .req⟩]
  attrs := [⟨"suffix", (.base .int), false, (some .isNone)⟩,
    ⟨"abx", (.base .str), false, (some .isNone)⟩]
  init := ["suffix", "abx"]

/-- src/pymcnp/inp/Mesh.py:13-19. -/
def Mesh : Cls where
  info := ⟨"Mesh", .card, c!"mesh", ["options"]⟩
  shape := .flat ⟨.no, c!"mesh", .no, .no⟩ [⟨.ngrp (.ty T_mesh_MeshOption), .manyOpt⟩]
  attrs := [⟨"options", T_mesh_MeshOption, true, none⟩]
  init := ["options"]

/-- src/pymcnp/inp/Mgopt.py:13-25; setter conditions: lines 95, 133, 171, 209. -/
def Mgopt : Cls where
  info := ⟨"Mgopt", .card, c!"mgopt", ["mcal", "igm", "iplt", "iab", "icw", "fnw", "rim"]⟩
  shape := .flat ⟨.no, c!"mgopt", .no, .no⟩ [⟨.ty (.base .str), .req⟩, ⟨.ty (.base .int), .req⟩, ⟨.ty (.base .int), .opt⟩, ⟨.ty (.base .int), .opt⟩, ⟨.ty (.base .int), .opt⟩, ⟨.ty (.base .real), .opt⟩, ⟨.ty (.base .real), .opt⟩]
  attrs := [⟨"mcal", (.base .str), false, (some (.or .isNone (.not (.lowIn ["f", "a"]))))⟩,
    ⟨"igm", (.base .int), false, (some (.or .isNone (.not (.cmp .ge (0) 0))))⟩,
    ⟨"iplt", (.base .int), false, (some (.and .notNone (.not (.inInts [0, 1, 2]))))⟩,
    ⟨"iab", (.base .int), false, (some (.and .notNone (.not (.inInts [0, 1, 2]))))⟩,
    ⟨"icw", (.base .int), false, none⟩,
    ⟨"fnw", (.base .real), false, none⟩,
    ⟨"rim", (.base .real), false, none⟩]
  init := ["mcal", "igm", "iplt", "iab", "icw", "fnw", "rim"]

/-- src/pymcnp/inp/Mode.py:13-19; setter conditions: lines 68. -/
def Mode : Cls where
  info := ⟨"Mode", .card, c!"mode", ["particles"]⟩
  shape := .flat ⟨.no, c!"mode", .no, .no⟩ [⟨.ty (.base .desig), .many⟩]
  attrs := [⟨"particles", (.base .desig), true, (some .isNone)⟩]
  init := ["particles"]

/-- src/pymcnp/inp/Mphys.py:13-19; setter conditions: lines 65. -/
def Mphys : Cls where
  info := ⟨"Mphys", .card, c!"mphys", ["setting"]⟩
  shape := .flat ⟨.no, c!"mphys", .no, .no⟩ [⟨.ty (.base .str), .opt⟩]
  attrs := [⟨"setting", (.base .str), false, (some (.and .notNone (.not (.lowIn ["on", "off"]))))⟩]
  init := ["setting"]

/-- src/pymcnp/inp/Mplot.py:13-19. -/
def Mplot : Cls where
  info := ⟨"Mplot", .card, c!"mplot", ["options"]⟩
  shape := .flat ⟨.no, c!"mplot", .no, .no⟩ [⟨.ngrp (.ty T_mplot_MplotOption), .manyOpt⟩]
  attrs := [⟨"options", T_mplot_MplotOption, true, none⟩]
  init := ["options"]

/-- src/pymcnp/inp/Mt.py:13-20; setter conditions: lines 70, 109. -/
def Mt : Cls where
  info := ⟨"Mt", .card, c!"mt", ["suffix", "identifiers"]⟩
  shape := .flat ⟨.no, c!"mt", .req, .no⟩ [⟨.ty (.base .str), .many⟩]
  attrs := [⟨"suffix", (.base .int), false, (some .isNone)⟩,
    ⟨"identifiers", (.base .str), true, (some .isNone)⟩]
  init := ["suffix", "identifiers"]

/-- src/pymcnp/inp/Mx.py:13-21; setter conditions: lines 73, 109, 148. -/
def Mx : Cls where
  info := ⟨"Mx", .card, c!"mx", ["suffix", "designator", "zaids"]⟩
  shape := .flat ⟨.no, c!"mx", .req, .req⟩ [⟨.ngrp (.alt (.ty (.base .zaid)) (.alt (.lits c!"j") (.alt (.lits c!"model") (.lits c!"0")))), .many⟩]
  attrs := [⟨"suffix", (.base .int), false, (some .isNone)⟩,
    ⟨"designator", (.base .desig), false, (some .isNone)⟩,
    ⟨"zaids", (.base .str), true, (some .isNone)⟩]
  init := ["suffix", "designator", "zaids"]

/-- src/pymcnp/inp/Nonu.py:12-18. -/
def Nonu : Cls where
  info := ⟨"Nonu", .card, c!"nonu", ["settings"]⟩
  shape := .flat ⟨.no, c!"nonu", .no, .no⟩ [⟨.ty (.base .int), .manyOpt⟩]
  attrs := [⟨"settings", (.base .int), true, none⟩]
  init := ["settings"]

/-- src/pymcnp/inp/Notrn.py:11-15. -/
def Notrn : Cls where
  info := ⟨"Notrn", .card, c!"notrn", []⟩
  shape := .flat ⟨.no, c!"notrn", .no, .no⟩ []
  attrs := []
  init := []

/-- src/pymcnp/inp/Nps.py:13-20; setter conditions: lines 70, 108. -/
def Nps : Cls where
  info := ⟨"Nps", .card, c!"nps", ["npp", "npsmg"]⟩
  shape := .flat ⟨.no, c!"nps", .no, .no⟩ [⟨.ty (.base .int), .req⟩, ⟨.ty (.base .int), .opt⟩]
  attrs := [⟨"npp", (.base .int), false, (some (.or .isNone (.not (.cmp .gt (0) 0))))⟩,
    ⟨"npsmg", (.base .int), false, (some (.and .notNone (.not (.cmp .gt (0) 0))))⟩]
  init := ["npp", "npsmg"]

/-- src/pymcnp/inp/Otfdb.py:13-19; setter conditions: lines 68. -/
def Otfdb : Cls where
  info := ⟨"Otfdb", .card, c!"otfdb", ["zaids"]⟩
  shape := .flat ⟨.no, c!"otfdb", .no, .no⟩ [⟨.ty (.base .zaid), .many⟩]
  attrs := [⟨"zaids", (.base .zaid), true, (some .isNone)⟩]
  init := ["zaids"]

/-- src/pymcnp/inp/Pd.py:13-21; setter conditions: lines 73, 109, 150. -/
def Pd : Cls where
  info := ⟨"Pd", .card, c!"pd", ["suffix", "designator", "probabilities"]⟩
  shape := .flat ⟨.no, c!"pd", .req, .req⟩ [⟨.ty (.base .real), .many⟩]
  attrs := [⟨"suffix", (.base .int), false, (some (.or .isNone (.not (.cmp .le (99999999) 0))))⟩,
    ⟨"designator", (.base .desig), false, (some .isNone)⟩,
    ⟨"probabilities", (.base .real), true, (some .isNone)⟩]
  init := ["suffix", "designator", "probabilities"]

/-- src/pymcnp/inp/Pert.py:14-22; setter conditions: lines 74, 110. -/
def Pert : Cls where
  info := ⟨"Pert", .card, c!"pert", ["suffix", "designator", "options"]⟩
  shape := .flat ⟨.no, c!"pert", .req, .req⟩ [⟨.ngrp (.ty T_pert_PertOption), .manyOpt⟩]
  attrs := [⟨"suffix", (.base .int), false, (some (.or .isNone (.not (.cmp .le (99999999) 0))))⟩,
    ⟨"designator", (.base .desig), false, (some .isNone)⟩,
    ⟨"options", T_pert_PertOption, true, none⟩]
  init := ["suffix", "designator", "options"]

/-- src/pymcnp/inp/Phys_0.py:13-26; setter conditions: lines 171, 279, 317, 355. -/
def Phys_0 : Cls where
  info := ⟨"Phys_0", .card, c!"phys:n", ["emax", "emcnf", "iunr", "coilf", "cutn", "ngam", "i_int_model", "i_els_model"]⟩
  shape := .flat ⟨.no, c!"phys:n", .no, .no⟩ [⟨.ty (.base .real), .opt⟩, ⟨.ty (.base .real), .opt⟩, ⟨.ty (.base .int), .opt⟩, ⟨.ty (.base .real), .opt⟩, ⟨.ty (.base .int), .opt⟩, ⟨.ty (.base .int), .opt⟩, ⟨.ty (.base .int), .opt⟩, ⟨.ty (.base .int), .opt⟩]
  attrs := [⟨"emax", (.base .real), false, none⟩,
    ⟨"emcnf", (.base .real), false, none⟩,
    ⟨"iunr", (.base .int), false, (some (.and .notNone (.not (.or .isJump (.inInts [0, 1])))))⟩,
    ⟨"coilf", (.base .real), false, none⟩,
    ⟨"cutn", (.base .int), false, none⟩,
    ⟨"ngam", (.base .int), false, (some (.and .notNone (.not (.or .isJump (.inInts [0, 1, 2])))))⟩,
    ⟨"i_int_model", (.base .int), false, (some (.and .notNone (.not (.or .isJump (.inInts [-1, 0, 1, 2, 3])))))⟩,
    ⟨"i_els_model", (.base .int), false, (some (.and .notNone (.not (.or .isJump (.inInts [-1, 0, 1])))))⟩]
  init := ["emax", "emcnf", "iunr", "coilf", "cutn", "ngam", "i_int_model", "i_els_model"]

/-- src/pymcnp/inp/Phys_1.py:13-24; setter conditions: lines 128, 166, 204, 242. -/
def Phys_1 : Cls where
  info := ⟨"Phys_1", .card, c!"phys:p", ["emcpf", "ides", "nocoh", "ispn", "nodop", "fism"]⟩
  shape := .flat ⟨.no, c!"phys:p", .no, .no⟩ [⟨.ty (.base .real), .opt⟩, ⟨.ty (.base .int), .opt⟩, ⟨.ty (.base .int), .opt⟩, ⟨.ty (.base .int), .opt⟩, ⟨.ty (.base .int), .opt⟩, ⟨.ty (.base .int), .opt⟩]
  attrs := [⟨"emcpf", (.base .real), false, none⟩,
    ⟨"ides", (.base .int), false, (some (.and .notNone (.not (.or .isJump (.inInts [0, 1])))))⟩,
    ⟨"nocoh", (.base .int), false, (some (.and .notNone (.not (.or .isJump (.inInts [0, 1])))))⟩,
    ⟨"ispn", (.base .int), false, (some (.and .notNone (.not (.or .isJump (.inInts [-1, 0, 1])))))⟩,
    ⟨"nodop", (.base .int), false, (some (.and .notNone (.not (.or .isJump (.inInts [0, 1])))))⟩,
    ⟨"fism", (.base .int), false, none⟩]
  init := ["emcpf", "ides", "nocoh", "ispn", "nodop", "fism"]

/-- src/pymcnp/inp/Phys_2.py:13-33; setter conditions: lines 164, 202, 240, 278, 351, 389, 427, 465, 503, 539, 577, 650. -/
def Phys_2 : Cls where
  info := ⟨"Phys_2", .card, c!"phys:e", ["emax", "ides", "iphot", "ibad", "istrg", "bnum", "xnum", "rnok", "enum", "numb", "i_mcs_model", "j", "efac", "electron_method_boundary", "ckvnum"]⟩
  shape := .other (.seq (.lits c!"phys:e") (.seq (.opt (.ngrp (.seq (.lits c!" ") (.grp (.plus true (.cls (.one .S))))))) (.seq (.opt (.ngrp (.seq (.lits c!" ") (.grp (.plus true (.cls (.one .S))))))) (.seq (.opt (.ngrp (.seq (.lits c!" ") (.grp (.plus true (.cls (.one .S))))))) (.seq (.opt (.ngrp (.seq (.lits c!" ") (.grp (.plus true (.cls (.one .S))))))) (.seq (.opt (.ngrp (.seq (.lits c!" ") (.grp (.plus true (.cls (.one .S))))))) (.seq (.opt (.ngrp (.seq (.lits c!" ") (.grp (.plus true (.cls (.one .S))))))) (.seq (.opt (.ngrp (.seq (.lits c!" ") (.grp (.plus true (.cls (.one .S))))))) (.seq (.opt (.ngrp (.seq (.lits c!" ") (.grp (.plus true (.cls (.one .S))))))) (.seq (.opt (.ngrp (.seq (.lits c!" ") (.grp (.plus true (.cls (.one .S))))))) (.seq (.opt (.ngrp (.seq (.lits c!" ") (.grp (.plus true (.cls (.one .S))))))) (.seq (.opt (.ngrp (.seq (.lits c!" ") (.grp (.plus true (.cls (.one .S))))))) (.seq (.opt (.ngrp (.seq (.lits c!" ") (.grp (.lits c!"j j"))))) (.seq (.opt (.ngrp (.seq (.lits c!" ") (.grp (.plus true (.cls (.one .S))))))) (.seq (.opt (.ngrp (.seq (.lits c!" ") (.grp (.plus true (.cls (.one .S))))))) (.opt (.ngrp (.seq (.lits c!" ") (.grp (.plus true (.cls (.one .S))))))))))))))))))))))
  attrs := [⟨"emax", (.base .real), false, none⟩,
    ⟨"ides", (.base .int), false, (some (.and .notNone (.not (.or .isJump (.inInts [0, 1])))))⟩,
    ⟨"iphot", (.base .int), false, (some (.and .notNone (.not (.or .isJump (.inInts [0, 1])))))⟩,
    ⟨"ibad", (.base .int), false, (some (.and .notNone (.not (.or .isJump (.inInts [0, 1])))))⟩,
    ⟨"istrg", (.base .int), false, (some (.and .notNone (.not (.or .isJump (.inInts [0, 1])))))⟩,
    ⟨"bnum", (.base .real), false, none⟩,
    ⟨"xnum", (.base .real), false, (some (.and .notNone (.not (.or .isJump (.cmp .ge (0) 0)))))⟩,
    ⟨"rnok", (.base .int), false, (some (.and .notNone (.not (.or .isJump (.cmp .ge (0) 0)))))⟩,
    ⟨"enum", (.base .int), false, (some (.and .notNone (.not (.or .isJump (.cmp .ge (0) 0)))))⟩,
    ⟨"numb", (.base .int), false, (some (.and .notNone (.not (.or .isJump (.cmp .ge (0) 0)))))⟩,
    ⟨"i_mcs_model", (.base .int), false, (some (.and .notNone (.not (.or .isJump (.inInts [-1, 0])))))⟩,
    ⟨"j", (.base .str), false, (some (.and .notNone (.not (.lowIn ["j j"]))))⟩,
    ⟨"efac", (.base .real), false, (some (.and .notNone (.not (.or .isJump (.and (.cmp .ge (8) 1) (.cmp .le (99) 2))))))⟩,
    ⟨"electron_method_boundary", (.base .real), false, none⟩,
    ⟨"ckvnum", (.base .real), false, (some (.and .notNone (.not (.or .isJump (.and (.cmp .ge (0) 0) (.cmp .lt (1) 0))))))⟩]
  init := ["emax", "ides", "iphot", "ibad", "istrg", "bnum", "xnum", "rnok", "enum", "numb", "i_mcs_model", "j", "efac", "electron_method_boundary", "ckvnum"]

/-- src/pymcnp/inp/Phys_3.py:13-29; setter conditions: lines 183, 221, 259, 297, 335, 373, 411, 449, 487. -/
def Phys_3 : Cls where
  info := ⟨"Phys_3", .card, c!"phys:h", ["emax", "ean", "tabl", "istrg", "recl", "i_mcs_model", "i_int_model", "i_els_model", "efac", "ckvnum", "drp"]⟩
  shape := .flat ⟨.no, c!"phys:h", .no, .no⟩ [⟨.ty (.base .real), .opt⟩, ⟨.ty (.base .real), .opt⟩, ⟨.ty (.base .real), .opt⟩, ⟨.ty (.base .int), .opt⟩, ⟨.ty (.base .real), .opt⟩, ⟨.ty (.base .int), .opt⟩, ⟨.ty (.base .int), .opt⟩, ⟨.ty (.base .int), .opt⟩, ⟨.ty (.base .real), .opt⟩, ⟨.ty (.base .real), .opt⟩, ⟨.ty (.base .real), .opt⟩]
  attrs := [⟨"emax", (.base .real), false, none⟩,
    ⟨"ean", (.base .real), false, none⟩,
    ⟨"tabl", (.base .real), false, (some (.and .notNone (.not (.or .isJump (.or (.cmp .eq (-1) 0) (.cmp .ge (0) 0))))))⟩,
    ⟨"istrg", (.base .int), false, (some (.and .notNone (.not (.or .isJump (.inInts [0, 1])))))⟩,
    ⟨"recl", (.base .real), false, (some (.and .notNone (.not (.or .isJump (.and (.cmp .ge (0) 0) (.cmp .le (1) 0))))))⟩,
    ⟨"i_mcs_model", (.base .int), false, (some (.and .notNone (.not (.or .isJump (.inInts [-1, 0, 1, 2])))))⟩,
    ⟨"i_int_model", (.base .int), false, (some (.and .notNone (.not (.or .isJump (.inInts [-1, 0, 1, 2])))))⟩,
    ⟨"i_els_model", (.base .int), false, (some (.and .notNone (.not (.or .isJump (.inInts [-1, 0])))))⟩,
    ⟨"efac", (.base .real), false, (some (.and .notNone (.not (.or .isJump (.and (.cmp .ge (8) 1) (.cmp .le (99) 2))))))⟩,
    ⟨"ckvnum", (.base .real), false, (some (.and .notNone (.not (.or .isJump (.and (.cmp .ge (0) 0) (.cmp .lt (1) 0))))))⟩,
    ⟨"drp", (.base .real), false, (some (.and .notNone (.not (.or .isJump (.or (.cmp .ge (0) 0) (.cmp .eq (-1) 0))))))⟩]
  init := ["emax", "ean", "tabl", "istrg", "recl", "i_mcs_model", "i_int_model", "i_els_model", "efac", "ckvnum", "drp"]

/-- src/pymcnp/inp/Phys_4.py:13-29; setter conditions: lines 111, 184, 222, 295, 333, 371, 409, 447, 485. -/
def Phys_4 : Cls where
  info := ⟨"Phys_4", .card, c!"phys", ["designator", "emax", "istrg", "xmunum", "xmugam", "i_mcs_model", "i_int_model", "i_els_model", "efac", "ckvnum", "drp"]⟩
  shape := .flat ⟨.no, c!"phys", .no, .req⟩ [⟨.ty (.base .real), .opt⟩, ⟨.ty (.base .int), .opt⟩, ⟨.ty (.base .int), .opt⟩, ⟨.ty (.base .real), .opt⟩, ⟨.ty (.base .int), .opt⟩, ⟨.ty (.base .int), .opt⟩, ⟨.ty (.base .int), .opt⟩, ⟨.ty (.base .real), .opt⟩, ⟨.ty (.base .real), .opt⟩, ⟨.ty (.base .real), .opt⟩]
  attrs := [⟨"designator", (.base .desig), false, (some .isNone)⟩,
    ⟨"emax", (.base .real), false, none⟩,
    ⟨"istrg", (.base .int), false, (some (.and .notNone (.not (.or .isJump (.inInts [0, 1])))))⟩,
    ⟨"xmunum", (.base .int), false, (some (.and .notNone (.not (.or .isJump (.inInts [-1, 1])))))⟩,
    ⟨"xmugam", (.base .real), false, none⟩,
    ⟨"i_mcs_model", (.base .int), false, (some (.and .notNone (.not (.or .isJump (.inInts [-1, 0, 1, 2])))))⟩,
    ⟨"i_int_model", (.base .int), false, (some (.and .notNone (.not (.or .isJump (.inInts [-1, 0, 1, 2])))))⟩,
    ⟨"i_els_model", (.base .int), false, (some (.and .notNone (.not (.or .isJump (.inInts [-1, 0])))))⟩,
    ⟨"efac", (.base .real), false, (some (.and .notNone (.not (.or .isJump (.and (.cmp .ge (8) 1) (.cmp .le (99) 2))))))⟩,
    ⟨"ckvnum", (.base .real), false, (some (.and .notNone (.not (.or .isJump (.and (.cmp .ge (0) 0) (.cmp .lt (1) 0))))))⟩,
    ⟨"drp", (.base .real), false, (some (.and .notNone (.not (.or .isJump (.or (.cmp .ge (0) 0) (.cmp .eq (-1) 0))))))⟩]
  init := ["designator", "emax", "istrg", "xmunum", "xmugam", "i_mcs_model", "i_int_model", "i_els_model", "efac", "ckvnum", "drp"]

/-- src/pymcnp/inp/Pikmt.py:14-20; setter conditions: lines 69. -/
def Pikmt : Cls where
  info := ⟨"Pikmt", .card, c!"pikmt", ["biases"]⟩
  shape := .flat ⟨.no, c!"pikmt", .no, .no⟩ [⟨.ty T_pikmt_Photonbias, .many⟩]
  attrs := [⟨"biases", T_pikmt_Photonbias, true, (some .isNone)⟩]
  init := ["biases"]

/-- src/pymcnp/inp/Prdmp.py:12-22. -/
def Prdmp : Cls where
  info := ⟨"Prdmp", .card, c!"prdmp", ["ndp", "ndm", "mct", "ndmp", "dmmp"]⟩
  shape := .flat ⟨.no, c!"prdmp", .no, .no⟩ [⟨.ty (.base .int), .opt⟩, ⟨.ty (.base .int), .opt⟩, ⟨.ty (.base .int), .opt⟩, ⟨.ty (.base .int), .opt⟩, ⟨.ty (.base .int), .opt⟩]
  attrs := [⟨"ndp", (.base .int), false, none⟩,
    ⟨"ndm", (.base .int), false, none⟩,
    ⟨"mct", (.base .int), false, none⟩,
    ⟨"ndmp", (.base .int), false, none⟩,
    ⟨"dmmp", (.base .int), false, none⟩]
  init := ["ndp", "ndm", "mct", "ndmp", "dmmp"]

/-- src/pymcnp/inp/Print.py:12-18. -/
def Print : Cls where
  info := ⟨"Print", .card, c!"print", ["tables"]⟩
  shape := .flat ⟨.no, c!"print", .no, .no⟩ [⟨.ty (.base .int), .manyOpt⟩]
  attrs := [⟨"tables", (.base .int), true, none⟩]
  init := ["tables"]

/-- src/pymcnp/inp/Ptrac.py:13-19. -/
def Ptrac : Cls where
  info := ⟨"Ptrac", .card, c!"ptrac", ["options"]⟩
  shape := .flat ⟨.no, c!"ptrac", .no, .no⟩ [⟨.ngrp (.ty T_ptrac_PtracOption), .manyOpt⟩]
  attrs := [⟨"options", T_ptrac_PtracOption, true, none⟩]
  init := ["options"]

/-- src/pymcnp/inp/Pwt.py:13-19; setter conditions: lines 70. -/
def Pwt : Cls where
  info := ⟨"Pwt", .card, c!"pwt", ["weights"]⟩
  shape := .flat ⟨.no, c!"pwt", .no, .no⟩ [⟨.ty (.base .real), .many⟩]
  attrs := [⟨"weights", (.base .real), true, (some .isNone)⟩]
  init := ["weights"]

/-- src/pymcnp/inp/Rand.py:13-19. -/
def Rand : Cls where
  info := ⟨"Rand", .card, c!"rand", ["options"]⟩
  shape := .flat ⟨.no, c!"rand", .no, .no⟩ [⟨.ngrp (.ty T_rand_RandOption), .manyOpt⟩]
  attrs := [⟨"options", T_rand_RandOption, true, none⟩]
  init := ["options"]

/-- src/pymcnp/inp/Rdum.py:13-19; setter conditions: lines 70. -/
def Rdum : Cls where
  info := ⟨"Rdum", .card, c!"rdum", ["floats"]⟩
  shape := .flat ⟨.no, c!"rdum", .no, .no⟩ [⟨.ty (.base .real), .many⟩]
  attrs := [⟨"floats", (.base .real), true, (some .isNone)⟩]
  init := ["floats"]

/-- src/pymcnp/inp/Sb_0.py:13-21; setter conditions: lines 73, 109, 150. -/
def Sb_0 : Cls where
  info := ⟨"Sb_0", .card, c!"sb", ["suffix", "option", "biases"]⟩
  shape := .flat ⟨.no, c!"sb", .req, .no⟩ [⟨.cls (.set false [.ch 'd', .ch 'c', .ch 'v', .ch 'w']), .opt⟩, ⟨.ty (.base .real), .many⟩]
  attrs := [⟨"suffix", (.base .int), false, (some (.or .isNone (.not (.and (.cmp .ge (1) 0) (.cmp .le (999) 0)))))⟩,
    ⟨"option", (.base .str), false, (some (.and .notNone (.not (.lowIn ["d", "c", "v", "w"]))))⟩,
    ⟨"biases", (.base .real), true, (some .isNone)⟩]
  init := ["suffix", "option", "biases"]

/-- src/pymcnp/inp/Sb_1.py:13-21; setter conditions: lines 73, 111. -/
def Sb_1 : Cls where
  info := ⟨"Sb_1", .card, c!"sb", ["function", "a", "b"]⟩
  shape := .flat ⟨.no, c!"sb", .no, .no⟩ [⟨.ty (.base .int), .req⟩, ⟨.ty (.base .real), .req⟩, ⟨.ty (.base .real), .opt⟩]
  attrs := [⟨"function", (.base .int), false, (some (.or .isNone (.not (.inInts [-2, -3, -4, -5, -6, -7, -21, -31, -41]))))⟩,
    ⟨"a", (.base .real), false, (some .isNone)⟩,
    ⟨"b", (.base .real), false, none⟩]
  init := ["function", "a", "b"]

/-- src/pymcnp/inp/Sc.py:13-20; setter conditions: lines 70, 109. -/
def Sc : Cls where
  info := ⟨"Sc", .card, c!"sc", ["suffix", "comment"]⟩
  shape := .flat ⟨.no, c!"sc", .req, .no⟩ [⟨.ty (.base .str), .many⟩]
  attrs := [⟨"suffix", (.base .int), false, (some (.or .isNone (.not (.and (.cmp .ge (1) 0) (.cmp .le (999) 0)))))⟩,
    ⟨"comment", (.base .str), true, (some .isNone)⟩]
  init := ["suffix", "comment"]

/-- src/pymcnp/inp/Sd.py:13-20; setter conditions: lines 70, 111. -/
def Sd : Cls where
  info := ⟨"Sd", .card, c!"sd", ["suffix", "information"]⟩
  shape := .flat ⟨.no, c!"sd", .req, .no⟩ [⟨.ty (.base .real), .many⟩]
  attrs := [⟨"suffix", (.base .int), false, (some (.or .isNone (.not (.cmp .le (99999999) 0))))⟩,
    ⟨"information", (.base .real), true, (some .isNone)⟩]
  init := ["suffix", "information"]

/-- src/pymcnp/inp/Sdef.py:13-19. -/
def Sdef : Cls where
  info := ⟨"Sdef", .card, c!"sdef", ["options"]⟩
  shape := .flat ⟨.no, c!"sdef", .no, .no⟩ [⟨.ngrp (.ty T_sdef_SdefOption), .manyOpt⟩]
  attrs := [⟨"options", T_sdef_SdefOption, true, none⟩]
  init := ["options"]

/-- src/pymcnp/inp/Sf.py:13-20; setter conditions: lines 70, 111. -/
def Sf : Cls where
  info := ⟨"Sf", .card, c!"sf", ["suffix", "numbers"]⟩
  shape := .flat ⟨.no, c!"sf", .req, .no⟩ [⟨.ty (.base .int), .many⟩]
  attrs := [⟨"suffix", (.base .int), false, (some (.or .isNone (.not (.cmp .le (99999999) 0))))⟩,
    ⟨"numbers", (.base .int), true, (some .isNone)⟩]
  init := ["suffix", "numbers"]

/-- src/pymcnp/inp/Si_0.py:13-21; setter conditions: lines 73, 145. -/
def Si_0 : Cls where
  info := ⟨"Si_0", .card, c!"si", ["suffix", "option", "information"]⟩
  shape := .flat ⟨.no, c!"si", .req, .no⟩ [⟨.cls (.set false [.ch 'h', .ch 'l', .ch 'a', .ch 's']), .opt⟩, ⟨.ty (.base .dist), .many⟩]
  attrs := [⟨"suffix", (.base .int), false, (some .isNone)⟩,
    ⟨"option", (.base .str), false, none⟩,
    ⟨"information", (.base .dist), true, (some .isNone)⟩]
  init := ["suffix", "option", "information"]

/-- src/pymcnp/inp/Si_1.py:13-21; setter conditions: lines 73, 147. -/
def Si_1 : Cls where
  info := ⟨"Si_1", .card, c!"si", ["suffix", "option", "information"]⟩
  shape := .flat ⟨.no, c!"si", .req, .no⟩ [⟨.cls (.set false [.ch 'h', .ch 'l', .ch 'a', .ch 's']), .opt⟩, ⟨.ty (.base .real), .many⟩]
  attrs := [⟨"suffix", (.base .int), false, (some .isNone)⟩,
    ⟨"option", (.base .str), false, none⟩,
    ⟨"information", (.base .real), true, (some .isNone)⟩]
  init := ["suffix", "option", "information"]

/-- src/pymcnp/inp/Si_2.py:13-21; setter conditions: lines 73, 145. -/
def Si_2 : Cls where
  info := ⟨"Si_2", .card, c!"si", ["suffix", "option", "information"]⟩
  shape := .flat ⟨.no, c!"si", .req, .no⟩ [⟨.cls (.set false [.ch 'h', .ch 'l', .ch 'a', .ch 's']), .opt⟩, ⟨.ty (.base .desig), .many⟩]
  attrs := [⟨"suffix", (.base .int), false, (some .isNone)⟩,
    ⟨"option", (.base .str), false, none⟩,
    ⟨"information", (.base .desig), true, (some .isNone)⟩]
  init := ["suffix", "option", "information"]

/-- src/pymcnp/inp/Sp_0.py:13-21; setter conditions: lines 73, 109, 150. -/
def Sp_0 : Cls where
  info := ⟨"Sp_0", .card, c!"sp", ["suffix", "option", "probabilities"]⟩
  shape := .flat ⟨.no, c!"sp", .req, .no⟩ [⟨.cls (.set false [.ch 'd', .ch 'c', .ch 'v', .ch 'w']), .opt⟩, ⟨.ty (.base .real), .many⟩]
  attrs := [⟨"suffix", (.base .int), false, (some (.or .isNone (.not (.and (.cmp .ge (1) 0) (.cmp .le (999) 0)))))⟩,
    ⟨"option", (.base .str), false, (some (.and .notNone (.not (.lowIn ["d", "c", "v", "w"]))))⟩,
    ⟨"probabilities", (.base .real), true, (some .isNone)⟩]
  init := ["suffix", "option", "probabilities"]

/-- src/pymcnp/inp/Sp_1.py:13-21; setter conditions: lines 73, 111. -/
def Sp_1 : Cls where
  info := ⟨"Sp_1", .card, c!"sp", ["function", "a", "b"]⟩
  shape := .flat ⟨.no, c!"sp", .no, .no⟩ [⟨.ty (.base .int), .req⟩, ⟨.ty (.base .real), .req⟩, ⟨.ty (.base .real), .opt⟩]
  attrs := [⟨"function", (.base .int), false, (some (.or .isNone (.not (.inInts [-2, -3, -4, -5, -6, -7, -21, -31, -41]))))⟩,
    ⟨"a", (.base .real), false, (some .isNone)⟩,
    ⟨"b", (.base .real), false, none⟩]
  init := ["function", "a", "b"]

/-- src/pymcnp/inp/Spdtl.py:13-19; setter conditions: lines 65. -/
def Spdtl : Cls where
  info := ⟨"Spdtl", .card, c!"spdtl", ["keyword"]⟩
  shape := .flat ⟨.no, c!"spdtl", .no, .no⟩ [⟨.ty (.base .str), .req⟩]
  attrs := [⟨"keyword", (.base .str), false, (some .isNone)⟩]
  init := ["keyword"]

/-- src/pymcnp/inp/Ssr.py:13-19. -/
def Ssr : Cls where
  info := ⟨"Ssr", .card, c!"ssr", ["options"]⟩
  shape := .flat ⟨.no, c!"ssr", .no, .no⟩ [⟨.ngrp (.ty T_ssr_SsrOption), .manyOpt⟩]
  attrs := [⟨"options", T_ssr_SsrOption, true, none⟩]
  init := ["options"]

/-- src/pymcnp/inp/Ssw.py:14-22; setter conditions: lines 77. -/
def Ssw : Cls where
  info := ⟨"Ssw", .card, c!"ssw", ["surfaces", "cells", "options"]⟩
  shape := .flat ⟨.no, c!"ssw", .no, .no⟩ [⟨.ty (.base .int), .many⟩, ⟨.ty (.base .int), .manyOpt⟩, ⟨.ngrp (.ty T_ssw_SswOption), .manyOpt⟩]
  attrs := [⟨"surfaces", (.base .int), true, (some .isNone)⟩,
    ⟨"cells", (.base .int), true, none⟩,
    ⟨"options", T_ssw_SswOption, true, none⟩]
  init := ["surfaces", "cells", "options"]

/-- src/pymcnp/inp/Stop.py:13-19. -/
def Stop : Cls where
  info := ⟨"Stop", .card, c!"stop", ["options"]⟩
  shape := .flat ⟨.no, c!"stop", .no, .no⟩ [⟨.ngrp (.ty T_stop_StopOption), .manyOpt⟩]
  attrs := [⟨"options", T_stop_StopOption, true, none⟩]
  init := ["options"]

/-- src/pymcnp/inp/Surface.py:18-25; setter conditions: lines 282, 172, 210, 246. -/
def Surface : Cls where
  info := ⟨"Surface", .surface, c!"", ["prefix", "number", "transform", "option"]⟩
  shape := .other (.seq (.opt (.grp (.alt (.lits c!"+") (.lits c!"*")))) (.seq (.grp (.plus true (.cls (.one .S)))) (.seq (.opt (.grp (.seq (.lits c!" ") (.plus true (.cls (.one .S)))))) (.grp (.seq (.lits c!" ") (.grp (.ty T_surface_SurfaceOption)))))))
  attrs := [⟨"prefix", (.base .str), false, (some (.and .notNone (.not (.lowIn ["*", "+"]))))⟩,
    ⟨"number", (.base .int), false, (some (.or .isNone (.not (.ite (.self "transform" .falsy) (.and (.cmp .ge (1) 0) (.cmp .le (99999999) 0)) .tt))))⟩,
    ⟨"transform", (.base .int), false, (some (.and .notNone (.not (.and (.cmp .ge (0) 0) (.cmp .le (999) 0)))))⟩,
    ⟨"option", T_surface_SurfaceOption, false, (some .isNone)⟩]
  init := ["transform", "number", "option", "prefix"]

/-- src/pymcnp/inp/T_0.py:13-22; setter conditions: lines 76, 117. -/
def T_0 : Cls where
  info := ⟨"T_0", .card, c!"t", ["suffix", "bounds", "nt", "c"]⟩
  shape := .flat ⟨.no, c!"t", .req, .no⟩ [⟨.ty (.base .real), .many⟩, ⟨.ty (.base .str), .opt⟩, ⟨.ty (.base .str), .opt⟩]
  attrs := [⟨"suffix", (.base .int), false, (some .isNone)⟩,
    ⟨"bounds", (.base .real), true, (some .isNone)⟩,
    ⟨"nt", (.base .str), false, none⟩,
    ⟨"c", (.base .str), false, none⟩]
  init := ["suffix", "bounds", "nt", "c"]

/-- src/pymcnp/inp/T_1.py:14-21; setter conditions: lines 71, 110. -/
def T_1 : Cls where
  info := ⟨"T_1", .card, c!"t", ["suffix", "options"]⟩
  shape := .flat ⟨.no, c!"t", .req, .no⟩ [⟨.ngrp (.ty T_t_1_TOption_1), .many⟩]
  attrs := [⟨"suffix", (.base .int), false, (some .isNone)⟩,
    ⟨"options", T_t_1_TOption_1, true, (some .isNone)⟩]
  init := ["suffix", "options"]

/-- src/pymcnp/inp/Talnp.py:12-18. -/
def Talnp : Cls where
  info := ⟨"Talnp", .card, c!"talnp", ["tallies"]⟩
  shape := .flat ⟨.no, c!"talnp", .no, .no⟩ [⟨.ty (.base .int), .manyOpt⟩]
  attrs := [⟨"tallies", (.base .int), true, none⟩]
  init := ["tallies"]

/-- src/pymcnp/inp/Tf_0.py:13-27; setter conditions: lines 105. -/
def Tf_0 : Cls where
  info := ⟨"Tf_0", .card, c!"tf", ["suffix", "if1", "id1", "iu1", "is1", "im1", "ic1", "ie1", "it1"]⟩
  shape := .flat ⟨.no, c!"tf", .req, .no⟩ [⟨.ty (.base .int), .opt⟩, ⟨.ty (.base .int), .opt⟩, ⟨.ty (.base .int), .opt⟩, ⟨.ty (.base .int), .opt⟩, ⟨.ty (.base .int), .opt⟩, ⟨.ty (.base .int), .opt⟩, ⟨.ty (.base .int), .opt⟩, ⟨.ty (.base .int), .opt⟩]
  attrs := [⟨"suffix", (.base .int), false, (some (.or .isNone (.not (.cmp .le (99999999) 0))))⟩,
    ⟨"if1", (.base .int), false, none⟩,
    ⟨"id1", (.base .int), false, none⟩,
    ⟨"iu1", (.base .int), false, none⟩,
    ⟨"is1", (.base .int), false, none⟩,
    ⟨"im1", (.base .int), false, none⟩,
    ⟨"ic1", (.base .int), false, none⟩,
    ⟨"ie1", (.base .int), false, none⟩,
    ⟨"it1", (.base .int), false, none⟩]
  init := ["suffix", "if1", "id1", "iu1", "is1", "im1", "ic1", "ie1", "it1"]

/-- src/pymcnp/inp/Tf_1.py:13-35; setter conditions: lines 137. -/
def Tf_1 : Cls where
  info := ⟨"Tf_1", .card, c!"tf", ["suffix", "if1", "id1", "iu1", "is1", "im1", "ic1", "ie1", "it1", "if2", "id2", "iu2", "is2", "im2", "ic2", "ie2", "it2"]⟩
  shape := .flat ⟨.no, c!"tf", .req, .no⟩ [⟨.ty (.base .int), .opt⟩, ⟨.ty (.base .int), .opt⟩, ⟨.ty (.base .int), .opt⟩, ⟨.ty (.base .int), .opt⟩, ⟨.ty (.base .int), .opt⟩, ⟨.ty (.base .int), .opt⟩, ⟨.ty (.base .int), .opt⟩, ⟨.ty (.base .int), .opt⟩, ⟨.ty (.base .int), .opt⟩, ⟨.ty (.base .int), .opt⟩, ⟨.ty (.base .int), .opt⟩, ⟨.ty (.base .int), .opt⟩, ⟨.ty (.base .int), .opt⟩, ⟨.ty (.base .int), .opt⟩, ⟨.ty (.base .int), .opt⟩, ⟨.ty (.base .int), .opt⟩]
  attrs := [⟨"suffix", (.base .int), false, (some (.or .isNone (.not (.cmp .le (99999999) 0))))⟩,
    ⟨"if1", (.base .int), false, none⟩,
    ⟨"id1", (.base .int), false, none⟩,
    ⟨"iu1", (.base .int), false, none⟩,
    ⟨"is1", (.base .int), false, none⟩,
    ⟨"im1", (.base .int), false, none⟩,
    ⟨"ic1", (.base .int), false, none⟩,
    ⟨"ie1", (.base .int), false, none⟩,
    ⟨"it1", (.base .int), false, none⟩,
    ⟨"if2", (.base .int), false, none⟩,
    ⟨"id2", (.base .int), false, none⟩,
    ⟨"iu2", (.base .int), false, none⟩,
    ⟨"is2", (.base .int), false, none⟩,
    ⟨"im2", (.base .int), false, none⟩,
    ⟨"ic2", (.base .int), false, none⟩,
    ⟨"ie2", (.base .int), false, none⟩,
    ⟨"it2", (.base .int), false, none⟩]
  init := ["suffix", "if1", "id1", "iu1", "is1", "im1", "ic1", "ie1", "it1", "if2", "id2", "iu2", "is2", "im2", "ic2", "ie2", "it2"]

/-- src/pymcnp/inp/Thtme.py:13-19; setter conditions: lines 70. -/
def Thtme : Cls where
  info := ⟨"Thtme", .card, c!"thtme", ["times"]⟩
  shape := .flat ⟨.no, c!"thtme", .no, .no⟩ [⟨.ty (.base .real), .many⟩]
  attrs := [⟨"times", (.base .real), true, (some .isNone)⟩]
  init := ["times"]

/-- src/pymcnp/inp/Tm.py:13-20; setter conditions: lines 70, 111. -/
def Tm : Cls where
  info := ⟨"Tm", .card, c!"tm", ["suffix", "multipliers"]⟩
  shape := .flat ⟨.no, c!"tm", .req, .no⟩ [⟨.ty (.base .real), .many⟩]
  attrs := [⟨"suffix", (.base .int), false, (some (.or .isNone (.not (.cmp .le (99999999) 0))))⟩,
    ⟨"multipliers", (.base .real), true, (some .isNone)⟩]
  init := ["suffix", "multipliers"]

/-- src/pymcnp/inp/Tmp.py:13-20; setter conditions: lines 108. -/
def Tmp : Cls where
  info := ⟨"Tmp", .card, c!"tmp", ["suffix", "temperatures"]⟩
  shape := .flat ⟨.no, c!"tmp", .opt, .no⟩ [⟨.ty (.base .real), .many⟩]
  attrs := [⟨"suffix", (.base .int), false, none⟩,
    ⟨"temperatures", (.base .real), true, (some .isNone)⟩]
  init := ["suffix", "temperatures"]

/-- src/pymcnp/inp/Totnu.py:13-19; setter conditions: lines 65. -/
def Totnu : Cls where
  info := ⟨"Totnu", .card, c!"totnu", ["no"]⟩
  shape := .flat ⟨.no, c!"totnu", .no, .no⟩ [⟨.ty (.base .str), .opt⟩]
  attrs := [⟨"no", (.base .str), false, (some (.and .notNone (.not (.eqStr "no"))))⟩]
  init := ["no"]

/-- src/pymcnp/inp/Tr_0.py:13-33; setter conditions: lines 127, 165, 203, 241, 279, 317, 355, 393, 431, 469, 507, 545, 583, 621, 659. -/
def Tr_0 : Cls where
  info := ⟨"Tr_0", .card, c!"tr", ["prefix", "suffix", "x", "y", "z", "xx", "xy", "xz", "yx", "yy", "yz", "zx", "zy", "zz", "system"]⟩
  shape := .flat ⟨.star, c!"tr", .req, .no⟩ [⟨.ty (.base .real), .req⟩, ⟨.ty (.base .real), .req⟩, ⟨.ty (.base .real), .req⟩, ⟨.ty (.base .real), .req⟩, ⟨.ty (.base .real), .req⟩, ⟨.ty (.base .real), .req⟩, ⟨.ty (.base .real), .req⟩, ⟨.ty (.base .real), .req⟩, ⟨.ty (.base .real), .req⟩, ⟨.ty (.base .real), .req⟩, ⟨.ty (.base .real), .req⟩, ⟨.ty (.base .real), .req⟩, ⟨.ty (.base .int), .opt⟩]
  attrs := [⟨"prefix", (.base .str), false, (some (.and .notNone (.not (.lowIn ["*"]))))⟩,
    ⟨"suffix", (.base .int), false, (some (.or .isNone (.not (.and (.cmp .ge (1) 0) (.cmp .le (999) 0)))))⟩,
    ⟨"x", (.base .real), false, (some .isNone)⟩,
    ⟨"y", (.base .real), false, (some .isNone)⟩,
    ⟨"z", (.base .real), false, (some .isNone)⟩,
    ⟨"xx", (.base .real), false, (some .isNone)⟩,
    ⟨"xy", (.base .real), false, (some .isNone)⟩,
    ⟨"xz", (.base .real), false, (some .isNone)⟩,
    ⟨"yx", (.base .real), false, (some .isNone)⟩,
    ⟨"yy", (.base .real), false, (some .isNone)⟩,
    ⟨"yz", (.base .real), false, (some .isNone)⟩,
    ⟨"zx", (.base .real), false, (some .isNone)⟩,
    ⟨"zy", (.base .real), false, (some .isNone)⟩,
    ⟨"zz", (.base .real), false, (some .isNone)⟩,
    ⟨"system", (.base .int), false, (some (.and .notNone (.not (.or (.cmp .eq (-1) 0) (.cmp .eq (1) 0)))))⟩]
  init := ["prefix", "suffix", "x", "y", "z", "xx", "xy", "xz", "yx", "yy", "yz", "zx", "zy", "zz", "system"]

/-- src/pymcnp/inp/Tr_1.py:13-30; setter conditions: lines 115, 153, 191, 229, 267, 305, 343, 381, 419, 457, 495, 533. -/
def Tr_1 : Cls where
  info := ⟨"Tr_1", .card, c!"tr", ["prefix", "suffix", "x", "y", "z", "xx", "xy", "xz", "yx", "yy", "yz", "system"]⟩
  shape := .flat ⟨.star, c!"tr", .req, .no⟩ [⟨.ty (.base .real), .req⟩, ⟨.ty (.base .real), .req⟩, ⟨.ty (.base .real), .req⟩, ⟨.ty (.base .real), .req⟩, ⟨.ty (.base .real), .req⟩, ⟨.ty (.base .real), .req⟩, ⟨.ty (.base .real), .req⟩, ⟨.ty (.base .real), .req⟩, ⟨.ty (.base .real), .req⟩, ⟨.ty (.base .int), .opt⟩]
  attrs := [⟨"prefix", (.base .str), false, (some (.and .notNone (.not (.lowIn ["*"]))))⟩,
    ⟨"suffix", (.base .int), false, (some (.or .isNone (.not (.and (.cmp .ge (1) 0) (.cmp .le (999) 0)))))⟩,
    ⟨"x", (.base .real), false, (some .isNone)⟩,
    ⟨"y", (.base .real), false, (some .isNone)⟩,
    ⟨"z", (.base .real), false, (some .isNone)⟩,
    ⟨"xx", (.base .real), false, (some .isNone)⟩,
    ⟨"xy", (.base .real), false, (some .isNone)⟩,
    ⟨"xz", (.base .real), false, (some .isNone)⟩,
    ⟨"yx", (.base .real), false, (some .isNone)⟩,
    ⟨"yy", (.base .real), false, (some .isNone)⟩,
    ⟨"yz", (.base .real), false, (some .isNone)⟩,
    ⟨"system", (.base .int), false, (some (.and .notNone (.not (.or (.cmp .eq (-1) 0) (.cmp .eq (1) 0)))))⟩]
  init := ["prefix", "suffix", "x", "y", "z", "xx", "xy", "xz", "yx", "yy", "yz", "system"]

/-- src/pymcnp/inp/Tr_2.py:13-29; setter conditions: lines 111, 149, 187, 225, 263, 301, 339, 377, 415, 453, 491. -/
def Tr_2 : Cls where
  info := ⟨"Tr_2", .card, c!"tr", ["prefix", "suffix", "x", "y", "z", "xx", "xy", "xz", "yx", "yy", "system"]⟩
  shape := .flat ⟨.star, c!"tr", .req, .no⟩ [⟨.ty (.base .real), .req⟩, ⟨.ty (.base .real), .req⟩, ⟨.ty (.base .real), .req⟩, ⟨.ty (.base .real), .req⟩, ⟨.ty (.base .real), .req⟩, ⟨.ty (.base .real), .req⟩, ⟨.ty (.base .real), .req⟩, ⟨.ty (.base .real), .req⟩, ⟨.ty (.base .int), .opt⟩]
  attrs := [⟨"prefix", (.base .str), false, (some (.and .notNone (.not (.lowIn ["*"]))))⟩,
    ⟨"suffix", (.base .int), false, (some (.or .isNone (.not (.and (.cmp .ge (1) 0) (.cmp .le (999) 0)))))⟩,
    ⟨"x", (.base .real), false, (some .isNone)⟩,
    ⟨"y", (.base .real), false, (some .isNone)⟩,
    ⟨"z", (.base .real), false, (some .isNone)⟩,
    ⟨"xx", (.base .real), false, (some .isNone)⟩,
    ⟨"xy", (.base .real), false, (some .isNone)⟩,
    ⟨"xz", (.base .real), false, (some .isNone)⟩,
    ⟨"yx", (.base .real), false, (some .isNone)⟩,
    ⟨"yy", (.base .real), false, (some .isNone)⟩,
    ⟨"system", (.base .int), false, (some (.and .notNone (.not (.or (.cmp .eq (-1) 0) (.cmp .eq (1) 0)))))⟩]
  init := ["prefix", "suffix", "x", "y", "z", "xx", "xy", "xz", "yx", "yy", "system"]

/-- src/pymcnp/inp/Tr_3.py:13-27; setter conditions: lines 103, 141, 179, 217, 255, 293, 331, 369, 407. -/
def Tr_3 : Cls where
  info := ⟨"Tr_3", .card, c!"tr", ["prefix", "suffix", "x", "y", "z", "xx", "xy", "xz", "system"]⟩
  shape := .flat ⟨.star, c!"tr", .req, .no⟩ [⟨.ty (.base .real), .req⟩, ⟨.ty (.base .real), .req⟩, ⟨.ty (.base .real), .req⟩, ⟨.ty (.base .real), .req⟩, ⟨.ty (.base .real), .req⟩, ⟨.ty (.base .real), .req⟩, ⟨.ty (.base .int), .opt⟩]
  attrs := [⟨"prefix", (.base .str), false, (some (.and .notNone (.not (.lowIn ["*"]))))⟩,
    ⟨"suffix", (.base .int), false, (some (.or .isNone (.not (.and (.cmp .ge (1) 0) (.cmp .le (999) 0)))))⟩,
    ⟨"x", (.base .real), false, (some .isNone)⟩,
    ⟨"y", (.base .real), false, (some .isNone)⟩,
    ⟨"z", (.base .real), false, (some .isNone)⟩,
    ⟨"xx", (.base .real), false, (some .isNone)⟩,
    ⟨"xy", (.base .real), false, (some .isNone)⟩,
    ⟨"xz", (.base .real), false, (some .isNone)⟩,
    ⟨"system", (.base .int), false, (some (.and .notNone (.not (.or (.cmp .eq (-1) 0) (.cmp .eq (1) 0)))))⟩]
  init := ["prefix", "suffix", "x", "y", "z", "xx", "xy", "xz", "system"]

/-- src/pymcnp/inp/Tr_4.py:13-24; setter conditions: lines 90, 128, 166, 204, 242, 280. -/
def Tr_4 : Cls where
  info := ⟨"Tr_4", .card, c!"tr", ["prefix", "suffix", "x", "y", "z", "system"]⟩
  shape := .flat ⟨.star, c!"tr", .req, .no⟩ [⟨.ty (.base .real), .req⟩, ⟨.ty (.base .real), .req⟩, ⟨.ty (.base .real), .req⟩, ⟨.ty (.base .int), .opt⟩]
  attrs := [⟨"prefix", (.base .str), false, (some (.and .notNone (.not (.lowIn ["*"]))))⟩,
    ⟨"suffix", (.base .int), false, (some (.or .isNone (.not (.and (.cmp .ge (1) 0) (.cmp .le (999) 0)))))⟩,
    ⟨"x", (.base .real), false, (some .isNone)⟩,
    ⟨"y", (.base .real), false, (some .isNone)⟩,
    ⟨"z", (.base .real), false, (some .isNone)⟩,
    ⟨"system", (.base .int), false, (some (.and .notNone (.not (.or (.cmp .eq (-1) 0) (.cmp .eq (1) 0)))))⟩]
  init := ["prefix", "suffix", "x", "y", "z", "system"]

/-- src/pymcnp/inp/Tropt.py:13-19. -/
def Tropt : Cls where
  info := ⟨"Tropt", .card, c!"tropt", ["options"]⟩
  shape := .flat ⟨.no, c!"tropt", .no, .no⟩ [⟨.ngrp (.ty T_tropt_TroptOption), .manyOpt⟩]
  attrs := [⟨"options", T_tropt_TroptOption, true, none⟩]
  init := ["options"]

/-- src/pymcnp/inp/Tsplt.py:13-59; setter conditions: lines 231. -/
def Tsplt : Cls where
  info := ⟨"Tsplt", .card, c!"tsplt", ["designator", "ratio_1", "time_1", "ratio_2", "time_2", "ratio_3", "time_3", "ratio_4", "time_4", "ratio_5", "time_5", "ratio_6", "time_6", "ratio_7", "time_7", "ratio_8", "time_8", "ratio_9", "time_9", "ratio_10", "time_10", "ratio_11", "time_11", "ratio_12", "time_12", "ratio_13", "time_13", "ratio_14", "time_14", "ratio_15", "time_15", "ratio_16", "time_16", "ratio_17", "time_17", "ratio_18", "time_18", "ratio_19", "time_19", "ratio_20", "time_20"]⟩
  shape := .flat ⟨.no, c!"tsplt", .no, .req⟩ [⟨.ty (.base .real), .opt⟩, ⟨.ty (.base .real), .opt⟩, ⟨.ty (.base .real), .opt⟩, ⟨.ty (.base .real), .opt⟩, ⟨.ty (.base .real), .opt⟩, ⟨.ty (.base .real), .opt⟩, ⟨.ty (.base .real), .opt⟩, ⟨.ty (.base .real), .opt⟩, ⟨.ty (.base .real), .opt⟩, ⟨.ty (.base .real), .opt⟩, ⟨.ty (.base .real), .opt⟩, ⟨.ty (.base .real), .opt⟩, ⟨.ty (.base .real), .opt⟩, ⟨.ty (.base .real), .opt⟩, ⟨.ty (.base .real), .opt⟩, ⟨.ty (.base .real), .opt⟩, ⟨.ty (.base .real), .opt⟩, ⟨.ty (.base .real), .opt⟩, ⟨.ty (.base .real), .opt⟩, ⟨.ty (.base .real), .opt⟩, ⟨.ty (.base .real), .opt⟩, ⟨.ty (.base .real), .opt⟩, ⟨.ty (.base .real), .opt⟩, ⟨.ty (.base .real), .opt⟩, ⟨.ty (.base .real), .opt⟩, ⟨.ty (.base .real), .opt⟩, ⟨.ty (.base .real), .opt⟩, ⟨.ty (.base .real), .opt⟩, ⟨.ty (.base .real), .opt⟩, ⟨.ty (.base .real), .opt⟩, ⟨.ty (.base .real), .opt⟩, ⟨.ty (.base .real), .opt⟩, ⟨.ty (.base .real), .opt⟩, ⟨.ty (.base .real), .opt⟩, ⟨.ty (.base .real), .opt⟩, ⟨.ty (.base .real), .opt⟩, ⟨.ty (.base .real), .opt⟩, ⟨.ty (.base .real), .opt⟩, ⟨.ty (.base .real), .opt⟩, ⟨.ty (.base .real), .opt⟩]
  attrs := [⟨"designator", (.base .desig), false, (some .isNone)⟩,
    ⟨"ratio_1", (.base .real), false, none⟩,
    ⟨"time_1", (.base .real), false, none⟩,
    ⟨"ratio_2", (.base .real), false, none⟩,
    ⟨"time_2", (.base .real), false, none⟩,
    ⟨"ratio_3", (.base .real), false, none⟩,
    ⟨"time_3", (.base .real), false, none⟩,
    ⟨"ratio_4", (.base .real), false, none⟩,
    ⟨"time_4", (.base .real), false, none⟩,
    ⟨"ratio_5", (.base .real), false, none⟩,
    ⟨"time_5", (.base .real), false, none⟩,
    ⟨"ratio_6", (.base .real), false, none⟩,
    ⟨"time_6", (.base .real), false, none⟩,
    ⟨"ratio_7", (.base .real), false, none⟩,
    ⟨"time_7", (.base .real), false, none⟩,
    ⟨"ratio_8", (.base .real), false, none⟩,
    ⟨"time_8", (.base .real), false, none⟩,
    ⟨"ratio_9", (.base .real), false, none⟩,
    ⟨"time_9", (.base .real), false, none⟩,
    ⟨"ratio_10", (.base .real), false, none⟩,
    ⟨"time_10", (.base .real), false, none⟩,
    ⟨"ratio_11", (.base .real), false, none⟩,
    ⟨"time_11", (.base .real), false, none⟩,
    ⟨"ratio_12", (.base .real), false, none⟩,
    ⟨"time_12", (.base .real), false, none⟩,
    ⟨"ratio_13", (.base .real), false, none⟩,
    ⟨"time_13", (.base .real), false, none⟩,
    ⟨"ratio_14", (.base .real), false, none⟩,
    ⟨"time_14", (.base .real), false, none⟩,
    ⟨"ratio_15", (.base .real), false, none⟩,
    ⟨"time_15", (.base .real), false, none⟩,
    ⟨"ratio_16", (.base .real), false, none⟩,
    ⟨"time_16", (.base .real), false, none⟩,
    ⟨"ratio_17", (.base .real), false, none⟩,
    ⟨"time_17", (.base .real), false, none⟩,
    ⟨"ratio_18", (.base .real), false, none⟩,
    ⟨"time_18", (.base .real), false, none⟩,
    ⟨"ratio_19", (.base .real), false, none⟩,
    ⟨"time_19", (.base .real), false, none⟩,
    ⟨"ratio_20", (.base .real), false, none⟩,
    ⟨"time_20", (.base .real), false, none⟩]
  init := ["designator", "ratio_1", "time_1", "ratio_2", "time_2", "ratio_3", "time_3", "ratio_4", "time_4", "ratio_5", "time_5", "ratio_6", "time_6", "ratio_7", "time_7", "ratio_8", "time_8", "ratio_9", "time_9", "ratio_10", "time_10", "ratio_11", "time_11", "ratio_12", "time_12", "ratio_13", "time_13", "ratio_14", "time_14", "ratio_15", "time_15", "ratio_16", "time_16", "ratio_17", "time_17", "ratio_18", "time_18", "ratio_19", "time_19", "ratio_20", "time_20"]

/-- src/pymcnp/inp/U.py:13-19; setter conditions: lines 70. -/
def U : Cls where
  info := ⟨"U", .card, c!"u", ["numbers"]⟩
  shape := .flat ⟨.no, c!"u", .no, .no⟩ [⟨.ty (.base .int), .many⟩]
  attrs := [⟨"numbers", (.base .int), true, (some .isNone)⟩]
  init := ["numbers"]

/-- src/pymcnp/inp/Unc.py:13-20; setter conditions: lines 68, 109. -/
def Unc : Cls where
  info := ⟨"Unc", .card, c!"unc", ["designator", "settings"]⟩
  shape := .flat ⟨.no, c!"unc", .no, .req⟩ [⟨.ty (.base .int), .many⟩]
  attrs := [⟨"designator", (.base .desig), false, (some .isNone)⟩,
    ⟨"settings", (.base .int), true, (some .isNone)⟩]
  init := ["designator", "settings"]

/-- src/pymcnp/inp/Uran.py:14-20; setter conditions: lines 69. -/
def Uran : Cls where
  info := ⟨"Uran", .card, c!"uran", ["transformations"]⟩
  shape := .flat ⟨.no, c!"uran", .no, .no⟩ [⟨.seq (.plus true (.cls (.one .S))) (.seq (.lits c!" ") (.seq (.plus true (.cls (.one .S))) (.seq (.lits c!" ") (.seq (.plus true (.cls (.one .S))) (.seq (.lits c!" ") (.plus true (.cls (.one .S)))))))), .many⟩]
  attrs := [⟨"transformations", T_uran_Stochastic, true, (some .isNone)⟩]
  init := ["transformations"]

/-- src/pymcnp/inp/Var.py:13-19. -/
def Var : Cls where
  info := ⟨"Var", .card, c!"var", ["options"]⟩
  shape := .flat ⟨.no, c!"var", .no, .no⟩ [⟨.ngrp (.ty T_var_VarOption), .manyOpt⟩]
  attrs := [⟨"options", T_var_VarOption, true, none⟩]
  init := ["options"]

/-- src/pymcnp/inp/Void.py:12-18. -/
def Void : Cls where
  info := ⟨"Void", .card, c!"void", ["numbers"]⟩
  shape := .flat ⟨.no, c!"void", .no, .no⟩ [⟨.ty (.base .int), .manyOpt⟩]
  attrs := [⟨"numbers", (.base .int), true, none⟩]
  init := ["numbers"]

/-- src/pymcnp/inp/Vol.py:13-20; setter conditions: lines 68, 109. -/
def Vol : Cls where
  info := ⟨"Vol", .card, c!"vol", ["no", "volumes"]⟩
  shape := .other (.seq (.lits c!"vol") (.seq (.opt (.ngrp (.seq (.lits c!" ") (.grp (.lits c!"no"))))) (.grp (.plus false (.ngrp (.seq (.lits c!" ") (.ty (.base .real))))))))
  attrs := [⟨"no", (.base .str), false, (some (.and .notNone (.not (.lowIn ["no"]))))⟩,
    ⟨"volumes", (.base .real), true, (some .isNone)⟩]
  init := ["no", "volumes"]

/-- src/pymcnp/inp/Wwe.py:13-20; setter conditions: lines 68, 109. -/
def Wwe : Cls where
  info := ⟨"Wwe", .card, c!"wwe", ["designator", "bounds"]⟩
  shape := .flat ⟨.no, c!"wwe", .no, .req⟩ [⟨.ty (.base .real), .many⟩]
  attrs := [⟨"designator", (.base .desig), false, (some .isNone)⟩,
    ⟨"bounds", (.base .real), true, (some .isNone)⟩]
  init := ["designator", "bounds"]

/-- src/pymcnp/inp/Wwg.py:13-22; setter conditions: lines 78, 116, 154. -/
def Wwg : Cls where
  info := ⟨"Wwg", .card, c!"wwg", ["tally", "cell", "lower", "setting"]⟩
  shape := .flat ⟨.no, c!"wwg", .no, .no⟩ [⟨.ty (.base .int), .req⟩, ⟨.ty (.base .int), .req⟩, ⟨.ty (.base .real), .req⟩, ⟨.ty (.base .int), .opt⟩]
  attrs := [⟨"tally", (.base .int), false, (some (.or .isNone (.not (.cmp .le (99999999) 0))))⟩,
    ⟨"cell", (.base .int), false, (some (.or .isNone (.not (.cmp .le (99999999) 0))))⟩,
    ⟨"lower", (.base .real), false, (some .isNone)⟩,
    ⟨"setting", (.base .int), false, none⟩]
  init := ["tally", "cell", "lower", "setting"]

/-- src/pymcnp/inp/Wwge.py:13-20; setter conditions: lines 68, 109. -/
def Wwge : Cls where
  info := ⟨"Wwge", .card, c!"wwge", ["designator", "bounds"]⟩
  shape := .flat ⟨.no, c!"wwge", .no, .req⟩ [⟨.ty (.base .real), .many⟩]
  attrs := [⟨"designator", (.base .desig), false, (some .isNone)⟩,
    ⟨"bounds", (.base .real), true, (some .isNone)⟩]
  init := ["designator", "bounds"]

/-- src/pymcnp/inp/Wwgt.py:13-20; setter conditions: lines 68, 109. -/
def Wwgt : Cls where
  info := ⟨"Wwgt", .card, c!"wwgt", ["designator", "bounds"]⟩
  shape := .flat ⟨.no, c!"wwgt", .no, .req⟩ [⟨.ty (.base .real), .many⟩]
  attrs := [⟨"designator", (.base .desig), false, (some .isNone)⟩,
    ⟨"bounds", (.base .real), true, (some .isNone)⟩]
  init := ["designator", "bounds"]

/-- src/pymcnp/inp/Wwn.py:13-21; setter conditions: lines 73, 109, 150. -/
def Wwn : Cls where
  info := ⟨"Wwn", .card, c!"wwn", ["suffix", "designator", "bounds"]⟩
  shape := .flat ⟨.no, c!"wwn", .req, .req⟩ [⟨.ty (.base .real), .many⟩]
  attrs := [⟨"suffix", (.base .int), false, (some (.or .isNone (.not (.cmp .le (99999999) 0))))⟩,
    ⟨"designator", (.base .desig), false, (some .isNone)⟩,
    ⟨"bounds", (.base .real), true, (some .isNone)⟩]
  init := ["suffix", "designator", "bounds"]

/-- src/pymcnp/inp/Wwp.py:13-29; setter conditions: lines 111, 149, 187, 225, 263, 406. -/
def Wwp : Cls where
  info := ⟨"Wwp", .card, c!"wwp", ["designator", "wupn", "wsurvn", "mxspln", "mwhere", "switchn", "mtime", "wnrom", "etsplt", "wu", "nmfp"]⟩
  shape := .flat ⟨.no, c!"wwp", .no, .req⟩ [⟨.ty (.base .real), .opt⟩, ⟨.ty (.base .real), .opt⟩, ⟨.ty (.base .real), .opt⟩, ⟨.ty (.base .int), .opt⟩, ⟨.ty (.base .real), .opt⟩, ⟨.ty (.base .int), .opt⟩, ⟨.ty (.base .real), .opt⟩, ⟨.ty (.base .int), .opt⟩, ⟨.ty (.base .real), .opt⟩, ⟨.ty (.base .real), .opt⟩]
  attrs := [⟨"designator", (.base .desig), false, (some .isNone)⟩,
    ⟨"wupn", (.base .real), false, (some (.and .notNone (.not (.or .isJump (.cmp .ge (2) 0)))))⟩,
    ⟨"wsurvn", (.base .real), false, (some (.and .notNone (.not (.or .isJump (.cmp .gt (1) 0)))))⟩,
    ⟨"mxspln", (.base .real), false, (some (.and .notNone (.not (.or .isJump (.cmp .gt (1) 0)))))⟩,
    ⟨"mwhere", (.base .int), false, (some (.and .notNone (.not (.or .isJump (.inInts [-1, 0, 1])))))⟩,
    ⟨"switchn", (.base .real), false, none⟩,
    ⟨"mtime", (.base .int), false, none⟩,
    ⟨"wnrom", (.base .real), false, none⟩,
    ⟨"etsplt", (.base .int), false, (some (.and .notNone (.not (.or .isJump (.inInts [0, 1])))))⟩,
    ⟨"wu", (.base .real), false, none⟩,
    ⟨"nmfp", (.base .real), false, none⟩]
  init := ["designator", "wupn", "wsurvn", "mxspln", "mwhere", "switchn", "mtime", "wnrom", "etsplt", "wu", "nmfp"]

/-- src/pymcnp/inp/Wwt.py:13-20; setter conditions: lines 68, 109. -/
def Wwt : Cls where
  info := ⟨"Wwt", .card, c!"wwt", ["designator", "bounds"]⟩
  shape := .flat ⟨.no, c!"wwt", .no, .req⟩ [⟨.ty (.base .real), .many⟩]
  attrs := [⟨"designator", (.base .desig), false, (some .isNone)⟩,
    ⟨"bounds", (.base .real), true, (some .isNone)⟩]
  init := ["designator", "bounds"]

/-- src/pymcnp/inp/Xs.py:13-20; setter conditions: lines 70, 109. -/
def Xs : Cls where
  info := ⟨"Xs", .card, c!"xs", ["suffix", "weight_ratios"]⟩
  shape := .flat ⟨.no, c!"xs", .req, .no⟩ [⟨.ty (.base .subst), .many⟩]
  attrs := [⟨"suffix", (.base .int), false, (some .isNone)⟩,
    ⟨"weight_ratios", (.base .subst), true, (some .isNone)⟩]
  init := ["suffix", "weight_ratios"]

/-- src/pymcnp/inp/Za.py:12-18. -/
def Za : Cls where
  info := ⟨"Za", .card, c!"za", ["anything"]⟩
  shape := .flat ⟨.no, c!"za", .no, .no⟩ [⟨.ty (.base .str), .opt⟩]
  attrs := [⟨"anything", (.base .str), false, none⟩]
  init := ["anything"]

/-- src/pymcnp/inp/Zb.py:12-18. -/
def Zb : Cls where
  info := ⟨"Zb", .card, c!"zb", ["anything"]⟩
  shape := .flat ⟨.no, c!"zb", .no, .no⟩ [⟨.ty (.base .str), .opt⟩]
  attrs := [⟨"anything", (.base .str), false, none⟩]
  init := ["anything"]

/-- src/pymcnp/inp/Zc.py:12-18. -/
def Zc : Cls where
  info := ⟨"Zc", .card, c!"zc", ["anything"]⟩
  shape := .flat ⟨.no, c!"zc", .no, .no⟩ [⟨.ty (.base .str), .opt⟩]
  attrs := [⟨"anything", (.base .str), false, none⟩]
  init := ["anything"]

/-- src/pymcnp/inp/Zd.py:12-18. -/
def Zd : Cls where
  info := ⟨"Zd", .card, c!"zd", ["anything"]⟩
  shape := .flat ⟨.no, c!"zd", .no, .no⟩ [⟨.ty (.base .str), .opt⟩]
  attrs := [⟨"anything", (.base .str), false, none⟩]
  init := ["anything"]

/-- Classes 1 to 20 of this file with the text of their patterns between `\A` and `\Z`. -/
def sourcesCards0 : List (Cls × Str) := [
  (Act, c!"act((?: (?:{act.ActOption._REGEX.pattern[2:-2]}))+?)?"),
  (Area, c!"area((?: {types.Real._REGEX.pattern[2:-2]})+?)"),
  (Awtab, c!"awtab((?: {types.Substance._REGEX.pattern[2:-2]})+?)"),
  (Bbrem, c!"bbrem( {types.Real._REGEX.pattern[2:-2]})( {types.Real._REGEX.pattern[2:-2]})( {types.Real._REGEX.pattern[2:-2]})( {types.Real._REGEX.pattern[2:-2]})( {types.Real._REGEX.pattern[2:-2]})( {types.Real._REGEX.pattern[2:-2]})( {types.Real._REGEX.pattern[2:-2]})( {types.Real._REGEX.pattern[2:-2]})( {types.Real._REGEX.pattern[2:-2]})( {types.Real._REGEX.pattern[2:-2]})( {types.Real._REGEX.pattern[2:-2]})( {types.Real._REGEX.pattern[2:-2]})( {types.Real._REGEX.pattern[2:-2]})( {types.Real._REGEX.pattern[2:-2]})( {types.Real._REGEX.pattern[2:-2]})( {types.Real._REGEX.pattern[2:-2]})( {types.Real._REGEX.pattern[2:-2]})( {types.Real._REGEX.pattern[2:-2]})( {types.Real._REGEX.pattern[2:-2]})( {types.Real._REGEX.pattern[2:-2]})( {types.Real._REGEX.pattern[2:-2]})( {types.Real._REGEX.pattern[2:-2]})( {types.Real._REGEX.pattern[2:-2]})( {types.Real._REGEX.pattern[2:-2]})( {types.Real._REGEX.pattern[2:-2]})( {types.Real._REGEX.pattern[2:-2]})( {types.Real._REGEX.pattern[2:-2]})( {types.Real._REGEX.pattern[2:-2]})( {types.Real._REGEX.pattern[2:-2]})( {types.Real._REGEX.pattern[2:-2]})( {types.Real._REGEX.pattern[2:-2]})( {types.Real._REGEX.pattern[2:-2]})( {types.Real._REGEX.pattern[2:-2]})( {types.Real._REGEX.pattern[2:-2]})( {types.Real._REGEX.pattern[2:-2]})( {types.Real._REGEX.pattern[2:-2]})( {types.Real._REGEX.pattern[2:-2]})( {types.Real._REGEX.pattern[2:-2]})( {types.Real._REGEX.pattern[2:-2]})( {types.Real._REGEX.pattern[2:-2]})( {types.Real._REGEX.pattern[2:-2]})( {types.Real._REGEX.pattern[2:-2]})( {types.Real._REGEX.pattern[2:-2]})( {types.Real._REGEX.pattern[2:-2]})( {types.Real._REGEX.pattern[2:-2]})( {types.Real._REGEX.pattern[2:-2]})( {types.Real._REGEX.pattern[2:-2]})( {types.Real._REGEX.pattern[2:-2]})( {types.Real._REGEX.pattern[2:-2]})((?: {types.Integer._REGEX.pattern[2:-2]})+?)"),
  (Bflcl, c!"bflcl((?: {types.Integer._REGEX.pattern[2:-2]})+?)"),
  (Bfld, c!"bfld(\\d+)( {types.String._REGEX.pattern[2:-2]})((?: (?:{bfld.BfldOption._REGEX.pattern[2:-2]}))+?)?"),
  (C, c!"([*]?)c(\\d+)((?: {types.Real._REGEX.pattern[2:-2]})+?)( {types.String._REGEX.pattern[2:-2]})?( {types.String._REGEX.pattern[2:-2]})?"),
  (Cell, c!"(\\S+)( \\S+)((?<! 0) \\S+|(?<= 0))( [^a-z]+)((?: (?:{cell.CellOption._REGEX.pattern[2:-2]}))+?)?"),
  (Cf, c!"cf(\\d+)((?: {types.Integer._REGEX.pattern[2:-2]})+?)"),
  (Cm, c!"cm(\\d+)((?: {types.Real._REGEX.pattern[2:-2]})+?)"),
  (Comment, c!"c(?: (.*))?"),
  (Cosy, c!"cosy((?: {types.Integer._REGEX.pattern[2:-2]})+?)"),
  (Cosyp, c!"cosyp( {types.Integer._REGEX.pattern[2:-2]})( {types.Integer._REGEX.pattern[2:-2]})( {types.Integer._REGEX.pattern[2:-2]})((?: {types.Real._REGEX.pattern[2:-2]})+?)"),
  (Ctme, c!"ctme( {types.Integer._REGEX.pattern[2:-2]})"),
  (Cut, c!"cut:(\\S+)( {types.Real._REGEX.pattern[2:-2]})?( {types.Real._REGEX.pattern[2:-2]})?( {types.Real._REGEX.pattern[2:-2]})?( {types.Real._REGEX.pattern[2:-2]})?( {types.Real._REGEX.pattern[2:-2]})?"),
  (Dawwg, c!"dawwg((?: (?:{dawwg.DawwgOption._REGEX.pattern[2:-2]}))+?)?"),
  (Dbcn, c!"dbcn( {types.Integer._REGEX.pattern[2:-2]})?( {types.Integer._REGEX.pattern[2:-2]})?( {types.Integer._REGEX.pattern[2:-2]})?( {types.Integer._REGEX.pattern[2:-2]})?( {types.Integer._REGEX.pattern[2:-2]})?( {types.Integer._REGEX.pattern[2:-2]})?( {types.Integer._REGEX.pattern[2:-2]})?( {types.Integer._REGEX.pattern[2:-2]})?( {types.Integer._REGEX.pattern[2:-2]})?( {types.Integer._REGEX.pattern[2:-2]})?( {types.Integer._REGEX.pattern[2:-2]})?( {types.Integer._REGEX.pattern[2:-2]})?( {types.Integer._REGEX.pattern[2:-2]})?( {types.Integer._REGEX.pattern[2:-2]})?( {types.Integer._REGEX.pattern[2:-2]})?( {types.Integer._REGEX.pattern[2:-2]})?( {types.Integer._REGEX.pattern[2:-2]})?( {types.Integer._REGEX.pattern[2:-2]})?( {types.Integer._REGEX.pattern[2:-2]})?( {types.Integer._REGEX.pattern[2:-2]})?( {types.Integer._REGEX.pattern[2:-2]})?( {types.Integer._REGEX.pattern[2:-2]})?( {types.Integer._REGEX.pattern[2:-2]})?( {types.Integer._REGEX.pattern[2:-2]})?( {types.Integer._REGEX.pattern[2:-2]})?( {types.Integer._REGEX.pattern[2:-2]})?( {types.Integer._REGEX.pattern[2:-2]})?( {types.Integer._REGEX.pattern[2:-2]})?( {types.Integer._REGEX.pattern[2:-2]})?( {types.Integer._REGEX.pattern[2:-2]})?( {types.Integer._REGEX.pattern[2:-2]})?( {types.Integer._REGEX.pattern[2:-2]})?( {types.Integer._REGEX.pattern[2:-2]})?( {types.Integer._REGEX.pattern[2:-2]})?( {types.Integer._REGEX.pattern[2:-2]})?( {types.Integer._REGEX.pattern[2:-2]})?( {types.Integer._REGEX.pattern[2:-2]})?( {types.Integer._REGEX.pattern[2:-2]})?( {types.Integer._REGEX.pattern[2:-2]})?( {types.Integer._REGEX.pattern[2:-2]})?( {types.Integer._REGEX.pattern[2:-2]})?( {types.Integer._REGEX.pattern[2:-2]})?( {types.Integer._REGEX.pattern[2:-2]})?( {types.Integer._REGEX.pattern[2:-2]})?( {types.Integer._REGEX.pattern[2:-2]})?( {types.Integer._REGEX.pattern[2:-2]})?( {types.Integer._REGEX.pattern[2:-2]})?( {types.Integer._REGEX.pattern[2:-2]})?( {types.Integer._REGEX.pattern[2:-2]})?( {types.Integer._REGEX.pattern[2:-2]})?( {types.Integer._REGEX.pattern[2:-2]})?( {types.Integer._REGEX.pattern[2:-2]})?( {types.Integer._REGEX.pattern[2:-2]})?( {types.Integer._REGEX.pattern[2:-2]})?( {types.Integer._REGEX.pattern[2:-2]})?( {types.Integer._REGEX.pattern[2:-2]})?( {types.Integer._REGEX.pattern[2:-2]})?( {types.Integer._REGEX.pattern[2:-2]})?( {types.Integer._REGEX.pattern[2:-2]})?( {types.Integer._REGEX.pattern[2:-2]})?( {types.Integer._REGEX.pattern[2:-2]})?( {types.Integer._REGEX.pattern[2:-2]})?( {types.Integer._REGEX.pattern[2:-2]})?( {types.Integer._REGEX.pattern[2:-2]})?( {types.Integer._REGEX.pattern[2:-2]})?( {types.Integer._REGEX.pattern[2:-2]})?( {types.Integer._REGEX.pattern[2:-2]})?( {types.Integer._REGEX.pattern[2:-2]})?( {types.Integer._REGEX.pattern[2:-2]})?( {types.Integer._REGEX.pattern[2:-2]})?( {types.Integer._REGEX.pattern[2:-2]})?( {types.Integer._REGEX.pattern[2:-2]})?( {types.Integer._REGEX.pattern[2:-2]})?( {types.Integer._REGEX.pattern[2:-2]})?( {types.Integer._REGEX.pattern[2:-2]})?( {types.Integer._REGEX.pattern[2:-2]})?( {types.Integer._REGEX.pattern[2:-2]})?( {types.Integer._REGEX.pattern[2:-2]})?( {types.Integer._REGEX.pattern[2:-2]})?( {types.Integer._REGEX.pattern[2:-2]})?( {types.Integer._REGEX.pattern[2:-2]})?( {types.Integer._REGEX.pattern[2:-2]})?( {types.Integer._REGEX.pattern[2:-2]})?( {types.Integer._REGEX.pattern[2:-2]})?( {types.Integer._REGEX.pattern[2:-2]})?( {types.Integer._REGEX.pattern[2:-2]})?( {types.Integer._REGEX.pattern[2:-2]})?( {types.Integer._REGEX.pattern[2:-2]})?( {types.Integer._REGEX.pattern[2:-2]})?( {types.Integer._REGEX.pattern[2:-2]})?( {types.Integer._REGEX.pattern[2:-2]})?( {types.Integer._REGEX.pattern[2:-2]})?( {types.Integer._REGEX.pattern[2:-2]})?( {types.Integer._REGEX.pattern[2:-2]})?( {types.Integer._REGEX.pattern[2:-2]})?( {types.Integer._REGEX.pattern[2:-2]})?( {types.Integer._REGEX.pattern[2:-2]})?( {types.Integer._REGEX.pattern[2:-2]})?( {types.Integer._REGEX.pattern[2:-2]})?( {types.Integer._REGEX.pattern[2:-2]})?"),
  (Dd, c!"dd(\\d+)?((?: {dd.Diagnostic._REGEX.pattern[2:-2]})+?)"),
  (De, c!"de(\\d+)( (?:log|lin))?((?: {types.Real._REGEX.pattern[2:-2]})+?)"),
  (Df_0, c!"df(\\d+)( (?:log|lin))?((?: {types.Real._REGEX.pattern[2:-2]})+?)")]

theorem sourcesCards0_ok : sourcesCards0.all (fun p => p.1.pat.src == p.2) = true := by decide +kernel

/-- Classes 21 to 40 of this file with the text of their patterns between `\A` and `\Z`. -/
def sourcesCards1 : List (Cls × Str) := [
  (Df_1, c!"df(\\d+)((?: (?:{df_1.DfOption_1._REGEX.pattern[2:-2]}))+?)"),
  (Dm, c!"dm(\\d+)((?: {types.Zaid._REGEX.pattern[2:-2]})+?)"),
  (Drxs, c!"drxs((?: {types.Zaid._REGEX.pattern[2:-2]})+?)?"),
  (Ds_0, c!"ds(\\d+)( [hls])?((?: {types.Real._REGEX.pattern[2:-2]})+?)"),
  (Ds_1, c!"ds(\\d+) t((?: {ds_1.Variables._REGEX.pattern[2:-2]})+?)"),
  (Ds_2, c!"ds(\\d+) q((?: {ds_2.Variables._REGEX.pattern[2:-2]})+?)"),
  (Ds_3, c!"ds(\\d+) s((?: {types.Distribution._REGEX.pattern[2:-2]})+)"),
  (Dxc, c!"dxc(\\d+):(\\S+)((?: {types.Real._REGEX.pattern[2:-2]})+?)"),
  (Dxt, c!"dxt:(\\S+)( \\S+ \\S+ \\S+ \\S+ \\S+)( \\S+ \\S+ \\S+ \\S+ \\S+)( \\S+ \\S+ \\S+ \\S+ \\S+)( \\S+ \\S+ \\S+ \\S+ \\S+)( \\S+ \\S+ \\S+ \\S+ \\S+)( \\S+ \\S+ \\S+ \\S+ \\S+)( \\S+ \\S+ \\S+ \\S+ \\S+)( \\S+ \\S+ \\S+ \\S+ \\S+)( \\S+ \\S+ \\S+ \\S+ \\S+)( \\S+ \\S+ \\S+ \\S+ \\S+)( {types.Real._REGEX.pattern[2:-2]})( {types.Real._REGEX.pattern[2:-2]})( {types.Real._REGEX.pattern[2:-2]})"),
  (E, c!"e(\\d+)((?: {types.Real._REGEX.pattern[2:-2]})+?)( {types.String._REGEX.pattern[2:-2]})?( {types.String._REGEX.pattern[2:-2]})?"),
  (Elpt, c!"elpt((?: {types.Real._REGEX.pattern[2:-2]})+?)"),
  (Em, c!"em(\\d+)((?: {types.Real._REGEX.pattern[2:-2]})+?)"),
  (Embdb, c!"embdb(\\d+)((?: {types.Real._REGEX.pattern[2:-2]})+?)"),
  (Embdf, c!"embdf(\\d+)((?: {types.Real._REGEX.pattern[2:-2]})+?)"),
  (Embeb, c!"embeb(\\d+)((?: {types.Real._REGEX.pattern[2:-2]})+?)"),
  (Embed, c!"embed(\\d+)?((?: (?:{embed.EmbedOption._REGEX.pattern[2:-2]}))+?)?"),
  (Embee, c!"embee(\\d+):(\\S+)((?: (?:{embee.EmbeeOption._REGEX.pattern[2:-2]}))+?)?"),
  (Embem, c!"embem(\\d+)((?: {types.Real._REGEX.pattern[2:-2]})+?)"),
  (Embtb, c!"embtb(\\d+)((?: {types.Real._REGEX.pattern[2:-2]})+?)"),
  (Embtm, c!"embtm(\\d+)((?: {types.Real._REGEX.pattern[2:-2]})+?)")]

theorem sourcesCards1_ok : sourcesCards1.all (fun p => p.1.pat.src == p.2) = true := by decide +kernel

/-- Classes 41 to 60 of this file with the text of their patterns between `\A` and `\Z`. -/
def sourcesCards2 : List (Cls × Str) := [
  (Esplt, c!"esplt:(\\S+)( {types.Real._REGEX.pattern[2:-2]})?( {types.Real._REGEX.pattern[2:-2]})?( {types.Real._REGEX.pattern[2:-2]})?( {types.Real._REGEX.pattern[2:-2]})?( {types.Real._REGEX.pattern[2:-2]})?( {types.Real._REGEX.pattern[2:-2]})?( {types.Real._REGEX.pattern[2:-2]})?( {types.Real._REGEX.pattern[2:-2]})?( {types.Real._REGEX.pattern[2:-2]})?( {types.Real._REGEX.pattern[2:-2]})?( {types.Real._REGEX.pattern[2:-2]})?( {types.Real._REGEX.pattern[2:-2]})?( {types.Real._REGEX.pattern[2:-2]})?( {types.Real._REGEX.pattern[2:-2]})?( {types.Real._REGEX.pattern[2:-2]})?( {types.Real._REGEX.pattern[2:-2]})?( {types.Real._REGEX.pattern[2:-2]})?( {types.Real._REGEX.pattern[2:-2]})?( {types.Real._REGEX.pattern[2:-2]})?( {types.Real._REGEX.pattern[2:-2]})?( {types.Real._REGEX.pattern[2:-2]})?( {types.Real._REGEX.pattern[2:-2]})?( {types.Real._REGEX.pattern[2:-2]})?( {types.Real._REGEX.pattern[2:-2]})?( {types.Real._REGEX.pattern[2:-2]})?( {types.Real._REGEX.pattern[2:-2]})?( {types.Real._REGEX.pattern[2:-2]})?( {types.Real._REGEX.pattern[2:-2]})?( {types.Real._REGEX.pattern[2:-2]})?( {types.Real._REGEX.pattern[2:-2]})?( {types.Real._REGEX.pattern[2:-2]})?( {types.Real._REGEX.pattern[2:-2]})?( {types.Real._REGEX.pattern[2:-2]})?( {types.Real._REGEX.pattern[2:-2]})?( {types.Real._REGEX.pattern[2:-2]})?( {types.Real._REGEX.pattern[2:-2]})?( {types.Real._REGEX.pattern[2:-2]})?( {types.Real._REGEX.pattern[2:-2]})?( {types.Real._REGEX.pattern[2:-2]})?( {types.Real._REGEX.pattern[2:-2]})?"),
  (Ext, c!"ext:(\\S+)((?: {types.String._REGEX.pattern[2:-2]})+?)"),
  (F_0, c!"([*+])?f(\\d*[123467])(?::(\\S+))?((?: {types.Integer._REGEX.pattern[2:-2]})+?)( t)?"),
  (F_1, c!"([*+])?f(\\d*[5])(?::(\\S+))?((?: \\S+ \\S+ \\S+ \\S+)+?)( nd)?"),
  (F_2, c!"([*+])?f(\\d*[5])([xyz])(?::(\\S+))?((?: \\S+ \\S+ \\S+)+?)( nd)?"),
  (F_3, c!"([*+])?f(\\d*[8])(?::(\\S+))?((?: {types.Integer._REGEX.pattern[2:-2]})+?)( t)?"),
  (F_4, c!"([*+])?f(\\d*[123467])(?::(\\S+))?((?: {types.Lattice._REGEX.pattern[3:-3]})+?)( t)?"),
  (Fc, c!"fc(\\d+)( [\\S\\s]+)"),
  (Fcl, c!"fcl:(\\S+)((?: {types.Real._REGEX.pattern[2:-2]})+?)"),
  (Fic, c!"fic(\\d+):(\\S+)( {types.Real._REGEX.pattern[2:-2]})( {types.Real._REGEX.pattern[2:-2]})( {types.Real._REGEX.pattern[2:-2]})( {types.Real._REGEX.pattern[2:-2]})( {types.Real._REGEX.pattern[2:-2]})( {types.Real._REGEX.pattern[2:-2]})( {types.Real._REGEX.pattern[2:-2]})( {types.Real._REGEX.pattern[2:-2]})( {types.Real._REGEX.pattern[2:-2]})( {types.Real._REGEX.pattern[2:-2]})"),
  (Files, c!"files((?: {files.File._REGEX.pattern[2:-2]})+?)"),
  (Fill, c!"fill((?: {types.Integer._REGEX.pattern[2:-2]})+?)"),
  (Fip, c!"fip(\\d+):(\\S+)( {types.Real._REGEX.pattern[2:-2]})( {types.Real._REGEX.pattern[2:-2]})( {types.Real._REGEX.pattern[2:-2]})( {types.Real._REGEX.pattern[2:-2]})( {types.Real._REGEX.pattern[2:-2]})( {types.Real._REGEX.pattern[2:-2]})( {types.Real._REGEX.pattern[2:-2]})( {types.Real._REGEX.pattern[2:-2]})( {types.Real._REGEX.pattern[2:-2]})( {types.Real._REGEX.pattern[2:-2]})"),
  (Fir, c!"fir(\\d+)(?::(\\S+))?( {types.Real._REGEX.pattern[2:-2]})( {types.Real._REGEX.pattern[2:-2]})( {types.Real._REGEX.pattern[2:-2]})( {types.Real._REGEX.pattern[2:-2]})( {types.Real._REGEX.pattern[2:-2]})( {types.Real._REGEX.pattern[2:-2]})( {types.Real._REGEX.pattern[2:-2]})( {types.Real._REGEX.pattern[2:-2]})( {types.Real._REGEX.pattern[2:-2]})( {types.Real._REGEX.pattern[2:-2]})"),
  (Fm, c!"([+*])?fm(\\d+)( [\\S\\s]+)"),
  (Fmesh, c!"fmesh(\\d+):(\\S+)((?: (?:{fmesh.FmeshOption._REGEX.pattern[2:-2]}))+?)?"),
  (Fmult, c!"fmult( {types.Zaid._REGEX.pattern[2:-2]})((?: (?:{fmult.FmultOption._REGEX.pattern[2:-2]}))+?)?"),
  (Fq, c!"fq(\\d+)?( {types.String._REGEX.pattern[2:-2]})?( {types.String._REGEX.pattern[2:-2]})?( {types.String._REGEX.pattern[2:-2]})?( {types.String._REGEX.pattern[2:-2]})?( {types.String._REGEX.pattern[2:-2]})?( {types.String._REGEX.pattern[2:-2]})?( {types.String._REGEX.pattern[2:-2]})?( {types.String._REGEX.pattern[2:-2]})?"),
  (Fs, c!"fs(\\d+)((?: {types.Integer._REGEX.pattern[2:-2]})+?)( t)?( c)?"),
  (Ft, c!"ft(\\d+)( [\\S\\s]+)")]

theorem sourcesCards2_ok : sourcesCards2.all (fun p => p.1.pat.src == p.2) = true := by decide +kernel

/-- Classes 61 to 80 of this file with the text of their patterns between `\A` and `\Z`. -/
def sourcesCards3 : List (Cls × Str) := [
  (Fu, c!"fu(\\d+)((?: {types.Real._REGEX.pattern[2:-2]})+?)(?: (nt))?(?: (c))?"),
  (Histp, c!"histp( {types.Integer._REGEX.pattern[2:-2]})?((?: {types.Integer._REGEX.pattern[2:-2]})+?)?"),
  (Hsrc, c!"hsrc( {types.Integer._REGEX.pattern[2:-2]})( {types.Real._REGEX.pattern[2:-2]})( {types.Real._REGEX.pattern[2:-2]})( {types.Integer._REGEX.pattern[2:-2]})( {types.Real._REGEX.pattern[2:-2]})( {types.Real._REGEX.pattern[2:-2]})( {types.Integer._REGEX.pattern[2:-2]})( {types.Real._REGEX.pattern[2:-2]})( {types.Real._REGEX.pattern[2:-2]})"),
  (Idum, c!"idum((?: {types.Integer._REGEX.pattern[2:-2]})+?)"),
  (Imp, c!"imp:(\\S+)((?: {types.Real._REGEX.pattern[2:-2]})+?)"),
  (Kcode, c!"kcode( {types.Integer._REGEX.pattern[2:-2]})?( {types.Real._REGEX.pattern[2:-2]})?( {types.Integer._REGEX.pattern[2:-2]})?( {types.Integer._REGEX.pattern[2:-2]})?( {types.Integer._REGEX.pattern[2:-2]})?( {types.Integer._REGEX.pattern[2:-2]})?( {types.Integer._REGEX.pattern[2:-2]})?( {types.Integer._REGEX.pattern[2:-2]})?"),
  (Kopts, c!"kopts((?: (?:{kopts.KoptsOption._REGEX.pattern[2:-2]}))+?)?"),
  (Kpert, c!"kpert(\\d+)((?: (?:{kpert.KpertOption._REGEX.pattern[2:-2]}))+?)?"),
  (Ksen, c!"ksen(\\d+)( {types.String._REGEX.pattern[2:-2]})((?: (?:{ksen.KsenOption._REGEX.pattern[2:-2]}))+?)?"),
  (Ksrc, c!"ksrc((?: {ksrc.Location._REGEX.pattern[2:-2]})+?)"),
  (Lat, c!"lat((?: {types.Integer._REGEX.pattern[2:-2]})+?)"),
  (Lca, c!"lca( {types.Integer._REGEX.pattern[2:-2]})?( {types.Integer._REGEX.pattern[2:-2]})?( {types.Integer._REGEX.pattern[2:-2]})?( {types.Integer._REGEX.pattern[2:-2]})?( {types.Integer._REGEX.pattern[2:-2]})?( {types.Integer._REGEX.pattern[2:-2]})?( {types.Integer._REGEX.pattern[2:-2]})?( {types.Integer._REGEX.pattern[2:-2]})?( {types.Integer._REGEX.pattern[2:-2]})?( {types.Integer._REGEX.pattern[2:-2]})?( {types.Integer._REGEX.pattern[2:-2]})?"),
  (Lcb, c!"lcb( {types.Real._REGEX.pattern[2:-2]})?( {types.Real._REGEX.pattern[2:-2]})?( {types.Real._REGEX.pattern[2:-2]})?( {types.Real._REGEX.pattern[2:-2]})?( {types.Real._REGEX.pattern[2:-2]})?( {types.Real._REGEX.pattern[2:-2]})?( {types.Real._REGEX.pattern[2:-2]})?( {types.Real._REGEX.pattern[2:-2]})?"),
  (Lcc, c!"lcc( {types.Real._REGEX.pattern[2:-2]})?( {types.Real._REGEX.pattern[2:-2]})?( {types.Real._REGEX.pattern[2:-2]})?( {types.Integer._REGEX.pattern[2:-2]})?( {types.Integer._REGEX.pattern[2:-2]})?( {types.Real._REGEX.pattern[2:-2]})?( {types.Real._REGEX.pattern[2:-2]})?( {types.Real._REGEX.pattern[2:-2]})?"),
  (Lea, c!"lea( {types.Integer._REGEX.pattern[2:-2]})?( {types.Integer._REGEX.pattern[2:-2]})?( {types.Integer._REGEX.pattern[2:-2]})?( {types.Integer._REGEX.pattern[2:-2]})?( {types.Integer._REGEX.pattern[2:-2]})?( {types.Integer._REGEX.pattern[2:-2]})?( {types.Integer._REGEX.pattern[2:-2]})?( {types.Integer._REGEX.pattern[2:-2]})?"),
  (Leb, c!"leb( {types.Real._REGEX.pattern[2:-2]})?( {types.Real._REGEX.pattern[2:-2]})?( {types.Real._REGEX.pattern[2:-2]})?( {types.Real._REGEX.pattern[2:-2]})?"),
  (Like, c!"(\\S+) like (\\S+) but((?: (?:{like.LikeOption._REGEX.pattern[2:-2]}))+?)?"),
  (Lost, c!"lost( {types.Integer._REGEX.pattern[2:-2]})( {types.Integer._REGEX.pattern[2:-2]})"),
  (M_0, c!"m(\\d+)((?: {types.Substance._REGEX.pattern[2:-2]})+?)((?: (?:{m_0.MOption_0._REGEX.pattern[2:-2]}))+?)?"),
  (M_1, c!"m(\\d+)( {types.String._REGEX.pattern[2:-2]})")]

theorem sourcesCards3_ok : sourcesCards3.all (fun p => p.1.pat.src == p.2) = true := by decide +kernel

/-- Classes 81 to 100 of this file with the text of their patterns between `\A` and `\Z`. -/
def sourcesCards4 : List (Cls × Str) := [
  (Mesh, c!"mesh((?: (?:{mesh.MeshOption._REGEX.pattern[2:-2]}))+?)?"),
  (Mgopt, c!"mgopt( {types.String._REGEX.pattern[2:-2]})( {types.Integer._REGEX.pattern[2:-2]})( {types.Integer._REGEX.pattern[2:-2]})?( {types.Integer._REGEX.pattern[2:-2]})?( {types.Integer._REGEX.pattern[2:-2]})?( {types.Real._REGEX.pattern[2:-2]})?( {types.Real._REGEX.pattern[2:-2]})?"),
  (Mode, c!"mode((?: {types.Designator._REGEX.pattern[2:-2]})+?)"),
  (Mphys, c!"mphys( {types.String._REGEX.pattern[2:-2]})?"),
  (Mplot, c!"mplot((?: (?:{mplot.MplotOption._REGEX.pattern[2:-2]}))+?)?"),
  (Mt, c!"mt(\\d+)((?: {types.String._REGEX.pattern[2:-2]})+?)"),
  (Mx, c!"mx(\\d+):(\\S+)((?: (?:{types.Zaid._REGEX.pattern[2:-2]}|j|model|0))+?)"),
  (Nonu, c!"nonu((?: {types.Integer._REGEX.pattern[2:-2]})+?)?"),
  (Notrn, c!"notrn"),
  (Nps, c!"nps( {types.Integer._REGEX.pattern[2:-2]})( {types.Integer._REGEX.pattern[2:-2]})?"),
  (Otfdb, c!"otfdb((?: {types.Zaid._REGEX.pattern[2:-2]})+?)"),
  (Pd, c!"pd(\\d+):(\\S+)((?: {types.Real._REGEX.pattern[2:-2]})+?)"),
  (Pert, c!"pert(\\d+):(\\S+)((?: (?:{pert.PertOption._REGEX.pattern[2:-2]}))+?)?"),
  (Phys_0, c!"phys:n( {types.Real._REGEX.pattern[2:-2]})?( {types.Real._REGEX.pattern[2:-2]})?( {types.Integer._REGEX.pattern[2:-2]})?( {types.Real._REGEX.pattern[2:-2]})?( {types.Integer._REGEX.pattern[2:-2]})?( {types.Integer._REGEX.pattern[2:-2]})?( {types.Integer._REGEX.pattern[2:-2]})?( {types.Integer._REGEX.pattern[2:-2]})?"),
  (Phys_1, c!"phys:p( {types.Real._REGEX.pattern[2:-2]})?( {types.Integer._REGEX.pattern[2:-2]})?( {types.Integer._REGEX.pattern[2:-2]})?( {types.Integer._REGEX.pattern[2:-2]})?( {types.Integer._REGEX.pattern[2:-2]})?( {types.Integer._REGEX.pattern[2:-2]})?"),
  (Phys_2, c!"phys:e(?: (\\S+))?(?: (\\S+))?(?: (\\S+))?(?: (\\S+))?(?: (\\S+))?(?: (\\S+))?(?: (\\S+))?(?: (\\S+))?(?: (\\S+))?(?: (\\S+))?(?: (\\S+))?(?: (j j))?(?: (\\S+))?(?: (\\S+))?(?: (\\S+))?"),
  (Phys_3, c!"phys:h( {types.Real._REGEX.pattern[2:-2]})?( {types.Real._REGEX.pattern[2:-2]})?( {types.Real._REGEX.pattern[2:-2]})?( {types.Integer._REGEX.pattern[2:-2]})?( {types.Real._REGEX.pattern[2:-2]})?( {types.Integer._REGEX.pattern[2:-2]})?( {types.Integer._REGEX.pattern[2:-2]})?( {types.Integer._REGEX.pattern[2:-2]})?( {types.Real._REGEX.pattern[2:-2]})?( {types.Real._REGEX.pattern[2:-2]})?( {types.Real._REGEX.pattern[2:-2]})?"),
  (Phys_4, c!"phys:(\\S+)( {types.Real._REGEX.pattern[2:-2]})?( {types.Integer._REGEX.pattern[2:-2]})?( {types.Integer._REGEX.pattern[2:-2]})?( {types.Real._REGEX.pattern[2:-2]})?( {types.Integer._REGEX.pattern[2:-2]})?( {types.Integer._REGEX.pattern[2:-2]})?( {types.Integer._REGEX.pattern[2:-2]})?( {types.Real._REGEX.pattern[2:-2]})?( {types.Real._REGEX.pattern[2:-2]})?( {types.Real._REGEX.pattern[2:-2]})?"),
  (Pikmt, c!"pikmt((?: {pikmt.Photonbias._REGEX.pattern[2:-2]})+?)"),
  (Prdmp, c!"prdmp( {types.Integer._REGEX.pattern[2:-2]})?( {types.Integer._REGEX.pattern[2:-2]})?( {types.Integer._REGEX.pattern[2:-2]})?( {types.Integer._REGEX.pattern[2:-2]})?( {types.Integer._REGEX.pattern[2:-2]})?")]

theorem sourcesCards4_ok : sourcesCards4.all (fun p => p.1.pat.src == p.2) = true := by decide +kernel

/-- Classes 101 to 120 of this file with the text of their patterns between `\A` and `\Z`. -/
def sourcesCards5 : List (Cls × Str) := [
  (Print, c!"print((?: {types.Integer._REGEX.pattern[2:-2]})+?)?"),
  (Ptrac, c!"ptrac((?: (?:{ptrac.PtracOption._REGEX.pattern[2:-2]}))+?)?"),
  (Pwt, c!"pwt((?: {types.Real._REGEX.pattern[2:-2]})+?)"),
  (Rand, c!"rand((?: (?:{rand.RandOption._REGEX.pattern[2:-2]}))+?)?"),
  (Rdum, c!"rdum((?: {types.Real._REGEX.pattern[2:-2]})+?)"),
  (Sb_0, c!"sb(\\d+)( [dcvw])?((?: {types.Real._REGEX.pattern[2:-2]})+?)"),
  (Sb_1, c!"sb( {types.Integer._REGEX.pattern[2:-2]})( {types.Real._REGEX.pattern[2:-2]})( {types.Real._REGEX.pattern[2:-2]})?"),
  (Sc, c!"sc(\\d+)((?: {types.String._REGEX.pattern[2:-2]})+?)"),
  (Sd, c!"sd(\\d+)((?: {types.Real._REGEX.pattern[2:-2]})+?)"),
  (Sdef, c!"sdef((?: (?:{sdef.SdefOption._REGEX.pattern[2:-2]}))+?)?"),
  (Sf, c!"sf(\\d+)((?: {types.Integer._REGEX.pattern[2:-2]})+?)"),
  (Si_0, c!"si(\\d+)( [hlas])?((?: {types.Distribution._REGEX.pattern[2:-2]})+?)"),
  (Si_1, c!"si(\\d+)( [hlas])?((?: {types.Real._REGEX.pattern[2:-2]})+?)"),
  (Si_2, c!"si(\\d+)( [hlas])?((?: {types.Designator._REGEX.pattern[2:-2]})+?)"),
  (Sp_0, c!"sp(\\d+)( [dcvw])?((?: {types.Real._REGEX.pattern[2:-2]})+?)"),
  (Sp_1, c!"sp( {types.Integer._REGEX.pattern[2:-2]})( {types.Real._REGEX.pattern[2:-2]})( {types.Real._REGEX.pattern[2:-2]})?"),
  (Spdtl, c!"spdtl( {types.String._REGEX.pattern[2:-2]})"),
  (Ssr, c!"ssr((?: (?:{ssr.SsrOption._REGEX.pattern[2:-2]}))+?)?"),
  (Ssw, c!"ssw((?: {types.Integer._REGEX.pattern[2:-2]})+?)((?: {types.Integer._REGEX.pattern[2:-2]})+?)?((?: (?:{ssw.SswOption._REGEX.pattern[2:-2]}))+?)?"),
  (Stop, c!"stop((?: (?:{stop.StopOption._REGEX.pattern[2:-2]}))+?)?")]

theorem sourcesCards5_ok : sourcesCards5.all (fun p => p.1.pat.src == p.2) = true := by decide +kernel

/-- Classes 121 to 140 of this file with the text of their patterns between `\A` and `\Z`. -/
def sourcesCards6 : List (Cls × Str) := [
  (Surface, c!"(\\+|\\*)?(\\S+)( \\S+)?( ({surface.SurfaceOption._REGEX.pattern[2:-2]}))"),
  (T_0, c!"t(\\d+)((?: {types.Real._REGEX.pattern[2:-2]})+?)( {types.String._REGEX.pattern[2:-2]})?( {types.String._REGEX.pattern[2:-2]})?"),
  (T_1, c!"t(\\d+)((?: (?:{t_1.TOption_1._REGEX.pattern[2:-2]}))+?)"),
  (Talnp, c!"talnp((?: {types.Integer._REGEX.pattern[2:-2]})+?)?"),
  (Tf_0, c!"tf(\\d+)( {types.Integer._REGEX.pattern[2:-2]})?( {types.Integer._REGEX.pattern[2:-2]})?( {types.Integer._REGEX.pattern[2:-2]})?( {types.Integer._REGEX.pattern[2:-2]})?( {types.Integer._REGEX.pattern[2:-2]})?( {types.Integer._REGEX.pattern[2:-2]})?( {types.Integer._REGEX.pattern[2:-2]})?( {types.Integer._REGEX.pattern[2:-2]})?"),
  (Tf_1, c!"tf(\\d+)( {types.Integer._REGEX.pattern[2:-2]})?( {types.Integer._REGEX.pattern[2:-2]})?( {types.Integer._REGEX.pattern[2:-2]})?( {types.Integer._REGEX.pattern[2:-2]})?( {types.Integer._REGEX.pattern[2:-2]})?( {types.Integer._REGEX.pattern[2:-2]})?( {types.Integer._REGEX.pattern[2:-2]})?( {types.Integer._REGEX.pattern[2:-2]})?( {types.Integer._REGEX.pattern[2:-2]})?( {types.Integer._REGEX.pattern[2:-2]})?( {types.Integer._REGEX.pattern[2:-2]})?( {types.Integer._REGEX.pattern[2:-2]})?( {types.Integer._REGEX.pattern[2:-2]})?( {types.Integer._REGEX.pattern[2:-2]})?( {types.Integer._REGEX.pattern[2:-2]})?( {types.Integer._REGEX.pattern[2:-2]})?"),
  (Thtme, c!"thtme((?: {types.Real._REGEX.pattern[2:-2]})+?)"),
  (Tm, c!"tm(\\d+)((?: {types.Real._REGEX.pattern[2:-2]})+?)"),
  (Tmp, c!"tmp(\\d+)?((?: {types.Real._REGEX.pattern[2:-2]})+?)"),
  (Totnu, c!"totnu( {types.String._REGEX.pattern[2:-2]})?"),
  (Tr_0, c!"([*])?tr(\\d+)( {types.Real._REGEX.pattern[2:-2]})( {types.Real._REGEX.pattern[2:-2]})( {types.Real._REGEX.pattern[2:-2]})( {types.Real._REGEX.pattern[2:-2]})( {types.Real._REGEX.pattern[2:-2]})( {types.Real._REGEX.pattern[2:-2]})( {types.Real._REGEX.pattern[2:-2]})( {types.Real._REGEX.pattern[2:-2]})( {types.Real._REGEX.pattern[2:-2]})( {types.Real._REGEX.pattern[2:-2]})( {types.Real._REGEX.pattern[2:-2]})( {types.Real._REGEX.pattern[2:-2]})( {types.Integer._REGEX.pattern[2:-2]})?"),
  (Tr_1, c!"([*])?tr(\\d+)( {types.Real._REGEX.pattern[2:-2]})( {types.Real._REGEX.pattern[2:-2]})( {types.Real._REGEX.pattern[2:-2]})( {types.Real._REGEX.pattern[2:-2]})( {types.Real._REGEX.pattern[2:-2]})( {types.Real._REGEX.pattern[2:-2]})( {types.Real._REGEX.pattern[2:-2]})( {types.Real._REGEX.pattern[2:-2]})( {types.Real._REGEX.pattern[2:-2]})( {types.Integer._REGEX.pattern[2:-2]})?"),
  (Tr_2, c!"([*])?tr(\\d+)( {types.Real._REGEX.pattern[2:-2]})( {types.Real._REGEX.pattern[2:-2]})( {types.Real._REGEX.pattern[2:-2]})( {types.Real._REGEX.pattern[2:-2]})( {types.Real._REGEX.pattern[2:-2]})( {types.Real._REGEX.pattern[2:-2]})( {types.Real._REGEX.pattern[2:-2]})( {types.Real._REGEX.pattern[2:-2]})( {types.Integer._REGEX.pattern[2:-2]})?"),
  (Tr_3, c!"([*])?tr(\\d+)( {types.Real._REGEX.pattern[2:-2]})( {types.Real._REGEX.pattern[2:-2]})( {types.Real._REGEX.pattern[2:-2]})( {types.Real._REGEX.pattern[2:-2]})( {types.Real._REGEX.pattern[2:-2]})( {types.Real._REGEX.pattern[2:-2]})( {types.Integer._REGEX.pattern[2:-2]})?"),
  (Tr_4, c!"([*])?tr(\\d+)( {types.Real._REGEX.pattern[2:-2]})( {types.Real._REGEX.pattern[2:-2]})( {types.Real._REGEX.pattern[2:-2]})( {types.Integer._REGEX.pattern[2:-2]})?"),
  (Tropt, c!"tropt((?: (?:{tropt.TroptOption._REGEX.pattern[2:-2]}))+?)?"),
  (Tsplt, c!"tsplt:(\\S+)( {types.Real._REGEX.pattern[2:-2]})?( {types.Real._REGEX.pattern[2:-2]})?( {types.Real._REGEX.pattern[2:-2]})?( {types.Real._REGEX.pattern[2:-2]})?( {types.Real._REGEX.pattern[2:-2]})?( {types.Real._REGEX.pattern[2:-2]})?( {types.Real._REGEX.pattern[2:-2]})?( {types.Real._REGEX.pattern[2:-2]})?( {types.Real._REGEX.pattern[2:-2]})?( {types.Real._REGEX.pattern[2:-2]})?( {types.Real._REGEX.pattern[2:-2]})?( {types.Real._REGEX.pattern[2:-2]})?( {types.Real._REGEX.pattern[2:-2]})?( {types.Real._REGEX.pattern[2:-2]})?( {types.Real._REGEX.pattern[2:-2]})?( {types.Real._REGEX.pattern[2:-2]})?( {types.Real._REGEX.pattern[2:-2]})?( {types.Real._REGEX.pattern[2:-2]})?( {types.Real._REGEX.pattern[2:-2]})?( {types.Real._REGEX.pattern[2:-2]})?( {types.Real._REGEX.pattern[2:-2]})?( {types.Real._REGEX.pattern[2:-2]})?( {types.Real._REGEX.pattern[2:-2]})?( {types.Real._REGEX.pattern[2:-2]})?( {types.Real._REGEX.pattern[2:-2]})?( {types.Real._REGEX.pattern[2:-2]})?( {types.Real._REGEX.pattern[2:-2]})?( {types.Real._REGEX.pattern[2:-2]})?( {types.Real._REGEX.pattern[2:-2]})?( {types.Real._REGEX.pattern[2:-2]})?( {types.Real._REGEX.pattern[2:-2]})?( {types.Real._REGEX.pattern[2:-2]})?( {types.Real._REGEX.pattern[2:-2]})?( {types.Real._REGEX.pattern[2:-2]})?( {types.Real._REGEX.pattern[2:-2]})?( {types.Real._REGEX.pattern[2:-2]})?( {types.Real._REGEX.pattern[2:-2]})?( {types.Real._REGEX.pattern[2:-2]})?( {types.Real._REGEX.pattern[2:-2]})?( {types.Real._REGEX.pattern[2:-2]})?"),
  (U, c!"u((?: {types.Integer._REGEX.pattern[2:-2]})+?)"),
  (Unc, c!"unc:(\\S+)((?: {types.Integer._REGEX.pattern[2:-2]})+?)"),
  (Uran, c!"uran((?: \\S+ \\S+ \\S+ \\S+)+?)")]

theorem sourcesCards6_ok : sourcesCards6.all (fun p => p.1.pat.src == p.2) = true := by decide +kernel

/-- Classes 141 to 155 of this file with the text of their patterns between `\A` and `\Z`. -/
def sourcesCards7 : List (Cls × Str) := [
  (Var, c!"var((?: (?:{var.VarOption._REGEX.pattern[2:-2]}))+?)?"),
  (Void, c!"void((?: {types.Integer._REGEX.pattern[2:-2]})+?)?"),
  (Vol, c!"vol(?: (no))?((?: {types.Real._REGEX.pattern[2:-2]})+?)"),
  (Wwe, c!"wwe:(\\S+)((?: {types.Real._REGEX.pattern[2:-2]})+?)"),
  (Wwg, c!"wwg( {types.Integer._REGEX.pattern[2:-2]})( {types.Integer._REGEX.pattern[2:-2]})( {types.Real._REGEX.pattern[2:-2]})( {types.Integer._REGEX.pattern[2:-2]})?"),
  (Wwge, c!"wwge:(\\S+)((?: {types.Real._REGEX.pattern[2:-2]})+?)"),
  (Wwgt, c!"wwgt:(\\S+)((?: {types.Real._REGEX.pattern[2:-2]})+?)"),
  (Wwn, c!"wwn(\\d+):(\\S+)((?: {types.Real._REGEX.pattern[2:-2]})+?)"),
  (Wwp, c!"wwp:(\\S+)( {types.Real._REGEX.pattern[2:-2]})?( {types.Real._REGEX.pattern[2:-2]})?( {types.Real._REGEX.pattern[2:-2]})?( {types.Integer._REGEX.pattern[2:-2]})?( {types.Real._REGEX.pattern[2:-2]})?( {types.Integer._REGEX.pattern[2:-2]})?( {types.Real._REGEX.pattern[2:-2]})?( {types.Integer._REGEX.pattern[2:-2]})?( {types.Real._REGEX.pattern[2:-2]})?( {types.Real._REGEX.pattern[2:-2]})?"),
  (Wwt, c!"wwt:(\\S+)((?: {types.Real._REGEX.pattern[2:-2]})+?)"),
  (Xs, c!"xs(\\d+)((?: {types.Substance._REGEX.pattern[2:-2]})+?)"),
  (Za, c!"za( {types.String._REGEX.pattern[2:-2]})?"),
  (Zb, c!"zb( {types.String._REGEX.pattern[2:-2]})?"),
  (Zc, c!"zc( {types.String._REGEX.pattern[2:-2]})?"),
  (Zd, c!"zd( {types.String._REGEX.pattern[2:-2]})?")]

theorem sourcesCards7_ok : sourcesCards7.all (fun p => p.1.pat.src == p.2) = true := by decide +kernel

/-- All classes of this file. -/
def classesCards : List Cls := sourcesCards0.map (·.1) ++ sourcesCards1.map (·.1) ++ sourcesCards2.map (·.1) ++ sourcesCards3.map (·.1) ++ sourcesCards4.map (·.1) ++ sourcesCards5.map (·.1) ++ sourcesCards6.map (·.1) ++ sourcesCards7.map (·.1)

end Inp.Tab
