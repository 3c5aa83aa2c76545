import Verif.Inp.Card
/-!
# Class table: dawwg

One definition per class: `_KEYWORD`, `_ATTRS`, `_REGEX`, the conditions of the setters and the order in
which `__init__` calls them.  The final theorems check that each pattern, written out, is the text of the
source.
-/
namespace Inp.Tab
open Py Types

set_option maxRecDepth 20000

/-- src/pymcnp/inp/dawwg/Points.py:13-19; setter conditions: lines 67. -/
def dawwg_Points : Cls where
  info := ⟨"Points", .option, c!"points", ["count"]⟩
  shape := .flat ⟨.no, c!"points", .no, .no⟩ [⟨.ty (.base .int), .req⟩]
  attrs := [⟨"count", (.base .int), false, (some .isNone)⟩]
  init := ["count"]

/-- src/pymcnp/inp/dawwg/Xsec.py:13-19; setter conditions: lines 65. -/
def dawwg_Xsec : Cls where
  info := ⟨"Xsec", .option, c!"xsec", ["name"]⟩
  shape := .flat ⟨.no, c!"xsec", .no, .no⟩ [⟨.ty (.base .str), .req⟩]
  attrs := [⟨"name", (.base .str), false, (some .isNone)⟩]
  init := ["name"]

/-- src/pymcnp/inp/dawwg/block/Ngroup.py:13-19; setter conditions: lines 67. -/
def dawwg_block_Ngroup : Cls where
  info := ⟨"Ngroup", .option, c!"ngroup", ["value"]⟩
  shape := .flat ⟨.no, c!"ngroup", .no, .no⟩ [⟨.ty (.base .int), .req⟩]
  attrs := [⟨"value", (.base .int), false, (some .isNone)⟩]
  init := ["value"]

/-- src/pymcnp/inp/dawwg/block/Isn.py:13-19; setter conditions: lines 67. -/
def dawwg_block_Isn : Cls where
  info := ⟨"Isn", .option, c!"isn", ["setting"]⟩
  shape := .flat ⟨.no, c!"isn", .no, .no⟩ [⟨.ty (.base .int), .req⟩]
  attrs := [⟨"setting", (.base .int), false, (some .isNone)⟩]
  init := ["setting"]

/-- src/pymcnp/inp/dawwg/block/Niso.py:13-19; setter conditions: lines 67. -/
def dawwg_block_Niso : Cls where
  info := ⟨"Niso", .option, c!"niso", ["setting"]⟩
  shape := .flat ⟨.no, c!"niso", .no, .no⟩ [⟨.ty (.base .int), .req⟩]
  attrs := [⟨"setting", (.base .int), false, (some .isNone)⟩]
  init := ["setting"]

/-- src/pymcnp/inp/dawwg/block/Mt.py:13-19; setter conditions: lines 67. -/
def dawwg_block_Mt : Cls where
  info := ⟨"Mt", .option, c!"mt", ["setting"]⟩
  shape := .flat ⟨.no, c!"mt", .no, .no⟩ [⟨.ty (.base .int), .req⟩]
  attrs := [⟨"setting", (.base .int), false, (some .isNone)⟩]
  init := ["setting"]

/-- src/pymcnp/inp/dawwg/block/Iquad.py:13-19; setter conditions: lines 67. -/
def dawwg_block_Iquad : Cls where
  info := ⟨"Iquad", .option, c!"iquad", ["setting"]⟩
  shape := .flat ⟨.no, c!"iquad", .no, .no⟩ [⟨.ty (.base .int), .req⟩]
  attrs := [⟨"setting", (.base .int), false, (some (.or .isNone (.not (.inInts [1, 2, 3, 4, 5, 6, 7, 8, 9]))))⟩]
  init := ["setting"]

/-- src/pymcnp/inp/dawwg/block/Fmmix.py:13-19; setter conditions: lines 67. -/
def dawwg_block_Fmmix : Cls where
  info := ⟨"Fmmix", .option, c!"fmmix", ["setting"]⟩
  shape := .flat ⟨.no, c!"fmmix", .no, .no⟩ [⟨.ty (.base .int), .req⟩]
  attrs := [⟨"setting", (.base .int), false, (some (.or .isNone (.not (.inInts [0, 1]))))⟩]
  init := ["setting"]

/-- src/pymcnp/inp/dawwg/block/Nosolv.py:13-19; setter conditions: lines 67. -/
def dawwg_block_Nosolv : Cls where
  info := ⟨"Nosolv", .option, c!"nosolv", ["setting"]⟩
  shape := .flat ⟨.no, c!"nosolv", .no, .no⟩ [⟨.ty (.base .int), .req⟩]
  attrs := [⟨"setting", (.base .int), false, (some (.or .isNone (.not (.inInts [0, 1]))))⟩]
  init := ["setting"]

/-- src/pymcnp/inp/dawwg/block/Noedit.py:13-19; setter conditions: lines 67. -/
def dawwg_block_Noedit : Cls where
  info := ⟨"Noedit", .option, c!"noedit", ["setting"]⟩
  shape := .flat ⟨.no, c!"noedit", .no, .no⟩ [⟨.ty (.base .int), .req⟩]
  attrs := [⟨"setting", (.base .int), false, (some (.or .isNone (.not (.inInts [0, 1]))))⟩]
  init := ["setting"]

/-- src/pymcnp/inp/dawwg/block/Nogeod.py:13-19; setter conditions: lines 67. -/
def dawwg_block_Nogeod : Cls where
  info := ⟨"Nogeod", .option, c!"nogeod", ["setting"]⟩
  shape := .flat ⟨.no, c!"nogeod", .no, .no⟩ [⟨.ty (.base .int), .req⟩]
  attrs := [⟨"setting", (.base .int), false, (some (.or .isNone (.not (.inInts [0, 1]))))⟩]
  init := ["setting"]

/-- src/pymcnp/inp/dawwg/block/Nomix.py:13-19; setter conditions: lines 67. -/
def dawwg_block_Nomix : Cls where
  info := ⟨"Nomix", .option, c!"nomix", ["setting"]⟩
  shape := .flat ⟨.no, c!"nomix", .no, .no⟩ [⟨.ty (.base .int), .req⟩]
  attrs := [⟨"setting", (.base .int), false, (some (.or .isNone (.not (.inInts [0, 1]))))⟩]
  init := ["setting"]

/-- src/pymcnp/inp/dawwg/block/Noasg.py:13-19; setter conditions: lines 67. -/
def dawwg_block_Noasg : Cls where
  info := ⟨"Noasg", .option, c!"noasg", ["setting"]⟩
  shape := .flat ⟨.no, c!"noasg", .no, .no⟩ [⟨.ty (.base .int), .req⟩]
  attrs := [⟨"setting", (.base .int), false, (some (.or .isNone (.not (.inInts [0, 1]))))⟩]
  init := ["setting"]

/-- src/pymcnp/inp/dawwg/block/Nomacr.py:13-19; setter conditions: lines 67. -/
def dawwg_block_Nomacr : Cls where
  info := ⟨"Nomacr", .option, c!"nomacr", ["setting"]⟩
  shape := .flat ⟨.no, c!"nomacr", .no, .no⟩ [⟨.ty (.base .int), .req⟩]
  attrs := [⟨"setting", (.base .int), false, (some (.or .isNone (.not (.inInts [0, 1]))))⟩]
  init := ["setting"]

/-- src/pymcnp/inp/dawwg/block/Noslnp.py:13-19; setter conditions: lines 67. -/
def dawwg_block_Noslnp : Cls where
  info := ⟨"Noslnp", .option, c!"noslnp", ["setting"]⟩
  shape := .flat ⟨.no, c!"noslnp", .no, .no⟩ [⟨.ty (.base .int), .req⟩]
  attrs := [⟨"setting", (.base .int), false, (some (.or .isNone (.not (.inInts [0, 1]))))⟩]
  init := ["setting"]

/-- src/pymcnp/inp/dawwg/block/Noedtt.py:13-19; setter conditions: lines 67. -/
def dawwg_block_Noedtt : Cls where
  info := ⟨"Noedtt", .option, c!"noedtt", ["setting"]⟩
  shape := .flat ⟨.no, c!"noedtt", .no, .no⟩ [⟨.ty (.base .int), .req⟩]
  attrs := [⟨"setting", (.base .int), false, (some (.or .isNone (.not (.inInts [0, 1]))))⟩]
  init := ["setting"]

/-- src/pymcnp/inp/dawwg/block/Noadjm.py:13-19; setter conditions: lines 67. -/
def dawwg_block_Noadjm : Cls where
  info := ⟨"Noadjm", .option, c!"noadjm", ["setting"]⟩
  shape := .flat ⟨.no, c!"noadjm", .no, .no⟩ [⟨.ty (.base .int), .req⟩]
  attrs := [⟨"setting", (.base .int), false, (some (.or .isNone (.not (.inInts [0, 1]))))⟩]
  init := ["setting"]

/-- src/pymcnp/inp/dawwg/block/Lib.py:13-19; setter conditions: lines 65. -/
def dawwg_block_Lib : Cls where
  info := ⟨"Lib", .option, c!"lib", ["setting"]⟩
  shape := .flat ⟨.no, c!"lib", .no, .no⟩ [⟨.ty (.base .str), .req⟩]
  attrs := [⟨"setting", (.base .str), false, (some .isNone)⟩]
  init := ["setting"]

/-- src/pymcnp/inp/dawwg/block/Libname.py:13-19; setter conditions: lines 65. -/
def dawwg_block_Libname : Cls where
  info := ⟨"Libname", .option, c!"libname", ["setting"]⟩
  shape := .flat ⟨.no, c!"libname", .no, .no⟩ [⟨.ty (.base .str), .req⟩]
  attrs := [⟨"setting", (.base .str), false, (some .isNone)⟩]
  init := ["setting"]

/-- src/pymcnp/inp/dawwg/block/Fissneut.py:13-19; setter conditions: lines 67. -/
def dawwg_block_Fissneut : Cls where
  info := ⟨"Fissneut", .option, c!"fissneut", ["setting"]⟩
  shape := .flat ⟨.no, c!"fissneut", .no, .no⟩ [⟨.ty (.base .int), .req⟩]
  attrs := [⟨"setting", (.base .int), false, (some .isNone)⟩]
  init := ["setting"]

/-- src/pymcnp/inp/dawwg/block/Lng.py:13-19; setter conditions: lines 67. -/
def dawwg_block_Lng : Cls where
  info := ⟨"Lng", .option, c!"lng", ["setting"]⟩
  shape := .flat ⟨.no, c!"lng", .no, .no⟩ [⟨.ty (.base .int), .req⟩]
  attrs := [⟨"setting", (.base .int), false, (some .isNone)⟩]
  init := ["setting"]

/-- src/pymcnp/inp/dawwg/block/Balxs.py:13-19; setter conditions: lines 67. -/
def dawwg_block_Balxs : Cls where
  info := ⟨"Balxs", .option, c!"balxs", ["setting"]⟩
  shape := .flat ⟨.no, c!"balxs", .no, .no⟩ [⟨.ty (.base .int), .req⟩]
  attrs := [⟨"setting", (.base .int), false, (some (.or .isNone (.not (.inInts [-1, 0, 1]))))⟩]
  init := ["setting"]

/-- src/pymcnp/inp/dawwg/block/Ntichi.py:13-19; setter conditions: lines 67. -/
def dawwg_block_Ntichi : Cls where
  info := ⟨"Ntichi", .option, c!"ntichi", ["setting"]⟩
  shape := .flat ⟨.no, c!"ntichi", .no, .no⟩ [⟨.ty (.base .int), .req⟩]
  attrs := [⟨"setting", (.base .int), false, (some .isNone)⟩]
  init := ["setting"]

/-- src/pymcnp/inp/dawwg/block/Ievt.py:13-19; setter conditions: lines 67. -/
def dawwg_block_Ievt : Cls where
  info := ⟨"Ievt", .option, c!"ievt", ["setting"]⟩
  shape := .flat ⟨.no, c!"ievt", .no, .no⟩ [⟨.ty (.base .int), .req⟩]
  attrs := [⟨"setting", (.base .int), false, (some (.or .isNone (.not (.inInts [0, 1, 2, 3, 4]))))⟩]
  init := ["setting"]

/-- src/pymcnp/inp/dawwg/block/Isct.py:13-19; setter conditions: lines 67. -/
def dawwg_block_Isct : Cls where
  info := ⟨"Isct", .option, c!"isct", ["setting"]⟩
  shape := .flat ⟨.no, c!"isct", .no, .no⟩ [⟨.ty (.base .int), .req⟩]
  attrs := [⟨"setting", (.base .int), false, (some .isNone)⟩]
  init := ["setting"]

/-- src/pymcnp/inp/dawwg/block/Ith.py:13-19; setter conditions: lines 67. -/
def dawwg_block_Ith : Cls where
  info := ⟨"Ith", .option, c!"ith", ["setting"]⟩
  shape := .flat ⟨.no, c!"ith", .no, .no⟩ [⟨.ty (.base .int), .req⟩]
  attrs := [⟨"setting", (.base .int), false, (some (.or .isNone (.not (.inInts [0, 1]))))⟩]
  init := ["setting"]

/-- src/pymcnp/inp/dawwg/block/Trcor.py:13-19; setter conditions: lines 65. -/
def dawwg_block_Trcor : Cls where
  info := ⟨"Trcor", .option, c!"trcor", ["setting"]⟩
  shape := .flat ⟨.no, c!"trcor", .no, .no⟩ [⟨.ty (.base .str), .req⟩]
  attrs := [⟨"setting", (.base .str), false, (some (.or .isNone (.not (.lowIn ["diag"]))))⟩]
  init := ["setting"]

/-- src/pymcnp/inp/dawwg/block/Ibl.py:13-19; setter conditions: lines 67. -/
def dawwg_block_Ibl : Cls where
  info := ⟨"Ibl", .option, c!"ibl", ["setting"]⟩
  shape := .flat ⟨.no, c!"ibl", .no, .no⟩ [⟨.ty (.base .int), .req⟩]
  attrs := [⟨"setting", (.base .int), false, (some .isNone)⟩]
  init := ["setting"]

/-- src/pymcnp/inp/dawwg/block/Ibr.py:13-19; setter conditions: lines 67. -/
def dawwg_block_Ibr : Cls where
  info := ⟨"Ibr", .option, c!"ibr", ["setting"]⟩
  shape := .flat ⟨.no, c!"ibr", .no, .no⟩ [⟨.ty (.base .int), .req⟩]
  attrs := [⟨"setting", (.base .int), false, (some .isNone)⟩]
  init := ["setting"]

/-- src/pymcnp/inp/dawwg/block/Ibt.py:13-19; setter conditions: lines 67. -/
def dawwg_block_Ibt : Cls where
  info := ⟨"Ibt", .option, c!"ibt", ["setting"]⟩
  shape := .flat ⟨.no, c!"ibt", .no, .no⟩ [⟨.ty (.base .int), .req⟩]
  attrs := [⟨"setting", (.base .int), false, (some .isNone)⟩]
  init := ["setting"]

/-- src/pymcnp/inp/dawwg/block/Ibb.py:13-19; setter conditions: lines 67. -/
def dawwg_block_Ibb : Cls where
  info := ⟨"Ibb", .option, c!"ibb", ["setting"]⟩
  shape := .flat ⟨.no, c!"ibb", .no, .no⟩ [⟨.ty (.base .int), .req⟩]
  attrs := [⟨"setting", (.base .int), false, (some .isNone)⟩]
  init := ["setting"]

/-- src/pymcnp/inp/dawwg/block/Ibfrnt.py:13-19; setter conditions: lines 67. -/
def dawwg_block_Ibfrnt : Cls where
  info := ⟨"Ibfrnt", .option, c!"ibfrnt", ["setting"]⟩
  shape := .flat ⟨.no, c!"ibfrnt", .no, .no⟩ [⟨.ty (.base .int), .req⟩]
  attrs := [⟨"setting", (.base .int), false, (some .isNone)⟩]
  init := ["setting"]

/-- src/pymcnp/inp/dawwg/block/Ibback.py:13-19; setter conditions: lines 67. -/
def dawwg_block_Ibback : Cls where
  info := ⟨"Ibback", .option, c!"ibback", ["setting"]⟩
  shape := .flat ⟨.no, c!"ibback", .no, .no⟩ [⟨.ty (.base .int), .req⟩]
  attrs := [⟨"setting", (.base .int), false, (some .isNone)⟩]
  init := ["setting"]

/-- src/pymcnp/inp/dawwg/block/Epsi.py:13-19; setter conditions: lines 67. -/
def dawwg_block_Epsi : Cls where
  info := ⟨"Epsi", .option, c!"epsi", ["setting"]⟩
  shape := .flat ⟨.no, c!"epsi", .no, .no⟩ [⟨.ty (.base .real), .req⟩]
  attrs := [⟨"setting", (.base .real), false, (some .isNone)⟩]
  init := ["setting"]

/-- src/pymcnp/inp/dawwg/block/Oitm.py:13-19; setter conditions: lines 67. -/
def dawwg_block_Oitm : Cls where
  info := ⟨"Oitm", .option, c!"oitm", ["setting"]⟩
  shape := .flat ⟨.no, c!"oitm", .no, .no⟩ [⟨.ty (.base .int), .req⟩]
  attrs := [⟨"setting", (.base .int), false, (some .isNone)⟩]
  init := ["setting"]

/-- src/pymcnp/inp/dawwg/block/Nosigf.py:13-19; setter conditions: lines 67. -/
def dawwg_block_Nosigf : Cls where
  info := ⟨"Nosigf", .option, c!"nosigf", ["setting"]⟩
  shape := .flat ⟨.no, c!"nosigf", .no, .no⟩ [⟨.ty (.base .int), .req⟩]
  attrs := [⟨"setting", (.base .int), false, (some (.or .isNone (.not (.inInts [0, 1]))))⟩]
  init := ["setting"]

/-- src/pymcnp/inp/dawwg/block/Srcacc.py:13-19; setter conditions: lines 65. -/
def dawwg_block_Srcacc : Cls where
  info := ⟨"Srcacc", .option, c!"srcacc", ["setting"]⟩
  shape := .flat ⟨.no, c!"srcacc", .no, .no⟩ [⟨.ty (.base .str), .req⟩]
  attrs := [⟨"setting", (.base .str), false, (some (.or .isNone (.not (.lowIn ["dsa", "tsa", "no"]))))⟩]
  init := ["setting"]

/-- src/pymcnp/inp/dawwg/block/Diffsol.py:13-19; setter conditions: lines 65. -/
def dawwg_block_Diffsol : Cls where
  info := ⟨"Diffsol", .option, c!"diffsol", ["setting"]⟩
  shape := .flat ⟨.no, c!"diffsol", .no, .no⟩ [⟨.ty (.base .str), .req⟩]
  attrs := [⟨"setting", (.base .str), false, (some .isNone)⟩]
  init := ["setting"]

/-- src/pymcnp/inp/dawwg/block/Tsasn.py:13-19; setter conditions: lines 67. -/
def dawwg_block_Tsasn : Cls where
  info := ⟨"Tsasn", .option, c!"tsasn", ["setting"]⟩
  shape := .flat ⟨.no, c!"tsasn", .no, .no⟩ [⟨.ty (.base .int), .req⟩]
  attrs := [⟨"setting", (.base .int), false, (some .isNone)⟩]
  init := ["setting"]

/-- src/pymcnp/inp/dawwg/block/Tsaepsi.py:13-19; setter conditions: lines 67. -/
def dawwg_block_Tsaepsi : Cls where
  info := ⟨"Tsaepsi", .option, c!"tsaepsi", ["setting"]⟩
  shape := .flat ⟨.no, c!"tsaepsi", .no, .no⟩ [⟨.ty (.base .real), .req⟩]
  attrs := [⟨"setting", (.base .real), false, (some .isNone)⟩]
  init := ["setting"]

/-- src/pymcnp/inp/dawwg/block/Tsaits.py:13-19; setter conditions: lines 67. -/
def dawwg_block_Tsaits : Cls where
  info := ⟨"Tsaits", .option, c!"tsaits", ["setting"]⟩
  shape := .flat ⟨.no, c!"tsaits", .no, .no⟩ [⟨.ty (.base .int), .req⟩]
  attrs := [⟨"setting", (.base .int), false, (some .isNone)⟩]
  init := ["setting"]

/-- src/pymcnp/inp/dawwg/block/Tsabeta.py:13-19; setter conditions: lines 67. -/
def dawwg_block_Tsabeta : Cls where
  info := ⟨"Tsabeta", .option, c!"tsabeta", ["setting"]⟩
  shape := .flat ⟨.no, c!"tsabeta", .no, .no⟩ [⟨.ty (.base .real), .req⟩]
  attrs := [⟨"setting", (.base .real), false, (some .isNone)⟩]
  init := ["setting"]

/-- src/pymcnp/inp/dawwg/block/Ptconv.py:13-19; setter conditions: lines 67. -/
def dawwg_block_Ptconv : Cls where
  info := ⟨"Ptconv", .option, c!"ptconv", ["setting"]⟩
  shape := .flat ⟨.no, c!"ptconv", .no, .no⟩ [⟨.ty (.base .int), .req⟩]
  attrs := [⟨"setting", (.base .int), false, (some (.or .isNone (.not (.inInts [0, 1]))))⟩]
  init := ["setting"]

/-- src/pymcnp/inp/dawwg/block/Norm.py:13-19; setter conditions: lines 67. -/
def dawwg_block_Norm : Cls where
  info := ⟨"Norm", .option, c!"norm", ["setting"]⟩
  shape := .flat ⟨.no, c!"norm", .no, .no⟩ [⟨.ty (.base .real), .req⟩]
  attrs := [⟨"setting", (.base .real), false, (some .isNone)⟩]
  init := ["setting"]

/-- src/pymcnp/inp/dawwg/block/Xsectp.py:13-19; setter conditions: lines 67. -/
def dawwg_block_Xsectp : Cls where
  info := ⟨"Xsectp", .option, c!"xsectp", ["setting"]⟩
  shape := .flat ⟨.no, c!"xsectp", .no, .no⟩ [⟨.ty (.base .int), .req⟩]
  attrs := [⟨"setting", (.base .int), false, (some (.or .isNone (.not (.inInts [0, 1, 2]))))⟩]
  init := ["setting"]

/-- src/pymcnp/inp/dawwg/block/Fissrp.py:13-19; setter conditions: lines 67. -/
def dawwg_block_Fissrp : Cls where
  info := ⟨"Fissrp", .option, c!"fissrp", ["setting"]⟩
  shape := .flat ⟨.no, c!"fissrp", .no, .no⟩ [⟨.ty (.base .int), .req⟩]
  attrs := [⟨"setting", (.base .int), false, (some (.or .isNone (.not (.inInts [0, 1]))))⟩]
  init := ["setting"]

/-- src/pymcnp/inp/dawwg/block/Sourcp.py:13-19; setter conditions: lines 67. -/
def dawwg_block_Sourcp : Cls where
  info := ⟨"Sourcp", .option, c!"sourcp", ["setting"]⟩
  shape := .flat ⟨.no, c!"sourcp", .no, .no⟩ [⟨.ty (.base .int), .req⟩]
  attrs := [⟨"setting", (.base .int), false, (some (.or .isNone (.not (.inInts [0, 1, 2, 3]))))⟩]
  init := ["setting"]

/-- src/pymcnp/inp/dawwg/block/Angp.py:13-19; setter conditions: lines 67. -/
def dawwg_block_Angp : Cls where
  info := ⟨"Angp", .option, c!"angp", ["setting"]⟩
  shape := .flat ⟨.no, c!"angp", .no, .no⟩ [⟨.ty (.base .int), .req⟩]
  attrs := [⟨"setting", (.base .int), false, (some (.or .isNone (.not (.inInts [0, 1]))))⟩]
  init := ["setting"]

/-- src/pymcnp/inp/dawwg/block/Balp.py:13-19; setter conditions: lines 67. -/
def dawwg_block_Balp : Cls where
  info := ⟨"Balp", .option, c!"balp", ["setting"]⟩
  shape := .flat ⟨.no, c!"balp", .no, .no⟩ [⟨.ty (.base .int), .req⟩]
  attrs := [⟨"setting", (.base .int), false, (some (.or .isNone (.not (.inInts [0, 1]))))⟩]
  init := ["setting"]

/-- src/pymcnp/inp/dawwg/block/Raflux.py:13-19; setter conditions: lines 67. -/
def dawwg_block_Raflux : Cls where
  info := ⟨"Raflux", .option, c!"raflux", ["setting"]⟩
  shape := .flat ⟨.no, c!"raflux", .no, .no⟩ [⟨.ty (.base .int), .req⟩]
  attrs := [⟨"setting", (.base .int), false, (some (.or .isNone (.not (.inInts [0, 1]))))⟩]
  init := ["setting"]

/-- src/pymcnp/inp/dawwg/block/Rmflux.py:13-19; setter conditions: lines 67. -/
def dawwg_block_Rmflux : Cls where
  info := ⟨"Rmflux", .option, c!"rmflux", ["setting"]⟩
  shape := .flat ⟨.no, c!"rmflux", .no, .no⟩ [⟨.ty (.base .int), .req⟩]
  attrs := [⟨"setting", (.base .int), false, (some (.or .isNone (.not (.inInts [0, 1]))))⟩]
  init := ["setting"]

/-- src/pymcnp/inp/dawwg/block/Avatar.py:13-19; setter conditions: lines 67. -/
def dawwg_block_Avatar : Cls where
  info := ⟨"Avatar", .option, c!"avatar", ["setting"]⟩
  shape := .flat ⟨.no, c!"avatar", .no, .no⟩ [⟨.ty (.base .int), .req⟩]
  attrs := [⟨"setting", (.base .int), false, (some (.or .isNone (.not (.inInts [0, 1]))))⟩]
  init := ["setting"]

/-- src/pymcnp/inp/dawwg/block/Asleft.py:13-19; setter conditions: lines 67. -/
def dawwg_block_Asleft : Cls where
  info := ⟨"Asleft", .option, c!"asleft", ["setting"]⟩
  shape := .flat ⟨.no, c!"asleft", .no, .no⟩ [⟨.ty (.base .int), .req⟩]
  attrs := [⟨"setting", (.base .int), false, (some .isNone)⟩]
  init := ["setting"]

/-- src/pymcnp/inp/dawwg/block/Asrite.py:13-19; setter conditions: lines 67. -/
def dawwg_block_Asrite : Cls where
  info := ⟨"Asrite", .option, c!"asrite", ["setting"]⟩
  shape := .flat ⟨.no, c!"asrite", .no, .no⟩ [⟨.ty (.base .int), .req⟩]
  attrs := [⟨"setting", (.base .int), false, (some .isNone)⟩]
  init := ["setting"]

/-- src/pymcnp/inp/dawwg/block/Asbott.py:13-19; setter conditions: lines 67. -/
def dawwg_block_Asbott : Cls where
  info := ⟨"Asbott", .option, c!"asbott", ["setting"]⟩
  shape := .flat ⟨.no, c!"asbott", .no, .no⟩ [⟨.ty (.base .int), .req⟩]
  attrs := [⟨"setting", (.base .int), false, (some .isNone)⟩]
  init := ["setting"]

/-- src/pymcnp/inp/dawwg/block/Astop.py:13-19; setter conditions: lines 67. -/
def dawwg_block_Astop : Cls where
  info := ⟨"Astop", .option, c!"astop", ["setting"]⟩
  shape := .flat ⟨.no, c!"astop", .no, .no⟩ [⟨.ty (.base .int), .req⟩]
  attrs := [⟨"setting", (.base .int), false, (some .isNone)⟩]
  init := ["setting"]

/-- src/pymcnp/inp/dawwg/block/Asfrnt.py:13-19; setter conditions: lines 67. -/
def dawwg_block_Asfrnt : Cls where
  info := ⟨"Asfrnt", .option, c!"asfrnt", ["setting"]⟩
  shape := .flat ⟨.no, c!"asfrnt", .no, .no⟩ [⟨.ty (.base .int), .req⟩]
  attrs := [⟨"setting", (.base .int), false, (some .isNone)⟩]
  init := ["setting"]

/-- src/pymcnp/inp/dawwg/block/Asback.py:13-19; setter conditions: lines 67. -/
def dawwg_block_Asback : Cls where
  info := ⟨"Asback", .option, c!"asback", ["setting"]⟩
  shape := .flat ⟨.no, c!"asback", .no, .no⟩ [⟨.ty (.base .int), .req⟩]
  attrs := [⟨"setting", (.base .int), false, (some .isNone)⟩]
  init := ["setting"]

/-- src/pymcnp/inp/dawwg/block/Massed.py:13-19; setter conditions: lines 67. -/
def dawwg_block_Massed : Cls where
  info := ⟨"Massed", .option, c!"massed", ["setting"]⟩
  shape := .flat ⟨.no, c!"massed", .no, .no⟩ [⟨.ty (.base .int), .req⟩]
  attrs := [⟨"setting", (.base .int), false, (some (.or .isNone (.not (.inInts [0, 1]))))⟩]
  init := ["setting"]

/-- src/pymcnp/inp/dawwg/block/Pted.py:13-19; setter conditions: lines 67. -/
def dawwg_block_Pted : Cls where
  info := ⟨"Pted", .option, c!"pted", ["setting"]⟩
  shape := .flat ⟨.no, c!"pted", .no, .no⟩ [⟨.ty (.base .int), .req⟩]
  attrs := [⟨"setting", (.base .int), false, (some (.or .isNone (.not (.inInts [0, 1]))))⟩]
  init := ["setting"]

/-- src/pymcnp/inp/dawwg/block/Zned.py:13-19; setter conditions: lines 67. -/
def dawwg_block_Zned : Cls where
  info := ⟨"Zned", .option, c!"zned", ["setting"]⟩
  shape := .flat ⟨.no, c!"zned", .no, .no⟩ [⟨.ty (.base .int), .req⟩]
  attrs := [⟨"setting", (.base .int), false, (some (.or .isNone (.not (.inInts [0, 1]))))⟩]
  init := ["setting"]

/-- src/pymcnp/inp/dawwg/block/Rzflux.py:13-19; setter conditions: lines 67. -/
def dawwg_block_Rzflux : Cls where
  info := ⟨"Rzflux", .option, c!"rzflux", ["setting"]⟩
  shape := .flat ⟨.no, c!"rzflux", .no, .no⟩ [⟨.ty (.base .int), .req⟩]
  attrs := [⟨"setting", (.base .int), false, (some (.or .isNone (.not (.inInts [0, 1]))))⟩]
  init := ["setting"]

/-- src/pymcnp/inp/dawwg/block/Rzmflux.py:13-19; setter conditions: lines 67. -/
def dawwg_block_Rzmflux : Cls where
  info := ⟨"Rzmflux", .option, c!"rzmflux", ["setting"]⟩
  shape := .flat ⟨.no, c!"rzmflux", .no, .no⟩ [⟨.ty (.base .int), .req⟩]
  attrs := [⟨"setting", (.base .int), false, (some (.or .isNone (.not (.inInts [0, 1]))))⟩]
  init := ["setting"]

/-- src/pymcnp/inp/dawwg/block/Edoutf.py:13-19; setter conditions: lines 67. -/
def dawwg_block_Edoutf : Cls where
  info := ⟨"Edoutf", .option, c!"edoutf", ["setting"]⟩
  shape := .flat ⟨.no, c!"edoutf", .no, .no⟩ [⟨.ty (.base .int), .req⟩]
  attrs := [⟨"setting", (.base .int), false, (some (.or .isNone (.not (.inInts [-3, -2, -1, 0, 1, 2, 3]))))⟩]
  init := ["setting"]

/-- src/pymcnp/inp/dawwg/block/Byvolp.py:13-19; setter conditions: lines 67. -/
def dawwg_block_Byvolp : Cls where
  info := ⟨"Byvolp", .option, c!"byvolp", ["setting"]⟩
  shape := .flat ⟨.no, c!"byvolp", .no, .no⟩ [⟨.ty (.base .int), .req⟩]
  attrs := [⟨"setting", (.base .int), false, (some (.or .isNone (.not (.inInts [0, 1]))))⟩]
  init := ["setting"]

/-- src/pymcnp/inp/dawwg/block/Ajed.py:13-19; setter conditions: lines 67. -/
def dawwg_block_Ajed : Cls where
  info := ⟨"Ajed", .option, c!"ajed", ["setting"]⟩
  shape := .flat ⟨.no, c!"ajed", .no, .no⟩ [⟨.ty (.base .int), .req⟩]
  attrs := [⟨"setting", (.base .int), false, (some (.or .isNone (.not (.inInts [0, 1]))))⟩]
  init := ["setting"]

/-- src/pymcnp/inp/dawwg/block/Fluxone.py:13-19; setter conditions: lines 67. -/
def dawwg_block_Fluxone : Cls where
  info := ⟨"Fluxone", .option, c!"fluxone", ["setting"]⟩
  shape := .flat ⟨.no, c!"fluxone", .no, .no⟩ [⟨.ty (.base .int), .req⟩]
  attrs := [⟨"setting", (.base .int), false, (some (.or .isNone (.not (.inInts [0, 1]))))⟩]
  init := ["setting"]

/-- src/pymcnp/inp/dawwg/block/_option.py:4 and src/pymcnp/inp/dawwg/block/__init__.py (order of definition). -/
def T_dawwg_block_BlockOption : Ty := unionTy "block.BlockOption" [dawwg_block_Ngroup, dawwg_block_Isn, dawwg_block_Niso, dawwg_block_Mt, dawwg_block_Iquad, dawwg_block_Fmmix, dawwg_block_Nosolv, dawwg_block_Noedit, dawwg_block_Nogeod, dawwg_block_Nomix, dawwg_block_Noasg, dawwg_block_Nomacr, dawwg_block_Noslnp, dawwg_block_Noedtt, dawwg_block_Noadjm, dawwg_block_Lib, dawwg_block_Libname, dawwg_block_Fissneut, dawwg_block_Lng, dawwg_block_Balxs, dawwg_block_Ntichi, dawwg_block_Ievt, dawwg_block_Isct, dawwg_block_Ith, dawwg_block_Trcor, dawwg_block_Ibl, dawwg_block_Ibr, dawwg_block_Ibt, dawwg_block_Ibb, dawwg_block_Ibfrnt, dawwg_block_Ibback, dawwg_block_Epsi, dawwg_block_Oitm, dawwg_block_Nosigf, dawwg_block_Srcacc, dawwg_block_Diffsol, dawwg_block_Tsasn, dawwg_block_Tsaepsi, dawwg_block_Tsaits, dawwg_block_Tsabeta, dawwg_block_Ptconv, dawwg_block_Norm, dawwg_block_Xsectp, dawwg_block_Fissrp, dawwg_block_Sourcp, dawwg_block_Angp, dawwg_block_Balp, dawwg_block_Raflux, dawwg_block_Rmflux, dawwg_block_Avatar, dawwg_block_Asleft, dawwg_block_Asrite, dawwg_block_Asbott, dawwg_block_Astop, dawwg_block_Asfrnt, dawwg_block_Asback, dawwg_block_Massed, dawwg_block_Pted, dawwg_block_Zned, dawwg_block_Rzflux, dawwg_block_Rzmflux, dawwg_block_Edoutf, dawwg_block_Byvolp, dawwg_block_Ajed, dawwg_block_Fluxone]

/-- src/pymcnp/inp/dawwg/Block.py:14-21; setter conditions: lines 71. -/
def dawwg_Block : Cls where
  info := ⟨"Block", .option, c!"block", ["setting", "options"]⟩
  shape := .flat ⟨.no, c!"block", .no, .no⟩ [⟨.ty (.base .int), .req⟩, ⟨.ngrp (.ty T_dawwg_block_BlockOption), .manyOpt⟩]
  attrs := [⟨"setting", (.base .int), false, (some (.or .isNone (.not (.inInts [1, 3, 5, 6]))))⟩,
    ⟨"options", T_dawwg_block_BlockOption, true, none⟩]
  init := ["setting", "options"]

/-- src/pymcnp/inp/dawwg/_option.py:4 and src/pymcnp/inp/dawwg/__init__.py (order of definition). -/
def T_dawwg_DawwgOption : Ty := unionTy "dawwg.DawwgOption" [dawwg_Points, dawwg_Xsec, dawwg_Block]

/-- Classes 1 to 20 of this file with the text of their patterns between `\A` and `\Z`. -/
def sourcesDawwg0 : List (Cls × Str) := [
  (dawwg_Points, c!"points( {types.Integer._REGEX.pattern[2:-2]})"),
  (dawwg_Xsec, c!"xsec( {types.String._REGEX.pattern[2:-2]})"),
  (dawwg_block_Ngroup, c!"ngroup( {types.Integer._REGEX.pattern[2:-2]})"),
  (dawwg_block_Isn, c!"isn( {types.Integer._REGEX.pattern[2:-2]})"),
  (dawwg_block_Niso, c!"niso( {types.Integer._REGEX.pattern[2:-2]})"),
  (dawwg_block_Mt, c!"mt( {types.Integer._REGEX.pattern[2:-2]})"),
  (dawwg_block_Iquad, c!"iquad( {types.Integer._REGEX.pattern[2:-2]})"),
  (dawwg_block_Fmmix, c!"fmmix( {types.Integer._REGEX.pattern[2:-2]})"),
  (dawwg_block_Nosolv, c!"nosolv( {types.Integer._REGEX.pattern[2:-2]})"),
  (dawwg_block_Noedit, c!"noedit( {types.Integer._REGEX.pattern[2:-2]})"),
  (dawwg_block_Nogeod, c!"nogeod( {types.Integer._REGEX.pattern[2:-2]})"),
  (dawwg_block_Nomix, c!"nomix( {types.Integer._REGEX.pattern[2:-2]})"),
  (dawwg_block_Noasg, c!"noasg( {types.Integer._REGEX.pattern[2:-2]})"),
  (dawwg_block_Nomacr, c!"nomacr( {types.Integer._REGEX.pattern[2:-2]})"),
  (dawwg_block_Noslnp, c!"noslnp( {types.Integer._REGEX.pattern[2:-2]})"),
  (dawwg_block_Noedtt, c!"noedtt( {types.Integer._REGEX.pattern[2:-2]})"),
  (dawwg_block_Noadjm, c!"noadjm( {types.Integer._REGEX.pattern[2:-2]})"),
  (dawwg_block_Lib, c!"lib( {types.String._REGEX.pattern[2:-2]})"),
  (dawwg_block_Libname, c!"libname( {types.String._REGEX.pattern[2:-2]})"),
  (dawwg_block_Fissneut, c!"fissneut( {types.Integer._REGEX.pattern[2:-2]})")]

theorem sourcesDawwg0_ok : sourcesDawwg0.all (fun p => p.1.pat.src == p.2) = true := by decide +kernel

/-- Classes 21 to 40 of this file with the text of their patterns between `\A` and `\Z`. -/
def sourcesDawwg1 : List (Cls × Str) := [
  (dawwg_block_Lng, c!"lng( {types.Integer._REGEX.pattern[2:-2]})"),
  (dawwg_block_Balxs, c!"balxs( {types.Integer._REGEX.pattern[2:-2]})"),
  (dawwg_block_Ntichi, c!"ntichi( {types.Integer._REGEX.pattern[2:-2]})"),
  (dawwg_block_Ievt, c!"ievt( {types.Integer._REGEX.pattern[2:-2]})"),
  (dawwg_block_Isct, c!"isct( {types.Integer._REGEX.pattern[2:-2]})"),
  (dawwg_block_Ith, c!"ith( {types.Integer._REGEX.pattern[2:-2]})"),
  (dawwg_block_Trcor, c!"trcor( {types.String._REGEX.pattern[2:-2]})"),
  (dawwg_block_Ibl, c!"ibl( {types.Integer._REGEX.pattern[2:-2]})"),
  (dawwg_block_Ibr, c!"ibr( {types.Integer._REGEX.pattern[2:-2]})"),
  (dawwg_block_Ibt, c!"ibt( {types.Integer._REGEX.pattern[2:-2]})"),
  (dawwg_block_Ibb, c!"ibb( {types.Integer._REGEX.pattern[2:-2]})"),
  (dawwg_block_Ibfrnt, c!"ibfrnt( {types.Integer._REGEX.pattern[2:-2]})"),
  (dawwg_block_Ibback, c!"ibback( {types.Integer._REGEX.pattern[2:-2]})"),
  (dawwg_block_Epsi, c!"epsi( {types.Real._REGEX.pattern[2:-2]})"),
  (dawwg_block_Oitm, c!"oitm( {types.Integer._REGEX.pattern[2:-2]})"),
  (dawwg_block_Nosigf, c!"nosigf( {types.Integer._REGEX.pattern[2:-2]})"),
  (dawwg_block_Srcacc, c!"srcacc( {types.String._REGEX.pattern[2:-2]})"),
  (dawwg_block_Diffsol, c!"diffsol( {types.String._REGEX.pattern[2:-2]})"),
  (dawwg_block_Tsasn, c!"tsasn( {types.Integer._REGEX.pattern[2:-2]})"),
  (dawwg_block_Tsaepsi, c!"tsaepsi( {types.Real._REGEX.pattern[2:-2]})")]

theorem sourcesDawwg1_ok : sourcesDawwg1.all (fun p => p.1.pat.src == p.2) = true := by decide +kernel

/-- Classes 41 to 60 of this file with the text of their patterns between `\A` and `\Z`. -/
def sourcesDawwg2 : List (Cls × Str) := [
  (dawwg_block_Tsaits, c!"tsaits( {types.Integer._REGEX.pattern[2:-2]})"),
  (dawwg_block_Tsabeta, c!"tsabeta( {types.Real._REGEX.pattern[2:-2]})"),
  (dawwg_block_Ptconv, c!"ptconv( {types.Integer._REGEX.pattern[2:-2]})"),
  (dawwg_block_Norm, c!"norm( {types.Real._REGEX.pattern[2:-2]})"),
  (dawwg_block_Xsectp, c!"xsectp( {types.Integer._REGEX.pattern[2:-2]})"),
  (dawwg_block_Fissrp, c!"fissrp( {types.Integer._REGEX.pattern[2:-2]})"),
  (dawwg_block_Sourcp, c!"sourcp( {types.Integer._REGEX.pattern[2:-2]})"),
  (dawwg_block_Angp, c!"angp( {types.Integer._REGEX.pattern[2:-2]})"),
  (dawwg_block_Balp, c!"balp( {types.Integer._REGEX.pattern[2:-2]})"),
  (dawwg_block_Raflux, c!"raflux( {types.Integer._REGEX.pattern[2:-2]})"),
  (dawwg_block_Rmflux, c!"rmflux( {types.Integer._REGEX.pattern[2:-2]})"),
  (dawwg_block_Avatar, c!"avatar( {types.Integer._REGEX.pattern[2:-2]})"),
  (dawwg_block_Asleft, c!"asleft( {types.Integer._REGEX.pattern[2:-2]})"),
  (dawwg_block_Asrite, c!"asrite( {types.Integer._REGEX.pattern[2:-2]})"),
  (dawwg_block_Asbott, c!"asbott( {types.Integer._REGEX.pattern[2:-2]})"),
  (dawwg_block_Astop, c!"astop( {types.Integer._REGEX.pattern[2:-2]})"),
  (dawwg_block_Asfrnt, c!"asfrnt( {types.Integer._REGEX.pattern[2:-2]})"),
  (dawwg_block_Asback, c!"asback( {types.Integer._REGEX.pattern[2:-2]})"),
  (dawwg_block_Massed, c!"massed( {types.Integer._REGEX.pattern[2:-2]})"),
  (dawwg_block_Pted, c!"pted( {types.Integer._REGEX.pattern[2:-2]})")]

theorem sourcesDawwg2_ok : sourcesDawwg2.all (fun p => p.1.pat.src == p.2) = true := by decide +kernel

/-- Classes 61 to 68 of this file with the text of their patterns between `\A` and `\Z`. -/
def sourcesDawwg3 : List (Cls × Str) := [
  (dawwg_block_Zned, c!"zned( {types.Integer._REGEX.pattern[2:-2]})"),
  (dawwg_block_Rzflux, c!"rzflux( {types.Integer._REGEX.pattern[2:-2]})"),
  (dawwg_block_Rzmflux, c!"rzmflux( {types.Integer._REGEX.pattern[2:-2]})"),
  (dawwg_block_Edoutf, c!"edoutf( {types.Integer._REGEX.pattern[2:-2]})"),
  (dawwg_block_Byvolp, c!"byvolp( {types.Integer._REGEX.pattern[2:-2]})"),
  (dawwg_block_Ajed, c!"ajed( {types.Integer._REGEX.pattern[2:-2]})"),
  (dawwg_block_Fluxone, c!"fluxone( {types.Integer._REGEX.pattern[2:-2]})"),
  (dawwg_Block, c!"block( {types.Integer._REGEX.pattern[2:-2]})((?: (?:{block.BlockOption._REGEX.pattern[2:-2]}))+?)?")]

theorem sourcesDawwg3_ok : sourcesDawwg3.all (fun p => p.1.pat.src == p.2) = true := by decide +kernel

/-- All classes of this file. -/
def classesDawwg : List Cls := sourcesDawwg0.map (·.1) ++ sourcesDawwg1.map (·.1) ++ sourcesDawwg2.map (·.1) ++ sourcesDawwg3.map (·.1)

end Inp.Tab
