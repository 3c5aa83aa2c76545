import Verif.Inp.Card
/-!
# Class table: surface

One definition per class: `_KEYWORD`, `_ATTRS`, `_REGEX`, the conditions of the setters and the order in
which `__init__` calls them.  The final theorems check that each pattern, written out, is the text of the
source.
-/
namespace Inp.Tab
open Py Types

set_option maxRecDepth 20000

/-- src/pymcnp/inp/surface/P_0.py:14-23; setter conditions: lines 77, 115, 153, 191. -/
def surface_P_0 : Cls where
  info := ⟨"P_0", .option, c!"p", ["a", "b", "c", "d"]⟩
  shape := .flat ⟨.no, c!"p", .no, .no⟩ [⟨.ty (.base .real), .req⟩, ⟨.ty (.base .real), .req⟩, ⟨.ty (.base .real), .req⟩, ⟨.ty (.base .real), .req⟩]
  attrs := [⟨"a", (.base .real), false, (some .isNone)⟩,
    ⟨"b", (.base .real), false, (some .isNone)⟩,
    ⟨"c", (.base .real), false, (some .isNone)⟩,
    ⟨"d", (.base .real), false, (some .isNone)⟩]
  init := ["a", "b", "c", "d"]

/-- src/pymcnp/inp/surface/P_1.py:16-30; setter conditions: lines 108-126, 163-181, 218-236, 273-291, 328-346, 383-401, 438-456, 493-511, 548-566. -/
def surface_P_1 : Cls where
  info := ⟨"P_1", .option, c!"p", ["x1", "y1", "z1", "x2", "y2", "z2", "x3", "y3", "z3"]⟩
  shape := .flat ⟨.no, c!"p", .no, .no⟩ [⟨.ty (.base .real), .req⟩, ⟨.ty (.base .real), .req⟩, ⟨.ty (.base .real), .req⟩, ⟨.ty (.base .real), .req⟩, ⟨.ty (.base .real), .req⟩, ⟨.ty (.base .real), .req⟩, ⟨.ty (.base .real), .req⟩, ⟨.ty (.base .real), .req⟩, ⟨.ty (.base .real), .req⟩]
  attrs := [⟨"x1", (.base .real), false, (some (.or .isNone (.flat "x1")))⟩,
    ⟨"y1", (.base .real), false, (some (.or .isNone (.flat "y1")))⟩,
    ⟨"z1", (.base .real), false, (some (.or .isNone (.flat "z1")))⟩,
    ⟨"x2", (.base .real), false, (some (.or .isNone (.flat "x2")))⟩,
    ⟨"y2", (.base .real), false, (some (.or .isNone (.flat "y2")))⟩,
    ⟨"z2", (.base .real), false, (some (.or .isNone (.flat "z2")))⟩,
    ⟨"x3", (.base .real), false, (some (.or .isNone (.flat "x3")))⟩,
    ⟨"y3", (.base .real), false, (some (.or .isNone (.flat "y3")))⟩,
    ⟨"z3", (.base .real), false, (some (.or .isNone (.flat "z3")))⟩]
  init := ["x1", "y1", "z1", "x2", "y2", "z2", "x3", "y3", "z3"]

/-- src/pymcnp/inp/surface/Px.py:14-20; setter conditions: lines 68. -/
def surface_Px : Cls where
  info := ⟨"Px", .option, c!"px", ["d"]⟩
  shape := .flat ⟨.no, c!"px", .no, .no⟩ [⟨.ty (.base .real), .req⟩]
  attrs := [⟨"d", (.base .real), false, (some .isNone)⟩]
  init := ["d"]

/-- src/pymcnp/inp/surface/Py.py:14-20; setter conditions: lines 68. -/
def surface_Py : Cls where
  info := ⟨"Py", .option, c!"py", ["d"]⟩
  shape := .flat ⟨.no, c!"py", .no, .no⟩ [⟨.ty (.base .real), .req⟩]
  attrs := [⟨"d", (.base .real), false, (some .isNone)⟩]
  init := ["d"]

/-- src/pymcnp/inp/surface/Pz.py:14-20; setter conditions: lines 68. -/
def surface_Pz : Cls where
  info := ⟨"Pz", .option, c!"pz", ["d"]⟩
  shape := .flat ⟨.no, c!"pz", .no, .no⟩ [⟨.ty (.base .real), .req⟩]
  attrs := [⟨"d", (.base .real), false, (some .isNone)⟩]
  init := ["d"]

/-- src/pymcnp/inp/surface/So.py:14-20; setter conditions: lines 68. -/
def surface_So : Cls where
  info := ⟨"So", .option, c!"so", ["r"]⟩
  shape := .flat ⟨.no, c!"so", .no, .no⟩ [⟨.ty (.base .real), .req⟩]
  attrs := [⟨"r", (.base .real), false, (some .isNone)⟩]
  init := ["r"]

/-- src/pymcnp/inp/surface/S.py:16-25; setter conditions: lines 79, 117, 155, 193. -/
def surface_S : Cls where
  info := ⟨"S", .option, c!"s", ["x", "y", "z", "r"]⟩
  shape := .flat ⟨.no, c!"s", .no, .no⟩ [⟨.ty (.base .real), .req⟩, ⟨.ty (.base .real), .req⟩, ⟨.ty (.base .real), .req⟩, ⟨.ty (.base .real), .req⟩]
  attrs := [⟨"x", (.base .real), false, (some .isNone)⟩,
    ⟨"y", (.base .real), false, (some .isNone)⟩,
    ⟨"z", (.base .real), false, (some .isNone)⟩,
    ⟨"r", (.base .real), false, (some .isNone)⟩]
  init := ["x", "y", "z", "r"]

/-- src/pymcnp/inp/surface/Sx.py:16-23; setter conditions: lines 73, 111. -/
def surface_Sx : Cls where
  info := ⟨"Sx", .option, c!"sx", ["x", "r"]⟩
  shape := .flat ⟨.no, c!"sx", .no, .no⟩ [⟨.ty (.base .real), .req⟩, ⟨.ty (.base .real), .req⟩]
  attrs := [⟨"x", (.base .real), false, (some .isNone)⟩,
    ⟨"r", (.base .real), false, (some .isNone)⟩]
  init := ["x", "r"]

/-- src/pymcnp/inp/surface/Sy.py:16-23; setter conditions: lines 73, 111. -/
def surface_Sy : Cls where
  info := ⟨"Sy", .option, c!"sy", ["y", "r"]⟩
  shape := .flat ⟨.no, c!"sy", .no, .no⟩ [⟨.ty (.base .real), .req⟩, ⟨.ty (.base .real), .req⟩]
  attrs := [⟨"y", (.base .real), false, (some .isNone)⟩,
    ⟨"r", (.base .real), false, (some .isNone)⟩]
  init := ["y", "r"]

/-- src/pymcnp/inp/surface/Sz.py:16-23; setter conditions: lines 73, 111. -/
def surface_Sz : Cls where
  info := ⟨"Sz", .option, c!"sz", ["z", "r"]⟩
  shape := .flat ⟨.no, c!"sz", .no, .no⟩ [⟨.ty (.base .real), .req⟩, ⟨.ty (.base .real), .req⟩]
  attrs := [⟨"z", (.base .real), false, (some .isNone)⟩,
    ⟨"r", (.base .real), false, (some .isNone)⟩]
  init := ["z", "r"]

/-- src/pymcnp/inp/surface/C_x.py:16-24; setter conditions: lines 76, 114, 152. -/
def surface_C_x : Cls where
  info := ⟨"C_x", .option, c!"c/x", ["y", "z", "r"]⟩
  shape := .flat ⟨.no, c!"c/x", .no, .no⟩ [⟨.ty (.base .real), .req⟩, ⟨.ty (.base .real), .req⟩, ⟨.ty (.base .real), .req⟩]
  attrs := [⟨"y", (.base .real), false, (some .isNone)⟩,
    ⟨"z", (.base .real), false, (some .isNone)⟩,
    ⟨"r", (.base .real), false, (some .isNone)⟩]
  init := ["y", "z", "r"]

/-- src/pymcnp/inp/surface/C_y.py:16-24; setter conditions: lines 76, 114, 152. -/
def surface_C_y : Cls where
  info := ⟨"C_y", .option, c!"c/y", ["x", "z", "r"]⟩
  shape := .flat ⟨.no, c!"c/y", .no, .no⟩ [⟨.ty (.base .real), .req⟩, ⟨.ty (.base .real), .req⟩, ⟨.ty (.base .real), .req⟩]
  attrs := [⟨"x", (.base .real), false, (some .isNone)⟩,
    ⟨"z", (.base .real), false, (some .isNone)⟩,
    ⟨"r", (.base .real), false, (some .isNone)⟩]
  init := ["x", "z", "r"]

/-- src/pymcnp/inp/surface/C_z.py:16-24; setter conditions: lines 76, 114, 152. -/
def surface_C_z : Cls where
  info := ⟨"C_z", .option, c!"c/z", ["x", "y", "r"]⟩
  shape := .flat ⟨.no, c!"c/z", .no, .no⟩ [⟨.ty (.base .real), .req⟩, ⟨.ty (.base .real), .req⟩, ⟨.ty (.base .real), .req⟩]
  attrs := [⟨"x", (.base .real), false, (some .isNone)⟩,
    ⟨"y", (.base .real), false, (some .isNone)⟩,
    ⟨"r", (.base .real), false, (some .isNone)⟩]
  init := ["x", "y", "r"]

/-- src/pymcnp/inp/surface/Cx.py:16-22; setter conditions: lines 70. -/
def surface_Cx : Cls where
  info := ⟨"Cx", .option, c!"cx", ["r"]⟩
  shape := .flat ⟨.no, c!"cx", .no, .no⟩ [⟨.ty (.base .real), .req⟩]
  attrs := [⟨"r", (.base .real), false, (some .isNone)⟩]
  init := ["r"]

/-- src/pymcnp/inp/surface/Cy.py:16-22; setter conditions: lines 70. -/
def surface_Cy : Cls where
  info := ⟨"Cy", .option, c!"cy", ["r"]⟩
  shape := .flat ⟨.no, c!"cy", .no, .no⟩ [⟨.ty (.base .real), .req⟩]
  attrs := [⟨"r", (.base .real), false, (some .isNone)⟩]
  init := ["r"]

/-- src/pymcnp/inp/surface/Cz.py:14-20; setter conditions: lines 68. -/
def surface_Cz : Cls where
  info := ⟨"Cz", .option, c!"cz", ["r"]⟩
  shape := .flat ⟨.no, c!"cz", .no, .no⟩ [⟨.ty (.base .real), .req⟩]
  attrs := [⟨"r", (.base .real), false, (some .isNone)⟩]
  init := ["r"]

/-- src/pymcnp/inp/surface/K_x.py:16-26; setter conditions: lines 92, 130, 168, 206, 244. -/
def surface_K_x : Cls where
  info := ⟨"K_x", .option, c!"k/x", ["x", "y", "z", "t_squared", "plusminus_1"]⟩
  shape := .flat ⟨.no, c!"k/x", .no, .no⟩ [⟨.ty (.base .real), .req⟩, ⟨.ty (.base .real), .req⟩, ⟨.ty (.base .real), .req⟩, ⟨.ty (.base .real), .req⟩, ⟨.ty (.base .real), .req⟩]
  attrs := [⟨"x", (.base .real), false, (some .isNone)⟩,
    ⟨"y", (.base .real), false, (some .isNone)⟩,
    ⟨"z", (.base .real), false, (some .isNone)⟩,
    ⟨"t_squared", (.base .real), false, (some .isNone)⟩,
    ⟨"plusminus_1", (.base .real), false, (some .isNone)⟩]
  init := ["x", "y", "z", "t_squared", "plusminus_1"]

/-- src/pymcnp/inp/surface/K_y.py:16-26; setter conditions: lines 92, 130, 168, 206, 244. -/
def surface_K_y : Cls where
  info := ⟨"K_y", .option, c!"k/y", ["x", "y", "z", "t_squared", "plusminus_1"]⟩
  shape := .flat ⟨.no, c!"k/y", .no, .no⟩ [⟨.ty (.base .real), .req⟩, ⟨.ty (.base .real), .req⟩, ⟨.ty (.base .real), .req⟩, ⟨.ty (.base .real), .req⟩, ⟨.ty (.base .real), .req⟩]
  attrs := [⟨"x", (.base .real), false, (some .isNone)⟩,
    ⟨"y", (.base .real), false, (some .isNone)⟩,
    ⟨"z", (.base .real), false, (some .isNone)⟩,
    ⟨"t_squared", (.base .real), false, (some .isNone)⟩,
    ⟨"plusminus_1", (.base .real), false, (some .isNone)⟩]
  init := ["x", "y", "z", "t_squared", "plusminus_1"]

/-- src/pymcnp/inp/surface/K_z.py:16-26; setter conditions: lines 92, 130, 168, 206, 244. -/
def surface_K_z : Cls where
  info := ⟨"K_z", .option, c!"k/z", ["x", "y", "z", "t_squared", "plusminus_1"]⟩
  shape := .flat ⟨.no, c!"k/z", .no, .no⟩ [⟨.ty (.base .real), .req⟩, ⟨.ty (.base .real), .req⟩, ⟨.ty (.base .real), .req⟩, ⟨.ty (.base .real), .req⟩, ⟨.ty (.base .real), .req⟩]
  attrs := [⟨"x", (.base .real), false, (some .isNone)⟩,
    ⟨"y", (.base .real), false, (some .isNone)⟩,
    ⟨"z", (.base .real), false, (some .isNone)⟩,
    ⟨"t_squared", (.base .real), false, (some .isNone)⟩,
    ⟨"plusminus_1", (.base .real), false, (some .isNone)⟩]
  init := ["x", "y", "z", "t_squared", "plusminus_1"]

/-- src/pymcnp/inp/surface/Kx.py:16-24; setter conditions: lines 76, 114, 152. -/
def surface_Kx : Cls where
  info := ⟨"Kx", .option, c!"kx", ["x", "t_squared", "plusminus_1"]⟩
  shape := .flat ⟨.no, c!"kx", .no, .no⟩ [⟨.ty (.base .real), .req⟩, ⟨.ty (.base .real), .req⟩, ⟨.ty (.base .real), .req⟩]
  attrs := [⟨"x", (.base .real), false, (some .isNone)⟩,
    ⟨"t_squared", (.base .real), false, (some .isNone)⟩,
    ⟨"plusminus_1", (.base .real), false, (some .isNone)⟩]
  init := ["x", "t_squared", "plusminus_1"]

/-- src/pymcnp/inp/surface/Ky.py:16-24; setter conditions: lines 76, 114, 152. -/
def surface_Ky : Cls where
  info := ⟨"Ky", .option, c!"ky", ["y", "t_squared", "plusminus_1"]⟩
  shape := .flat ⟨.no, c!"ky", .no, .no⟩ [⟨.ty (.base .real), .req⟩, ⟨.ty (.base .real), .req⟩, ⟨.ty (.base .real), .req⟩]
  attrs := [⟨"y", (.base .real), false, (some .isNone)⟩,
    ⟨"t_squared", (.base .real), false, (some .isNone)⟩,
    ⟨"plusminus_1", (.base .real), false, (some .isNone)⟩]
  init := ["y", "t_squared", "plusminus_1"]

/-- src/pymcnp/inp/surface/Kz.py:16-24; setter conditions: lines 76, 114, 152. -/
def surface_Kz : Cls where
  info := ⟨"Kz", .option, c!"kz", ["z", "t_squared", "plusminus_1"]⟩
  shape := .flat ⟨.no, c!"kz", .no, .no⟩ [⟨.ty (.base .real), .req⟩, ⟨.ty (.base .real), .req⟩, ⟨.ty (.base .real), .req⟩]
  attrs := [⟨"z", (.base .real), false, (some .isNone)⟩,
    ⟨"t_squared", (.base .real), false, (some .isNone)⟩,
    ⟨"plusminus_1", (.base .real), false, (some .isNone)⟩]
  init := ["z", "t_squared", "plusminus_1"]

/-- src/pymcnp/inp/surface/Sq.py:13-28; setter conditions: lines 109, 147, 185, 223, 261, 299, 337, 375, 413, 451. -/
def surface_Sq : Cls where
  info := ⟨"Sq", .option, c!"sq", ["a", "b", "c", "d", "e", "f", "g", "x", "y", "z"]⟩
  shape := .flat ⟨.no, c!"sq", .no, .no⟩ [⟨.ty (.base .real), .req⟩, ⟨.ty (.base .real), .req⟩, ⟨.ty (.base .real), .req⟩, ⟨.ty (.base .real), .req⟩, ⟨.ty (.base .real), .req⟩, ⟨.ty (.base .real), .req⟩, ⟨.ty (.base .real), .req⟩, ⟨.ty (.base .real), .req⟩, ⟨.ty (.base .real), .req⟩, ⟨.ty (.base .real), .req⟩]
  attrs := [⟨"a", (.base .real), false, (some .isNone)⟩,
    ⟨"b", (.base .real), false, (some .isNone)⟩,
    ⟨"c", (.base .real), false, (some .isNone)⟩,
    ⟨"d", (.base .real), false, (some .isNone)⟩,
    ⟨"e", (.base .real), false, (some .isNone)⟩,
    ⟨"f", (.base .real), false, (some .isNone)⟩,
    ⟨"g", (.base .real), false, (some .isNone)⟩,
    ⟨"x", (.base .real), false, (some .isNone)⟩,
    ⟨"y", (.base .real), false, (some .isNone)⟩,
    ⟨"z", (.base .real), false, (some .isNone)⟩]
  init := ["a", "b", "c", "d", "e", "f", "g", "x", "y", "z"]

/-- src/pymcnp/inp/surface/Gq.py:13-28; setter conditions: lines 109, 147, 185, 223, 261, 299, 337, 375, 413, 451. -/
def surface_Gq : Cls where
  info := ⟨"Gq", .option, c!"gq", ["a", "b", "c", "d", "e", "f", "g", "h", "j", "k"]⟩
  shape := .flat ⟨.no, c!"gq", .no, .no⟩ [⟨.ty (.base .real), .req⟩, ⟨.ty (.base .real), .req⟩, ⟨.ty (.base .real), .req⟩, ⟨.ty (.base .real), .req⟩, ⟨.ty (.base .real), .req⟩, ⟨.ty (.base .real), .req⟩, ⟨.ty (.base .real), .req⟩, ⟨.ty (.base .real), .req⟩, ⟨.ty (.base .real), .req⟩, ⟨.ty (.base .real), .req⟩]
  attrs := [⟨"a", (.base .real), false, (some .isNone)⟩,
    ⟨"b", (.base .real), false, (some .isNone)⟩,
    ⟨"c", (.base .real), false, (some .isNone)⟩,
    ⟨"d", (.base .real), false, (some .isNone)⟩,
    ⟨"e", (.base .real), false, (some .isNone)⟩,
    ⟨"f", (.base .real), false, (some .isNone)⟩,
    ⟨"g", (.base .real), false, (some .isNone)⟩,
    ⟨"h", (.base .real), false, (some .isNone)⟩,
    ⟨"j", (.base .real), false, (some .isNone)⟩,
    ⟨"k", (.base .real), false, (some .isNone)⟩]
  init := ["a", "b", "c", "d", "e", "f", "g", "h", "j", "k"]

/-- src/pymcnp/inp/surface/Tx.py:16-27; setter conditions: lines 96, 134, 172, 210, 248, 286. -/
def surface_Tx : Cls where
  info := ⟨"Tx", .option, c!"tx", ["x", "y", "z", "a", "b", "c"]⟩
  shape := .flat ⟨.no, c!"tx", .no, .no⟩ [⟨.ty (.base .real), .req⟩, ⟨.ty (.base .real), .req⟩, ⟨.ty (.base .real), .req⟩, ⟨.ty (.base .real), .req⟩, ⟨.ty (.base .real), .req⟩, ⟨.ty (.base .real), .req⟩]
  attrs := [⟨"x", (.base .real), false, (some .isNone)⟩,
    ⟨"y", (.base .real), false, (some .isNone)⟩,
    ⟨"z", (.base .real), false, (some .isNone)⟩,
    ⟨"a", (.base .real), false, (some .isNone)⟩,
    ⟨"b", (.base .real), false, (some .isNone)⟩,
    ⟨"c", (.base .real), false, (some .isNone)⟩]
  init := ["x", "y", "z", "a", "b", "c"]

/-- src/pymcnp/inp/surface/Ty.py:16-27; setter conditions: lines 96, 134, 172, 210, 248, 286. -/
def surface_Ty : Cls where
  info := ⟨"Ty", .option, c!"ty", ["x", "y", "z", "a", "b", "c"]⟩
  shape := .flat ⟨.no, c!"ty", .no, .no⟩ [⟨.ty (.base .real), .req⟩, ⟨.ty (.base .real), .req⟩, ⟨.ty (.base .real), .req⟩, ⟨.ty (.base .real), .req⟩, ⟨.ty (.base .real), .req⟩, ⟨.ty (.base .real), .req⟩]
  attrs := [⟨"x", (.base .real), false, (some .isNone)⟩,
    ⟨"y", (.base .real), false, (some .isNone)⟩,
    ⟨"z", (.base .real), false, (some .isNone)⟩,
    ⟨"a", (.base .real), false, (some .isNone)⟩,
    ⟨"b", (.base .real), false, (some .isNone)⟩,
    ⟨"c", (.base .real), false, (some .isNone)⟩]
  init := ["x", "y", "z", "a", "b", "c"]

/-- src/pymcnp/inp/surface/Tz.py:16-27; setter conditions: lines 96, 134, 172, 210, 248, 286. -/
def surface_Tz : Cls where
  info := ⟨"Tz", .option, c!"tz", ["x", "y", "z", "a", "b", "c"]⟩
  shape := .flat ⟨.no, c!"tz", .no, .no⟩ [⟨.ty (.base .real), .req⟩, ⟨.ty (.base .real), .req⟩, ⟨.ty (.base .real), .req⟩, ⟨.ty (.base .real), .req⟩, ⟨.ty (.base .real), .req⟩, ⟨.ty (.base .real), .req⟩]
  attrs := [⟨"x", (.base .real), false, (some .isNone)⟩,
    ⟨"y", (.base .real), false, (some .isNone)⟩,
    ⟨"z", (.base .real), false, (some .isNone)⟩,
    ⟨"a", (.base .real), false, (some .isNone)⟩,
    ⟨"b", (.base .real), false, (some .isNone)⟩,
    ⟨"c", (.base .real), false, (some .isNone)⟩]
  init := ["x", "y", "z", "a", "b", "c"]

/-- src/pymcnp/inp/surface/X.py:13-24; setter conditions: lines 93, 131. -/
def surface_X : Cls where
  info := ⟨"X", .option, c!"x", ["x1", "r1", "x2", "r2", "x3", "r3"]⟩
  shape := .flat ⟨.no, c!"x", .no, .no⟩ [⟨.ty (.base .real), .req⟩, ⟨.ty (.base .real), .req⟩, ⟨.ty (.base .real), .opt⟩, ⟨.ty (.base .real), .opt⟩, ⟨.ty (.base .real), .opt⟩, ⟨.ty (.base .real), .opt⟩]
  attrs := [⟨"x1", (.base .real), false, (some .isNone)⟩,
    ⟨"r1", (.base .real), false, (some .isNone)⟩,
    ⟨"x2", (.base .real), false, none⟩,
    ⟨"r2", (.base .real), false, none⟩,
    ⟨"x3", (.base .real), false, none⟩,
    ⟨"r3", (.base .real), false, none⟩]
  init := ["x1", "r1", "x2", "r2", "x3", "r3"]

/-- src/pymcnp/inp/surface/Y.py:13-24; setter conditions: lines 93, 131. -/
def surface_Y : Cls where
  info := ⟨"Y", .option, c!"y", ["y1", "r1", "y2", "r2", "y3", "r3"]⟩
  shape := .flat ⟨.no, c!"y", .no, .no⟩ [⟨.ty (.base .real), .req⟩, ⟨.ty (.base .real), .req⟩, ⟨.ty (.base .real), .opt⟩, ⟨.ty (.base .real), .opt⟩, ⟨.ty (.base .real), .opt⟩, ⟨.ty (.base .real), .opt⟩]
  attrs := [⟨"y1", (.base .real), false, (some .isNone)⟩,
    ⟨"r1", (.base .real), false, (some .isNone)⟩,
    ⟨"y2", (.base .real), false, none⟩,
    ⟨"r2", (.base .real), false, none⟩,
    ⟨"y3", (.base .real), false, none⟩,
    ⟨"r3", (.base .real), false, none⟩]
  init := ["y1", "r1", "y2", "r2", "y3", "r3"]

/-- src/pymcnp/inp/surface/Z.py:13-24; setter conditions: lines 93, 131. -/
def surface_Z : Cls where
  info := ⟨"Z", .option, c!"z", ["z1", "r1", "z2", "r2", "z3", "r3"]⟩
  shape := .flat ⟨.no, c!"z", .no, .no⟩ [⟨.ty (.base .real), .req⟩, ⟨.ty (.base .real), .req⟩, ⟨.ty (.base .real), .opt⟩, ⟨.ty (.base .real), .opt⟩, ⟨.ty (.base .real), .opt⟩, ⟨.ty (.base .real), .opt⟩]
  attrs := [⟨"z1", (.base .real), false, (some .isNone)⟩,
    ⟨"r1", (.base .real), false, (some .isNone)⟩,
    ⟨"z2", (.base .real), false, none⟩,
    ⟨"r2", (.base .real), false, none⟩,
    ⟨"z3", (.base .real), false, none⟩,
    ⟨"r3", (.base .real), false, none⟩]
  init := ["z1", "r1", "z2", "r2", "z3", "r3"]

/-- src/pymcnp/inp/surface/Box.py:16-33; setter conditions: lines 120, 158, 196, 234, 272, 310, 348, 386, 424, 462, 500, 538. -/
def surface_Box : Cls where
  info := ⟨"Box", .option, c!"box", ["vx", "vy", "vz", "a1x", "a1y", "a1z", "a2x", "a2y", "a2z", "a3x", "a3y", "a3z"]⟩
  shape := .flat ⟨.no, c!"box", .no, .no⟩ [⟨.ty (.base .real), .req⟩, ⟨.ty (.base .real), .req⟩, ⟨.ty (.base .real), .req⟩, ⟨.ty (.base .real), .req⟩, ⟨.ty (.base .real), .req⟩, ⟨.ty (.base .real), .req⟩, ⟨.ty (.base .real), .req⟩, ⟨.ty (.base .real), .req⟩, ⟨.ty (.base .real), .req⟩, ⟨.ty (.base .real), .req⟩, ⟨.ty (.base .real), .req⟩, ⟨.ty (.base .real), .req⟩]
  attrs := [⟨"vx", (.base .real), false, (some .isNone)⟩,
    ⟨"vy", (.base .real), false, (some .isNone)⟩,
    ⟨"vz", (.base .real), false, (some .isNone)⟩,
    ⟨"a1x", (.base .real), false, (some .isNone)⟩,
    ⟨"a1y", (.base .real), false, (some .isNone)⟩,
    ⟨"a1z", (.base .real), false, (some .isNone)⟩,
    ⟨"a2x", (.base .real), false, (some .isNone)⟩,
    ⟨"a2y", (.base .real), false, (some .isNone)⟩,
    ⟨"a2z", (.base .real), false, (some .isNone)⟩,
    ⟨"a3x", (.base .real), false, (some .isNone)⟩,
    ⟨"a3y", (.base .real), false, (some .isNone)⟩,
    ⟨"a3z", (.base .real), false, (some .isNone)⟩]
  init := ["vx", "vy", "vz", "a1x", "a1y", "a1z", "a2x", "a2y", "a2z", "a3x", "a3y", "a3z"]

/-- src/pymcnp/inp/surface/Rpp.py:14-25; setter conditions: lines 94, 132, 170, 208. -/
def surface_Rpp : Cls where
  info := ⟨"Rpp", .option, c!"rpp", ["xmin", "xmax", "ymin", "ymax", "zmin", "zmax"]⟩
  shape := .flat ⟨.no, c!"rpp", .no, .no⟩ [⟨.ty (.base .real), .req⟩, ⟨.ty (.base .real), .req⟩, ⟨.ty (.base .real), .req⟩, ⟨.ty (.base .real), .req⟩, ⟨.ty (.base .real), .opt⟩, ⟨.ty (.base .real), .opt⟩]
  attrs := [⟨"xmin", (.base .real), false, (some .isNone)⟩,
    ⟨"xmax", (.base .real), false, (some .isNone)⟩,
    ⟨"ymin", (.base .real), false, (some .isNone)⟩,
    ⟨"ymax", (.base .real), false, (some .isNone)⟩,
    ⟨"zmin", (.base .real), false, none⟩,
    ⟨"zmax", (.base .real), false, none⟩]
  init := ["xmin", "xmax", "ymin", "ymax", "zmin", "zmax"]

/-- src/pymcnp/inp/surface/Sph.py:16-25; setter conditions: lines 79, 117, 155, 193. -/
def surface_Sph : Cls where
  info := ⟨"Sph", .option, c!"sph", ["vx", "vy", "vz", "r"]⟩
  shape := .flat ⟨.no, c!"sph", .no, .no⟩ [⟨.ty (.base .real), .req⟩, ⟨.ty (.base .real), .req⟩, ⟨.ty (.base .real), .req⟩, ⟨.ty (.base .real), .req⟩]
  attrs := [⟨"vx", (.base .real), false, (some .isNone)⟩,
    ⟨"vy", (.base .real), false, (some .isNone)⟩,
    ⟨"vz", (.base .real), false, (some .isNone)⟩,
    ⟨"r", (.base .real), false, (some .isNone)⟩]
  init := ["vx", "vy", "vz", "r"]

/-- src/pymcnp/inp/surface/Rcc.py:16-28; setter conditions: lines 100, 138, 176, 214, 252, 290, 328. -/
def surface_Rcc : Cls where
  info := ⟨"Rcc", .option, c!"rcc", ["vx", "vy", "vz", "hx", "hy", "hz", "r"]⟩
  shape := .flat ⟨.no, c!"rcc", .no, .no⟩ [⟨.ty (.base .real), .req⟩, ⟨.ty (.base .real), .req⟩, ⟨.ty (.base .real), .req⟩, ⟨.ty (.base .real), .req⟩, ⟨.ty (.base .real), .req⟩, ⟨.ty (.base .real), .req⟩, ⟨.ty (.base .real), .req⟩]
  attrs := [⟨"vx", (.base .real), false, (some .isNone)⟩,
    ⟨"vy", (.base .real), false, (some .isNone)⟩,
    ⟨"vz", (.base .real), false, (some .isNone)⟩,
    ⟨"hx", (.base .real), false, (some .isNone)⟩,
    ⟨"hy", (.base .real), false, (some .isNone)⟩,
    ⟨"hz", (.base .real), false, (some .isNone)⟩,
    ⟨"r", (.base .real), false, (some .isNone)⟩]
  init := ["vx", "vy", "vz", "hx", "hy", "hz", "r"]

/-- src/pymcnp/inp/surface/Rhp.py:17-37; setter conditions: lines 133, 171, 209, 247, 285, 323, 361, 399, 437. -/
def surface_Rhp : Cls where
  info := ⟨"Rhp", .option, c!"rhp", ["vx", "vy", "vz", "hx", "hy", "hz", "r1", "r2", "r3", "s1", "s2", "s3", "t1", "t2", "t3"]⟩
  shape := .flat ⟨.no, c!"rhp", .no, .no⟩ [⟨.ty (.base .real), .req⟩, ⟨.ty (.base .real), .req⟩, ⟨.ty (.base .real), .req⟩, ⟨.ty (.base .real), .req⟩, ⟨.ty (.base .real), .req⟩, ⟨.ty (.base .real), .req⟩, ⟨.ty (.base .real), .req⟩, ⟨.ty (.base .real), .req⟩, ⟨.ty (.base .real), .req⟩, ⟨.ty (.base .real), .opt⟩, ⟨.ty (.base .real), .opt⟩, ⟨.ty (.base .real), .opt⟩, ⟨.ty (.base .real), .opt⟩, ⟨.ty (.base .real), .opt⟩, ⟨.ty (.base .real), .opt⟩]
  attrs := [⟨"vx", (.base .real), false, (some .isNone)⟩,
    ⟨"vy", (.base .real), false, (some .isNone)⟩,
    ⟨"vz", (.base .real), false, (some .isNone)⟩,
    ⟨"hx", (.base .real), false, (some .isNone)⟩,
    ⟨"hy", (.base .real), false, (some .isNone)⟩,
    ⟨"hz", (.base .real), false, (some .isNone)⟩,
    ⟨"r1", (.base .real), false, (some .isNone)⟩,
    ⟨"r2", (.base .real), false, (some .isNone)⟩,
    ⟨"r3", (.base .real), false, (some .isNone)⟩,
    ⟨"s1", (.base .real), false, none⟩,
    ⟨"s2", (.base .real), false, none⟩,
    ⟨"s3", (.base .real), false, none⟩,
    ⟨"t1", (.base .real), false, none⟩,
    ⟨"t2", (.base .real), false, none⟩,
    ⟨"t3", (.base .real), false, none⟩]
  init := ["vx", "vy", "vz", "hx", "hy", "hz", "r1", "r2", "r3", "s1", "s2", "s3", "t1", "t2", "t3"]

/-- src/pymcnp/inp/surface/Rec.py:16-33; setter conditions: lines 120, 158, 196, 234, 272, 310, 348, 386, 424, 462. -/
def surface_Rec : Cls where
  info := ⟨"Rec", .option, c!"rec", ["vx", "vy", "vz", "hx", "hy", "hz", "v1x", "v1y", "v1z", "v2x", "v2y", "v2z"]⟩
  shape := .flat ⟨.no, c!"rec", .no, .no⟩ [⟨.ty (.base .real), .req⟩, ⟨.ty (.base .real), .req⟩, ⟨.ty (.base .real), .req⟩, ⟨.ty (.base .real), .req⟩, ⟨.ty (.base .real), .req⟩, ⟨.ty (.base .real), .req⟩, ⟨.ty (.base .real), .req⟩, ⟨.ty (.base .real), .req⟩, ⟨.ty (.base .real), .req⟩, ⟨.ty (.base .real), .req⟩, ⟨.ty (.base .real), .opt⟩, ⟨.ty (.base .real), .opt⟩]
  attrs := [⟨"vx", (.base .real), false, (some .isNone)⟩,
    ⟨"vy", (.base .real), false, (some .isNone)⟩,
    ⟨"vz", (.base .real), false, (some .isNone)⟩,
    ⟨"hx", (.base .real), false, (some .isNone)⟩,
    ⟨"hy", (.base .real), false, (some .isNone)⟩,
    ⟨"hz", (.base .real), false, (some .isNone)⟩,
    ⟨"v1x", (.base .real), false, (some .isNone)⟩,
    ⟨"v1y", (.base .real), false, (some .isNone)⟩,
    ⟨"v1z", (.base .real), false, (some .isNone)⟩,
    ⟨"v2x", (.base .real), false, (some .isNone)⟩,
    ⟨"v2y", (.base .real), false, none⟩,
    ⟨"v2z", (.base .real), false, none⟩]
  init := ["vx", "vy", "vz", "hx", "hy", "hz", "v1x", "v1y", "v1z", "v2x", "v2y", "v2z"]

/-- src/pymcnp/inp/surface/Trc.py:16-29; setter conditions: lines 104, 142, 180, 218, 256, 294, 332, 370. -/
def surface_Trc : Cls where
  info := ⟨"Trc", .option, c!"trc", ["vx", "vy", "vz", "hx", "hy", "hz", "r1", "r2"]⟩
  shape := .flat ⟨.no, c!"trc", .no, .no⟩ [⟨.ty (.base .real), .req⟩, ⟨.ty (.base .real), .req⟩, ⟨.ty (.base .real), .req⟩, ⟨.ty (.base .real), .req⟩, ⟨.ty (.base .real), .req⟩, ⟨.ty (.base .real), .req⟩, ⟨.ty (.base .real), .req⟩, ⟨.ty (.base .real), .req⟩]
  attrs := [⟨"vx", (.base .real), false, (some .isNone)⟩,
    ⟨"vy", (.base .real), false, (some .isNone)⟩,
    ⟨"vz", (.base .real), false, (some .isNone)⟩,
    ⟨"hx", (.base .real), false, (some .isNone)⟩,
    ⟨"hy", (.base .real), false, (some .isNone)⟩,
    ⟨"hz", (.base .real), false, (some .isNone)⟩,
    ⟨"r1", (.base .real), false, (some .isNone)⟩,
    ⟨"r2", (.base .real), false, (some .isNone)⟩]
  init := ["vx", "vy", "vz", "hx", "hy", "hz", "r1", "r2"]

/-- src/pymcnp/inp/surface/Ell.py:16-28; setter conditions: lines 100, 138, 176, 214, 252, 290, 328. -/
def surface_Ell : Cls where
  info := ⟨"Ell", .option, c!"ell", ["v1x", "v1y", "v1z", "v2x", "v2y", "v2z", "rm"]⟩
  shape := .flat ⟨.no, c!"ell", .no, .no⟩ [⟨.ty (.base .real), .req⟩, ⟨.ty (.base .real), .req⟩, ⟨.ty (.base .real), .req⟩, ⟨.ty (.base .real), .req⟩, ⟨.ty (.base .real), .req⟩, ⟨.ty (.base .real), .req⟩, ⟨.ty (.base .real), .req⟩]
  attrs := [⟨"v1x", (.base .real), false, (some .isNone)⟩,
    ⟨"v1y", (.base .real), false, (some .isNone)⟩,
    ⟨"v1z", (.base .real), false, (some .isNone)⟩,
    ⟨"v2x", (.base .real), false, (some .isNone)⟩,
    ⟨"v2y", (.base .real), false, (some .isNone)⟩,
    ⟨"v2z", (.base .real), false, (some .isNone)⟩,
    ⟨"rm", (.base .real), false, (some .isNone)⟩]
  init := ["v1x", "v1y", "v1z", "v2x", "v2y", "v2z", "rm"]

/-- src/pymcnp/inp/surface/Wed.py:16-33; setter conditions: lines 120, 158, 196, 234, 272, 310, 348, 386, 424, 462, 500, 538. -/
def surface_Wed : Cls where
  info := ⟨"Wed", .option, c!"wed", ["vx", "vy", "vz", "v1x", "v1y", "v1z", "v2x", "v2y", "v2z", "v3x", "v3y", "v3z"]⟩
  shape := .flat ⟨.no, c!"wed", .no, .no⟩ [⟨.ty (.base .real), .req⟩, ⟨.ty (.base .real), .req⟩, ⟨.ty (.base .real), .req⟩, ⟨.ty (.base .real), .req⟩, ⟨.ty (.base .real), .req⟩, ⟨.ty (.base .real), .req⟩, ⟨.ty (.base .real), .req⟩, ⟨.ty (.base .real), .req⟩, ⟨.ty (.base .real), .req⟩, ⟨.ty (.base .real), .req⟩, ⟨.ty (.base .real), .req⟩, ⟨.ty (.base .real), .req⟩]
  attrs := [⟨"vx", (.base .real), false, (some .isNone)⟩,
    ⟨"vy", (.base .real), false, (some .isNone)⟩,
    ⟨"vz", (.base .real), false, (some .isNone)⟩,
    ⟨"v1x", (.base .real), false, (some .isNone)⟩,
    ⟨"v1y", (.base .real), false, (some .isNone)⟩,
    ⟨"v1z", (.base .real), false, (some .isNone)⟩,
    ⟨"v2x", (.base .real), false, (some .isNone)⟩,
    ⟨"v2y", (.base .real), false, (some .isNone)⟩,
    ⟨"v2z", (.base .real), false, (some .isNone)⟩,
    ⟨"v3x", (.base .real), false, (some .isNone)⟩,
    ⟨"v3y", (.base .real), false, (some .isNone)⟩,
    ⟨"v3z", (.base .real), false, (some .isNone)⟩]
  init := ["vx", "vy", "vz", "v1x", "v1y", "v1z", "v2x", "v2y", "v2z", "v3x", "v3y", "v3z"]

/-- src/pymcnp/inp/surface/Arb.py:13-48; setter conditions: lines 189, 227, 265, 303, 341, 379, 417, 455, 493, 531, 569, 607, 645, 683, 721, 759, 797, 835, 873, 911, 949, 987, 1025, 1063, 1101, 1139, 1177, 1215, 1253, 1291. -/
def surface_Arb : Cls where
  info := ⟨"Arb", .option, c!"arb", ["ax", "ay", "az", "bx", "by", "bz", "cx", "cy", "cz", "dx", "dy", "dz", "ex", "ey", "ez", "fx", "fy", "fz", "gx", "gy", "gz", "hx", "hy", "hz", "n1", "n2", "n3", "n4", "n5", "n6"]⟩
  shape := .flat ⟨.no, c!"arb", .no, .no⟩ [⟨.ty (.base .real), .req⟩, ⟨.ty (.base .real), .req⟩, ⟨.ty (.base .real), .req⟩, ⟨.ty (.base .real), .req⟩, ⟨.ty (.base .real), .req⟩, ⟨.ty (.base .real), .req⟩, ⟨.ty (.base .real), .req⟩, ⟨.ty (.base .real), .req⟩, ⟨.ty (.base .real), .req⟩, ⟨.ty (.base .real), .req⟩, ⟨.ty (.base .real), .req⟩, ⟨.ty (.base .real), .req⟩, ⟨.ty (.base .real), .req⟩, ⟨.ty (.base .real), .req⟩, ⟨.ty (.base .real), .req⟩, ⟨.ty (.base .real), .req⟩, ⟨.ty (.base .real), .req⟩, ⟨.ty (.base .real), .req⟩, ⟨.ty (.base .real), .req⟩, ⟨.ty (.base .real), .req⟩, ⟨.ty (.base .real), .req⟩, ⟨.ty (.base .real), .req⟩, ⟨.ty (.base .real), .req⟩, ⟨.ty (.base .real), .req⟩, ⟨.ty (.base .real), .req⟩, ⟨.ty (.base .real), .req⟩, ⟨.ty (.base .real), .req⟩, ⟨.ty (.base .real), .req⟩, ⟨.ty (.base .real), .req⟩, ⟨.ty (.base .real), .req⟩]
  attrs := [⟨"ax", (.base .real), false, (some .isNone)⟩,
    ⟨"ay", (.base .real), false, (some .isNone)⟩,
    ⟨"az", (.base .real), false, (some .isNone)⟩,
    ⟨"bx", (.base .real), false, (some .isNone)⟩,
    ⟨"by", (.base .real), false, (some .isNone)⟩,
    ⟨"bz", (.base .real), false, (some .isNone)⟩,
    ⟨"cx", (.base .real), false, (some .isNone)⟩,
    ⟨"cy", (.base .real), false, (some .isNone)⟩,
    ⟨"cz", (.base .real), false, (some .isNone)⟩,
    ⟨"dx", (.base .real), false, (some .isNone)⟩,
    ⟨"dy", (.base .real), false, (some .isNone)⟩,
    ⟨"dz", (.base .real), false, (some .isNone)⟩,
    ⟨"ex", (.base .real), false, (some .isNone)⟩,
    ⟨"ey", (.base .real), false, (some .isNone)⟩,
    ⟨"ez", (.base .real), false, (some .isNone)⟩,
    ⟨"fx", (.base .real), false, (some .isNone)⟩,
    ⟨"fy", (.base .real), false, (some .isNone)⟩,
    ⟨"fz", (.base .real), false, (some .isNone)⟩,
    ⟨"gx", (.base .real), false, (some .isNone)⟩,
    ⟨"gy", (.base .real), false, (some .isNone)⟩,
    ⟨"gz", (.base .real), false, (some .isNone)⟩,
    ⟨"hx", (.base .real), false, (some .isNone)⟩,
    ⟨"hy", (.base .real), false, (some .isNone)⟩,
    ⟨"hz", (.base .real), false, (some .isNone)⟩,
    ⟨"n1", (.base .real), false, (some .isNone)⟩,
    ⟨"n2", (.base .real), false, (some .isNone)⟩,
    ⟨"n3", (.base .real), false, (some .isNone)⟩,
    ⟨"n4", (.base .real), false, (some .isNone)⟩,
    ⟨"n5", (.base .real), false, (some .isNone)⟩,
    ⟨"n6", (.base .real), false, (some .isNone)⟩]
  init := ["ax", "ay", "az", "bx", "by", "bz", "cx", "cy", "cz", "dx", "dy", "dz", "ex", "ey", "ez", "fx", "fy", "fz", "gx", "gy", "gz", "hx", "hy", "hz", "n1", "n2", "n3", "n4", "n5", "n6"]

/-- src/pymcnp/inp/surface/_option.py:4 and src/pymcnp/inp/surface/__init__.py (order of definition). -/
def T_surface_SurfaceOption : Ty := unionTy "surface.SurfaceOption" [surface_P_0, surface_P_1, surface_Px, surface_Py, surface_Pz, surface_So, surface_S, surface_Sx, surface_Sy, surface_Sz, surface_C_x, surface_C_y, surface_C_z, surface_Cx, surface_Cy, surface_Cz, surface_K_x, surface_K_y, surface_K_z, surface_Kx, surface_Ky, surface_Kz, surface_Sq, surface_Gq, surface_Tx, surface_Ty, surface_Tz, surface_X, surface_Y, surface_Z, surface_Box, surface_Rpp, surface_Sph, surface_Rcc, surface_Rhp, surface_Rec, surface_Trc, surface_Ell, surface_Wed, surface_Arb]

/-- Classes 1 to 20 of this file with the text of their patterns between `\A` and `\Z`. -/
def sourcesSurface0 : List (Cls × Str) := [
  (surface_P_0, c!"p( {types.Real._REGEX.pattern[2:-2]})( {types.Real._REGEX.pattern[2:-2]})( {types.Real._REGEX.pattern[2:-2]})( {types.Real._REGEX.pattern[2:-2]})"),
  (surface_P_1, c!"p( {types.Real._REGEX.pattern[2:-2]})( {types.Real._REGEX.pattern[2:-2]})( {types.Real._REGEX.pattern[2:-2]})( {types.Real._REGEX.pattern[2:-2]})( {types.Real._REGEX.pattern[2:-2]})( {types.Real._REGEX.pattern[2:-2]})( {types.Real._REGEX.pattern[2:-2]})( {types.Real._REGEX.pattern[2:-2]})( {types.Real._REGEX.pattern[2:-2]})"),
  (surface_Px, c!"px( {types.Real._REGEX.pattern[2:-2]})"),
  (surface_Py, c!"py( {types.Real._REGEX.pattern[2:-2]})"),
  (surface_Pz, c!"pz( {types.Real._REGEX.pattern[2:-2]})"),
  (surface_So, c!"so( {types.Real._REGEX.pattern[2:-2]})"),
  (surface_S, c!"s( {types.Real._REGEX.pattern[2:-2]})( {types.Real._REGEX.pattern[2:-2]})( {types.Real._REGEX.pattern[2:-2]})( {types.Real._REGEX.pattern[2:-2]})"),
  (surface_Sx, c!"sx( {types.Real._REGEX.pattern[2:-2]})( {types.Real._REGEX.pattern[2:-2]})"),
  (surface_Sy, c!"sy( {types.Real._REGEX.pattern[2:-2]})( {types.Real._REGEX.pattern[2:-2]})"),
  (surface_Sz, c!"sz( {types.Real._REGEX.pattern[2:-2]})( {types.Real._REGEX.pattern[2:-2]})"),
  (surface_C_x, c!"c/x( {types.Real._REGEX.pattern[2:-2]})( {types.Real._REGEX.pattern[2:-2]})( {types.Real._REGEX.pattern[2:-2]})"),
  (surface_C_y, c!"c/y( {types.Real._REGEX.pattern[2:-2]})( {types.Real._REGEX.pattern[2:-2]})( {types.Real._REGEX.pattern[2:-2]})"),
  (surface_C_z, c!"c/z( {types.Real._REGEX.pattern[2:-2]})( {types.Real._REGEX.pattern[2:-2]})( {types.Real._REGEX.pattern[2:-2]})"),
  (surface_Cx, c!"cx( {types.Real._REGEX.pattern[2:-2]})"),
  (surface_Cy, c!"cy( {types.Real._REGEX.pattern[2:-2]})"),
  (surface_Cz, c!"cz( {types.Real._REGEX.pattern[2:-2]})"),
  (surface_K_x, c!"k/x( {types.Real._REGEX.pattern[2:-2]})( {types.Real._REGEX.pattern[2:-2]})( {types.Real._REGEX.pattern[2:-2]})( {types.Real._REGEX.pattern[2:-2]})( {types.Real._REGEX.pattern[2:-2]})"),
  (surface_K_y, c!"k/y( {types.Real._REGEX.pattern[2:-2]})( {types.Real._REGEX.pattern[2:-2]})( {types.Real._REGEX.pattern[2:-2]})( {types.Real._REGEX.pattern[2:-2]})( {types.Real._REGEX.pattern[2:-2]})"),
  (surface_K_z, c!"k/z( {types.Real._REGEX.pattern[2:-2]})( {types.Real._REGEX.pattern[2:-2]})( {types.Real._REGEX.pattern[2:-2]})( {types.Real._REGEX.pattern[2:-2]})( {types.Real._REGEX.pattern[2:-2]})"),
  (surface_Kx, c!"kx( {types.Real._REGEX.pattern[2:-2]})( {types.Real._REGEX.pattern[2:-2]})( {types.Real._REGEX.pattern[2:-2]})")]

theorem sourcesSurface0_ok : sourcesSurface0.all (fun p => p.1.pat.src == p.2) = true := by decide +kernel

/-- Classes 21 to 40 of this file with the text of their patterns between `\A` and `\Z`. -/
def sourcesSurface1 : List (Cls × Str) := [
  (surface_Ky, c!"ky( {types.Real._REGEX.pattern[2:-2]})( {types.Real._REGEX.pattern[2:-2]})( {types.Real._REGEX.pattern[2:-2]})"),
  (surface_Kz, c!"kz( {types.Real._REGEX.pattern[2:-2]})( {types.Real._REGEX.pattern[2:-2]})( {types.Real._REGEX.pattern[2:-2]})"),
  (surface_Sq, c!"sq( {types.Real._REGEX.pattern[2:-2]})( {types.Real._REGEX.pattern[2:-2]})( {types.Real._REGEX.pattern[2:-2]})( {types.Real._REGEX.pattern[2:-2]})( {types.Real._REGEX.pattern[2:-2]})( {types.Real._REGEX.pattern[2:-2]})( {types.Real._REGEX.pattern[2:-2]})( {types.Real._REGEX.pattern[2:-2]})( {types.Real._REGEX.pattern[2:-2]})( {types.Real._REGEX.pattern[2:-2]})"),
  (surface_Gq, c!"gq( {types.Real._REGEX.pattern[2:-2]})( {types.Real._REGEX.pattern[2:-2]})( {types.Real._REGEX.pattern[2:-2]})( {types.Real._REGEX.pattern[2:-2]})( {types.Real._REGEX.pattern[2:-2]})( {types.Real._REGEX.pattern[2:-2]})( {types.Real._REGEX.pattern[2:-2]})( {types.Real._REGEX.pattern[2:-2]})( {types.Real._REGEX.pattern[2:-2]})( {types.Real._REGEX.pattern[2:-2]})"),
  (surface_Tx, c!"tx( {types.Real._REGEX.pattern[2:-2]})( {types.Real._REGEX.pattern[2:-2]})( {types.Real._REGEX.pattern[2:-2]})( {types.Real._REGEX.pattern[2:-2]})( {types.Real._REGEX.pattern[2:-2]})( {types.Real._REGEX.pattern[2:-2]})"),
  (surface_Ty, c!"ty( {types.Real._REGEX.pattern[2:-2]})( {types.Real._REGEX.pattern[2:-2]})( {types.Real._REGEX.pattern[2:-2]})( {types.Real._REGEX.pattern[2:-2]})( {types.Real._REGEX.pattern[2:-2]})( {types.Real._REGEX.pattern[2:-2]})"),
  (surface_Tz, c!"tz( {types.Real._REGEX.pattern[2:-2]})( {types.Real._REGEX.pattern[2:-2]})( {types.Real._REGEX.pattern[2:-2]})( {types.Real._REGEX.pattern[2:-2]})( {types.Real._REGEX.pattern[2:-2]})( {types.Real._REGEX.pattern[2:-2]})"),
  (surface_X, c!"x( {types.Real._REGEX.pattern[2:-2]})( {types.Real._REGEX.pattern[2:-2]})( {types.Real._REGEX.pattern[2:-2]})?( {types.Real._REGEX.pattern[2:-2]})?( {types.Real._REGEX.pattern[2:-2]})?( {types.Real._REGEX.pattern[2:-2]})?"),
  (surface_Y, c!"y( {types.Real._REGEX.pattern[2:-2]})( {types.Real._REGEX.pattern[2:-2]})( {types.Real._REGEX.pattern[2:-2]})?( {types.Real._REGEX.pattern[2:-2]})?( {types.Real._REGEX.pattern[2:-2]})?( {types.Real._REGEX.pattern[2:-2]})?"),
  (surface_Z, c!"z( {types.Real._REGEX.pattern[2:-2]})( {types.Real._REGEX.pattern[2:-2]})( {types.Real._REGEX.pattern[2:-2]})?( {types.Real._REGEX.pattern[2:-2]})?( {types.Real._REGEX.pattern[2:-2]})?( {types.Real._REGEX.pattern[2:-2]})?"),
  (surface_Box, c!"box( {types.Real._REGEX.pattern[2:-2]})( {types.Real._REGEX.pattern[2:-2]})( {types.Real._REGEX.pattern[2:-2]})( {types.Real._REGEX.pattern[2:-2]})( {types.Real._REGEX.pattern[2:-2]})( {types.Real._REGEX.pattern[2:-2]})( {types.Real._REGEX.pattern[2:-2]})( {types.Real._REGEX.pattern[2:-2]})( {types.Real._REGEX.pattern[2:-2]})( {types.Real._REGEX.pattern[2:-2]})( {types.Real._REGEX.pattern[2:-2]})( {types.Real._REGEX.pattern[2:-2]})"),
  (surface_Rpp, c!"rpp( {types.Real._REGEX.pattern[2:-2]})( {types.Real._REGEX.pattern[2:-2]})( {types.Real._REGEX.pattern[2:-2]})( {types.Real._REGEX.pattern[2:-2]})( {types.Real._REGEX.pattern[2:-2]})?( {types.Real._REGEX.pattern[2:-2]})?"),
  (surface_Sph, c!"sph( {types.Real._REGEX.pattern[2:-2]})( {types.Real._REGEX.pattern[2:-2]})( {types.Real._REGEX.pattern[2:-2]})( {types.Real._REGEX.pattern[2:-2]})"),
  (surface_Rcc, c!"rcc( {types.Real._REGEX.pattern[2:-2]})( {types.Real._REGEX.pattern[2:-2]})( {types.Real._REGEX.pattern[2:-2]})( {types.Real._REGEX.pattern[2:-2]})( {types.Real._REGEX.pattern[2:-2]})( {types.Real._REGEX.pattern[2:-2]})( {types.Real._REGEX.pattern[2:-2]})"),
  (surface_Rhp, c!"rhp( {types.Real._REGEX.pattern[2:-2]})( {types.Real._REGEX.pattern[2:-2]})( {types.Real._REGEX.pattern[2:-2]})( {types.Real._REGEX.pattern[2:-2]})( {types.Real._REGEX.pattern[2:-2]})( {types.Real._REGEX.pattern[2:-2]})( {types.Real._REGEX.pattern[2:-2]})( {types.Real._REGEX.pattern[2:-2]})( {types.Real._REGEX.pattern[2:-2]})( {types.Real._REGEX.pattern[2:-2]})?( {types.Real._REGEX.pattern[2:-2]})?( {types.Real._REGEX.pattern[2:-2]})?( {types.Real._REGEX.pattern[2:-2]})?( {types.Real._REGEX.pattern[2:-2]})?( {types.Real._REGEX.pattern[2:-2]})?"),
  (surface_Rec, c!"rec( {types.Real._REGEX.pattern[2:-2]})( {types.Real._REGEX.pattern[2:-2]})( {types.Real._REGEX.pattern[2:-2]})( {types.Real._REGEX.pattern[2:-2]})( {types.Real._REGEX.pattern[2:-2]})( {types.Real._REGEX.pattern[2:-2]})( {types.Real._REGEX.pattern[2:-2]})( {types.Real._REGEX.pattern[2:-2]})( {types.Real._REGEX.pattern[2:-2]})( {types.Real._REGEX.pattern[2:-2]})( {types.Real._REGEX.pattern[2:-2]})?( {types.Real._REGEX.pattern[2:-2]})?"),
  (surface_Trc, c!"trc( {types.Real._REGEX.pattern[2:-2]})( {types.Real._REGEX.pattern[2:-2]})( {types.Real._REGEX.pattern[2:-2]})( {types.Real._REGEX.pattern[2:-2]})( {types.Real._REGEX.pattern[2:-2]})( {types.Real._REGEX.pattern[2:-2]})( {types.Real._REGEX.pattern[2:-2]})( {types.Real._REGEX.pattern[2:-2]})"),
  (surface_Ell, c!"ell( {types.Real._REGEX.pattern[2:-2]})( {types.Real._REGEX.pattern[2:-2]})( {types.Real._REGEX.pattern[2:-2]})( {types.Real._REGEX.pattern[2:-2]})( {types.Real._REGEX.pattern[2:-2]})( {types.Real._REGEX.pattern[2:-2]})( {types.Real._REGEX.pattern[2:-2]})"),
  (surface_Wed, c!"wed( {types.Real._REGEX.pattern[2:-2]})( {types.Real._REGEX.pattern[2:-2]})( {types.Real._REGEX.pattern[2:-2]})( {types.Real._REGEX.pattern[2:-2]})( {types.Real._REGEX.pattern[2:-2]})( {types.Real._REGEX.pattern[2:-2]})( {types.Real._REGEX.pattern[2:-2]})( {types.Real._REGEX.pattern[2:-2]})( {types.Real._REGEX.pattern[2:-2]})( {types.Real._REGEX.pattern[2:-2]})( {types.Real._REGEX.pattern[2:-2]})( {types.Real._REGEX.pattern[2:-2]})"),
  (surface_Arb, c!"arb( {types.Real._REGEX.pattern[2:-2]})( {types.Real._REGEX.pattern[2:-2]})( {types.Real._REGEX.pattern[2:-2]})( {types.Real._REGEX.pattern[2:-2]})( {types.Real._REGEX.pattern[2:-2]})( {types.Real._REGEX.pattern[2:-2]})( {types.Real._REGEX.pattern[2:-2]})( {types.Real._REGEX.pattern[2:-2]})( {types.Real._REGEX.pattern[2:-2]})( {types.Real._REGEX.pattern[2:-2]})( {types.Real._REGEX.pattern[2:-2]})( {types.Real._REGEX.pattern[2:-2]})( {types.Real._REGEX.pattern[2:-2]})( {types.Real._REGEX.pattern[2:-2]})( {types.Real._REGEX.pattern[2:-2]})( {types.Real._REGEX.pattern[2:-2]})( {types.Real._REGEX.pattern[2:-2]})( {types.Real._REGEX.pattern[2:-2]})( {types.Real._REGEX.pattern[2:-2]})( {types.Real._REGEX.pattern[2:-2]})( {types.Real._REGEX.pattern[2:-2]})( {types.Real._REGEX.pattern[2:-2]})( {types.Real._REGEX.pattern[2:-2]})( {types.Real._REGEX.pattern[2:-2]})( {types.Real._REGEX.pattern[2:-2]})( {types.Real._REGEX.pattern[2:-2]})( {types.Real._REGEX.pattern[2:-2]})( {types.Real._REGEX.pattern[2:-2]})( {types.Real._REGEX.pattern[2:-2]})( {types.Real._REGEX.pattern[2:-2]})")]

theorem sourcesSurface1_ok : sourcesSurface1.all (fun p => p.1.pat.src == p.2) = true := by decide +kernel

/-- All classes of this file. -/
def classesSurface : List Cls := sourcesSurface0.map (·.1) ++ sourcesSurface1.map (·.1)

end Inp.Tab
