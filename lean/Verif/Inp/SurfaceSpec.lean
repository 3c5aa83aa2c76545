import Verif.Inp.CardSpec
import Verif.Inp.TableCards
/-!
# Reading a surface card entry by entry (specification)
-/
namespace Inp
open Py Types

/-- Reading a first word and entries by the first of several classes that accepts them. -/
def unionW (cs : List Cls) (hd : Str) (ws : List Str) : Res Val :=
  match cs.find? (fun c => c.accepts hd ws) with
  | none => .error .inp
  | some c => c.readW hd ws

/-- The surface equations (src/pymcnp/inp/surface/__init__.py). -/
def surfaceOptions : List Cls :=
  [Tab.surface_P_0, Tab.surface_P_1, Tab.surface_Px, Tab.surface_Py, Tab.surface_Pz, Tab.surface_So, Tab.surface_S,
   Tab.surface_Sx, Tab.surface_Sy, Tab.surface_Sz, Tab.surface_C_x, Tab.surface_C_y, Tab.surface_C_z, Tab.surface_Cx,
   Tab.surface_Cy, Tab.surface_Cz, Tab.surface_K_x, Tab.surface_K_y, Tab.surface_K_z, Tab.surface_Kx, Tab.surface_Ky,
   Tab.surface_Kz, Tab.surface_Sq, Tab.surface_Gq, Tab.surface_Tx, Tab.surface_Ty, Tab.surface_Tz, Tab.surface_X,
   Tab.surface_Y, Tab.surface_Z, Tab.surface_Box, Tab.surface_Rpp, Tab.surface_Sph, Tab.surface_Rcc, Tab.surface_Rhp,
   Tab.surface_Rec, Tab.surface_Trc, Tab.surface_Ell, Tab.surface_Wed, Tab.surface_Arb]

/-- The entries are a surface equation: a mnemonic and its coefficients. -/
def isEquation : List Str → Bool
  | [] => false
  | k :: es => surfaceOptions.any (fun c => c.accepts k es)

/-- The boundary sign and the number of the first word. -/
def surfaceHead : Str → Option Str × Str
  | [] => (none, [])
  | [c] => (none, [c])
  | c :: d :: t => if c = '+' ∨ c = '*' then (some [c], d :: t) else (none, c :: d :: t)

/-- The surface with sign `p`, number `n`, transformation `t` and equation `eq`. -/
def surfaceOf (p : Option Str) (n : Str) (t : Option Str) (eq : List Str) : Res Val :=
  match readVal ⟨"prefix", .base .str, false, none⟩ (p.map ([·])) with
  | .error e => .error e
  | .ok pv =>
    match intParse n with
    | .error e => .error e
    | .ok nv =>
      match readVal ⟨"transform", .base .int, false, none⟩ (t.map ([·])) with
      | .error e => .error e
      | .ok tv =>
        match unionW surfaceOptions (eq.headD []) eq.tail with
        | .error e => .error e
        | .ok o => Tab.Surface.mk' [pv, .sc (.int nv), tv, o]

/-- Reading a surface card whose first word is `w` and whose entries are `ws`: the first entry is the
transformation if an equation follows it. -/
def readSurface (w : Str) (ws : List Str) : Res Val :=
  let (p, n) := surfaceHead w
  if isEquation ws.tail then surfaceOf p n ws.head? ws.tail
  else if isEquation ws then surfaceOf p n none ws
  else .error .inp

end Inp
