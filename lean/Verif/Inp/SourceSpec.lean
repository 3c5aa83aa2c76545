import Verif.Inp.DeepSpec
import Verif.Inp.OptionTable
/-!
# Sources whose variables depend on one another (specification)
-/
namespace Inp
open Py Types

/-- The variables of a source that may depend on another one, and the classes for it (the last class of each variable in
src/pymcnp/inp/sdef/__init__.py:20-24).  `par` is not among them: what follows it is read as a particle. -/
def depClasses : List (Str × Cls) :=
  [(c!"ara", Tab.sdef_Ara_1), (c!"axs", Tab.sdef_Axs_1), (c!"bap", Tab.sdef_Bap_1), (c!"bem", Tab.sdef_Bem_1), (c!"ccc", Tab.sdef_Ccc_1),
   (c!"cel", Tab.sdef_Cel_2), (c!"dat", Tab.sdef_Dat_1), (c!"dir", Tab.sdef_Dir_2), (c!"eff", Tab.sdef_Eff_1), (c!"erg", Tab.sdef_Erg_2),
   (c!"ext", Tab.sdef_Ext_2), (c!"loc", Tab.sdef_Loc_1), (c!"nrm", Tab.sdef_Nrm_1), (c!"pos", Tab.sdef_Pos_2), (c!"rad", Tab.sdef_Rad_2),
   (c!"sur", Tab.sdef_Sur_1), (c!"tme", Tab.sdef_Tme_2), (c!"tr", Tab.sdef_Tr_2), (c!"vec", Tab.sdef_Vec_1), (c!"wgt", Tab.sdef_Wgt_1),
   (c!"x", Tab.sdef_X_2), (c!"y", Tab.sdef_Y_2), (c!"z", Tab.sdef_Z_2)]

/-- The variables on which another one may depend, and their classes (src/pymcnp/inp/sdef/f/__init__.py). -/
def onClasses : List (Str × Cls) :=
  [(c!"fcel", Tab.sdef_f_Fcel), (c!"fsur", Tab.sdef_f_Fsur), (c!"ferg", Tab.sdef_f_Ferg), (c!"ftme", Tab.sdef_f_Ftme), (c!"fdir", Tab.sdef_f_Fdir),
   (c!"fvec", Tab.sdef_f_Fvec), (c!"fnrm", Tab.sdef_f_Fnrm), (c!"fpos", Tab.sdef_f_Fpos), (c!"frad", Tab.sdef_f_Frad), (c!"fext", Tab.sdef_f_Fext),
   (c!"faxs", Tab.sdef_f_Faxs), (c!"fx", Tab.sdef_f_Fx), (c!"fy", Tab.sdef_f_Fy), (c!"fz", Tab.sdef_f_Fz), (c!"fccc", Tab.sdef_f_Fccc),
   (c!"fara", Tab.sdef_f_Fara), (c!"fwgt", Tab.sdef_f_Fwgt), (c!"ftr", Tab.sdef_f_Ftr), (c!"feff", Tab.sdef_f_Feff), (c!"fpar", Tab.sdef_f_Fpar),
   (c!"fdat", Tab.sdef_f_Fdat), (c!"floc", Tab.sdef_f_Floc), (c!"fbem", Tab.sdef_f_Fbem), (c!"fbap", Tab.sdef_f_Fbap)]

/-- A word for a distribution: `d` and its number. -/
def DistWord (w : Str) : Prop := ∃ c v, (c = 'd' ∨ c = 'D') ∧ v ≠ [] ∧ Digits v ∧ w = c :: v

/-- A variable of a source as it stands in the text: a class made of a head and fields with its words, or a variable `hd` of
class `c` that depends on the variable `kw` of class `d` by the distribution `n`, or the time drawn from the distributions `ns`,
each embedded in the next (src/pymcnp/inp/sdef/Tme_1.py). -/
inductive SOpt where
  | plain (c : Cls) (hd : Str) (ws : List Str)
  | dep (c : Cls) (hd : Str) (d : Cls) (kw n : Str)
  | time (hd : Str) (ns : List Str)

/-- The words of the variable. -/
def SOpt.opt : SOpt → Opt
  | .plain _ hd ws => (hd, ws)
  | .dep _ hd _ kw n => (hd, [kw, n])
  | .time hd ns => (hd, [join ['<'] ns])

/-- Every variable is found and read by its class. -/
def Sourced : List SOpt → Prop
  | [] => True
  | .plain c hd ws :: l => (c ∈ rowSdef.cs ∧ owns rowSdef.cs c hd ws (optWords (l.map SOpt.opt)) = true) ∧ Sourced l
  | .dep c hd d kw n :: l => ((lower hd, c) ∈ depClasses ∧ (lower kw, d) ∈ onClasses ∧ unitOk (.ty (.base .dist)) n = true) ∧ Sourced l
  | .time hd ns :: l => (lower hd = c!"tme" ∧ ns ≠ [] ∧ (∀ n ∈ ns, DistWord n) ∧ ∀ w, (optWords (l.map SOpt.opt)).head? = some w → w.head? ≠ some '<') ∧ Sourced l

/-- What the variable of class `c` with the distribution `n` of the variable of class `d` is read as. -/
def readDep (c d : Cls) (n : Str) : Res Val :=
  match distParse n with
  | .error e => .error e
  | .ok v =>
    match d.mk' [.sc (.dist v)] with
    | .error e => .error e
    | .ok o => c.mk' [o]

/-- What the time with these distributions is read as. -/
def readTime (ns : List Str) : Res Val :=
  match allOk (ns.map distParse) with
  | .error e => .error e
  | .ok vs => Tab.sdef_Tme_1.mk' [.obj ⟨"Embedded", .embedded, [], ["distributions"]⟩ [.tuple (vs.map (fun v => .sc (.dist v)))]]

/-- What the variable is read as. -/
def SOpt.read : SOpt → Res Val
  | .plain c hd ws => c.readW hd ws
  | .dep c _ d _ n => readDep c d n
  | .time _ ns => readTime ns

/-- The source with these variables. -/
def readSource (os : List SOpt) : Res Val :=
  match os with
  | [] => Tab.Sdef.mk' [.none]
  | o :: os =>
    match allOk ((o :: os).map SOpt.read) with
    | .error e => .error e
    | .ok vs => Tab.Sdef.mk' [.tuple vs]

end Inp
