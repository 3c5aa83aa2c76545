import Verif.Props.CellState
import Verif.Inp.HeadLemmas
import Verif.Inp.TokLemmas
/-!
# C98: the attributes of cells and surfaces hold what was last assigned to them
-/
namespace Props
open Py Types Inp State

set_option maxRecDepth 100000

/-! ## Specification -/

/-- An argument that stands for a whole number. -/
inductive Stands : Arg → Int → Prop where
  | int (n : Int) : Stands (.int n) n
  | integer (n : Int) : Stands (.integer (.num n)) n
  | text (s : Str) (n : Int) : intParse s = .ok (.num n) → Stands (.str s) n

/-- The value kept for an argument with bounds: a whole number within the bounds, or a float within the bounds, which is kept as it is. -/
inductive KeptNum (lo hi : Int) : Arg → Held → Prop where
  | whole {a : Arg} {n : Int} : Stands a n → lo ≤ n → n ≤ hi → KeptNum lo hi a (.int (.num n))
  | float (m : Int) (e : Nat) : lo * 2 ^ e ≤ m → m ≤ hi * 2 ^ e → KeptNum lo hi (.flt m e) (.flt m e)

/-- The value kept for a density. -/
inductive KeptDens : DArg → Option Dens → Prop where
  | none : KeptDens .none none
  | real (v : RealVal) : KeptDens (.real v) (some (.real v))
  | int (n : Int) : KeptDens (.int n) (some (.num n 0))
  | float (m : Int) (e : Nat) : KeptDens (.flt m e) (some (.num m e))
  | text (s : Str) (v : RealVal) : realParse s = .ok v → KeptDens (.str s) (some (.real v))
  | other : KeptDens .other (some .other)

/-- The value kept for a geometry. -/
inductive KeptGeo : GArg → Geo → Prop where
  | surface (n : Str) : KeptGeo (.surface n) (.text n)
  | geo (g : Ast) : KeptGeo (.geo g) (.ast g)
  | text (s : Str) (g : Ast) : geoParse s = .ok g → KeptGeo (.str s) (.ast g)
  | other : KeptGeo .other .other

/-- The values kept for a list of options: objects as they are, texts as they are read; anything else is left out. -/
inductive KeptItems (parse : Str → Res Val) : List Item → List Val → Prop where
  | nil : KeptItems parse [] []
  | obj (v : Val) {is vs} : KeptItems parse is vs → KeptItems parse (.obj v :: is) (v :: vs)
  | text (s : Str) (v : Val) {is vs} : parse s = .ok v → KeptItems parse is vs → KeptItems parse (.str s :: is) (v :: vs)
  | other {is vs} : KeptItems parse is vs → KeptItems parse (.other :: is) vs

/-- The value kept for the options of a cell. -/
inductive KeptOptions : Option (List Item) → Option (List Val) → Prop where
  | none : KeptOptions none none
  | some {is vs} : KeptItems Tab.T_cell_CellOption.parse is vs → KeptOptions (some is) (some vs)

/-- The value kept for a transformation of a surface. -/
inductive KeptMove : Arg → Option Held → Prop where
  | none : KeptMove .none none
  | some {a h} : KeptNum 0 999 a h → KeptMove a (some h)

/-- The value kept for the kind of a surface. -/
inductive KeptKind : OArg → Val → Prop where
  | obj (v : Val) : KeptKind (.obj v) v
  | text (s : Str) (v : Val) : Tab.T_surface_SurfaceOption.parse s = .ok v → KeptKind (.str s) v

/-- The value kept for the prefix of a surface. -/
inductive KeptPrefix : Option Str → Option Str → Prop where
  | none : KeptPrefix none none
  | star : KeptPrefix (some c!"*") (some c!"*")
  | plus : KeptPrefix (some c!"+") (some c!"+")

/-- After a history an attribute has the last value that was assigned to it and kept, or its first value if there was none. -/
def LastKept {O V : Type} (keeps : O → V → Prop) (first : V) (ops : List O) (v : V) : Prop :=
  (v = first ∧ ∀ o ∈ ops, ∀ w, ¬ keeps o w) ∨ ∃ before o after, ops = before ++ o :: after ∧ keeps o v ∧ ∀ p ∈ after, ∀ w, ¬ keeps p w

/-! ## Helper lemmas -/

theorem needRange_iff (lo hi : Int) (a : Arg) (h : Held) : needRange lo hi a = .ok h ↔ KeptNum lo hi a h := by
  constructor
  · intro hk
    unfold needRange at hk
    split at hk
    · cases hk
    · cases hk
    · rename_i x hx
      split at hk
      · cases hk
      · rename_i hb
        cases hk
        cases a with
        | none => cases hx
        | int n =>
          cases hx
          simp only [Held.between, Except.ok.injEq, decide_eq_true_eq] at hb
          exact .whole (.int n) hb.1 hb.2
        | integer v =>
          cases hx
          cases v with
          | num n =>
            simp only [Held.between, Except.ok.injEq, decide_eq_true_eq] at hb
            exact .whole (.integer n) hb.1 hb.2
          | hor z => simp [Held.between] at hb
        | str t =>
          simp only [holdInt] at hx
          split at hx
          · rename_i v hv
            cases hx
            cases v with
            | num n =>
              simp only [Held.between, Except.ok.injEq, decide_eq_true_eq] at hb
              exact .whole (.text t n hv) hb.1 hb.2
            | hor z => simp [Held.between] at hb
          · cases hx
        | flt m e =>
          cases hx
          simp only [Held.between, Except.ok.injEq, decide_eq_true_eq] at hb
          exact .float m e hb.1 hb.2
        | other => cases hx; simp [Held.between] at hb
      · cases hk
  · intro hk
    cases hk with
    | whole hs h1 h2 =>
      cases hs with
      | int => simp [needRange, holdInt, Held.between, h1, h2]
      | integer => simp [needRange, holdInt, Held.between, h1, h2]
      | text s _ hp => simp [needRange, holdInt, hp, Held.between, h1, h2]
    | float m e h1 h2 => simp [needRange, holdInt, Held.between, h1, h2]

theorem holdDens_iff (a : DArg) (d : Option Dens) : holdDens a = .ok d ↔ KeptDens a d := by
  constructor
  · intro h
    cases a with
    | str s =>
      simp only [holdDens] at h
      split at h
      · rename_i v hv; cases h; exact .text s v hv
      · cases h
    | _ => cases h; constructor
  · intro h
    cases h with
    | text s v hv => simp [holdDens, hv]
    | _ => rfl

theorem cellGeometry_iff (a : GArg) (g : Geo) : cellGeometry a = .ok g ↔ KeptGeo a g := by
  constructor
  · intro h
    cases a with
    | none => cases h
    | str s =>
      simp only [cellGeometry] at h
      split at h
      · rename_i v hv; cases h; exact .text s v hv
      · cases h
    | _ => cases h; constructor
  · intro h
    cases h with
    | text s v hv => simp [cellGeometry, hv]
    | _ => rfl

theorem holdItems_iff (parse : Str → Res Val) (is : List Item) (vs : List Val) : holdItems parse is = .ok vs ↔ KeptItems parse is vs := by
  induction is generalizing vs with
  | nil => exact ⟨fun h => by cases h; exact .nil, fun h => by cases h; rfl⟩
  | cons i is ih =>
    cases i with
    | obj v =>
      simp only [holdItems]
      constructor
      · intro h
        split at h
        · rename_i ws hw; cases h; exact .obj v ((ih ws).1 hw)
        · cases h
      · rintro (_ | ⟨_, h⟩)
        rw [(ih _).2 h]
    | str s =>
      simp only [holdItems]
      constructor
      · intro h
        split at h
        · cases h
        · rename_i v hv
          split at h
          · rename_i ws hw; cases h; exact .text s v hv ((ih ws).1 hw)
          · cases h
      · intro h
        cases h with
        | text _ v hv h => rw [hv]; simp only; rw [(ih _).2 h]
    | other =>
      simp only [holdItems]
      exact ⟨fun h => .other ((ih vs).1 h), fun h => by cases h with | other h => exact (ih vs).2 h⟩

theorem cellOptions_iff (a : Option (List Item)) (o : Option (List Val)) : cellOptions a = .ok o ↔ KeptOptions a o := by
  cases a with
  | none => exact ⟨fun h => by cases h; exact .none, fun h => by cases h; rfl⟩
  | some is =>
    simp only [cellOptions]
    constructor
    · intro h
      split at h
      · rename_i vs hv; cases h; exact .some ((holdItems_iff _ _ _).1 hv)
      · cases h
    · intro h
      cases h with
      | some h => rw [(holdItems_iff _ _ _).2 h]

theorem surfTransform_iff (a : Arg) (t : Option Held) : surfTransform a = .ok t ↔ KeptMove a t := by
  have key : surfTransform a = (if a = .none then .ok none else (needRange 0 999 a).map some) := by
    unfold surfTransform needRange
    cases a with
    | none => rfl
    | str s =>
      simp only [holdInt]
      cases intParse s with
      | error e => rfl
      | ok v => simp only; cases (Held.int v).between 0 999 with
        | error e => rfl
        | ok b => cases b <;> rfl
    | int n => simp only [holdInt]; cases (Held.int (.num n)).between 0 999 with
        | error e => rfl
        | ok b => cases b <;> rfl
    | integer v => simp only [holdInt]; cases (Held.int v).between 0 999 with
        | error e => rfl
        | ok b => cases b <;> rfl
    | flt m e => simp only [holdInt]; cases (Held.flt m e).between 0 999 with
        | error e => rfl
        | ok b => cases b <;> rfl
    | other => rfl
  rw [key]
  constructor
  · intro h
    split at h
    · rename_i e; cases h; rw [e]; exact .none
    · cases hk : needRange 0 999 a with
      | error e => rw [hk] at h; cases h
      | ok x => rw [hk] at h; cases h; exact .some ((needRange_iff _ _ _ _).1 hk)
  · intro h
    cases h with
    | none => rfl
    | some h =>
      have : a ≠ .none := by rintro rfl; cases h with | whole h => cases h
      rw [if_neg this, (needRange_iff _ _ _ _).2 h]
      rfl

theorem surfOption_iff (a : OArg) (v : Val) : surfOption a = .ok v ↔ KeptKind a v := by
  cases a with
  | none => exact ⟨fun h => (by cases h), fun h => (by cases h)⟩
  | obj v => exact ⟨fun h => by cases h; exact .obj v, fun h => by cases h; rfl⟩
  | str s => exact ⟨fun h => .text s v h, fun h => by cases h with | text _ _ h => exact h⟩

theorem surfPrefix_iff (a p : Option Str) : surfPrefix a = .ok p ↔ KeptPrefix a p := by
  cases a with
  | none => exact ⟨fun h => by cases h; exact .none, fun h => by cases h; rfl⟩
  | some s =>
    have low : ∀ c ∈ ['*', '+', ':'], lower s = [c] → s = [c] := by
      intro c hc h
      have hc' : lowerC c = c := by
        simp only [List.mem_cons, List.not_mem_nil, or_false] at hc
        rcases hc with rfl | rfl | rfl <;> decide
      obtain ⟨d, rfl, hd⟩ := lower_single (x := c) (w := s) (by rw [h]; simp [lower, hc'])
      rw [(lower_eq_char hc).1 hd]
    simp only [surfPrefix]
    constructor
    · intro h
      split at h
      · rename_i hs
        cases h
        rcases hs with hs | hs
        · rw [low '*' (by decide) hs]; exact .star
        · rw [low '+' (by decide) hs]; exact .plus
      · cases h
    · intro h
      cases h <;> rfl

/-- An attribute whose values are kept or not without regard to the state has the last value that was kept. -/
theorem last_kept {S O V : Type} (step : S → O → S) (get : S → V) (keeps : O → V → Prop)
    (h1 : ∀ s o v, keeps o v → get (step s o) = v) (h2 : ∀ s o, (∀ v, ¬ keeps o v) → get (step s o) = get s) (ops : List O) (s : S) :
    LastKept keeps (get s) ops (get (ops.foldl step s)) := by
  induction ops generalizing s with
  | nil => exact .inl ⟨rfl, fun o h => by cases h⟩
  | cons o ops ih =>
    rw [List.foldl_cons]
    rcases ih (step s o) with ⟨h3, h4⟩ | ⟨b, p, a, h3, h4, h5⟩
    · by_cases hk : ∃ v, keeps o v
      · obtain ⟨v, hk⟩ := hk
        refine .inr ⟨[], o, ops, rfl, ?_, h4⟩
        rw [h3, h1 s o v hk]
        exact hk
      · have hk' : ∀ v, ¬ keeps o v := fun v h => hk ⟨v, h⟩
        refine .inl ⟨by rw [h3, h2 s o hk'], fun p hp => ?_⟩
        rcases List.mem_cons.1 hp with rfl | hp
        · exact hk'
        · exact h4 p hp
    · exact .inr ⟨o :: b, p, a, by rw [h3]; rfl, h4, h5⟩

theorem cell_foldl (ops : List CellOp) (s : CellSt) : s.run ops = ops.foldl (fun s o => (s.step o).1) s := by
  induction ops generalizing s with
  | nil => rfl
  | cons o ops ih => exact ih _

theorem surf_foldl (ops : List SurfOp) (s : SurfSt) : s.run ops = ops.foldl (fun s o => (s.step o).1) s := by
  induction ops generalizing s with
  | nil => rfl
  | cons o ops ih => exact ih _

/-! ## C98 -/

/-- An assignment to an attribute of a cell that keeps the value. -/
inductive CellKeeps : CellOp → (CellSt → CellSt) → Prop where
  | number {a h} : KeptNum 1 99999999 a h → CellKeeps (.number a) (fun s => { s with number := h })
  | material {a h} : KeptNum 0 99999999 a h → CellKeeps (.material a) (fun s => { s with material := h })
  | geometry {a g} : KeptGeo a g → CellKeeps (.geometry a) (fun s => { s with geometry := g })
  | options {a o} : KeptOptions a o → CellKeeps (.options a) (fun s => { s with options := o })

/-- **C98, one assignment to a cell:** an assignment of a value to keep changes that attribute only, to that value, and raises no exception; every other
assignment raises an exception and changes nothing.  A density is kept if the cell is void and it is `None`, or if the cell is not void and it is not. -/
theorem C98_cell (s : CellSt) (o : CellOp) :
    (∀ f, CellKeeps o f → s.step o = (f s, none)) ∧
      (∀ a d, o = .density a → KeptDens a d → (d = none ↔ IsVoid s.material) → s.step o = ({ s with density := d }, none)) ∧
      ((¬ ∃ f, CellKeeps o f) → (¬ ∃ a d, o = .density a ∧ KeptDens a d ∧ (d = none ↔ IsVoid s.material)) → (s.step o).1 = s ∧ ∃ e, (s.step o).2 = some e) := by
  refine ⟨fun f h => ?_, fun a d h hd hv => ?_, fun h1 h2 => ?_⟩
  · cases h with
    | number h => simp only [CellSt.step, cellNumber, (needRange_iff _ _ _ _).2 h]
    | material h => simp only [CellSt.step, cellMaterial, (needRange_iff _ _ _ _).2 h]
    | geometry h => simp only [CellSt.step, (cellGeometry_iff _ _).2 h]
    | options h => simp only [CellSt.step, (cellOptions_iff _ _).2 h]
  · subst h
    rw [← isZero_iff] at hv
    simp only [CellSt.step, cellDensity, (holdDens_iff _ _).2 hd]
    cases d <;> cases hz : s.material.isZero <;> simp_all
  · cases o with
    | number a =>
      simp only [CellSt.step]
      cases hk : cellNumber a with
      | ok h => exact absurd ⟨_, .number ((needRange_iff _ _ _ _).1 hk)⟩ h1
      | error e => exact ⟨rfl, e, rfl⟩
    | material a =>
      simp only [CellSt.step]
      cases hk : cellMaterial a with
      | ok h => exact absurd ⟨_, .material ((needRange_iff _ _ _ _).1 hk)⟩ h1
      | error e => exact ⟨rfl, e, rfl⟩
    | geometry a =>
      simp only [CellSt.step]
      cases hk : cellGeometry a with
      | ok h => exact absurd ⟨_, .geometry ((cellGeometry_iff _ _).1 hk)⟩ h1
      | error e => exact ⟨rfl, e, rfl⟩
    | options a =>
      simp only [CellSt.step]
      cases hk : cellOptions a with
      | ok h => exact absurd ⟨_, .options ((cellOptions_iff _ _).1 hk)⟩ h1
      | error e => exact ⟨rfl, e, rfl⟩
    | density a =>
      simp only [CellSt.step]
      cases hk : cellDensity s.material a with
      | error e => exact ⟨rfl, e, rfl⟩
      | ok d =>
        refine absurd ⟨a, d, rfl, ?_, ?_⟩ h2
        · unfold cellDensity at hk
          split at hk
          · cases hk
          · rename_i d' hd
            split at hk
            · cases hk
            · cases hk; exact (holdDens_iff _ _).1 hd
        · rw [← isZero_iff]
          exact (density_ok hk).symm

/-- What the attributes of a cell keep of an assignment. -/
def NumberKeeps (o : CellOp) (h : Held) : Prop := ∃ a, o = .number a ∧ KeptNum 1 99999999 a h
def MaterialKeeps (o : CellOp) (h : Held) : Prop := ∃ a, o = .material a ∧ KeptNum 0 99999999 a h
def GeometryKeeps (o : CellOp) (g : Geo) : Prop := ∃ a, o = .geometry a ∧ KeptGeo a g
def OptionsKeeps (o : CellOp) (v : Option (List Val)) : Prop := ∃ a, o = .options a ∧ KeptOptions a v

/-- **C98, histories of cells:** after any assignments, the number, the material, the geometry and the options of a cell are the last values kept. -/
theorem C98_cell_history (s : CellSt) (ops : List CellOp) :
    LastKept NumberKeeps s.number ops (s.run ops).number ∧ LastKept MaterialKeeps s.material ops (s.run ops).material ∧
      LastKept GeometryKeeps s.geometry ops (s.run ops).geometry ∧ LastKept OptionsKeeps s.options ops (s.run ops).options := by
  rw [cell_foldl]
  refine ⟨last_kept _ CellSt.number NumberKeeps ?_ ?_ ops s, last_kept _ CellSt.material MaterialKeeps ?_ ?_ ops s,
    last_kept _ CellSt.geometry GeometryKeeps ?_ ?_ ops s, last_kept _ CellSt.options OptionsKeeps ?_ ?_ ops s⟩
  · rintro s _ v ⟨a, rfl, h⟩; rw [(C98_cell s _).1 _ (.number h)]
  · intro s o h
    cases o with
    | number a =>
      simp only [CellSt.step]
      cases hk : cellNumber a with
      | ok v => exact absurd ⟨a, rfl, (needRange_iff _ _ _ _).1 hk⟩ (h v)
      | error e => rfl
    | _ => simp only [CellSt.step]; split <;> rfl
  · rintro s _ v ⟨a, rfl, h⟩; rw [(C98_cell s _).1 _ (.material h)]
  · intro s o h
    cases o with
    | material a =>
      simp only [CellSt.step]
      cases hk : cellMaterial a with
      | ok v => exact absurd ⟨a, rfl, (needRange_iff _ _ _ _).1 hk⟩ (h v)
      | error e => rfl
    | _ => simp only [CellSt.step]; split <;> rfl
  · rintro s _ v ⟨a, rfl, h⟩; rw [(C98_cell s _).1 _ (.geometry h)]
  · intro s o h
    cases o with
    | geometry a =>
      simp only [CellSt.step]
      cases hk : cellGeometry a with
      | ok v => exact absurd ⟨a, rfl, (cellGeometry_iff _ _).1 hk⟩ (h v)
      | error e => rfl
    | _ => simp only [CellSt.step]; split <;> rfl
  · rintro s _ v ⟨a, rfl, h⟩; rw [(C98_cell s _).1 _ (.options h)]
  · intro s o h
    cases o with
    | options a =>
      simp only [CellSt.step]
      cases hk : cellOptions a with
      | ok v => exact absurd ⟨a, rfl, (cellOptions_iff _ _).1 hk⟩ (h v)
      | error e => rfl
    | _ => simp only [CellSt.step]; split <;> rfl

/-- **C98, new cells:** a cell is made exactly if all its arguments are kept, and then holds them. -/
theorem C98_cell_new (c : Nat) (a : CellArgs) (s : CellSt) (hn : a.number ≠ .none) :
    (newCell c a).1 = .ok s ↔ KeptNum 1 99999999 a.number s.number ∧ KeptNum 0 99999999 a.material s.material ∧
      (KeptDens a.density s.density ∧ (s.density = none ↔ IsVoid s.material)) ∧ KeptGeo a.geometry s.geometry ∧ KeptOptions a.options s.options := by
  have hp : pickNumber c a.number = (.ok a.number, c) := by
    unfold pickNumber
    split
    · rename_i h; exact absurd h hn
    · rfl
  unfold newCell
  rw [hp]
  simp only
  constructor
  · intro h
    obtain ⟨h1, h2, h3, h4, h5⟩ := init_ok h
    refine ⟨(needRange_iff _ _ _ _).1 h1, (needRange_iff _ _ _ _).1 h2, ⟨?_, ?_⟩, (cellGeometry_iff _ _).1 h4, (cellOptions_iff _ _).1 h5⟩
    · unfold cellDensity at h3
      split at h3
      · cases h3
      · rename_i d' hd
        split at h3
        · cases h3
        · cases h3; exact (holdDens_iff _ _).1 hd
    · rw [← isZero_iff]
      exact (density_ok h3).symm
  · rintro ⟨h1, h2, ⟨h3, h3'⟩, h4, h5⟩
    have hd : cellDensity s.material a.density = .ok s.density := by
      rw [← isZero_iff] at h3'
      simp only [cellDensity, (holdDens_iff _ _).2 h3]
      cases hq : s.density <;> cases hz : s.material.isZero <;> simp_all
    simp only [cellInit, cellNumber, cellMaterial, (needRange_iff _ _ _ _).2 h1, (needRange_iff _ _ _ _).2 h2, hd, (cellGeometry_iff _ _).2 h4,
      (cellOptions_iff _ _).2 h5]

/-- InRange bounds. -/
def InRange (lo hi : Int) (h : Held) : Prop := (∃ n : Int, h = .int (.num n) ∧ lo ≤ n ∧ n ≤ hi) ∨ ∃ m e, h = .flt m e ∧ lo * 2 ^ e ≤ m ∧ m ≤ hi * 2 ^ e

theorem kept_within {lo hi : Int} {a : Arg} {h : Held} (hk : KeptNum lo hi a h) : InRange lo hi h := by
  cases hk with
  | whole _ h1 h2 => exact .inl ⟨_, rfl, h1, h2⟩
  | float m e h1 h2 => exact .inr ⟨m, e, rfl, h1, h2⟩

/-- **C98, bounds:** in every state of a cell its number is from 1 to 99999999 and that of its material from 0 to 99999999. -/
theorem C98_cell_bounds (c : Nat) (a : CellArgs) (s : CellSt) (hs : (newCell c a).1 = .ok s) (ops : List CellOp) :
    InRange 1 99999999 (s.run ops).number ∧ InRange 0 99999999 (s.run ops).material := by
  obtain ⟨n, _, hi⟩ := new_ok hs
  obtain ⟨h1, h2, _⟩ := init_ok hi
  obtain ⟨l1, l2, _⟩ := C98_cell_history s ops
  constructor
  · rcases l1 with ⟨e, _⟩ | ⟨_, _, _, _, ⟨_, _, h⟩, _⟩
    · rw [e]; exact kept_within ((needRange_iff _ _ _ _).1 h1)
    · exact kept_within h
  · rcases l2 with ⟨e, _⟩ | ⟨_, _, _, _, ⟨_, _, h⟩, _⟩
    · rw [e]; exact kept_within ((needRange_iff _ _ _ _).1 h2)
    · exact kept_within h

/-- What the attributes of a surface keep of an assignment. -/
def MoveKeeps (o : SurfOp) (t : Option Held) : Prop := ∃ a, o = .transform a ∧ KeptMove a t
def KindKeeps (o : SurfOp) (v : Val) : Prop := ∃ a, o = .option a ∧ KeptKind a v
def PrefixKeeps (o : SurfOp) (p : Option Str) : Prop := ∃ a, o = .pre a ∧ KeptPrefix a p

/-- **C98, one assignment to a surface, part:** an assignment of a value to keep changes that attribute only, to that value, and raises no exception; every other
assignment raises an exception and changes nothing.  Missing: numbers of surfaces with a transformation, which are not checked (`C33_violated`). -/
theorem C98_surface_partial (s : SurfSt) :
    (∀ a t, KeptMove a t → s.step (.transform a) = ({ s with transform := t }, none)) ∧
    (∀ a v, KeptKind a v → s.step (.option a) = ({ s with option := v }, none)) ∧
    (∀ a p, KeptPrefix a p → s.step (.pre a) = ({ s with pre := p }, none)) ∧
    (¬ Moved s → ∀ a h, KeptNum 1 99999999 a h → s.step (.number a) = ({ s with number := h }, none)) ∧
    (∀ o, (∀ t, ¬ MoveKeeps o t) → (∀ v, ¬ KindKeeps o v) → (∀ p, ¬ PrefixKeeps o p) → (∀ a, o = .number a → ¬ Moved s ∧ ∀ h, ¬ KeptNum 1 99999999 a h) →
      (s.step o).1 = s ∧ ∃ e, (s.step o).2 = some e) := by
  have hnum : ¬ Moved s → ∀ a, surfNumber s.transform a = needRange 1 99999999 a := by
    intro hm a
    have : noTransform s.transform = true := by
      cases ht : s.transform with
      | none => rfl
      | some h =>
        cases hz : h.isZero with
        | true => exact hz
        | false => exact absurd ⟨h, ht, fun hv => by rw [(isZero_iff h).2 hv] at hz; cases hz⟩ hm
    unfold surfNumber needRange
    simp only [this, if_true]
  refine ⟨fun a t h => ?_, fun a v h => ?_, fun a p h => ?_, fun hm a h hk => ?_, fun o h1 h2 h3 h4 => ?_⟩
  · simp only [SurfSt.step, (surfTransform_iff _ _).2 h]
  · simp only [SurfSt.step, (surfOption_iff _ _).2 h]
  · simp only [SurfSt.step, (surfPrefix_iff _ _).2 h]
  · simp only [SurfSt.step, hnum hm, (needRange_iff _ _ _ _).2 hk]
  · cases o with
    | transform a =>
      simp only [SurfSt.step]
      cases hk : surfTransform a with
      | ok v => exact absurd ⟨a, rfl, (surfTransform_iff _ _).1 hk⟩ (h1 v)
      | error e => exact ⟨rfl, e, rfl⟩
    | option a =>
      simp only [SurfSt.step]
      cases hk : surfOption a with
      | ok v => exact absurd ⟨a, rfl, (surfOption_iff _ _).1 hk⟩ (h2 v)
      | error e => exact ⟨rfl, e, rfl⟩
    | pre a =>
      simp only [SurfSt.step]
      cases hk : surfPrefix a with
      | ok v => exact absurd ⟨a, rfl, (surfPrefix_iff _ _).1 hk⟩ (h3 v)
      | error e => exact ⟨rfl, e, rfl⟩
    | number a =>
      obtain ⟨hm, hk⟩ := h4 a rfl
      simp only [SurfSt.step, hnum hm]
      cases hk' : needRange 1 99999999 a with
      | ok v => exact absurd ((needRange_iff _ _ _ _).1 hk') (hk v)
      | error e => exact ⟨rfl, e, rfl⟩

/-- **C98, histories of surfaces:** after any assignments, the transformation, the kind and the prefix of a surface are the last values kept. -/
theorem C98_surface_history (s : SurfSt) (ops : List SurfOp) :
    LastKept MoveKeeps s.transform ops (s.run ops).transform ∧ LastKept KindKeeps s.option ops (s.run ops).option ∧
      LastKept PrefixKeeps s.pre ops (s.run ops).pre := by
  rw [surf_foldl]
  refine ⟨last_kept _ SurfSt.transform MoveKeeps ?_ ?_ ops s, last_kept _ SurfSt.option KindKeeps ?_ ?_ ops s,
    last_kept _ SurfSt.pre PrefixKeeps ?_ ?_ ops s⟩
  · rintro s _ v ⟨a, rfl, h⟩; rw [(C98_surface_partial s).1 _ _ h]
  · intro s o h
    cases o with
    | transform a =>
      simp only [SurfSt.step]
      cases hk : surfTransform a with
      | ok v => exact absurd ⟨a, rfl, (surfTransform_iff _ _).1 hk⟩ (h v)
      | error e => rfl
    | _ => simp only [SurfSt.step]; split <;> rfl
  · rintro s _ v ⟨a, rfl, h⟩; rw [(C98_surface_partial s).2.1 _ _ h]
  · intro s o h
    cases o with
    | option a =>
      simp only [SurfSt.step]
      cases hk : surfOption a with
      | ok v => exact absurd ⟨a, rfl, (surfOption_iff _ _).1 hk⟩ (h v)
      | error e => rfl
    | _ => simp only [SurfSt.step]; split <;> rfl
  · rintro s _ v ⟨a, rfl, h⟩; rw [(C98_surface_partial s).2.2.1 _ _ h]
  · intro s o h
    cases o with
    | pre a =>
      simp only [SurfSt.step]
      cases hk : surfPrefix a with
      | ok v => exact absurd ⟨a, rfl, (surfPrefix_iff _ _).1 hk⟩ (h v)
      | error e => rfl
    | _ => simp only [SurfSt.step]; split <;> rfl

/-! ## Examples -/

/-- A text for a number, a text for a density, a list with an object of another class. -/
example : KeptNum 1 99999999 (.str c!"1e3") (.int (.num 1000)) ∧ KeptDens (.int (-3)) (some (.num (-3) 0)) ∧
    (∃ vs, KeptOptions (some [.str c!"imp:n 1", .other]) (some vs) ∧ vs.length = 1) ∧ ¬ (∃ h, KeptNum 1 99999999 (.int 0) h) := by
  have hok : (Tab.T_cell_CellOption.parse c!"imp:n 1").isOk = true := by decide +kernel
  have hp : ∃ v, Tab.T_cell_CellOption.parse c!"imp:n 1" = .ok v := by
    cases h : Tab.T_cell_CellOption.parse c!"imp:n 1" with
    | ok v => exact ⟨v, rfl⟩
    | error e => rw [h] at hok; cases hok
  obtain ⟨v, hv⟩ := hp
  refine ⟨.whole (.text _ _ (by decide +kernel)) (by decide) (by decide), .int _, ⟨[v], .some (.text _ _ hv (.other .nil)), rfl⟩, ?_⟩
  · rintro ⟨h, hk⟩
    cases hk with
    | whole hs h1 _ => cases hs; exact absurd h1 (by decide)

/-- The number of a cell after three assignments, the last of which is refused. -/
example : ∃ s, (newCell 1 filled).1 = .ok s ∧ filled.number ≠ .none ∧
    (s.run [.number (.int 5), .density (.int 3), .number (.str c!"1e3"), .number (.int 0)]).number = .int (.num 1000) ∧
    (s.run [.number (.int 5), .density (.int 3)]).density = some (.num 3 0) := ⟨_, rfl, by decide, by decide +kernel, by decide +kernel⟩

/-- A surface that is not moved. -/
example : ∃ s, (newSurf 1 plane).1 = .ok s ∧ ¬ Moved s ∧ (s.run [.pre (some c!"*"), .pre (some c!"x"), .transform (.int 3)]).pre = some c!"*" := by
  refine ⟨_, rfl, ?_, by decide +kernel⟩
  rintro ⟨h, ht, _⟩
  cases ht

end Props
