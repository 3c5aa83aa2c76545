import Verif.State.CellLemmas
/-!
# C32, C33, C34, C36: cells and surfaces as objects with a history
-/
namespace Props
open Py Types Inp State

/-! ## C32 -/

/-- A void cell has no density, any other cell has one. -/
def Consistent (s : CellSt) : Prop :=
  (s.material = .int (.num 0) ∨ (∃ e, s.material = .flt 0 e)) ↔ s.density = none

/-- Is the stored material the void? -/
def IsVoid (h : Held) : Prop := h = .int (.num 0) ∨ ∃ e, h = .flt 0 e

theorem isZero_iff (h : Held) : h.isZero = true ↔ IsVoid h := by
  unfold IsVoid
  cases h with
  | int v => cases v <;> simp [Held.isZero]
  | flt m e => simp [Held.isZero]
  | other => simp [Held.isZero]

/-- **C32 (part).** Every cell is consistent when created.  An assignment that fails changes nothing.
An assignment to anything but the material keeps a cell consistent, and an assignment to the material
does so exactly if it keeps the cell void or keeps it non-void.  A successful assignment to the
density makes any cell consistent.  Missing: assignments to the material that fill or empty the cell. -/
theorem C32_step_partial :
    (∀ c a s, (newCell c a).1 = .ok s → Consistent s) ∧
    (∀ (s : CellSt) o, (s.step o).2 ≠ none → (s.step o).1 = s) ∧
    (∀ (s : CellSt) o, Consistent s → (∀ a, o ≠ .material a) → Consistent (s.step o).1) ∧
    (∀ (s : CellSt) a, Consistent s → (s.step (.material a)).2 = none →
      (Consistent (s.step (.material a)).1 ↔ (IsVoid s.material ↔ IsVoid (s.step (.material a)).1.material))) ∧
    (∀ (s : CellSt) a, (s.step (.density a)).2 = none → Consistent (s.step (.density a)).1) := by
  have hd : ∀ m a d n g o, cellDensity m a = .ok d → Consistent ⟨n, m, d, g, o⟩ := by
    intro m a d n g o h
    unfold Consistent
    have := density_ok h
    rw [isZero_iff] at this
    exact this
  refine ⟨?_, ?_, ?_, ?_, ?_⟩
  · intro c a s h
    obtain ⟨n, _, hi⟩ := new_ok h
    obtain ⟨_, _, h3, _⟩ := init_ok hi
    exact hd _ _ _ _ _ _ h3
  · intro s o h
    cases o <;> simp only [CellSt.step] at * <;> split at h <;> first | exact absurd rfl h | simp_all
  · intro s o hs hm
    cases o with
    | material a => exact absurd rfl (hm a)
    | number a => simp only [CellSt.step]; split <;> exact hs
    | density a =>
      simp only [CellSt.step]; split
      · rename_i hk; exact hd _ _ _ _ _ _ hk
      · exact hs
    | geometry a => simp only [CellSt.step]; split <;> exact hs
    | options a => simp only [CellSt.step]; split <;> exact hs
  · intro s a hs hn
    simp only [CellSt.step] at *
    split at hn
    · rename_i h _
      unfold Consistent at *
      change (IsVoid s.material ↔ _) at hs
      change ((IsVoid h ↔ _) ↔ (_ ↔ IsVoid h))
      rw [hs]
      exact Iff.comm
    · cases hn
  · intro s a hn
    simp only [CellSt.step] at *
    split at hn
    · rename_i hk; exact hd _ _ _ _ _ _ hk
    · cases hn

/-- Arguments for a filled cell and for a void one. -/
def filled : CellArgs := ⟨.int 1, .int 4, .str c!"-2.7", .str c!"-1 2", some [.str c!"imp:n 1"]⟩
def void : CellArgs := ⟨.none, .int 0, .none, .str c!"1", none⟩

example : ((newCell 1 filled).1).isOk = true ∧ ((newCell 1 void).1).isOk = true := by decide +kernel

/-- **C32 (part).** A cell stays consistent through every history of assignments in which no
assignment to the material fills a void cell or empties a filled one.  Missing: histories with such
an assignment (see `C32_violated`). -/
theorem C32_history_partial (c : Nat) (a : CellArgs) (s : CellSt) (hs : (newCell c a).1 = .ok s) (ops : List CellOp)
    (hm : ∀ m h, .material m ∈ ops → holdInt m = .ok (some h) → (IsVoid h ↔ IsVoid s.material)) :
    Consistent (s.run ops) := by
  obtain ⟨h1, _, h3, h4, _⟩ := C32_step_partial
  have : ∀ (ops : List CellOp) (t : CellSt), Consistent t → (IsVoid t.material ↔ IsVoid s.material) →
      (∀ m h, .material m ∈ ops → holdInt m = .ok (some h) → (IsVoid h ↔ IsVoid s.material)) → Consistent (t.run ops) := by
    intro ops
    induction ops with
    | nil => intro t ht _ _; exact ht
    | cons o ops ih =>
      intro t ht hv hm
      have hm' := fun m h hmem => hm m h (List.mem_cons_of_mem _ hmem)
      by_cases hmat : ∃ m, o = .material m
      · obtain ⟨m, rfl⟩ := hmat
        cases hk : cellMaterial m with
        | error e =>
          have : (t.step (.material m)).1 = t := by simp only [CellSt.step, hk]
          simp only [CellSt.run]
          rw [this]; exact ih t ht hv hm'
        | ok h =>
          have hst : t.step (.material m) = ({ t with material := h }, none) := by simp only [CellSt.step, hk]
          have hh : holdInt m = .ok (some h) := by
            unfold cellMaterial needRange at hk
            split at hk
            · cases hk
            · cases hk
            · rename_i x hx
              split at hk
              · cases hk
              · cases hk; exact hx
              · cases hk
          have hv' := hm m h (by simp) hh
          have hc := (h4 t m ht (by rw [hst])).2 (by rw [hst]; exact hv.trans hv'.symm)
          exact ih _ hc (by rw [hst]; exact hv') hm'
      · have hc := h3 t o ht (fun m e => hmat ⟨m, e⟩)
        refine ih _ hc ?_ hm'
        have : (t.step o).1.material = t.material := by
          cases o with
          | material m => exact absurd ⟨m, rfl⟩ hmat
          | _ => simp only [CellSt.step]; split <;> rfl
        rw [this]; exact hv
  exact this ops s (h1 c a s hs) Iff.rfl hm

example : ∃ s, (newCell 1 filled).1 = .ok s ∧
    (s.run [.density .none, .material (.int 7), .density (.int 3), .number (.int 0)]).material = .int (.num 7) :=
  ⟨_, rfl, by decide +kernel⟩

/-- **C32 does not hold**: changing the material of a filled cell to the void leaves its density, and
filling a void cell leaves it without one; neither raises an exception. -/
theorem C32_violated :
    (∃ s, (newCell 1 filled).1 = .ok s ∧ (s.step (.material (.int 0))).2 = none ∧ ¬ Consistent (s.step (.material (.int 0))).1) ∧
    (∃ s, (newCell 1 void).1 = .ok s ∧ (s.step (.material (.int 5))).2 = none ∧ ¬ Consistent (s.step (.material (.int 5))).1) := by
  refine ⟨⟨_, rfl, by decide +kernel, ?_⟩, ⟨_, rfl, by decide +kernel, ?_⟩⟩
  · intro h
    have := h.1 (.inl (by decide +kernel))
    exact absurd this (by decide +kernel)
  · intro h
    have := h.2 (by decide +kernel)
    rcases this with h | ⟨e, h⟩
    · exact absurd h (by decide +kernel)
    · have : Held.int (.num 5) = .flt 0 e := h
      cases this

/-! ## C33 -/

/-- An integer from 1 to `hi`. -/
def NumberIn (hi : Int) (h : Held) : Prop := ∃ n : Int, h = .int (.num n) ∧ 1 ≤ n ∧ n ≤ hi

/-- A transformation is attached: its number is not zero. -/
def Moved (s : SurfSt) : Prop := ∃ h, s.transform = some h ∧ ¬ IsVoid h

/-- **C33 (part).** In every state of a surface that no assignment of a float or other object has
touched, the number is in 1..99999999 provided no transformation was ever attached to it, and the
transformation number, if there is one, is always in 0..999.  Missing: surfaces with a
transformation, whose numbers are not checked at all (see `C33_violated`). -/
theorem C33_history_partial (c : Nat) (a : SurfArgs) (s : SurfSt) (hs : (newSurf c a).1 = .ok s) (ops : List SurfOp)
    (hf : ∀ x, (x = a.number ∨ x = a.transform ∨ .number x ∈ ops ∨ .transform x ∈ ops) → x ≠ .other ∧ ∀ m e, x ≠ .flt m e) :
    (∀ h, (s.run ops).transform = some h → ∃ n : Int, h = .int (.num n) ∧ 0 ≤ n ∧ n ≤ 999) ∧
    (¬ Moved s → (∀ x h, .transform x ∈ ops → holdInt x = .ok (some h) → IsVoid h) → NumberIn 99999999 (s.run ops).number) := by
  have hint : ∀ x h, x ≠ .other → (∀ m e, x ≠ .flt m e) → holdInt x = .ok (some h) → ∃ v, h = .int v := by
    intro x h h1 h2 hh
    cases x with
    | none => cases hh
    | int n => cases hh; exact ⟨_, rfl⟩
    | integer v => cases hh; exact ⟨_, rfl⟩
    | str t =>
      simp only [holdInt] at hh
      split at hh <;> cases hh
      exact ⟨_, rfl⟩
    | flt m e => exact absurd rfl (h2 m e)
    | other => exact absurd rfl h1
  have hnum : ∀ x h t, x ≠ .other → (∀ m e, x ≠ .flt m e) → (∀ y, t = some y → IsVoid y) → surfNumber t x = .ok h → NumberIn 99999999 h := by
    intro x h t h1 h2 ht hk
    unfold surfNumber at hk
    have hno : noTransform t = true := by
      cases t with
      | none => rfl
      | some y => exact (isZero_iff y).2 (ht y rfl)
    split at hk
    · cases hk
    · cases hk
    · rename_i y hy
      obtain ⟨v, rfl⟩ := hint x y h1 h2 hy
      simp only [hno, if_true] at hk
      cases v with
      | hor z => simp [Held.between] at hk
      | num n =>
        simp only [Held.between] at hk
        by_cases hb : 1 ≤ n ∧ n ≤ 99999999
        · simp only [hb, and_self, decide_true] at hk; cases hk; exact ⟨n, rfl, hb.1, hb.2⟩
        · simp only [hb, decide_false] at hk; cases hk
  have htr : ∀ x t, x ≠ .other → (∀ m e, x ≠ .flt m e) → surfTransform x = .ok t →
      (∀ h, t = some h → (∃ n : Int, h = .int (.num n) ∧ 0 ≤ n ∧ n ≤ 999) ∧ holdInt x = .ok (some h)) := by
    intro x t h1 h2 hk h ht
    subst ht
    unfold surfTransform at hk
    split at hk
    · cases hk
    · cases hk
    · rename_i y hy
      obtain ⟨v, rfl⟩ := hint x y h1 h2 hy
      cases v with
      | hor z => simp [Held.between] at hk
      | num n =>
        simp only [Held.between] at hk
        by_cases hb : 0 ≤ n ∧ n ≤ 999
        · simp only [hb, and_self, decide_true] at hk; cases hk; exact ⟨⟨n, rfl, hb.1, hb.2⟩, hy⟩
        · simp only [hb, decide_false] at hk; cases hk
  have main : ∀ (ops : List SurfOp) (t : SurfSt),
      (∀ x, (.number x ∈ ops ∨ .transform x ∈ ops) → x ≠ .other ∧ ∀ m e, x ≠ .flt m e) →
      (∀ h, t.transform = some h → ∃ n : Int, h = .int (.num n) ∧ 0 ≤ n ∧ n ≤ 999) →
      (∀ h, (t.run ops).transform = some h → ∃ n : Int, h = .int (.num n) ∧ 0 ≤ n ∧ n ≤ 999) ∧
      ((∀ h, t.transform = some h → IsVoid h) → NumberIn 99999999 t.number →
        (∀ x h, .transform x ∈ ops → holdInt x = .ok (some h) → IsVoid h) → NumberIn 99999999 (t.run ops).number) := by
    intro ops
    induction ops with
    | nil => intro t _ ht; exact ⟨ht, fun _ h _ => h⟩
    | cons o ops ih =>
      intro t hx ht
      have hx' : ∀ x, (.number x ∈ ops ∨ .transform x ∈ ops) → x ≠ .other ∧ ∀ m e, x ≠ .flt m e :=
        fun x h => hx x (h.imp (List.mem_cons_of_mem _) (List.mem_cons_of_mem _))
      have hstep : (∀ h, (t.step o).1.transform = some h → ∃ n : Int, h = .int (.num n) ∧ 0 ≤ n ∧ n ≤ 999) ∧
          ((∀ h, t.transform = some h → IsVoid h) → NumberIn 99999999 t.number →
            (∀ x h, .transform x ∈ o :: ops → holdInt x = .ok (some h) → IsVoid h) →
            (∀ h, (t.step o).1.transform = some h → IsVoid h) ∧ NumberIn 99999999 (t.step o).1.number) := by
        cases o with
        | number x =>
          obtain ⟨g1, g2⟩ := hx x (.inl (by simp))
          simp only [SurfSt.step]
          split
          · rename_i h hk
            exact ⟨ht, fun hv _ _ => ⟨hv, hnum x h _ g1 g2 hv hk⟩⟩
          · exact ⟨ht, fun hv hn _ => ⟨hv, hn⟩⟩
        | transform x =>
          obtain ⟨g1, g2⟩ := hx x (.inr (by simp))
          simp only [SurfSt.step]
          split
          · rename_i t' hk
            refine ⟨fun h he => (htr x t' g1 g2 hk h he).1, fun hv hn hall => ⟨fun h he => ?_, hn⟩⟩
            exact hall x h (by simp) (htr x t' g1 g2 hk h he).2
          · exact ⟨ht, fun hv hn _ => ⟨hv, hn⟩⟩
        | option x =>
          simp only [SurfSt.step]
          split <;> exact ⟨ht, fun hv hn _ => ⟨hv, hn⟩⟩
        | pre x =>
          simp only [SurfSt.step]
          split <;> exact ⟨ht, fun hv hn _ => ⟨hv, hn⟩⟩
      obtain ⟨i1, i2⟩ := ih (t.step o).1 hx' hstep.1
      refine ⟨i1, fun hv hn hall => ?_⟩
      obtain ⟨hv', hn'⟩ := hstep.2 hv hn hall
      exact i2 hv' hn' (fun x h hmem => hall x h (List.mem_cons_of_mem _ hmem))
  obtain ⟨n, hp, hi⟩ := new_surf_ok hs
  obtain ⟨k1, k2, _, _⟩ := surf_init_ok hi
  obtain ⟨f1, f2⟩ := hf a.transform (.inr (.inl rfl))
  have ht0 := fun h he => (htr a.transform s.transform f1 f2 k1 h he).1
  obtain ⟨m1, m2⟩ := main ops s (fun x h => hf x (h.elim (fun h => .inr (.inr (.inl h))) (fun h => .inr (.inr (.inr h))))) ht0
  refine ⟨m1, fun hmv hall => ?_⟩
  have hv : ∀ h, s.transform = some h → IsVoid h := fun h he =>
    Classical.byContradiction fun hne => hmv ⟨h, he, hne⟩
  refine m2 hv ?_ hall
  have hna : n ≠ .other ∧ ∀ m e, n ≠ .flt m e := by
    by_cases hnone : a.number = .none
    · rw [hnone] at hp
      obtain ⟨rfl, _⟩ := pick_auto hp
      exact ⟨by simp, by simp⟩
    · have : n = a.number := by
        unfold pickNumber at hp
        split at hp
        · rename_i he; exact absurd he hnone
        · cases hp; rfl
      rw [this]; exact hf _ (.inl rfl)
  exact hnum n s.number s.transform hna.1 hna.2 hv k2

def plane : SurfArgs := ⟨.str c!"px 1.5", .int 7, .none, none⟩
def movedPlane : SurfArgs := ⟨.str c!"px 1.5", .int (-7), .int 3, none⟩

example : ∃ s, (newSurf 1 plane).1 = .ok s ∧
    (s.run [.number (.int 0), .transform (.int 0), .number (.str c!"1e3")]).number = .int (.num 1000) := ⟨_, rfl, by decide +kernel⟩

/-- **C33 does not hold**: with a transformation attached every number is accepted, such as -7 or
5000000; and attaching a transformation does not look at the number. -/
theorem C33_violated :
    (∃ s, (newSurf 1 movedPlane).1 = .ok s ∧ s.number = .int (.num (-7)) ∧ Moved s) ∧
    (∃ s, (newSurf 1 plane).1 = .ok s ∧
      (s.run [.number (.int 5000000), .transform (.int 3)]).number = .int (.num 5000000) ∧
      Moved (s.run [.number (.int 5000000), .transform (.int 3)])) ∧
    (∀ (s : SurfSt) (n : Int), Moved s → s.step (.number (.int n)) = ({ s with number := .int (.num n) }, none)) := by
  refine ⟨⟨_, rfl, by decide +kernel, .int (.num 3), by decide +kernel, ?_⟩, ⟨_, rfl, by decide +kernel, .int (.num 3), by decide +kernel, ?_⟩, ?_⟩
  · rintro (h | ⟨e, h⟩) <;> cases h
  · rintro (h | ⟨e, h⟩) <;> cases h
  · rintro s n ⟨h, ht, hv⟩
    have : noTransform s.transform = false := by
      rw [ht]
      cases hz : h.isZero with
      | true => exact absurd ((isZero_iff h).1 hz) hv
      | false => exact hz
    simp only [SurfSt.step, surfNumber, holdInt, this]
    rfl

/-! ## C34 -/

/-- The numbers of the cells created without a number in a session, in order. -/
def autoCells (as : List CellArgs) (rs : List (Res CellSt)) : List Held :=
  (as.zip rs).filterMap (fun p => match p.1.number, p.2 with | .none, .ok s => some s.number | _, _ => none)

/-- The same for surfaces. -/
def autoSurfs (as : List SurfArgs) (rs : List (Res SurfSt)) : List Held :=
  (as.zip rs).filterMap (fun p => match p.1.number, p.2 with | .none, .ok s => some s.number | _, _ => none)

/-- Integers in increasing order. -/
def Ascending (l : List Held) : Prop :=
  l.Pairwise (fun a b => ∃ m n : Int, a = .int (.num m) ∧ b = .int (.num n) ∧ m < n)

/-- **C34 (part).** In every session, whatever other cells are created in between and whichever
creations fail, the automatic numbers increase, so that they all differ; they start at the counter.
The same for surfaces.  Missing: numbers given explicitly (see `C34_violated`). -/
theorem C34_automatic_partial (c : Nat) :
    (∀ as, Ascending (autoCells as (cellSession c as)) ∧
      ∀ h ∈ autoCells as (cellSession c as), ∃ n : Int, h = .int (.num n) ∧ (c : Int) ≤ n) ∧
    (∀ as, Ascending (autoSurfs as (surfSession c as)) ∧
      ∀ h ∈ autoSurfs as (surfSession c as), ∃ n : Int, h = .int (.num n) ∧ (c : Int) ≤ n) := by
  constructor
  · intro as
    induction as generalizing c with
    | nil => exact ⟨List.Pairwise.nil, fun _ h => by cases h⟩
    | cons a as ih =>
      obtain ⟨i1, i2⟩ := ih (newCell c a).2
      have hle : (c : Int) ≤ ((newCell c a).2 : Nat) := by rw [new_counter]; exact Int.ofNat_le.2 (pick_mono c a.number)
      have i2' : ∀ h ∈ autoCells as (cellSession (newCell c a).2 as), ∃ n : Int, h = .int (.num n) ∧ (c : Int) ≤ n := by
        intro h hm
        obtain ⟨n, rfl, hn⟩ := i2 h hm
        exact ⟨n, rfl, Int.le_trans hle hn⟩
      have hstep : autoCells (a :: as) (cellSession c (a :: as)) = autoCells as (cellSession (newCell c a).2 as) ∨
          (autoCells (a :: as) (cellSession c (a :: as)) = .int (.num c) :: autoCells as (cellSession (newCell c a).2 as) ∧
            (newCell c a).2 = c + 1) := by
        simp only [autoCells, cellSession, List.zip_cons_cons, List.filterMap_cons]
        split
        · exact .inl rfl
        · rename_i x hx
          split at hx
          · rename_i s hnone hok
            cases hx
            obtain ⟨n, hp, hi⟩ := new_ok hok
            rw [hnone] at hp
            obtain ⟨rfl, hc, _⟩ := pick_auto hp
            have := (init_ok hi).1
            rw [needRange_int this]
            refine .inr ⟨rfl, ?_⟩
            rw [new_counter, hnone, hc]
          · cases hx
      rcases hstep with he | ⟨he, hc⟩ <;> rw [he]
      · exact ⟨i1, i2'⟩
      · refine ⟨List.Pairwise.cons ?_ i1, ?_⟩
        · intro b hb
          obtain ⟨n, rfl, hn⟩ := i2 b hb
          rw [hc] at hn
          exact ⟨c, n, rfl, rfl, by omega⟩
        · intro h hm
          rcases List.mem_cons.1 hm with rfl | hm
          · exact ⟨c, rfl, Int.le_refl _⟩
          · exact i2' h hm
  · intro as
    induction as generalizing c with
    | nil => exact ⟨List.Pairwise.nil, fun _ h => by cases h⟩
    | cons a as ih =>
      obtain ⟨i1, i2⟩ := ih (newSurf c a).2
      have hle : (c : Int) ≤ ((newSurf c a).2 : Nat) := by rw [new_surf_counter]; exact Int.ofNat_le.2 (pick_mono c a.number)
      have i2' : ∀ h ∈ autoSurfs as (surfSession (newSurf c a).2 as), ∃ n : Int, h = .int (.num n) ∧ (c : Int) ≤ n := by
        intro h hm
        obtain ⟨n, rfl, hn⟩ := i2 h hm
        exact ⟨n, rfl, Int.le_trans hle hn⟩
      have hstep : autoSurfs (a :: as) (surfSession c (a :: as)) = autoSurfs as (surfSession (newSurf c a).2 as) ∨
          (autoSurfs (a :: as) (surfSession c (a :: as)) = .int (.num c) :: autoSurfs as (surfSession (newSurf c a).2 as) ∧
            (newSurf c a).2 = c + 1) := by
        simp only [autoSurfs, surfSession, List.zip_cons_cons, List.filterMap_cons]
        split
        · exact .inl rfl
        · rename_i x hx
          split at hx
          · rename_i s hnone hok
            cases hx
            obtain ⟨n, hp, hi⟩ := new_surf_ok hok
            rw [hnone] at hp
            obtain ⟨rfl, hc, _⟩ := pick_auto hp
            have := (surf_init_ok hi).2.1
            refine .inr ⟨?_, ?_⟩
            · congr 1
              unfold surfNumber at this
              simp only [holdInt] at this
              split at this
              · split at this
                · cases this
                · exact (Except.ok.inj this).symm
                · cases this
              · exact (Except.ok.inj this).symm
            · rw [new_surf_counter, hnone, hc]
          · cases hx
      rcases hstep with he | ⟨he, hc⟩ <;> rw [he]
      · exact ⟨i1, i2'⟩
      · refine ⟨List.Pairwise.cons ?_ i1, ?_⟩
        · intro b hb
          obtain ⟨n, rfl, hn⟩ := i2 b hb
          rw [hc] at hn
          exact ⟨c, n, rfl, rfl, by omega⟩
        · intro h hm
          rcases List.mem_cons.1 hm with rfl | hm
          · exact ⟨c, rfl, Int.le_refl _⟩
          · exact i2' h hm

-- a failed creation in between uses up a number
example : autoCells [void, filled, { void with geometry := .none }, void] (cellSession 1 [void, filled, { void with geometry := .none }, void]) =
    [.int (.num 1), .int (.num 3)] := by decide +kernel

/-- **C34 does not hold**: a cell with the explicit number 1 followed by an automatic one gives two
cells numbered 1, and likewise for surfaces. -/
theorem C34_violated :
    (cellSession 1 [filled, void]).map (fun r => r.map CellSt.number) = [.ok (.int (.num 1)), .ok (.int (.num 1))] ∧
    (surfSession 1 [{ plane with number := .int 1 }, { plane with number := .none }]).map (fun r => r.map SurfSt.number) =
      [.ok (.int (.num 1)), .ok (.int (.num 1))] := by
  constructor <;> decide +kernel

/-! ## C36 -/

/-- **C36 (part).** The cells handed to the constructor are accepted exactly if one of them is not an
ordinary cell card (it is a comment or a `like` card) or carries an `imp` option.  Missing: cells
without `imp` where a data card gives the importances (see `C36_violated`). -/
theorem C36_first_partial (cells : List Val) :
    setCells none (some (cells.map .obj)) =
      if (∃ c ∈ cells, isCell c = false ∨ hasImp c = true) then .ok cells else .error .inp := by
  have hh : ∀ cs : List Val, holdItems cellText (cs.map .obj) = .ok cs := by
    intro cs
    induction cs with
    | nil => rfl
    | cons c cs ih => simp only [List.map_cons, holdItems, ih]
  simp only [setCells, hh]
  by_cases h : ∃ c ∈ cells, isCell c = false ∨ hasImp c = true
  · rw [if_pos h, if_neg]
    intro hall
    rw [List.all_eq_true] at hall
    obtain ⟨c, hc, h1⟩ := h
    have := hall c hc
    rcases h1 with h1 | h1 <;> simp [h1] at this
  · rw [if_neg h, if_pos]
    rw [List.all_eq_true]
    intro c hc
    cases h1 : isCell c with
    | false => exact absurd ⟨c, hc, .inl h1⟩ h
    | true => cases h2 : hasImp c with
      | true => exact absurd ⟨c, hc, .inr h2⟩ h
      | false => rfl

/-- The objects read from cell texts, and from a data card. -/
def plainCell : Val := match cardParse Tab.Cell c!"1 0 -1" with | .ok (v, _) => v | .error _ => .none
def impCell : Val := match cardParse Tab.Cell c!"2 0 1 imp:n 0" with | .ok (v, _) => v | .error _ => .none
def impCard : Val := match cardParse Tab.Imp c!"imp:n 1 0" with | .ok (v, _) => v | .error _ => .none

set_option maxRecDepth 20000 in
example : isCell plainCell = true ∧ hasImp plainCell = false ∧ isCell impCell = true ∧ hasImp impCell = true ∧
    impCard ≠ .none := by decide +kernel

/-- **C36 does not hold**: whatever the data block, cells without `imp` are rejected by the constructor
(which sets the cells before the data), and reassigning them later raises `InpError` or, if there is
any data card, `AttributeError`. -/
theorem C36_violated (cells : List Val) (h : ∀ c ∈ cells, isCell c = true ∧ hasImp c = false) :
    setCells none (some (cells.map .obj)) = .error .inp ∧
    setCells (some []) (some (cells.map .obj)) = .error .inp ∧
    ∀ d ds, setCells (some (d :: ds)) (some (cells.map .obj)) = .error .attribute := by
  have hh : ∀ cs : List Val, holdItems cellText (cs.map .obj) = .ok cs := by
    intro cs
    induction cs with
    | nil => rfl
    | cons c cs ih => simp only [List.map_cons, holdItems, ih]
  have hall : cells.all (fun c => isCell c && !hasImp c) = true := by
    rw [List.all_eq_true]
    intro c hc
    simp [h c hc]
  refine ⟨?_, ?_, ?_⟩
  · simp only [setCells, hh, hall, if_true]
  · simp only [setCells, hh, hall, if_true]
  · intro d ds; simp only [setCells, hh, hall, if_true]

/-- An ordinary cell card, whatever its options. -/
def OrdinaryCell (c : Val) : Prop := ∃ vs, c = .obj Tab.Cell.info vs

/-- A cell whose options include an importance. -/
def CarriesImp (c : Val) : Prop :=
  ∃ i a b d g os, c = .obj i [a, b, d, g, .tuple os] ∧ ∃ vs, Val.obj Tab.cell_Imp.info vs ∈ os

/-- The card a text among the cells stands for: a comment if it reads as one, otherwise a `like` card
if `like` occurs in it in small letters, otherwise a cell. -/
inductive CellFrom (s : Str) (v : Val) : Prop where
  | comment (m) : cardParse Tab.Comment s = .ok (v, m) → CellFrom s v
  | like (m) : cardParse Tab.Comment s = .error .inp → (∃ a b, s = a ++ (c!"like" ++ b)) →
      cardParse Tab.Like s = .ok (v, m) → CellFrom s v
  | cell (m) : cardParse Tab.Comment s = .error .inp → ¬ (∃ a b, s = a ++ (c!"like" ++ b)) →
      cardParse Tab.Cell s = .ok (v, m) → CellFrom s v

/-- One card for each text. -/
inductive CellsFrom : List Str → List Val → Prop where
  | nil : CellsFrom [] []
  | cons {s v ss vs} : CellFrom s v → CellsFrom ss vs → CellsFrom (s :: ss) (v :: vs)

theorem isCell_iff (c : Val) : isCell c = true ↔ OrdinaryCell c := by
  unfold isCell OrdinaryCell
  split
  · rename_i i vs
    rw [beq_iff_eq]
    constructor
    · rintro rfl; exact ⟨vs, rfl⟩
    · rintro ⟨vs', h⟩; injection h
  · rename_i h
    constructor
    · intro h'; cases h'
    · rintro ⟨vs, rfl⟩; exact absurd rfl (h _ _)

theorem hasImp_iff (c : Val) : hasImp c = true ↔ CarriesImp c := by
  unfold hasImp CarriesImp
  split
  · rename_i i a b d g os
    rw [List.any_eq_true]
    constructor
    · rintro ⟨o, ho, h⟩
      refine ⟨i, a, b, d, g, os, rfl, ?_⟩
      split at h
      · rename_i j vs
        rw [beq_iff_eq] at h
        subst h
        exact ⟨vs, ho⟩
      · cases h
    · rintro ⟨i', a', b', d', g', os', h, vs, hm⟩
      injection h with h1 h2
      injection h2 with _ h2
      injection h2 with _ h2
      injection h2 with _ h2
      injection h2 with _ h2
      injection h2 with h2 _
      injection h2 with h2
      subst h2
      exact ⟨_, hm, by simp⟩
  · rename_i h
    constructor
    · intro h'; cases h'
    · rintro ⟨i, a, b, d, g, os, rfl, -⟩; exact absurd rfl (h _ _ _ _ _ _)

theorem infix_iff (t s : Str) : isInfix t s = true ↔ ∃ a b, s = a ++ (t ++ b) := by
  induction s with
  | nil =>
    simp only [isInfix, List.isEmpty_iff]
    constructor
    · rintro rfl; exact ⟨[], [], rfl⟩
    · rintro ⟨a, b, h⟩
      have := congrArg List.length h
      simp only [List.length_nil, List.length_append] at this
      exact List.eq_nil_of_length_eq_zero (by omega)
  | cons c cs ih =>
    simp only [isInfix, Bool.or_eq_true, ih, List.isPrefixOf_iff_prefix]
    constructor
    · rintro (⟨b, h⟩ | ⟨a, b, rfl⟩)
      · exact ⟨[], b, h.symm⟩
      · exact ⟨c :: a, b, rfl⟩
    · rintro ⟨a, b, h⟩
      cases a with
      | nil => exact .inl ⟨b, h.symm⟩
      | cons x a => injection h with _ h; exact .inr ⟨a, b, h⟩

theorem cellText_iff (s : Str) (v : Val) : cellText s = .ok v ↔ CellFrom s v := by
  unfold cellText
  split
  · rename_i w m h
    constructor
    · intro h'; cases h'; exact .comment m h
    · rintro (⟨m', h'⟩ | ⟨m', h', -, -⟩ | ⟨m', h', -, -⟩)
      · rw [h] at h'; cases h'; rfl
      · rw [h] at h'; cases h'
      · rw [h] at h'; cases h'
  · rename_i h
    by_cases hl : isInfix c!"like" s = true
    · rw [if_pos hl]
      constructor
      · intro h'
        cases hp : cardParse Tab.Like s with
        | error e => rw [hp] at h'; cases h'
        | ok w =>
          rw [hp] at h'
          cases h'
          exact .like w.2 h ((infix_iff _ _).1 hl) hp
      · rintro (⟨m', h'⟩ | ⟨m', -, -, h'⟩ | ⟨m', -, h', -⟩)
        · rw [h] at h'; cases h'
        · rw [h']; rfl
        · exact absurd ((infix_iff _ _).1 hl) h'
    · rw [if_neg hl]
      constructor
      · intro h'
        cases hp : cardParse Tab.Cell s with
        | error e => rw [hp] at h'; cases h'
        | ok w =>
          rw [hp] at h'
          cases h'
          exact .cell w.2 h (fun h => hl ((infix_iff _ _).2 h)) hp
      · rintro (⟨m', h'⟩ | ⟨m', -, h', -⟩ | ⟨m', -, -, h'⟩)
        · rw [h] at h'; cases h'
        · exact absurd ((infix_iff _ _).2 h') hl
        · rw [h']; rfl
  · rename_i e hne h
    constructor
    · intro h'; cases h'
    · rintro (⟨m', h'⟩ | ⟨m', h', -, -⟩ | ⟨m', h', -, -⟩)
      · rw [h] at h'; cases h'
      · rw [h] at h'; cases h'; exact absurd rfl hne
      · rw [h] at h'; cases h'; exact absurd rfl hne

theorem cellsFrom_iff (ss : List Str) (vs : List Val) : holdItems cellText (ss.map .str) = .ok vs ↔ CellsFrom ss vs := by
  induction ss generalizing vs with
  | nil =>
    constructor
    · intro h; cases h; exact .nil
    · rintro ⟨⟩; rfl
  | cons s ss ih =>
    simp only [List.map_cons, holdItems]
    constructor
    · intro h
      cases h1 : cellText s with
      | error e => rw [h1] at h; cases h
      | ok v =>
        rw [h1] at h
        cases h2 : holdItems cellText (ss.map .str) with
        | error e => rw [h2] at h; cases h
        | ok ws =>
          rw [h2] at h
          cases h
          exact .cons ((cellText_iff s v).1 h1) ((ih ws).1 h2)
    · rintro (_ | ⟨h1, h2⟩)
      rw [(cellText_iff _ _).2 h1, (ih _).2 h2]

/-- **C36 (texts).** The constructor accepts texts as cells exactly if each of them stands for a card
(comments first, then `like`, then cells) and one of these cards is not an ordinary cell or carries an
importance; it then holds these cards in this order. -/
theorem C36_texts (ss : List Str) (cs : List Val) :
    setCells none (some (ss.map .str)) = .ok cs ↔ CellsFrom ss cs ∧ ∃ c ∈ cs, ¬ OrdinaryCell c ∨ CarriesImp c := by
  have hall : ∀ cs : List Val, cs.all (fun c => isCell c && !hasImp c) = true ↔ ¬ ∃ c ∈ cs, ¬ OrdinaryCell c ∨ CarriesImp c := by
    intro cs
    rw [List.all_eq_true]
    constructor
    · rintro h ⟨c, hc, h1⟩
      have h2 := h c hc
      rw [Bool.and_eq_true, Bool.not_eq_true'] at h2
      rcases h1 with h1 | h1
      · exact h1 ((isCell_iff c).1 h2.1)
      · rw [← hasImp_iff, h2.2] at h1; cases h1
    · intro h c hc
      rw [Bool.and_eq_true, Bool.not_eq_true']
      constructor
      · cases h1 : isCell c with
        | true => rfl
        | false => exact absurd ⟨c, hc, .inl (fun h2 => by rw [← isCell_iff, h1] at h2; cases h2)⟩ h
      · cases h1 : hasImp c with
        | false => rfl
        | true => exact absurd ⟨c, hc, .inr ((hasImp_iff c).1 h1)⟩ h
  rw [← cellsFrom_iff]
  simp only [setCells]
  cases h1 : holdItems cellText (ss.map .str) with
  | error e =>
    constructor
    · intro h; cases h
    · rintro ⟨h, -⟩; cases h
  | ok ws =>
    by_cases h2 : ∃ c ∈ ws, ¬ OrdinaryCell c ∨ CarriesImp c
    · have h3 : ¬ ws.all (fun c => isCell c && !hasImp c) = true := by rw [hall]; exact fun h => h h2
      simp only [if_neg h3]
      constructor
      · intro h; cases h; exact ⟨rfl, h2⟩
      · rintro ⟨h, -⟩; exact h
    · have h3 := (hall ws).2 h2
      simp only [h3, if_true]
      constructor
      · intro h; cases h
      · rintro ⟨h, h4⟩; cases h; exact absurd h4 h2

-- a cell with an importance, a cell without and a copy of it
set_option maxRecDepth 20000 in
example : (match setCells none (some ([c!"2 0 1 imp:n 0", c!"1 0 -1", c!"3 like 1 but u=2"].map .str)) with
      | .ok cs => cs.map (fun c => (isCell c, hasImp c))
      | .error _ => []) = [(true, true), (true, false), (false, false)] := by decide +kernel

end Props
