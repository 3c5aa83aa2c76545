import Verif.Show.Select
import Verif.Run.Visualize
import Verif.Py.StrLemmas
import Verif.Inp.FlatRead
import Verif.Types.ScalarLemmas
import Verif.Props.Show
/-!
# C82: drawing a selection draws what was selected

Cells or surfaces can be left out of a drawing, or listed.  The drawing then has to show those that are left, or those that are
listed, each as in the drawing of everything; and the command has to draw, or write, what its options ask for.
-/
namespace Props
open Py Types Show

/-- The geometry mentions the cell `n` (as its complement). -/
def Refers : Ast → Str → Prop
  | .inter l r, n => Refers l n ∨ Refers r n
  | .union l r, n => Refers l n ∨ Refers r n
  | .unary .hash (.digit d), n => d = n
  | .unary _ e, n => Refers e n
  | .paren e, n => Refers e n
  | .digit _, _ => False

/-- The cells that an item of the block of cells is made from are not left out. -/
def Independent (skip : Str → Bool) : CellItem → Prop
  | .cell n g _ => skip n = false → ∀ m, Refers g m → skip m = false
  | .like n b _ => skip n = false → skip b = false
  | .comment => True

theorem region_congr (surf cells cells' : Str → Option Show.Region) (g : Ast) (h : ∀ m, Refers g m → cells m = cells' m) :
    region surf cells g = region surf cells' g := by
  induction g with
  | inter l r hl hr => simp only [region, hl fun m hm => h m (.inl hm), hr fun m hm => h m (.inr hm)]
  | union l r hl hr => simp only [region, hl fun m hm => h m (.inl hm), hr fun m hm => h m (.inr hm)]
  | unary op e he =>
    cases op with
    | plus => simp only [region]; exact he fun m hm => h m (by cases e <;> exact hm)
    | minus => simp only [region]; rw [he fun m hm => h m (by cases e <;> exact hm)]
    | hash =>
      cases e with
      | digit d => simp only [region, h d rfl]
      | inter l r => simp only [region] at he ⊢; rw [he fun m hm => h m hm]
      | union l r => simp only [region] at he ⊢; rw [he fun m hm => h m hm]
      | paren e => simp only [region] at he ⊢; rw [he fun m hm => h m hm]
      | unary o e => have := he fun m hm => h m hm; simp only [region]; rw [this]
  | paren e he => simp only [region]; exact he h
  | digit d => simp only [region]

theorem dictGet_filter (p : Str → Bool) (d : List (Str × Show.Region)) (n : Str) (h : p n = true) :
    dictGet (d.filter fun x => p x.1) n = dictGet d n := by
  unfold dictGet
  rw [← List.filter_reverse, List.find?_filter]
  congr 2
  funext x
  by_cases hx : x.1 = n
  · simp [hx, h]
  · simp [hx]

theorem eval_id {a b : Show.Region} (h : a.eval = .ok b) : b = a := by
  cases a <;> simp [Region.eval] at h <;> exact h.symm

theorem drawListed_filter (surf : Str → Option Show.Region) (listed : Str → Bool) (l : List CellItem) :
    ∀ done all, drawCells surf (fun _ => false) l done = .ok all →
      drawListed surf listed l done (done.filter fun x => listed x.1) = .ok (all.filter fun x => listed x.1) := by
  induction l with
  | nil => intro done all h; cases h; rfl
  | cons i l ih =>
    intro done all h
    have key : ∀ n a, drawCells surf (fun _ => false) l (done ++ [(n, a)]) = .ok all → ∀ b, a.eval = .ok b →
        (if listed n = true then
          match a.eval with
          | .error e => .error e
          | .ok a => drawListed surf listed l (done ++ [(n, a)]) ((done.filter fun x => listed x.1) ++ [(n, a)])
        else drawListed surf listed l (done ++ [(n, a)]) (done.filter fun x => listed x.1)) =
          (.ok (all.filter fun x => listed x.1) : Res (List (Str × Show.Region))) := by
      intro n a h1 b h2
      have h3 := ih _ _ h1
      have := eval_id h2
      subst this
      by_cases hl : listed n = true
      · rw [if_pos hl, h2]
        simpa [List.filter_append, hl] using h3
      · rw [if_neg hl]
        simpa [List.filter_append, hl] using h3
    cases i with
    | comment => exact ih done all h
    | cell n g t =>
      simp only [drawCells, Bool.false_eq_true, if_false] at h
      simp only [drawListed]
      cases hr : region surf (dictGet done) g with
      | error e => rw [hr] at h; cases h
      | ok a =>
        rw [hr] at h
        simp only at h ⊢
        cases he : a.eval with
        | error e => rw [he] at h; cases h
        | ok b =>
          rw [he] at h
          have := key n a (by have := eval_id he; subst this; exact h) b he
          rw [he] at this
          exact this
    | like n b t =>
      simp only [drawCells, Bool.false_eq_true, if_false] at h
      simp only [drawListed]
      cases hr : dictGet done b with
      | none => rw [hr] at h; cases h
      | some a =>
        rw [hr] at h
        simp only at h ⊢
        cases he : a.eval with
        | error e => rw [he] at h; cases h
        | ok b =>
          rw [he] at h
          have := key n a (by have := eval_id he; subst this; exact h) b he
          rw [he] at this
          exact this

/-- **C82, listed cells:** when the input can be drawn, drawing listed cells shows exactly those, in order, each as in the drawing of everything. -/
theorem C82_cells (surfs : List (Str × Option Nat × Surf)) (items : List CellItem) (all : List (Str × Show.Region))
    (h : showCells surfs items (fun _ => false) = .ok all) (l : List Str) :
    showListed surfs items (inList l) = .ok (all.filter fun x => decide (x.1 ∈ l)) := by
  unfold showCells at h
  unfold showListed
  cases hd : surfaceDict surfs with
  | error e => rw [hd] at h; cases h
  | ok d =>
    rw [hd] at h
    have := drawListed_filter (dictGet d) (inList l) items [] all h
    simp only [inList, List.contains_eq_mem] at this ⊢
    exact this

theorem drawCells_filter (surf : Str → Option Show.Region) (skip : Str → Bool) (l : List CellItem) (hi : ∀ i ∈ l, Independent skip i) :
    ∀ done all, drawCells surf (fun _ => false) l done = .ok all →
      drawCells surf skip l (done.filter fun x => !skip x.1) = .ok (all.filter fun x => !skip x.1) := by
  induction l with
  | nil => intro done all h; cases h; rfl
  | cons i l ih =>
    intro done all h
    have ih := ih fun i hi' => hi i (List.mem_cons_of_mem _ hi')
    have hi := hi i List.mem_cons_self
    cases i with
    | comment => exact ih done all h
    | cell n g t =>
      simp only [drawCells, Bool.false_eq_true, if_false] at h ⊢
      cases hr : region surf (dictGet done) g with
      | error e => rw [hr] at h; cases h
      | ok a =>
        rw [hr] at h
        simp only at h
        cases he : a.eval with
        | error e => rw [he] at h; cases h
        | ok b =>
          rw [he] at h
          have h3 := ih _ _ h
          by_cases hs : skip n = true
          · rw [if_pos hs]
            simpa [List.filter_append, hs] using h3
          · rw [if_neg hs]
            rw [region_congr surf _ (dictGet done) g fun m hm =>
              dictGet_filter (fun x => !skip x) done m (by simp [hi (by simpa using hs) m hm]), hr]
            simp only [he]
            simpa [List.filter_append, hs] using h3
    | like n b t =>
      simp only [drawCells, Bool.false_eq_true, if_false] at h ⊢
      cases hr : dictGet done b with
      | none => rw [hr] at h; cases h
      | some a =>
        rw [hr] at h
        simp only at h
        cases he : a.eval with
        | error e => rw [he] at h; cases h
        | ok c =>
          rw [he] at h
          have h3 := ih _ _ h
          by_cases hs : skip n = true
          · rw [if_pos hs]
            simpa [List.filter_append, hs] using h3
          · rw [if_neg hs, dictGet_filter (fun x => !skip x) done b (by simp [hi (by simpa using hs)]), hr]
            simp only [he]
            simpa [List.filter_append, hs] using h3

/-- **C82, cells left out, part:** when the input can be drawn and no remaining cell is made from one that is left out, the others are
drawn as in the drawing of everything.  Missing: cells made from those left out, where the claim is false. -/
theorem C82_left_out_partial (surfs : List (Str × Option Nat × Surf)) (items : List CellItem) (all : List (Str × Show.Region))
    (h : showCells surfs items (fun _ => false) = .ok all) (skip : Str → Bool) (hi : ∀ i ∈ items, Independent skip i) :
    showCells surfs items skip = .ok (all.filter fun x => !skip x.1) := by
  unfold showCells at h ⊢
  cases hd : surfaceDict surfs with
  | error e => rw [hd] at h; cases h
  | ok d =>
    rw [hd] at h
    exact drawCells_filter (dictGet d) skip items hi [] all h

/-- A sphere, its inside as cell 1, and cell 2 like it. -/
noncomputable def pairItems : List CellItem := [.cell c!"1" (.unary .minus (.digit c!"1")) none, .like c!"2" c!"1" none]

theorem sphere_dict (r : ℝ) :
    ∃ f : Vec → Prop, surfaceDict [(c!"1", none, .so r)] = .ok [(c!"1", .truth f)] := by
  simp only [surfaceDict]
  exact ⟨_, rfl⟩

example : ∃ all, showCells [(c!"1", none, .so 5)] pairItems (fun _ => false) = .ok all ∧ (∀ i ∈ pairItems, Independent (· == c!"2") i) := by
  obtain ⟨f, hf⟩ := sphere_dict 5
  refine ⟨_, by rw [showCells, hf]; rfl, ?_⟩
  intro i hi
  simp only [pairItems, List.mem_cons, List.not_mem_nil, or_false] at hi
  rcases hi with rfl | rfl
  · intro _ m hm; exact hm.elim
  · intro h; exact absurd h (by decide)

/-- **C82 is violated for cells left out:** a cell like one that is left out raises `KeyError`, and the complement of a cell left out is
taken of the surface with the same number. -/
theorem C82_left_out_violated (r : ℝ) :
    showCells [(c!"1", none, .so r)] pairItems (· == c!"1") = .error .key ∧
      ∃ all out, showCells [(c!"1", none, .so r)] [.cell c!"1" (.unary .minus (.digit c!"1")) none, .cell c!"2" (.unary .hash (.digit c!"1")) none]
          (fun _ => false) = .ok all ∧
        showCells [(c!"1", none, .so r)] [.cell c!"1" (.unary .minus (.digit c!"1")) none, .cell c!"2" (.unary .hash (.digit c!"1")) none]
          (· == c!"1") = .ok out ∧ out ≠ all.filter fun x => !(x.1 == c!"1") := by
  obtain ⟨f, hf⟩ := sphere_dict r
  refine ⟨by rw [showCells, hf]; rfl, _, _, by rw [showCells, hf]; rfl, by rw [showCells, hf]; rfl, ?_⟩
  intro h
  have h : [(c!"2", Region.truth f)] = [(c!"2", Region.truth fun p => ¬ f p)] := h
  injection h with h _
  injection h with _ h
  injection h with h
  have := congrFun h Vec.zero
  by_cases h0 : f Vec.zero <;> simp [h0] at this

theorem inText_iff (t n : Str) : inText t n = true ↔ n <:+: t := by
  simp only [inText, List.any_eq_true, List.mem_tails, List.isPrefixOf_iff_prefix]
  constructor
  · rintro ⟨u, h1, h2⟩
    exact (h2.isInfix).trans h1.isInfix
  · rintro ⟨a, b, rfl⟩
    exact ⟨n ++ b, by rw [List.append_assoc]; exact List.suffix_append _ _, List.prefix_append _ _⟩

/-- **C82 is violated for a number given as a text:** every cell whose number occurs within it is drawn: with 12 also 1 and 2. -/
theorem C82_text_violated (surfs : List (Str × Option Nat × Surf)) (items : List CellItem) (all : List (Str × Show.Region))
    (h : showCells surfs items (fun _ => false) = .ok all) (t : Str) :
    ∃ out, showListed surfs items (inText t) = .ok out ∧ ∀ x ∈ all, x ∈ out ↔ x.1 <:+: t := by
  unfold showCells at h
  unfold showListed
  cases hd : surfaceDict surfs with
  | error e => rw [hd] at h; cases h
  | ok d =>
    rw [hd] at h
    refine ⟨_, drawListed_filter (dictGet d) (inText t) items [] all h, fun x hx => ?_⟩
    rw [List.mem_filter, inText_iff]
    exact ⟨fun h => h.2, fun h => ⟨hx, h⟩⟩

/-- **C82, surfaces:** when all surfaces can be drawn, a drawing of some of them shows exactly those, in order and each as in the drawing of
all. -/
theorem C82_surfaces (surfs : List (Str × Option Nat × Surf)) (all : List (Str × Option (Vec → Prop)))
    (h : showSurfaces (fun _ => true) surfs = .ok all) (keep : Str → Bool) :
    showSurfaces keep surfs = .ok (all.filter fun x => keep x.1) := by
  induction surfs generalizing all with
  | nil => cases h; rfl
  | cons x surfs ih =>
    obtain ⟨n, t, s⟩ := x
    simp only [showSurfaces, if_true] at h
    cases hs : s.toShow with
    | error e => rw [hs] at h; cases h
    | ok a =>
      rw [hs] at h
      simp only at h
      cases hr : showSurfaces (fun _ => true) surfs with
      | error e => rw [hr] at h; cases h
      | ok d =>
        rw [hr] at h
        cases h
        by_cases hk : keep n = true
        · simp only [showSurfaces, hs, ih d hr, hk, if_true, List.filter_cons]
        · simp only [showSurfaces, ih d hr, hk, if_false, List.filter_cons, Bool.false_eq_true]

example : ∃ all, showSurfaces (fun _ => true) [(c!"1", none, .so 5), (c!"2", none, .so 7)] = .ok all :=
  ⟨[(c!"1", _), (c!"2", _)], by
    simp only [showSurfaces, if_true, Surf.toShow]
    rfl⟩

/-! ## The command -/

open Cli

/-- The numbers as a user writes them: with commas between. -/
def commas (l : List Str) : Str := join c!"," l

/-- What the options ask for: everything when no option is given; else all cells, all surfaces, cells and surfaces but those listed, and
those listed. -/
structure Asked where
  cells : Bool
  surfaces : Bool
  cellsSkip : List (List Int)
  surfacesSkip : List (List Int)
  cell : List (List Str)
  surface : List (List Str)

def Asked.nothing (a : Asked) : Bool :=
  !a.cells && !a.surfaces && a.cellsSkip.isEmpty && a.surfacesSkip.isEmpty && a.cell.isEmpty && a.surface.isEmpty

/-- The options as they are written. -/
def Asked.args (a : Asked) (pdf : Bool) : VArgs :=
  ⟨a.cells, a.surfaces, a.cellsSkip.map fun l => commas (l.map intStr), a.surfacesSkip.map fun l => commas (l.map intStr), a.cell.map commas,
    a.surface.map commas, pdf⟩

/-- The drawings that are asked for. -/
def Asked.drawings (a : Asked) : List Drawing :=
  (if a.cells || a.nothing then [.cells []] else []) ++ (if a.surfaces || a.nothing then [.surfaces []] else []) ++
    a.cellsSkip.map .cells ++ a.surfacesSkip.map .surfaces ++ a.cell.map .cell ++ a.surface.map .surface

/-- Every list has an entry, and the entries have no commas. -/
def Asked.Written (a : Asked) : Prop :=
  (∀ l ∈ a.cellsSkip, l ≠ []) ∧ (∀ l ∈ a.surfacesSkip, l ≠ []) ∧ (∀ l ∈ a.cell ++ a.surface, l ≠ [] ∧ ∀ t ∈ l, ',' ∉ t)

theorem splitC_free (c : Char) (t : Str) (h : c ∉ t) : splitC c t = [t] := by
  induction t with
  | nil => rfl
  | cons x t ih =>
    rw [List.mem_cons, not_or] at h
    rw [splitC, if_neg (Ne.symm h.1), ih h.2]

theorem splitC_cons (c : Char) (t s : Str) (h : c ∉ t) : splitC c (t ++ c :: s) = t :: splitC c s := by
  induction t with
  | nil => simp [splitC]
  | cons x t ih =>
    rw [List.mem_cons, not_or] at h
    rw [List.cons_append, splitC, if_neg (Ne.symm h.1), ih h.2]

theorem split_commas (l : List Str) (hl : l ≠ []) (h : ∀ t ∈ l, ',' ∉ t) : splitC ',' (commas l) = l := by
  induction l with
  | nil => exact absurd rfl hl
  | cons t l ih =>
    cases l with
    | nil => exact splitC_free _ _ (h t (by simp))
    | cons u l =>
      have : commas (t :: u :: l) = t ++ ',' :: commas (u :: l) := by
        simp [commas, join]
      rw [this, splitC_cons _ _ _ (h t (by simp)), ih (by simp) fun v hv => h v (List.mem_cons_of_mem _ hv)]

theorem intText_intStr (n : Int) : intText (intStr n) = .ok n := by
  unfold intText
  rw [Inp.strip_word (intStr_noSpace n) (intStr_ne_nil n)]
  have hd : ∀ m : Nat, (natStr m).all isDigit = true := fun m => List.all_eq_true.2 (natStr_digits m)
  cases n with
  | ofNat m =>
    simp only [intStr]
    have h1 : ∀ c s, natStr m = c :: s → c ≠ '-' ∧ c ≠ '+' := by
      intro c s h
      have := natStr_digits m c (by rw [h]; simp)
      constructor <;> (rintro rfl; revert this; decide)
    split
    · next s h => exact absurd rfl (h1 _ _ h).1
    · next s h => exact absurd rfl (h1 _ _ h).2
    · rw [if_pos ⟨natStr_ne_nil m, hd m⟩, strNat_natStr]; rfl
  | negSucc m =>
    simp only [intStr]
    rw [if_pos ⟨natStr_ne_nil _, hd _⟩, strNat_natStr]
    rfl

theorem intTexts_commas (l : List Int) (hl : l ≠ []) : intTexts (commas (l.map intStr)) = .ok l := by
  unfold intTexts
  rw [split_commas _ (by simpa using hl)]
  · induction l with
    | nil => exact absurd rfl hl
    | cons n l ih =>
      rw [List.map_cons, List.mapM_cons, intText_intStr]
      cases l with
      | nil => rfl
      | cons m l => rw [ih (by simp)]; rfl
  · intro t ht
    obtain ⟨n, -, rfl⟩ := List.mem_map.1 ht
    intro hc
    rcases intStr_chars n _ hc with h | h
    · exact absurd h (by decide)
    · exact absurd h (by decide)

theorem window_ok {can : Drawing → Res Unit} {d : Drawing} (h : can d = .ok ()) (acts : List Act) :
    window can d acts = (acts ++ [.window d], .ok ()) := by
  unfold window; rw [h]

theorem forEach_windows {α : Type} (f : Str → List Act → List Act × Res Unit) (w : α → Str) (d : α → Drawing) (l : List α)
    (h : ∀ x ∈ l, ∀ acts, f (w x) acts = (acts ++ [.window (d x)], .ok ())) (acts : List Act) :
    forEach f (l.map w) acts = (acts ++ l.map fun x => .window (d x), .ok ()) := by
  induction l generalizing acts with
  | nil => simp [forEach]
  | cons x l ih =>
    rw [List.map_cons, forEach, andThen, h x (by simp)]
    simp only
    rw [ih fun y hy => h y (List.mem_cons_of_mem _ hy)]
    simp

/-- **C82, the command:** in windows `pymcnp visualize` draws what its options ask for, in order, whenever these drawings can be made. -/
theorem C82_windows (can : Drawing → Res Unit) (path : Str) (a : Asked) (hw : a.Written) (hc : ∀ d ∈ a.drawings, can d = .ok ()) :
    visualize can path (a.args false) = (a.drawings.map .window, .ok ()) := by
  obtain ⟨h1, h2, h3⟩ := hw
  have hd : ∀ d, d ∈ a.drawings ↔ (d = .cells [] ∧ (a.cells || a.nothing) = true) ∨ (d = .surfaces [] ∧ (a.surfaces || a.nothing) = true) ∨
      d ∈ a.cellsSkip.map .cells ∨ d ∈ a.surfacesSkip.map .surfaces ∨ d ∈ a.cell.map .cell ∨ d ∈ a.surface.map .surface := by
    intro d
    unfold Asked.drawings
    by_cases hA : (a.cells || a.nothing) = true <;> by_cases hB : (a.surfaces || a.nothing) = true <;>
      simp only [hA, hB, if_true, if_false, List.mem_append, List.mem_singleton, List.not_mem_nil, or_assoc, and_true, and_false, false_or,
        Bool.false_eq_true]
  have e1 : ∀ acts, forEach (stepCellsSkip can path false) (a.args false).cellsSkip acts =
      (acts ++ a.cellsSkip.map fun l => .window (.cells l), .ok ()) :=
    forEach_windows _ _ .cells _ fun l hl acts => by
      unfold stepCellsSkip
      rw [intTexts_commas l (h1 l hl)]
      exact window_ok (hc _ ((hd _).2 (.inr (.inr (.inl (List.mem_map_of_mem hl)))))) acts
  have e2 : ∀ acts, forEach (stepSurfacesSkip can path false) (a.args false).surfacesSkip acts =
      (acts ++ a.surfacesSkip.map fun l => .window (.surfaces l), .ok ()) :=
    forEach_windows _ _ .surfaces _ fun l hl acts => by
      unfold stepSurfacesSkip
      rw [intTexts_commas l (h2 l hl)]
      exact window_ok (hc _ ((hd _).2 (.inr (.inr (.inr (.inl (List.mem_map_of_mem hl))))))) acts
  have e3 : ∀ acts, forEach (stepCell can path false) (a.args false).cell acts = (acts ++ a.cell.map fun l => .window (.cell l), .ok ()) :=
    forEach_windows _ _ .cell _ fun l hl acts => by
      have := h3 l (List.mem_append_left _ hl)
      unfold stepCell
      rw [split_commas l this.1 this.2]
      exact window_ok (hc _ ((hd _).2 (.inr (.inr (.inr (.inr (.inl (List.mem_map_of_mem hl)))))))) acts
  have e4 : ∀ acts, forEach (stepSurface can path false) (a.args false).surface acts =
      (acts ++ a.surface.map fun l => .window (.surface l), .ok ()) :=
    forEach_windows _ _ .surface _ fun l hl acts => by
      have := h3 l (List.mem_append_right _ hl)
      unfold stepSurface
      rw [split_commas l this.1 this.2]
      exact window_ok (hc _ ((hd _).2 (.inr (.inr (.inr (.inr (.inr (List.mem_map_of_mem hl)))))))) acts
  have hn : ((a.args false).cellsSkip = [] ∧ (a.args false).surfacesSkip = [] ∧ ¬ (a.args false).cells ∧ ¬ (a.args false).surfaces ∧
      (a.args false).cell = [] ∧ (a.args false).surface = []) ↔ a.nothing = true := by
    simp only [Asked.args, Asked.nothing, List.map_eq_nil_iff, Bool.and_eq_true, List.isEmpty_iff, Bool.not_eq_true', Bool.not_eq_true]
    tauto
  have c1 : ∀ b : VArgs, b.pdf = false → b.cells = (a.cells || a.nothing) → ∀ acts,
      stepCells can path b acts = (acts ++ (if a.cells || a.nothing then [.window (.cells [])] else []), .ok ()) := by
    intro b hp hb acts
    unfold stepCells
    rw [hp, hb]
    by_cases hA : (a.cells || a.nothing) = true
    · simp only [hA, if_true, Bool.false_eq_true, if_false]
      exact window_ok (hc _ ((hd _).2 (.inl ⟨rfl, hA⟩))) acts
    · simp [hA]
  have c2 : ∀ b : VArgs, b.pdf = false → b.surfaces = (a.surfaces || a.nothing) → ∀ acts,
      stepSurfaces can path b acts = (acts ++ (if a.surfaces || a.nothing then [.window (.surfaces [])] else []), .ok ()) := by
    intro b hp hb acts
    unfold stepSurfaces
    rw [hp, hb]
    by_cases hA : (a.surfaces || a.nothing) = true
    · simp only [hA, if_true, Bool.false_eq_true, if_false]
      exact window_ok (hc _ ((hd _).2 (.inr (.inl ⟨rfl, hA⟩)))) acts
    · simp [hA]
  have fin : ∀ b : VArgs, b.pdf = false → b.cells = (a.cells || a.nothing) → b.surfaces = (a.surfaces || a.nothing) →
      b.cellsSkip = (a.args false).cellsSkip → b.surfacesSkip = (a.args false).surfacesSkip → b.cell = (a.args false).cell →
      b.surface = (a.args false).surface →
      andThen (stepCells can path b) (andThen (stepSurfaces can path b) (andThen (forEach (stepCellsSkip can path b.pdf) b.cellsSkip)
        (andThen (forEach (stepSurfacesSkip can path b.pdf) b.surfacesSkip) (andThen (forEach (stepCell can path b.pdf) b.cell)
          (forEach (stepSurface can path b.pdf) b.surface))))) [] = (a.drawings.map .window, .ok ()) := by
    intro b hp q1 q2 q3 q4 q5 q6
    rw [q3, q4, q5, q6, hp]
    simp only [andThen, c1 b hp q1, c2 b hp q2, e1, e2, e3, e4]
    unfold Asked.drawings
    simp only [List.map_append, List.map_map, List.nil_append]
    congr 1
    by_cases hA : (a.cells || a.nothing) = true <;> by_cases hB : (a.surfaces || a.nothing) = true <;>
      simp [hA, hB, Function.comp_def]
  unfold visualize
  by_cases hA : a.nothing = true
  · simp only [if_pos (hn.2 hA)]
    exact fin _ rfl (by simp [hA]) (by simp [hA]) rfl rfl rfl rfl
  · simp only [if_neg fun h => hA (hn.1 h)]
    exact fin _ rfl (by simp [hA, Asked.args]) (by simp [hA, Asked.args]) rfl rfl rfl rfl

example : Asked.Written ⟨false, true, [[1, 2], [30]], [], [[c!"4", c!"5"]], []⟩ :=
  ⟨by decide, by decide, by decide⟩

/-- **C82, files, part:** with `--pdf` the drawings of all cells and of all surfaces are written as asked. Missing:
selections with `--pdf`, for which the claim is false (`C82_files_violated`). -/
theorem C82_files_partial (can : Drawing → Res Unit) (stem ext : Str) (hx : '.' ∉ ext) (c s : Bool) (hcan : ∀ d, can d = .ok ()) :
    visualize can (stem ++ '.' :: ext) (Asked.args ⟨c, s, [], [], [], []⟩ true) =
      ((if c || !s then [.pdf (.cells []) (stem ++ c!"-cells.pdf")] else []) ++
        (if s || !c then [.pdf (.surfaces []) (stem ++ c!"-surfaces.pdf")] else []), .ok ()) := by
  have hb : ∀ e : Str, '.' ∉ e → beforeDot e = none := by
    intro e he
    induction e with
    | nil => rfl
    | cons x e ih =>
      rw [List.mem_cons, not_or] at he
      rw [beforeDot, ih he.2]
      simp [Ne.symm he.1]
  have hs : ∀ p : Str, beforeDot (p ++ '.' :: ext) = some p := by
    intro p
    induction p with
    | nil => simp [beforeDot, hb ext hx]
    | cons x p ih => rw [List.cons_append, beforeDot, ih]
  have h1 : getOutfile (stem ++ '.' :: ext) c!"pdf" (some c!"cells") = .ok (stem ++ c!"-cells.pdf") := by
    unfold getOutfile; rw [hs]; simp [suffix, fmt5]
  have h2 : getOutfile (stem ++ '.' :: ext) c!"pdf" (some c!"surfaces") = .ok (stem ++ c!"-surfaces.pdf") := by
    unfold getOutfile; rw [hs]; simp [suffix, fmt5]
  cases c <;> cases s <;>
    simp [visualize, Asked.args, andThen, stepCells, stepSurfaces, forEach, topdf, h1, h2, hcan]

/-- **C82 is violated for files:** what is left out is in the file all the same; listed surfaces raise `TypeError` and nothing is written;
listed cells end the command with an error even when the file was written, whose name has the quotes and brackets of a list. -/
theorem C82_files_violated (can : Drawing → Res Unit) (hcan : ∀ d, can d = .ok ()) (path p : Str)
    (hp : ∀ i, ∃ q, getOutfile path c!"pdf" i = .ok q) (hq : getOutfile path c!"pdf" (some c!"cells") = .ok p) (l : List Int) (hl : l ≠ [])
    (n : List Str) (hn : n ≠ []) (hc : ∀ t ∈ n, ',' ∉ t) :
    visualize can path (Asked.args ⟨false, false, [l], [], [], []⟩ true) = ([.pdf (.cells []) p], .ok ()) ∧
      visualize can path (Asked.args ⟨false, false, [], [], [], [n]⟩ true) = ([], .error .typeErr) ∧
      ∃ q, visualize can path (Asked.args ⟨false, false, [], [], [n], []⟩ true) = ([.pdf (.cell n) q], .error .name) := by
  have hsplit := split_commas n hn hc
  obtain ⟨q1, e1⟩ := hp (some (c!"surface_" ++ listRepr n))
  obtain ⟨q2, e2⟩ := hp (some (c!"cell_" ++ listRepr n))
  have f1 : stepSurface can path true (commas n) [] = ([], .error .typeErr) := by
    unfold stepSurface; rw [hsplit]; simp only [if_true]; rw [e1]
  have f2 : stepCell can path true (commas n) [] = ([.pdf (.cell n) q2], .error .name) := by
    unfold stepCell; rw [hsplit]; simp only [if_true]; rw [e2]; simp [andThen, topdf, hcan]
  refine ⟨?_, ?_, q2, ?_⟩
  · simp [visualize, Asked.args, andThen, stepCells, stepSurfaces, forEach, topdf, stepCellsSkip, intTexts_commas l hl, hq, hcan]
  · simp [visualize, Asked.args, andThen, stepCells, stepSurfaces, forEach, f1]
  · simp [visualize, Asked.args, andThen, stepCells, stepSurfaces, forEach, f2]

example : ∀ i, ∃ q, getOutfile c!"a.inp" c!"pdf" i = .ok q := fun _ => ⟨_, rfl⟩

/-- What is drawn. -/
def drawn : Act → Drawing
  | .window d => d
  | .pdf d _ => d

/-- Nothing but what can be drawn is added. -/
def OnlyDrawn (can : Drawing → Res Unit) (f : List Act → List Act × Res Unit) : Prop :=
  ∀ acts, (∀ x ∈ acts, can (drawn x) = .ok ()) → ∀ x ∈ (f acts).1, can (drawn x) = .ok ()

theorem drawn_window (can : Drawing → Res Unit) (d : Drawing) : OnlyDrawn can (window can d) := by
  intro acts h x hx
  unfold window at hx
  cases hc : can d with
  | error e => rw [hc] at hx; exact h x hx
  | ok u =>
    rw [hc] at hx
    rcases List.mem_append.1 hx with hx | hx
    · exact h x hx
    · cases List.mem_singleton.1 hx; exact hc

theorem drawn_pdf (can : Drawing → Res Unit) (d : Drawing) (n : Res Str) : OnlyDrawn can (topdf can d n) := by
  intro acts h x hx
  unfold topdf at hx
  cases n with
  | error e => exact h x hx
  | ok p =>
    simp only at hx
    cases hc : can d with
    | error e => rw [hc] at hx; exact h x hx
    | ok u =>
      rw [hc] at hx
      rcases List.mem_append.1 hx with hx | hx
      · exact h x hx
      · cases List.mem_singleton.1 hx; exact hc

theorem drawn_then {can : Drawing → Res Unit} {f g : List Act → List Act × Res Unit} (hf : OnlyDrawn can f) (hg : OnlyDrawn can g) :
    OnlyDrawn can (andThen f g) := by
  intro acts h x hx
  unfold andThen at hx
  have h1 := hf acts h
  cases hr : f acts with
  | mk a r =>
    rw [hr] at hx h1
    cases r with
    | error e => exact h1 x hx
    | ok u => exact hg a h1 x hx

theorem drawn_each {can : Drawing → Res Unit} {f : Str → List Act → List Act × Res Unit} (hf : ∀ t, OnlyDrawn can (f t)) :
    ∀ l, OnlyDrawn can (forEach f l)
  | [] => fun _ h => h
  | t :: l => drawn_then (hf t) (drawn_each hf l)

/-- **C82, only what can be drawn:** however `pymcnp visualize` ends, every window it opened and every file it wrote is a drawing that can be made. -/
theorem C82_drawn (can : Drawing → Res Unit) (path : Str) (a : VArgs) : ∀ x ∈ (visualize can path a).1, can (drawn x) = .ok () := by
  have same : ∀ r : Res Unit, OnlyDrawn can (fun acts => (acts, r)) := fun _ _ h => h
  have s1 : ∀ a, OnlyDrawn can (stepCells can path a) := by
    intro a acts
    unfold stepCells
    by_cases h1 : a.cells = true
    · by_cases h2 : a.pdf = true
      · rw [if_pos h1, if_pos h2]; exact drawn_pdf can _ _ acts
      · rw [if_pos h1, if_neg h2]; exact drawn_window can _ acts
    · rw [if_neg h1]; exact same _ acts
  have s2 : ∀ a, OnlyDrawn can (stepSurfaces can path a) := by
    intro a acts
    unfold stepSurfaces
    by_cases h1 : a.surfaces = true
    · by_cases h2 : a.pdf = true
      · rw [if_pos h1, if_pos h2]; exact drawn_pdf can _ _ acts
      · rw [if_pos h1, if_neg h2]; exact drawn_window can _ acts
    · rw [if_neg h1]; exact same _ acts
  have s3 : ∀ b t, OnlyDrawn can (stepCellsSkip can path b t) := by
    intro b t acts
    unfold stepCellsSkip
    cases intTexts t with
    | error e => exact same _ acts
    | ok l => cases b
              · exact drawn_window can _ acts
              · exact drawn_pdf can _ _ acts
  have s4 : ∀ b t, OnlyDrawn can (stepSurfacesSkip can path b t) := by
    intro b t acts
    unfold stepSurfacesSkip
    cases intTexts t with
    | error e => exact same _ acts
    | ok l => cases b
              · exact drawn_window can _ acts
              · exact drawn_pdf can _ _ acts
  have s5 : ∀ b t, OnlyDrawn can (stepCell can path b t) := by
    intro b t acts
    unfold stepCell
    cases b
    · exact drawn_window can _ acts
    · exact drawn_then (drawn_pdf can _ _) (same _) acts
  have s6 : ∀ b t, OnlyDrawn can (stepSurface can path b t) := by
    intro b t acts
    unfold stepSurface
    cases b
    · exact drawn_window can _ acts
    · simp only [if_true]
      cases getOutfile path c!"pdf" (some (c!"surface_" ++ listRepr (splitC ',' t))) <;> exact same _ acts
  unfold visualize
  exact drawn_then (s1 _) (drawn_then (s2 _) (drawn_then (drawn_each (s3 _) _) (drawn_then (drawn_each (s4 _) _)
    (drawn_then (drawn_each (s5 _) _) (drawn_each (s6 _) _))))) [] (by simp)

example : visualize (fun d => if d = .surfaces [] then .error .typeErr else .ok ()) c!"a.inp" ⟨false, false, [], [], [], [], true⟩ =
    ([.pdf (.cells []) c!"a-cells.pdf"], .error .typeErr) := by decide +kernel

/-- **C82, the name of the file of listed cells:** it holds the list as Python writes it. -/
theorem C82_files_name (can : Drawing → Res Unit) (hcan : ∀ d, can d = .ok ()) (stem ext : Str) (hx : '.' ∉ ext) (t : Str) (n : List Str)
    (hc : ∀ u ∈ t :: n, ',' ∉ u) :
    (visualize can (stem ++ '.' :: ext) (Asked.args ⟨false, false, [], [], [t :: n], []⟩ true)).1 =
      [.pdf (.cell (t :: n)) (stem ++ c!"-cell_['" ++ t ++ n.flatMap (fun u => c!"', '" ++ u) ++ c!"'].pdf")] := by
  have hb : ∀ e : Str, '.' ∉ e → beforeDot e = none := by
    intro e he
    induction e with
    | nil => rfl
    | cons x e ih =>
      rw [List.mem_cons, not_or] at he
      rw [beforeDot, ih he.2]
      simp [Ne.symm he.1]
  have hs : ∀ p : Str, beforeDot (p ++ '.' :: ext) = some p := by
    intro p
    induction p with
    | nil => simp [beforeDot, hb ext hx]
    | cons x p ih => rw [List.cons_append, beforeDot, ih]
  have hr : ∀ (t : Str) (n : List Str), listRepr (t :: n) = c!"['" ++ t ++ n.flatMap (fun u => c!"', '" ++ u) ++ c!"']" := by
    intro t n
    have : ∀ (t : Str) (n : List Str), (((t :: n).map fun s => '\'' :: s ++ ['\'']).intersperse c!", ").flatten =
        ['\''] ++ t ++ n.flatMap (fun u => c!"', '" ++ u) ++ ['\''] := by
      intro t n
      induction n generalizing t with
      | nil => simp
      | cons u n ih =>
        have := ih u
        simp only [List.map_cons, List.intersperse_cons₂, List.flatten_cons, List.flatMap_cons] at this ⊢
        rw [this]
        simp
    unfold listRepr
    rw [this]
    simp
  have h1 : getOutfile (stem ++ '.' :: ext) c!"pdf" (some (c!"cell_" ++ listRepr (t :: n))) =
      .ok (stem ++ c!"-cell_['" ++ t ++ n.flatMap (fun u => c!"', '" ++ u) ++ c!"'].pdf") := by
    unfold getOutfile; rw [hs, hr]; simp [suffix, fmt5]
  have f2 : stepCell can (stem ++ '.' :: ext) true (commas (t :: n)) [] = ([.pdf (.cell (t :: n)) (stem ++ c!"-cell_['" ++ t ++ n.flatMap (fun u => c!"', '" ++ u) ++ c!"'].pdf")], .error .name) := by
    unfold stepCell; rw [split_commas _ (by simp) hc]; simp only [if_true]; rw [h1]; simp [andThen, topdf, hcan]
  simp [visualize, Asked.args, andThen, stepCells, stepSurfaces, forEach, f2]

example : c!"a-cell_['1', '23'].pdf" = c!"a" ++ c!"-cell_['" ++ c!"1" ++ [c!"23"].flatMap (fun u => c!"', '" ++ u) ++ c!"'].pdf" ∧
    ∀ t ∈ [c!"1", c!"23"], ',' ∉ t := by decide +kernel

end Props
