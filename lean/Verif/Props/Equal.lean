import Verif.Inp.Equal
import Verif.Types.Operators
import Verif.Props.Whole
/-!
# Equality of cards and files: C74
-/
set_option maxRecDepth 100000
namespace Props
open Py Types Inp State

/-! ## C74 – cards and files are equal exactly when their contents are -/

/-- What survives printing is known by its text. -/
theorem survives_inj {α : Type} {rd : Str → Res α} {pr : α → Str} {x y : α} (hx : Survives rd pr x) (hy : Survives rd pr y)
    (h : pr x = pr y) : x = y := by
  have h1 := hx.1
  have h2 := hy.1
  rw [h, h2] at h1
  cases h1; rfl

/-- **C74, cards:** within a block, two cards made of readable parts compare equal exactly when they are of the same class and agree in
every attribute.  Missing: attributes that are numerically equal but written differently (`C74_violated`). -/
theorem C74_cards_partial (a b : Val) :
    (GoodCell a → GoodCell b → (cardEq a b = true ↔ a = b)) ∧
    (GoodSurface a → GoodSurface b → (cardEq a b = true ↔ a = b)) ∧
    (GoodData a → GoodData b → (cardEq a b = true ↔ a = b)) := by
  refine ⟨fun ha hb => ⟨fun h => ?_, ?_⟩, fun ha hb => ⟨fun h => ?_, ?_⟩, fun ha hb => ⟨fun h => ?_, ?_⟩⟩
  · exact survives_inj (good_cell ha) (good_cell hb) (by simpa [cardEq] using h)
  · rintro rfl; simp [cardEq]
  · exact survives_inj (good_surface ha) (good_surface hb) (by simpa [cardEq] using h)
  · rintro rfl; simp [cardEq]
  · exact survives_inj (good_data ha) (good_data hb) (by simpa [cardEq] using h)
  · rintro rfl; simp [cardEq]

/-- The cell, the `like` card and the comment of the file of `C71_roundtrip_partial` are three different cards. -/
example : cardEq exCell exCell = true ∧ cardEq exCell exLike = false ∧ cardEq exLike exNote = false := by decide +kernel

/-- An input file made of readable parts, as in `C71_roundtrip_partial`. -/
structure GoodFile (f : File) : Prop where
  message : f.message = none
  title : ∃ ws, TextWords ws ∧ f.title = join [' '] ws
  plain : ¬ IsMessage f.title
  short : f.title.length < 80
  cells : f.cells ≠ [] ∧ ∀ x ∈ f.cells, GoodCell x
  imp : ∃ c ∈ f.cells, isCell c = false ∨ hasImp c = true
  surfaces : f.surfaces ≠ [] ∧ ∀ x ∈ f.surfaces, GoodSurface x
  data : f.data ≠ [] ∧ ∀ x ∈ f.data, GoodData x
  other : Trailing f.other

/-- **C74, files:** two input files made of readable parts compare equal exactly when they have the same title, the same cards in the same
order and the same trailing text.  Missing: as for `C74_cards_partial` and `C71_roundtrip_partial`. -/
theorem C74_files_partial (f g : File) (hf : GoodFile f) (hg : GoodFile g) : fileEq f g = true ↔ f = g := by
  have key : ∀ {f : File}, GoodFile f → inpRead (inpPrint f) = .ok f := by
    intro f h
    obtain ⟨ws, h1, h2⟩ := h.title
    exact C71_roundtrip_partial f h.message ws h1 h2 h.plain h.short h.cells h.imp h.surfaces h.data h.other
  constructor
  · intro h
    have h : inpPrint f = inpPrint g := by simpa [fileEq] using h
    have h1 := key hf
    rw [h, key hg] at h1
    cases h1; rfl
  · rintro rfl; simp [fileEq]

/-- The file of `C71_roundtrip_partial`, with the notes given. -/
def exNoted (n : Str) : File := ⟨none, c!"bare sphere", [exCell, exLike], [exSphere], [exCut, readComment [n]], none⟩

theorem exNoted_good (n : Str) (hn : Stable n) : GoodFile (exNoted n) := by
  refine ⟨rfl, ⟨[c!"bare", c!"sphere"], ⟨⟨by decide, by decide⟩, by decide⟩, by simp only [exNoted]; decide⟩, by simp only [IsMessage, exNoted]; decide, by simp only [exNoted]; decide,
    ⟨by simp [exNoted], ?_⟩, ⟨exCell, by simp [exNoted], by decide +kernel⟩, ⟨by simp [exNoted], ?_⟩, ⟨by simp [exNoted], ?_⟩, .none⟩
  · intro x hx; simp only [exNoted, List.mem_cons, List.not_mem_nil, or_false] at hx
    rcases hx with rfl | rfl
    · exact exCell_good
    · exact exLike_good
  · intro x hx; simp only [exNoted, List.mem_cons, List.not_mem_nil, or_false] at hx
    subst hx; exact exSphere_good
  · intro x hx; simp only [exNoted, List.mem_cons, List.not_mem_nil, or_false] at hx
    rcases hx with rfl | rfl
    · exact exCut_good
    · exact .comment _ (by intro w hw; simp only [List.mem_cons, List.not_mem_nil, or_false] at hw; subst hw; exact hn)

example : fileEq (exNoted c!"core") (exNoted c!"core") = true ∧ fileEq (exNoted c!"core") (exNoted c!"shell") = false := by
  have h1 := exNoted_good c!"core" ⟨by decide, by decide, by decide⟩
  have h2 := exNoted_good c!"shell" ⟨by decide, by decide, by decide⟩
  refine ⟨(C74_files_partial _ _ h1 h1).2 rfl, ?_⟩
  rw [Bool.eq_false_iff]
  intro h
  have := (C74_files_partial _ _ h1 h2).1 h
  revert this
  decide +kernel

/-- Spheres whose radii are equal numbers (`1.0` and `1`) are different cards, and a comment without text equals one with an
empty text. -/
theorem C74_violated :
    (∃ a b, realParse c!"1.0" = .ok a ∧ realParse c!"1" = .ok b ∧ pyRel .eq (.real a) (.real b) = .ok (some true) ∧
      cardEq (.obj Tab.surface_So.info [.sc (.real a)]) (.obj Tab.surface_So.info [.sc (.real b)]) = false) ∧
    cardEq (.obj Tab.Comment.info [.none]) (.obj Tab.Comment.info [.sc (.str [])]) = true := by
  refine ⟨⟨.num (.fin ⟨false, 10, -1⟩), .num (.fin ⟨false, 1, 0⟩), ?_⟩, ?_⟩ <;> decide +kernel

end Props
