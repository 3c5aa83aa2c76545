import Verif.Inp.TrclRound
/-!
# Transformations of cells: C97
-/
set_option maxRecDepth 100000
namespace Props
open Py Types Inp

/-! ## C97 – the option `trcl` -/

/-- **C97, transformations:** every text is either taken apart into pieces as the form demands, one blank apart, with or without parentheses, and read piece by piece,
or refused as a transformation.  The pieces are determined by the text. -/
theorem C97_transformation (k : Nat) (s : Str) :
    (∀ ps, TransText k s ps → transParse k s = readTrans k ps ∧ ∀ j qs, TransText j s qs → qs = ps) ∧
    ((∀ ps, ¬ TransText k s ps) → transParse k s = .error .types) :=
  ⟨fun ps h => ⟨(trans_read k s).1 ps h, fun _ _ h2 => h2.uniq h⟩, (trans_read k s).2⟩

/-- **C97, printing transformations:** a transformation of finite numbers whose system is 1, -1 or not set is printed as a text that is read as the same transformation. -/
theorem C97_transformation_roundtrip (k : Nat) (ds : List Dec) (hl : ds.length = trCount k) (m : Option Int) (hm : SysOk m) :
    transParse k (transStr (ds.map (fun d => .num (.fin d))) (m.map .num)) =
      .ok (.sc (.trans k (ds.map (fun d => .num (.fin d))) (m.map .num))) := by
  rw [transStr_eq, (trans_read k _).1 _ (pieces_text hl m).1]
  exact pieces_read hl hm _ (.inl rfl)

/-- **C97, reading options:** among all options of a cell, or of a cell made like another, `trcl` with entries is read as the class that the number of pieces
demands, its star and its transformation being those of the text, whatever blank space and line breaks separate the entries. -/
theorem C97_option (like star : Bool) (g0 w0 : Str) (l : List (Gap × Str)) (g1 : Str) (hs : Spaced g0 w0 l g1) (hw : TrclWord star w0)
    (k : Nat) (ps : List Str) (ht : TransText k (join [' '] (entries l)) ps) (hf : trclForm ps.length = some k) :
    unionParse (optionsOf like) (g0 ++ (w0 ++ (body l ++ g1))) = readTrcl (trclOf like k) star k ps := by
  obtain ⟨-, hp, hws⟩ := spaced_prep hs
  obtain ⟨m, h1, h2⟩ := trcl_first like hws hw ht hf
  unfold unionParse
  rw [hp, h1]
  exact h2

/-- **C97, other entries:** if the entries are no transformation of any form, `trcl` is read as the number of a transformation or refused. -/
theorem C97_other (like star : Bool) (g0 w0 : Str) (l : List (Gap × Str)) (g1 : Str) (hs : Spaced g0 w0 l g1) (hw : TrclWord star w0)
    (hne : entries l ≠ []) (hn : ∀ k ps, k < 5 → ¬ TransText k (join [' '] (entries l)) ps) :
    unionParse (optionsOf like) (g0 ++ (w0 ++ (body l ++ g1))) = unionParse [trclNumber like] (g0 ++ (w0 ++ (body l ++ g1))) := by
  obtain ⟨-, hp, hws⟩ := spaced_prep hs
  unfold unionParse
  rw [hp, trcl_other like hws hw hne hn]

theorem words_form {k : Nat} (hk : k < 5) {ds : List Dec} (hl : ds.length = trCount k) (m : Option Int) (h : k = 2 → m = none) :
    trclForm (trclWords ds m).length = some k := by
  have hk5 : k = 0 ∨ k = 1 ∨ k = 2 ∨ k = 3 ∨ k = 4 := by omega
  cases m with
  | none =>
    have : (trclWords ds none).length = trCount k := by simp [trclWords, hl]
    rw [this]
    rcases hk5 with rfl | rfl | rfl | rfl | rfl <;> rfl
  | some n =>
    have : (trclWords ds (some n)).length = trCount k + 1 := by simp [trclWords, hl]
    rw [this]
    rcases hk5 with rfl | rfl | rfl | rfl | rfl
    · rfl
    · rfl
    · exact absurd (h rfl) (by simp)
    · rfl
    · rfl

theorem words_ne {k : Nat} {ds : List Dec} (hl : ds.length = trCount k) : ds ≠ [] ∧ ∀ m, trclWords ds m ≠ [] := by
  have := trCount_big k
  have h : ds ≠ [] := by rintro rfl; simp at hl; omega
  exact ⟨h, fun m => by cases ds with | nil => exact absurd rfl h | cons => simp [trclWords]⟩

/-- **C97, printing options:** an option `trcl` that holds a transformation of finite numbers is printed as a text that, among all options of a cell, is read as the
same option.  Missing: eight entries and a system (`C97_violated`). -/
theorem C97_roundtrip_partial (like star : Bool) (k : Nat) (hk : k < 5) (ds : List Dec) (hl : ds.length = trCount k) (m : Option Int) (hm : SysOk m)
    (h2 : k = 2 → m = none) :
    unionParse (optionsOf like) (trclObj (trclOf like k) star k ds m).str = .ok (trclObj (trclOf like k) star k ds m) := by
  obtain ⟨hp, hw⟩ := trcl_prep like star k ds (words_ne hl).1 m
  obtain ⟨ht, hr⟩ := trcl_pieces hl hm
  obtain ⟨x, h3, h4⟩ := trcl_first like hw (trcl_word star) ht (words_form hk hl m h2)
  unfold unionParse
  rw [hp, h3]
  simp only
  rw [h4, readTrcl, hr]
  rfl

/-- **C97, printing and reading by class:** read by its own class, every option `trcl` that holds a transformation of finite numbers comes back unchanged. -/
theorem C97_class_roundtrip (like star : Bool) (k : Nat) (hk : k < 5) (ds : List Dec) (hl : ds.length = trCount k) (m : Option Int) (hm : SysOk m) :
    unionParse [trclOf like k] (trclObj (trclOf like k) star k ds m).str = .ok (trclObj (trclOf like k) star k ds m) := by
  obtain ⟨hp, hw⟩ := trcl_prep like star k ds (words_ne hl).1 m
  obtain ⟨ht, hr⟩ := trcl_pieces hl hm
  rw [trcl_one (trclOf_ok like k hk) hw (trcl_word star) ((words_ne hl).2 m) ht _ hp, readTrcl, hr]
  rfl

/-- Eight entries and a system. -/
def exEight : Val := trclObj Tab.cell_Trcl_3 false 2 (List.replicate 8 ⟨false, 1, 0⟩) (some 1)

/-- **C97 does not hold:** eight entries and a system are read as nine entries, and entries that are jumps are printed but not read. -/
theorem C97_violated :
    Tab.cell_Trcl_3.mk' [.none, .sc (.trans 2 (List.replicate 8 (.num (.fin ⟨false, 1, 0⟩))) (some (.num 1)))] = .ok exEight ∧
    unionParse (optionsOf false) exEight.str = .ok (trclObj Tab.cell_Trcl_2 false 1 (List.replicate 9 ⟨false, 1, 0⟩) none) ∧
    transParse 4 (transStr [.num (.fin ⟨false, 1, 0⟩), .hor (.jump none), .hor (.jump none)] none) = .error .types := by
  decide +kernel

/-- **C97 does not hold in whole cells:** after entries without parentheses and without a system, an option whose name begins with `e` or `d` is taken for
one more entry, and the cell cannot be read.  With parentheses the cell can be read, but what it prints cannot. -/
theorem C97_following_violated :
    cardParse Tab.Cell c!"1 0 -1 trcl 1 2 3 ext:n 0" = .error .types ∧ cardParse Tab.Cell c!"1 0 -1 trcl 1 2 3 elpt:n 5 imp:n 1" = .error .types ∧
    (cardParse Tab.Cell c!"1 0 -1 trcl 1 2 3 imp:n 1").isOk = true ∧ (cardParse Tab.Cell c!"1 0 -1 trcl 1 2 3 1 ext:n 0").isOk = true ∧
    (cardParse Tab.Cell c!"1 0 -1 trcl (1 2 3) ext:n 0").map (fun p => p.1.str) = .ok c!"1 0  -1 trcl 1 2 3  ext:n 0" ∧
    cardParse Tab.Cell c!"1 0  -1 trcl 1 2 3  ext:n 0" = .error .types := by
  decide +kernel

/-- `*TRCL = (1 2 &⏎ 3)`. -/
example : unionParse (optionsOf true) c!"*TRCL = (1 2 &\n 3)" = .ok (trclObj Tab.like_Trcl_5 true 4 [⟨false, 1, 0⟩, ⟨false, 2, 0⟩, ⟨false, 3, 0⟩] none) := by
  have h : Spaced [] c!"*TRCL" [(.eq c!" " c!" ", c!"(1"), (.ws c!" ", c!"2"), (.ws c!" &\n ", c!"3)")] [] := {
    first := .nil
    word := by decide
    words := by
      intro x hx
      simp only [List.mem_cons, List.not_mem_nil, or_false] at hx
      rcases hx with rfl | rfl | rfl
      · exact ⟨⟨.sp .nil, .sp .nil⟩, by decide⟩
      · exact ⟨⟨.sp .nil, by decide⟩, by decide⟩
      · exact ⟨⟨.sp (.amp 0 (.sp .nil)), by decide⟩, by decide⟩
    last := .nil
    low := by decide
    pos := by decide +kernel
    adj := by decide }
  have := C97_option true true [] _ _ [] h ⟨c!"TRCL", by decide, rfl⟩ 4 [c!"1", c!"2", c!"3"]
    ⟨.inl rfl, by decide, by decide, ['('], [')'], .inr rfl, .inr rfl, by decide +kernel⟩ (by decide)
  refine Eq.trans ?_ (this.trans ?_) <;> decide +kernel

/-- Thirteen pieces, the last being the system. -/
example : readTrans 0 ([c!"1", c!"0", c!"-2.5"] ++ List.replicate 9 c!"1d0" ++ [c!"-1"]) =
    .ok (.sc (.trans 0 ([.num (.fin ⟨false, 1, 0⟩), .num (.fin ⟨false, 0, 0⟩), .num (.fin ⟨true, 25, -1⟩)] ++ List.replicate 9 (.num (.fin ⟨false, 1, 0⟩))) (some (.num (-1))))) ∧
    readTrans 4 [c!"1", c!"2", c!"3", c!"2"] = .error .types ∧ readTrans 4 [c!"1", c!"2", c!"3-"] = .error .types := by decide +kernel

/-- A number. -/
example : unionParse (optionsOf false) c!"trcl 7" = .ok (.obj Tab.cell_Trcl_0.info [.none, .sc (.int (.num 7))]) ∧
    (∀ k ps, k < 5 → ¬ TransText k c!"7" ps) ∧ unionParse (optionsOf false) c!"trcl 1 2" = .error .inp := by
  refine ⟨by decide +kernel, fun k ps hk h => ?_, by decide +kernel⟩
  have h1 := (trans_match h).symm.trans (by
    have : k = 0 ∨ k = 1 ∨ k = 2 ∨ k = 3 ∨ k = 4 := by omega
    rcases this with rfl | rfl | rfl | rfl | rfl <;> decide +kernel : reMatch (anchored (transRe k 1)) c!"7" = none)
  cases h1

example : (trclObj (trclOf false 3) true 3 [⟨false, 1, 0⟩, ⟨true, 25, -1⟩, ⟨false, 0, 0⟩, ⟨false, 1, 0⟩, ⟨false, 0, 0⟩, ⟨false, 1, 3⟩] (some (-1))).str =
    c!"*trcl 1 -2.5 0 1 0 1E+3 -1" ∧ SysOk (some (-1)) ∧ trCount 3 = 6 := by
  refine ⟨by decide +kernel, ?_, rfl⟩
  intro n hn
  cases hn
  exact .inr rfl

end Props
