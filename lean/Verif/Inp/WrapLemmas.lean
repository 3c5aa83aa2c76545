import Verif.Inp.GroupLemmas
/-! Helper lemmas: reading spaced texts, line wrapping. -/
namespace Inp
open Py Types

theorem join_enc (w : Str) (ws : List Str) : join [' '] (w :: ws) = w ++ enc ws := by
  induction ws generalizing w with
  | nil => simp [join]
  | cons v vs ih => rw [join_cons _ _ _ (by simp), ih]; simp

theorem Entry.clean {w : Str} (h : Entry w) : Clean w := ⟨h.ne, h.sp, h.amp, h.eq, h.op, h.cl⟩

theorem splitComment_free (s : Str) (h : '$' ∉ s) : splitComment s = (s, none) := by
  induction s with
  | nil => rfl
  | cons c cs ih =>
    rw [splitComment, if_neg (by rintro rfl; exact h (by simp)), ih (fun hc => h (by simp [hc]))]

theorem splitC_subset (c : Char) (s : Str) : ∀ w ∈ splitC c s, ∀ x ∈ w, x ∈ s := by
  intro w hw x hx
  have : ∀ (ws : List Str), w ∈ ws → x ∈ join [c] ws := by
    intro ws
    induction ws with
    | nil => intro h; cases h
    | cons v vs ih =>
      intro h
      cases vs with
      | nil =>
        rcases List.mem_cons.1 h with rfl | h
        · exact hx
        · cases h
      | cons u us =>
        rw [join_cons _ _ _ (by simp)]
        rcases List.mem_cons.1 h with rfl | h
        · simp [hx]
        · exact List.mem_append_right _ (ih h)
  have := this _ hw
  rwa [join_splitC] at this

theorem cardPreprocess_free (s : Str) (h : '$' ∉ s) : cardPreprocess s = (preprocess s, []) := by
  have : (splitC '\n' s).map splitComment = (splitC '\n' s).map (fun w => (w, none)) := by
    apply List.map_congr_left
    intro w hw
    exact splitComment_free w (fun hc => h (splitC_subset _ _ w hw _ hc))
  unfold cardPreprocess
  simp only [this, List.map_map, List.filterMap_map]
  refine Prod.ext ?_ ?_
  · simp only
    congr 1
    have : ((fun x : Str × Option Str => x.1) ∘ fun w => (w, none)) = id := rfl
    rw [this, List.map_id, join_splitC]
  · simp only [List.filterMap_eq_nil_iff]
    intro a _; rfl

theorem Ws.chars {g : Str} (h : Ws g) : '$' ∉ g := by
  induction h with
  | nil => simp
  | sp _ ih => simpa using ih
  | nl _ ih => simpa using ih
  | amp n _ ih =>
    intro hc
    simp only [List.mem_cons, List.mem_append] at hc
    rcases hc with h | h | h | h
    · exact absurd h (by decide)
    · exact absurd (blanks_mem h) (by decide)
    · exact absurd h (by decide)
    · exact ih h

theorem body_chars (l : List (Gap × Str)) (hl : ∀ x ∈ l, x.1.Ok ∧ '$' ∉ x.2) : '$' ∉ body l := by
  induction l with
  | nil => simp [body]
  | cons x l ih =>
    obtain ⟨g, w⟩ := x
    have h1 := hl _ (List.mem_cons_self ..)
    have ih := ih (fun x hx => hl x (List.mem_cons_of_mem _ hx))
    simp only [body, List.mem_append, not_or]
    refine ⟨?_, h1.2, ih⟩
    cases g with
    | ws g => exact h1.1.1.chars
    | eq a b =>
      simp only [Gap.text, List.mem_append, List.mem_cons, not_or]
      exact ⟨h1.1.1.chars, by decide, h1.1.2.chars⟩

/-- Reading a spaced text. -/
theorem read_spaced (g0 w0 : Str) (l : List (Gap × Str)) (g1 : Str) (h0 : Ws g0) (hw0 : Entry w0)
    (hl : ∀ x ∈ l, x.1.Ok ∧ Entry x.2) (h1 : Ws g1) :
    cardPreprocess (g0 ++ (w0 ++ (body l ++ g1))) = (expandAll (collapseAll (w0 ++ enc (l.map (·.2)))), []) := by
  rw [cardPreprocess_free]
  · unfold preprocess
    rw [respace_words g0 w0 l g1 h0 hw0.clean (fun x hx => ⟨(hl x hx).1, (hl x hx).2.clean⟩) h1]
  · simp only [List.mem_append, not_or]
    exact ⟨h0.chars, hw0.dl, body_chars l (fun x hx => ⟨(hl x hx).1, (hl x hx).2.dl⟩), h1.chars⟩

/-- The shorthand passes on entries. -/
theorem short_read (w0 : Str) (rest : List Str) (hw0 : NoSpace w0) (he : ∀ w ∈ rest, w ≠ [] ∧ NoSpace w)
    (hn : ∀ w ∈ rest, ∀ n l, countedEntry w = some (n, l) → 0 < n) (hl : ∀ w ∈ rest, LowerShort w)
    (ha : NoAdj rest) :
    expandAll (collapseAll (w0 ++ enc rest)) = w0 ++ enc (rest.flatMap expandOne) := by
  have ok := group_ok rest he hn
  have sep := group_sep rest ha
  have e1 := collapseAll_items w0 hw0 (group rest) ok sep
  rw [group_words] at e1
  rw [e1, expandAll_items w0 hw0 _ (ok_map (fun i h => h.short) ok) (Sep.map Item.short_cls sep), List.map_map]
  rw [← group_long rest hl]
  rfl

theorem short_short (i : Item) : i.short.short = i.short := by
  cases i with
  | word => rfl
  | cnt => rfl
  | run kw l =>
    have e : (Item.run kw l).short =
      if 2 ≤ l.length then .cnt kw (counted kw l.length) l.length else .run kw l := rfl
    by_cases h : 2 ≤ l.length
    · rw [e, if_pos h]; rfl
    · rw [e, if_neg h, e, if_neg h]

/-- Printed words of the entries (after shorthand collapsing). -/
def printedWords (rest : List Str) : List Str := words ((group rest).map Item.short)

theorem collapse_print (w0 : Str) (rest : List Str) (hw0 : NoSpace w0) (he : ∀ w ∈ rest, w ≠ [] ∧ NoSpace w)
    (hn : ∀ w ∈ rest, ∀ n l, countedEntry w = some (n, l) → 0 < n) (ha : NoAdj rest) :
    collapseAll (w0 ++ enc rest) = w0 ++ enc (printedWords rest) := by
  have e1 := collapseAll_items w0 hw0 (group rest) (group_ok rest he hn) (group_sep rest ha)
  rw [group_words] at e1
  exact e1

theorem collapse_again (w0 : Str) (rest : List Str) (hw0 : NoSpace w0) (he : ∀ w ∈ rest, w ≠ [] ∧ NoSpace w)
    (hn : ∀ w ∈ rest, ∀ n l, countedEntry w = some (n, l) → 0 < n) (ha : NoAdj rest) :
    collapseAll (w0 ++ enc (printedWords rest)) = collapseAll (w0 ++ enc rest) := by
  rw [collapse_print w0 rest hw0 he hn ha]
  have ok := group_ok rest he hn
  have sep := group_sep rest ha
  unfold printedWords
  rw [collapseAll_items w0 hw0 _ (ok_map (fun i h => h.short) ok) (Sep.map Item.short_cls sep), List.map_map]
  congr 3
  apply List.map_congr_left
  intro i _
  exact short_short i

theorem counted_entry (kw : Str) (hk : kw ∈ kws) (n : Nat) : Entry (counted kw n) := by
  have hch : ∀ c ∈ counted kw n, isDigit c = true ∨ c ∈ ['j', 'r', 'i', 'l', 'o', 'g'] := by
    intro c hc
    rcases List.mem_append.1 hc with h | h
    · exact .inl (natStr_digits n c h)
    · exact .inr (kws_letters hk c h)
  have hno : ∀ x, isDigit x = false → x ∉ ['j', 'r', 'i', 'l', 'o', 'g'] → x ∉ counted kw n := by
    intro x h1 h2 hc
    rcases hch x hc with h | h
    · rw [h1] at h; cases h
    · exact h2 h
  refine ⟨by simp [counted, natStr_ne_nil], ?_, hno _ (by decide) (by decide), hno _ (by decide) (by decide),
    hno _ (by decide) (by decide), ?_, ?_⟩
  · intro c hc
    rcases hch c hc with h | h
    · exact isDigit_not_space h
    · exact (by decide : ∀ c ∈ ['j', 'r', 'i', 'l', 'o', 'g'], isSpace c = false) c h
  · intro h; exact hno '(' (by decide) (by decide) (List.mem_of_getLast? h)
  · intro h; exact hno ')' (by decide) (by decide) (List.mem_of_mem_head? h)

theorem printed_cases (rest : List Str) (ok : ∀ i ∈ group rest, i.Ok) :
    ∀ w ∈ printedWords rest, w ∈ rest ∨ ∃ kw ∈ kws, ∃ n, n ≤ rest.length ∧ w = counted kw n := by
  intro w hw
  obtain ⟨i, hi, hw⟩ := List.mem_flatMap.1 hw
  obtain ⟨j, hj, rfl⟩ := List.mem_map.1 hi
  have hsub : ∀ v ∈ j.words, v ∈ rest := by
    intro v hv
    rw [← group_words rest]
    exact List.mem_flatMap.2 ⟨j, hj, hv⟩
  have hlen : j.words.length ≤ rest.length := by
    have : j.words.Sublist rest := by
      rw [← group_words rest]
      unfold words
      rw [List.flatMap_def]
      exact List.sublist_flatten_of_mem (List.mem_map_of_mem hj)
    exact this.length_le
  have hjok := ok j hj
  cases j with
  | word v => exact .inl (hsub w hw)
  | cnt a b c => exact .inl (hsub w hw)
  | run kw l =>
    simp only [Item.short] at hw
    split at hw
    · cases hjok with
      | run hk _ _ => exact .inr ⟨kw, hk, l.length, hlen, by simpa [Item.words] using hw⟩
    · exact .inl (hsub w hw)

/-! ### wrapping -/

def brk : Str := ['&', '\n', ' ', ' ', ' ', ' ', ' ']

theorem wrap_cons (n : Nat) (w : Str) (ws : List Str) : wrapWords n (w :: ws) =
    if w.length + n > 78 then brk :: w :: wrapWords (5 + (w.length + 1)) ws
    else w :: wrapWords (n + (w.length + 1)) ws := rfl

theorem wrap_ne (n : Nat) (w : Str) (ws : List Str) : wrapWords n (w :: ws) ≠ [] := by
  rw [wrap_cons]; split <;> simp

theorem brk_ws : Ws (brk ++ [' ']) := Ws.amp 0 (Ws.blanks 6)

theorem wrap_text (n : Nat) (w : Str) (ws : List Str) :
    ∃ g0 l, join [' '] (wrapWords n (w :: ws)) = g0 ++ (w ++ body l) ∧ Ws g0 ∧
      l.map (·.2) = ws ∧ ∀ x ∈ l, x.1.Ok := by
  induction ws generalizing n w with
  | nil =>
    rw [wrap_cons]
    split
    · exact ⟨brk ++ [' '], [], by simp [wrapWords, join, body], brk_ws, rfl, by simp⟩
    · exact ⟨[], [], by simp [wrapWords, join, body], .nil, rfl, by simp⟩
  | cons v vs ih =>
    rw [wrap_cons]
    split
    · obtain ⟨g0, l, e, h1, h2, h3⟩ := ih (5 + (w.length + 1)) v
      refine ⟨brk ++ [' '], (.ws (' ' :: g0), v) :: l, ?_, brk_ws, by simp [h2], ?_⟩
      · rw [join_cons _ _ _ (by simp), join_cons _ _ _ (wrap_ne _ _ _), e]
        simp [body, Gap.text]
      · intro x hx
        rcases List.mem_cons.1 hx with rfl | hx
        · exact ⟨.sp h1, by simp⟩
        · exact h3 x hx
    · obtain ⟨g0, l, e, h1, h2, h3⟩ := ih (n + (w.length + 1)) v
      refine ⟨[], (.ws (' ' :: g0), v) :: l, ?_, .nil, by simp [h2], ?_⟩
      · rw [join_cons _ _ _ (wrap_ne _ _ _), e]
        simp [body, Gap.text]
      · intro x hx
        rcases List.mem_cons.1 hx with rfl | hx
        · exact ⟨.sp h1, by simp⟩
        · exact h3 x hx

theorem postprocess_words (w0 : Str) (ws : List Str) (s : Str) (h : collapseAll s = w0 ++ enc ws)
    (hsp : ∀ w ∈ w0 :: ws, ' ' ∉ w) : postprocess s = join [' '] (wrapWords 0 (w0 :: ws)) := by
  unfold postprocess
  rw [h, ← join_enc, splitC_join _ _ (by simp) hsp]

/-- Lines of wrapped words starting in column `c`. -/
theorem wrap_lines (n c : Nat) (w : Str) (ws : List Str) (hw : ∀ v ∈ w :: ws, v.length ≤ 72 ∧ '\n' ∉ v)
    (hc : c ≤ n + 1) (hc2 : c ≤ 80) :
    ∃ f ls, splitC '\n' (join [' '] (wrapWords n (w :: ws))) = f :: ls ∧ c + f.length ≤ 81 ∧ ∀ l ∈ ls, l.length ≤ 81 := by
  induction ws generalizing n c w with
  | nil =>
    have hw1 := hw w (by simp)
    have e0 : ∀ p : Str, '\n' ∉ p → splitC '\n' (p ++ w) = [p ++ w] := by
      intro p hp
      have := splitC_join '\n' [p ++ w] (by simp) (by simp [hp, hw1.2])
      simpa [join] using this
    rw [wrap_cons]
    split
    · refine ⟨['&'], [blanks 6 ++ w], ?_, ?_, ?_⟩
      · show splitC '\n' (['&'] ++ '\n' :: (blanks 6 ++ w)) = _
        rw [splitC_append_free _ _ _ (by decide)]
        have := e0 (blanks 6) (by decide)
        simp only [splitC, if_true] at this ⊢
        rw [this]; rfl
      · simp; omega
      · simp [blanks]; omega
    · refine ⟨w, [], ?_, by omega, by simp⟩
      have := e0 [] (by simp)
      simpa [wrapWords, join] using this
  | cons v vs ih =>
    have hw1 := hw w (by simp)
    have ih := fun n c => ih n c v (fun x hx => hw x (List.mem_cons_of_mem _ hx))
    rw [wrap_cons]
    split
    · obtain ⟨f, ls, e, h1, h2⟩ := ih (5 + (w.length + 1)) (6 + (w.length + 1)) (by omega) (by omega)
      refine ⟨['&'], (blanks 6 ++ w ++ [' '] ++ f) :: ls, ?_, by simp; omega, ?_⟩
      · rw [join_cons _ _ _ (by simp), join_cons _ _ _ (wrap_ne _ _ _)]
        rw [show brk ++ [' '] ++ (w ++ [' '] ++ join [' '] (wrapWords (5 + (w.length + 1)) (v :: vs))) =
          ['&'] ++ '\n' :: (blanks 6 ++ w ++ [' '] ++ join [' '] (wrapWords (5 + (w.length + 1)) (v :: vs))) by
            simp [brk, blanks, List.replicate]]
        rw [splitC_append_free _ _ _ (by decide)]
        have : splitC '\n' ('\n' :: (blanks 6 ++ w ++ [' '] ++ join [' '] (wrapWords (5 + (w.length + 1)) (v :: vs)))) =
            [] :: splitC '\n' (blanks 6 ++ w ++ [' '] ++ join [' '] (wrapWords (5 + (w.length + 1)) (v :: vs))) := by
          simp [splitC]
        rw [this]
        simp only
        rw [splitC_append_free _ (blanks 6 ++ w ++ [' ']) _ (by
          simp only [List.mem_append, not_or]; exact ⟨⟨by decide, hw1.2⟩, by decide⟩), e]
        rfl
      · intro l hl
        rcases List.mem_cons.1 hl with rfl | hl
        · simp [blanks] at h1 ⊢; omega
        · exact h2 l hl
    · obtain ⟨f, ls, e, h1, h2⟩ := ih (n + (w.length + 1)) (c + (w.length + 1)) (by omega) (by omega)
      refine ⟨w ++ [' '] ++ f, ls, ?_, by simp at h1 ⊢; omega, h2⟩
      rw [join_cons _ _ _ (wrap_ne _ _ _), splitC_append_free _ (w ++ [' ']) _ (by
          simp only [List.mem_append, not_or]; exact ⟨hw1.2, by decide⟩), e]

end Inp
