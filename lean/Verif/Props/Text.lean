import Verif.Inp.WrapLemmas
/-!
# Card text properties: C18 – C22

`cardPreprocess` is what every card reader does to its text first, `postprocess` what every card
printer does last.  Entries are specified in `Verif/Inp/TextSpec.lean`.
-/
namespace Props
open Py Types Inp

/-! ## C18 – wrapping -/

/-- The reader undoes the printer: for every keyword and every list of entries, with shorthand letters
in lower case and no counted shorthand two of which are neighbours, the words read back are the
entries, with counted shorthand written out. Missing: shorthand with a count next to shorthand of the same letter, for which
the claim is false (`C20_violated`). -/
theorem C20_print_read_partial (w0 : Str) (rest : List Str) (he : ∀ w ∈ w0 :: rest, Entry w)
    (hl : ∀ w ∈ rest, LowerShort w) (hn : ∀ w ∈ rest, ∀ n l, countedEntry w = some (n, l) → 0 < n)
    (ha : NoAdj rest) :
    cardPreprocess (postprocess (join [' '] (w0 :: rest))) = (join [' '] (w0 :: rest.flatMap expandOne), []) := by
  have h0 := he w0 (by simp)
  have hr : ∀ w ∈ rest, w ≠ [] ∧ NoSpace w := fun w hw => ⟨(he w (by simp [hw])).ne, (he w (by simp [hw])).sp⟩
  have hp : ∀ w ∈ printedWords rest, Entry w := by
    intro w hw
    rcases printed_cases rest (group_ok rest hr hn) w hw with h | ⟨kw, hk, n, _, rfl⟩
    · exact he w (by simp [h])
    · exact counted_entry kw hk n
  have hsp : ∀ w ∈ w0 :: printedWords rest, ' ' ∉ w := by
    intro w hw hc
    have : Entry w := by
      rcases List.mem_cons.1 hw with rfl | hw
      · exact h0
      · exact hp w hw
    exact absurd (this.sp _ hc) (by decide)
  rw [postprocess_words w0 (printedWords rest) _ (by
    rw [join_enc]; exact collapse_print w0 rest h0.sp hr hn ha) hsp]
  obtain ⟨g0, l, e, hg, hm, hok⟩ := wrap_text 0 w0 (printedWords rest)
  have := read_spaced g0 w0 l [] hg h0 (fun x hx => ⟨hok x hx, hp _ (by
    rw [← hm]; exact List.mem_map_of_mem hx)⟩) .nil
  rw [List.append_nil] at this
  rw [e, this, hm, collapse_again w0 rest h0.sp hr hn ha, short_read w0 rest h0.sp hr hn hl ha, join_enc]

/-- Without counted shorthand: exactly the original words, for every keyword and every number of
entries of any length. -/
theorem C18_wrap_roundtrip (w0 : Str) (rest : List Str) (he : ∀ w ∈ w0 :: rest, Entry w)
    (hl : ∀ w ∈ rest, LowerShort w) (hc : ∀ w ∈ rest, countedEntry w = none) :
    cardPreprocess (postprocess (join [' '] (w0 :: rest))) = (join [' '] (w0 :: rest), []) := by
  have hadj : ∀ l : List Str, (∀ w ∈ l, countedEntry w = none) → NoAdj l := by
    intro l
    induction l with
    | nil => intro _; trivial
    | cons a l ih =>
      intro h
      cases l with
      | nil => trivial
      | cons b l =>
        exact ⟨fun _ _ => ⟨h a (by simp), h b (by simp)⟩, ih (fun w hw => h w (by simp [hw]))⟩
  rw [C20_print_read_partial w0 rest he hl (fun w hw n l h => by rw [hc w hw] at h; cases h) (hadj rest hc)]
  congr 2
  have : ∀ l : List Str, (∀ w ∈ l, countedEntry w = none) → l.flatMap expandOne = l := by
    intro l
    induction l with
    | nil => intro _; rfl
    | cons a l ih =>
      intro h
      rw [List.flatMap_cons, ih (fun w hw => h w (by simp [hw]))]
      simp [expandOne, h a (by simp)]
  rw [this rest hc]

/-- Entries with runs of jumps; the printed form uses `3j`. -/
example :
    let w0 := "vol".toList
    let rest := ["j", "j", "j", "1.5", "j", "r", "r", "ilog", "3.2e5"].map String.toList
    (∀ w ∈ rest, countedEntry w = none ∧ (lower w ∈ shorthand → w ∈ shorthand)) ∧
      postprocess (join [' '] (w0 :: rest)) = "vol 3j 1.5 j 2r ilog 3.2e5".toList := by decide +kernel

example : Entry "1.5".toList := ⟨by decide, by decide, by decide, by decide, by decide, by decide, by decide⟩

/-- The text of a long card really is broken into lines. -/
example : (splitC '\n' (postprocess (join [' '] (List.replicate 30 "12345".toList)))).length = 3 := by decide +kernel

/-! ## C19 – columns -/

/-- Every printed line has at most 81 columns (one more than claimed: continuation lines are indented by
six blanks, but counted as five), for all entries of at most 72 characters. Missing: the 81st column, for which the claim is
false (`C19_violated`), and longer entries. -/
theorem C19_columns_partial (w0 : Str) (rest : List Str) (he : ∀ w ∈ w0 :: rest, Entry w ∧ w.length ≤ 72)
    (hn : ∀ w ∈ rest, ∀ n l, countedEntry w = some (n, l) → 0 < n) (ha : NoAdj rest)
    (hlen : rest.length < 10 ^ 60) :
    ∀ line ∈ splitC '\n' (postprocess (join [' '] (w0 :: rest))), line.length ≤ 81 := by
  have h0 := (he w0 (by simp)).1
  have hr : ∀ w ∈ rest, w ≠ [] ∧ NoSpace w := fun w hw => ⟨(he w (by simp [hw])).1.ne, (he w (by simp [hw])).1.sp⟩
  have hp : ∀ w ∈ w0 :: printedWords rest, Entry w ∧ w.length ≤ 72 := by
    intro w hw
    rcases List.mem_cons.1 hw with rfl | hw
    · exact he w (by simp)
    rcases printed_cases rest (group_ok rest hr hn) w hw with h | ⟨kw, hk, n, hle, rfl⟩
    · exact he w (by simp [h])
    · refine ⟨counted_entry kw hk n, ?_⟩
      have h1 := natStr_length_le n 60 (by omega) (by omega)
      have h2 : kw.length ≤ 4 := (by decide : ∀ kw ∈ kws, kw.length ≤ 4) kw hk
      simp only [counted, List.length_append]
      omega
  have hno : ∀ (x : Char), isSpace x = true → ∀ w ∈ w0 :: printedWords rest, x ∉ w := by
    intro x hx w hw hc
    have := (hp w hw).1.sp _ hc
    rw [hx] at this
    cases this
  rw [postprocess_words w0 (printedWords rest) _ (by
    rw [join_enc]; exact collapse_print w0 rest h0.sp hr hn ha) (hno ' ' (by decide))]
  obtain ⟨f, ls, e, h1, h2⟩ := wrap_lines 0 0 w0 (printedWords rest)
    (fun v hv => ⟨(hp v hv).2, hno '\n' (by decide) v hv⟩) (by omega) (by omega)
  rw [e]
  intro line hline
  rcases List.mem_cons.1 hline with rfl | h
  · omega
  · exact h2 line h

/-- The claimed bound of 80 columns fails: a card of four short entries prints a line of 81. -/
theorem C19_violated :
    let ws := [List.replicate 70 'a', List.replicate 36 'b', List.replicate 36 'c', ['d']]
    (∀ w ∈ ws, w.length ≤ 72 ∧ countedEntry w = none) ∧
      (splitC '\n' (postprocess (join [' '] ws))).map List.length = [72, 81, 7] := by decide +kernel

/-! ## C20 – shorthand -/

/-- Reading a card: every counted entry `n·letter` is replaced by `n` letters and every other entry is
kept, when no counted entry stands next to the same letter. Missing: as in `C20_print_read_partial`. -/
theorem C20_expand_partial (w0 : Str) (rest : List Str) (he : ∀ w ∈ w0 :: rest, Entry w)
    (hl : ∀ w ∈ rest, LowerShort w) (hn : ∀ w ∈ rest, ∀ n l, countedEntry w = some (n, l) → 0 < n)
    (ha : NoAdj rest) :
    cardPreprocess (join [' '] (w0 :: rest)) = (join [' '] (w0 :: rest.flatMap expandOne), []) := by
  have h0 := he w0 (by simp)
  have hr : ∀ w ∈ rest, w ≠ [] ∧ NoSpace w := fun w hw => ⟨(he w (by simp [hw])).ne, (he w (by simp [hw])).sp⟩
  have hb : ∀ l : List Str, body (l.map (fun w => (Gap.ws [' '], w))) = enc l := by
    intro l
    induction l with
    | nil => rfl
    | cons a l ih => rw [List.map_cons, body, ih]; rfl
  have := read_spaced [] w0 (rest.map (fun w => (Gap.ws [' '], w))) [] .nil h0 (by
    intro x hx
    obtain ⟨w, hw, rfl⟩ := List.mem_map.1 hx
    exact ⟨⟨.sp .nil, by simp⟩, he w (by simp [hw])⟩) .nil
  rw [hb, List.nil_append, List.append_nil, List.map_map] at this
  rw [join_enc, this]
  have hid : List.map ((fun x : Gap × Str => x.2) ∘ fun w => (Gap.ws [' '], w)) rest = rest := by
    show List.map id rest = rest
    simp
  rw [hid, short_read w0 rest h0.sp hr hn hl ha, join_enc]

example :
    let rest := ["2j", "5", "3R", "1", "12ilog", "7"].map String.toList
    (∀ w ∈ rest, ∀ p ∈ countedEntry w, 0 < p.1) ∧ rest.map letter = [some ['j'], none, some ['r'], none, some "ilog".toList, none] ∧
      (rest.flatMap expandOne).length = 2 + 1 + 3 + 1 + 12 + 1 := by decide +kernel

/-- Two counted repeats in a row: only the first is written out. -/
theorem C20_violated :
    cardPreprocess "f 2r 3r 1".toList = ("f r r 3r 1".toList, []) ∧
      ["2r", "3r", "1"].flatMap (fun s => expandOne s.toList) = ["r", "r", "r", "r", "r", "1"].map String.toList := by
  decide +kernel

/-- A run of letters next to a counted one is merged only in part, so printing changes what is read. -/
theorem C20_violated_print :
    cardPreprocess (postprocess "f r r 3r 1".toList) = ("f r r 3r 1".toList, []) ∧
      cardPreprocess (postprocess "f 3i i i 1".toList) ≠ ("f i i i i i 1".toList, []) := by decide +kernel

/-! ## C21 – blank space -/

/-- Entries separated in any way by blanks, newline-plus-blank, `&` continuations or equals signs, with
any leading and trailing blank space, are read like the entries separated by single blanks. Missing: tabs, for which the
claim is false (`C21_violated`). -/
theorem C21_spacing_partial (g0 w0 : Str) (l : List (Gap × Str)) (g1 : Str) (h0 : Ws g0) (hw0 : Entry w0)
    (hl : ∀ x ∈ l, x.1.Ok ∧ Entry x.2) (h1 : Ws g1) :
    cardPreprocess (g0 ++ w0 ++ body l ++ g1) = cardPreprocess (join [' '] (w0 :: l.map (·.2))) := by
  have hb : ∀ l : List Str, body (l.map (fun w => (Gap.ws [' '], w))) = enc l := by
    intro l
    induction l with
    | nil => rfl
    | cons a l ih => rw [List.map_cons, body, ih]; rfl
  have e1 := read_spaced g0 w0 l g1 h0 hw0 hl h1
  have e2 := read_spaced [] w0 ((l.map (·.2)).map (fun w => (Gap.ws [' '], w))) [] .nil hw0 (by
    intro x hx
    obtain ⟨w, hw, rfl⟩ := List.mem_map.1 hx
    obtain ⟨y, hy, rfl⟩ := List.mem_map.1 hw
    exact ⟨⟨.sp .nil, by simp⟩, (hl y hy).2⟩) .nil
  rw [hb, List.nil_append, List.append_nil, List.map_map] at e2
  have hid : List.map ((fun x : Gap × Str => x.2) ∘ fun w => (Gap.ws [' '], w)) (l.map (·.2)) = l.map (·.2) := by
    show List.map id _ = _
    simp
  rw [hid] at e2
  rw [join_enc, e2, ← e1]
  simp

example : Ws "  &  \n    ".toList ∧ Gap.Ok (.ws "\n     ".toList) ∧ Gap.Ok (.eq " ".toList "".toList) ∧
    "imp:n = 1\n      u=2 &\n 5".toList =
      [] ++ "imp:n".toList ++ body [(.eq " ".toList " ".toList, "1".toList), (.ws "\n      ".toList, "u".toList),
        (.eq [] [], "2".toList), (.ws " &\n ".toList, "5".toList)] ++ [] := by
  refine ⟨.sp (.sp (.amp 2 (Ws.blanks 4))), ⟨.nl (Ws.blanks 5), by decide⟩, ⟨Ws.blanks 1, .nil⟩, by decide⟩

/-- Words of any characters except blanks, newlines, `&` and `$` (parentheses, `=` and tabs allowed):
how they are separated by blanks and continuations does not matter. -/
theorem C21_spacing_words (w0 : Str) (l : List (Str × Str)) (hw0 : WordC w0 ∧ '$' ∉ w0)
    (hl : ∀ x ∈ l, Ws x.1 ∧ x.1 ≠ [] ∧ WordC x.2 ∧ '$' ∉ x.2) :
    cardPreprocess (w0 ++ (l.map (fun x => x.1 ++ x.2)).flatten) = cardPreprocess (join [' '] (w0 :: l.map (·.2))) := by
  have key : ∀ l : List (Str × Str), (∀ x ∈ l, Ws x.1 ∧ x.1 ≠ [] ∧ WordC x.2 ∧ '$' ∉ x.2) →
      cardPreprocess (w0 ++ (l.map (fun x => x.1 ++ x.2)).flatten) =
        (let s := w0 ++ enc (l.map (·.2))
         let s := reSub (.seq (.chr '(') (.chr ' ')) (fun _ _ => ['(']) s
         let s := reSub (.seq (.chr ' ') (.chr ')')) (fun _ _ => [')']) s
         let s := reSub (.seq (.chr '\n') (.seq (.chr ' ') (.chr '\n'))) (fun _ _ => ['\n', '\n']) s
         let s := reSub eqRe (fun _ _ => [' ']) s
         let s := reSub (.chr '\t') (fun _ _ => [' ', ' ', ' ', ' ']) s
         (expandAll (collapseAll (strip s)), [])) := by
    intro l hl
    have hbody : (l.map (fun x => x.1 ++ x.2)).flatten = body (l.map (fun x => (Gap.ws x.1, x.2))) := by
      clear hl
      induction l with
      | nil => rfl
      | cons a l ih => simp [body, Gap.text, ih]
    have hok : ∀ x ∈ l.map (fun x => (Gap.ws x.1, x.2)), x.1.Ok ∧ WordC x.2 := by
      intro x hx
      obtain ⟨y, hy, rfl⟩ := List.mem_map.1 hx
      exact ⟨⟨(hl y hy).1, (hl y hy).2.1⟩, (hl y hy).2.2.1⟩
    rw [hbody, cardPreprocess_free]
    · obtain ⟨m0, l', m1, e, hm, hk, hz0, hz1⟩ := respace_two [] w0 (l.map (fun x => (Gap.ws x.1, x.2))) [] .nil hw0.1 hok .nil
      rw [hz0 rfl, hz1 rfl] at e
      have hb2 : ∀ l' : List (Gap1 × Str), (∀ x ∈ l', x.1.isWs = true) → body2 l' = enc (l'.map (·.2)) := by
        intro l'
        induction l' with
        | nil => intro _; rfl
        | cons a t ih =>
          intro h
          obtain ⟨g, w⟩ := a
          rw [body2, ih (fun x hx => h x (by simp [hx]))]
          have := h _ (List.mem_cons_self ..)
          cases g with
          | ws n => rfl
          | eq a b => cases this
      have hws : ∀ x ∈ l', x.1.isWs = true := by
        intro x hx
        have : x.1.isWs ∈ (l.map (fun x => (Gap.ws x.1, x.2))).map (fun x => x.1.isWs) := by
          rw [← hk]; exact List.mem_map_of_mem (f := fun x : Gap1 × Str => x.1.isWs) hx
        rw [List.map_map] at this
        obtain ⟨y, _, hy⟩ := List.mem_map.1 this
        rw [← hy]; rfl
      rw [hb2 l' hws, hm, List.map_map] at e
      have e' : reSub (.plus true (.chr ' ')) (fun _ _ => [' ']) (reSub contRe (fun _ _ => [' '])
          (w0 ++ body (l.map (fun x => (Gap.ws x.1, x.2))))) = w0 ++ enc (l.map (·.2)) := by
        have h2 : List.map ((fun x : Gap × Str => x.2) ∘ fun x : Str × Str => (Gap.ws x.1, x.2)) l = l.map (·.2) := rfl
        rw [h2] at e
        simp only [norm, List.nil_append, List.append_nil] at e
        exact e
      unfold preprocess respace
      simp only [e']
    · simp only [List.mem_append, not_or]
      refine ⟨hw0.2, body_chars _ ?_⟩
      intro x hx
      obtain ⟨y, hy, rfl⟩ := List.mem_map.1 hx
      exact ⟨⟨(hl y hy).1, (hl y hy).2.1⟩, (hl y hy).2.2.2⟩
  have k2 := key (l.map (fun x => ([' '], x.2))) (by
    intro x hx
    obtain ⟨y, hy, rfl⟩ := List.mem_map.1 hx
    exact ⟨.sp .nil, by simp, (hl y hy).2.2.1, (hl y hy).2.2.2⟩)
  have ej : w0 ++ ((l.map (fun x => ([' '], x.2))).map (fun x => x.1 ++ x.2)).flatten = join [' '] (w0 :: l.map (·.2)) := by
    rw [join_enc, enc, List.flatMap_def, List.map_map, List.map_map]; rfl
  rw [ej, List.map_map] at k2
  rw [key l hl, k2]
  rfl

example : WordC "(1:-2)".toList ∧ WordC "#(3".toList := by
  refine ⟨⟨by decide, ?_⟩, ⟨by decide, ?_⟩⟩ <;> decide

/-- A tab is not accepted in place of a blank: after reading, the entries are four blanks apart. -/
theorem C21_violated :
    cardPreprocess "so 5".toList = ("so 5".toList, []) ∧ cardPreprocess "so\t5".toList = ("so    5".toList, []) ∧
      cardPreprocess "vol 2j\t5".toList = ("vol j j    5".toList, []) := by decide +kernel

/-! ## C22 – comments -/

/-- Reading a card of several lines, some with a `$` comment: the comments are collected in order, and
the rest of the text is read as if the comments were not there. Missing: that comments are printed again, which they never
are (`C22_violated`). -/
theorem C22_comments_collected_partial (lines : List (Str × Option Str)) (hne : lines ≠ [])
    (h : ∀ x ∈ lines, '$' ∉ x.1 ∧ '\n' ∉ x.1 ∧ ∀ c ∈ x.2, '\n' ∉ c) :
    cardPreprocess (join ['\n'] (lines.map (fun x => match x.2 with | none => x.1 | some c => x.1 ++ '$' :: c))) =
      ((cardPreprocess (join ['\n'] (lines.map (·.1)))).1, lines.filterMap (·.2)) := by
  have hsplit : ∀ f : Str × Option Str → Str, (∀ x ∈ lines, '\n' ∉ f x) →
      splitC '\n' (join ['\n'] (lines.map f)) = lines.map f := by
    intro f hf
    apply splitC_join
    · simpa using hne
    · intro w hw
      obtain ⟨x, hx, rfl⟩ := List.mem_map.1 hw
      exact hf x hx
  have hsc : ∀ (a c : Str), '$' ∉ a → splitComment (a ++ '$' :: c) = (a, some c) := by
    intro a
    induction a with
    | nil => intro c _; simp [splitComment]
    | cons x xs ih =>
      intro c ha
      rw [List.cons_append, splitComment, if_neg (by rintro rfl; exact ha (by simp)), ih c (fun hc => ha (by simp [hc]))]
  have h1 : lines.map (fun x => splitComment (match x.2 with | none => x.1 | some c => x.1 ++ '$' :: c)) = lines := by
    have : lines.map (fun x => splitComment (match x.2 with | none => x.1 | some c => x.1 ++ '$' :: c)) = lines.map id := by
      apply List.map_congr_left
      intro x hx
      obtain ⟨a, c⟩ := x
      cases c with
      | none => exact splitComment_free a (h _ hx).1
      | some c => exact hsc a c (h _ hx).1
    simpa using this
  have h2 : lines.map (fun x => splitComment x.1) = lines.map (fun x => (x.1, none)) := by
    apply List.map_congr_left
    intro x hx
    exact splitComment_free x.1 (h _ hx).1
  unfold cardPreprocess
  rw [hsplit _ (by
    intro x hx
    obtain ⟨a, c⟩ := x
    cases c with
    | none => exact (h _ hx).2.1
    | some c =>
      have := h _ hx
      simp only [List.mem_append, List.mem_cons, not_or]
      exact ⟨this.2.1, by decide, this.2.2 c rfl⟩), hsplit _ (fun x hx => (h x hx).2.1)]
  simp only [List.map_map, Function.comp_def, h2]
  refine Prod.ext ?_ ?_
  · simp only
    congr 2
    have := congrArg (List.map (fun x : Str × Option Str => x.1)) h1
    rw [List.map_map] at this
    exact this
  · simp only
    have := congrArg (List.filterMap (fun x : Str × Option Str => x.2)) h1
    rw [List.filterMap_map] at this
    rw [List.filterMap_map]
    exact this

example : cardPreprocess "m1 1001 2 $ hydrogen\n     8016 1 $ oxygen".toList =
    ("m1 1001 2 8016 1".toList, [" hydrogen".toList, " oxygen".toList]) := by decide +kernel

end Props
