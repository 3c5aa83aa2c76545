import Verif.Inp.FileLemmas
import Verif.Inp.VerticalSpec
/-! Helper lemmas about the vertical data format. -/
namespace Inp
open Py

/-- The pattern takes `w` first. -/
def First (r : Re) (w rest : Str) : Prop :=
  ∀ (α : Type) (prev : Str) (caps : List (Nat × Str)) (k : St → Option α) (x : α),
    k ⟨w.reverse ++ prev, rest, caps⟩ = some x → run r ⟨prev, w ++ rest, caps⟩ k = some x

theorem First.seq {a b : Re} {w v rest : Str} (h1 : First a w (v ++ rest)) (h2 : First b v rest) :
    First (.seq a b) (w ++ v) rest := by
  intro α prev caps k x hk
  rw [run_seq, List.append_assoc]
  apply h1
  apply h2
  simpa using hk

theorem First.cls {p : Char → Bool} {c : Char} (h : p c = true) (rest : Str) : First (.cls p) [c] rest := by
  intro α prev caps k x hk
  show run _ ⟨prev, c :: rest, caps⟩ k = _
  rw [run_cls_cons, if_pos h]
  exact hk

theorem First.star_cls {p : Char → Bool} {w rest : Str} (h : ∀ c ∈ w, p c = true) (hr : ∀ c ∈ rest.head?, p c = false) :
    First (.star true (.cls p)) w rest := by
  intro α prev caps k x hk
  exact run_star_cls_full p w rest prev caps k x h (by rintro c cs rfl; exact hr c rfl) hk

theorem First.plus_cls {p : Char → Bool} {w rest : Str} (h : ∀ c ∈ w, p c = true) (h0 : w ≠ []) (hr : ∀ c ∈ rest.head?, p c = false) :
    First (.plus true (.cls p)) w rest := by
  cases w with
  | nil => exact absurd rfl h0
  | cons c cs =>
    exact First.seq (w := [c]) (First.cls (h c (by simp)) _) (First.star_cls (fun x hx => h x (by simp [hx])) hr)

/-- Repeats of a pattern take one piece after the other. -/
theorem First.star {a : Re} (rest : Str) (hn : ∀ (α : Type) prev caps (k : St → Option α), run a ⟨prev, rest, caps⟩ k = none)
    (ws : List Str) (h : ∀ u w v, ws = u ++ w :: v → w ≠ [] ∧ First a w (v.flatten ++ rest)) :
    First (.star true a) ws.flatten rest := by
  induction ws with
  | nil =>
    intro α prev caps k x hk
    show run _ ⟨prev, rest, caps⟩ k = _
    rw [run_star_greedy, hn]
    simpa using hk
  | cons w ws ih =>
    intro α prev caps k x hk
    obtain ⟨hw, h1⟩ := h [] w ws rfl
    have ih := ih (fun u w' v e => h (w :: u) w' v (by rw [e]; rfl))
    rw [run_star_greedy, List.flatten_cons, List.append_assoc]
    rw [h1 _ prev caps _ x, Option.some_or]
    unfold starNext
    simp only
    rw [if_pos]
    · apply ih
      simpa using hk
    · have := List.length_pos_iff.2 hw
      simp only [List.length_append]; omega

theorem First.plus {a : Re} (rest : Str) (hn : ∀ (α : Type) prev caps (k : St → Option α), run a ⟨prev, rest, caps⟩ k = none)
    (ws : List Str) (h0 : ws ≠ []) (h : ∀ u w v, ws = u ++ w :: v → w ≠ [] ∧ First a w (v.flatten ++ rest)) :
    First (.plus true a) ws.flatten rest := by
  cases ws with
  | nil => exact absurd rfl h0
  | cons w ws =>
    exact First.seq (h [] w ws rfl).2 (First.star rest hn ws (fun u w' v e => h (w :: u) w' v (by rw [e]; rfl)))

/-! ### Words, names, rows -/

/-- A word of the block. -/
def VWord (w : Str) : Prop := w ≠ [] ∧ NoSpace w

/-- The texts that may follow a word. -/
def Stops (s : Str) : Prop := ∀ c ∈ s.head?, isSpace c = true

theorem first_word {w rest : Str} (hw : VWord w) (hr : Stops rest) : First (.plus true .nonspace) w rest :=
  First.plus_cls (fun c hc => by simp [hw.2 c hc]) hw.1 (fun c hc => by simp [hr c hc])

theorem stops_flat {α : Type} (f : α → Str) (hf : ∀ x, Stops (f x) ∧ f x ≠ []) (l : List α) (rest : Str) (hr : Stops rest) :
    Stops ((l.map f).flatten ++ rest) := by
  cases l with
  | nil => exact hr
  | cons x l =>
    obtain ⟨h1, h2⟩ := hf x
    simp only [List.map_cons, List.flatten_cons, List.append_assoc]
    cases h : f x with
    | nil => exact absurd h h2
    | cons c cs =>
      rw [h] at h1
      intro d hd; exact h1 d hd

theorem map_split {α β : Type} {f : α → β} {l : List α} {u : List β} {w : β} {v : List β} (h : l.map f = u ++ w :: v) :
    ∃ x ∈ l, ∃ l' : List α, f x = w ∧ l'.map f = v := by
  induction u generalizing l with
  | nil =>
    cases l with
    | nil => cases h
    | cons x l => cases h; exact ⟨x, by simp, l, rfl, rfl⟩
  | cons y u ih =>
    cases l with
    | nil => cases h
    | cons x l =>
      simp only [List.map_cons, List.cons_append, List.cons.injEq] at h
      obtain ⟨z, hz, l', h1, h2⟩ := ih h.2
      exact ⟨z, by simp [hz], l', h1, h2⟩

theorem run_chr_no {α : Type} (c : Char) (prev s : Str) (caps) (k : St → Option α) (h : s.head? ≠ some c) : run (.chr c) ⟨prev, s, caps⟩ k = none := by
  cases s with
  | nil => rw [Re.chr, run_cls_nil]
  | cons d ds => rw [Re.chr, run_cls_cons, if_neg (by simpa using h)]

theorem first_names (ns : List Str) (h0 : ns ≠ []) (h : ∀ n ∈ ns, VWord n) (rest : Str) :
    First vNamesRe (ns.flatMap (fun n => ' ' :: n)) ('\n' :: rest) := by
  rw [List.flatMap_def]
  refine First.plus _ ?_ _ (by simpa using h0) ?_
  · intro α prev caps k
    rw [run_seq]; exact run_chr_no _ _ _ _ _ (by simp)
  · intro u w v e
    obtain ⟨n, hn, l', rfl, rfl⟩ := map_split e
    refine ⟨by simp, ?_⟩
    refine First.seq (w := [' ']) (First.cls (by decide) _) (first_word (h n hn) ?_)
    exact stops_flat (fun n => ' ' :: n) (fun x => ⟨by intro c hc; cases hc; decide, by simp⟩) l' _ (by intro c hc; cases hc; decide)

/-- A row of the block: at least two entries, the first of which begins with a digit. -/
def VRow.Good (r : VRow) : Prop :=
  (∀ w ∈ r.words, VWord w) ∧ r.others ≠ [] ∧ ∃ c ∈ r.first.head?, isDigit c = true

theorem digit_not_blank {c : Char} (h : isDigit c = true) : c ≠ ' ' ∧ isSpace c = false := by
  have := isDigit_not_space h
  refine ⟨?_, this⟩
  rintro rfl
  revert this; decide

theorem first_row (r : VRow) (h : r.Good) (rest : Str) :
    First (.seq (.star true (.chr ' ')) (.seq .digit (.seq (.star true .nonspace)
      (.seq (.plus true (.seq (.plus true (.chr ' ')) (.plus true .nonspace))) (.chr '\n'))))) (r.text ++ ['\n']) rest := by
  obtain ⟨hw, ho, c, hc, hd⟩ := h
  obtain ⟨indent, first, others⟩ := r
  cases first with
  | nil => cases hc
  | cons d ds =>
    cases hc
    have h1 := hw (c :: ds) (by simp [VRow.words])
    have e : VRow.text ⟨indent, c :: ds, others⟩ ++ ['\n'] = List.replicate indent ' ' ++ ([c] ++ (ds ++ ((others.map gapText).flatten ++ ['\n']))) := by
      simp [VRow.text, List.flatMap_def]
    have hg : ∀ x : Nat × Str, Stops (gapText x) ∧ gapText x ≠ [] := by
      rintro ⟨n, w⟩
      refine ⟨?_, by simp [gapText, List.replicate_succ]⟩
      intro y hy
      simp only [gapText, List.replicate_succ, List.cons_append, List.head?_cons, Option.mem_some_iff] at hy
      subst hy; decide
    rw [e]
    refine First.seq (First.star_cls (fun x hx => by rw [List.eq_of_mem_replicate hx]; decide) ?_) (First.seq (First.cls hd _) (First.seq (First.star_cls ?_ ?_) (First.seq (First.plus _ ?_ _ (by simpa using ho) ?_) (First.cls (by decide) _))))
    · intro x hx
      cases hx
      simpa using (digit_not_blank hd).1
    · intro x hx
      simp [h1.2 x (by simp [hx])]
    · intro x hx
      rw [List.append_assoc] at hx
      have := stops_flat gapText hg others (['\n'] ++ rest) (by intro c hc; cases hc; decide) x hx
      simp [this]
    · intro α prev caps k
      rw [run_seq, Re.plus, run_seq]; exact run_chr_no _ _ _ _ _ (by simp)
    · intro u w v e
      obtain ⟨⟨n, x⟩, hn, l', rfl, rfl⟩ := map_split e
      have hx := hw x (by simp only [VRow.words, List.mem_cons, List.mem_map]; exact .inr ⟨_, hn, rfl⟩)
      refine ⟨(hg _).2, ?_⟩
      refine First.seq (First.plus_cls ?_ (by simp [List.replicate_succ]) ?_) (first_word hx ?_)
      · intro y hy
        rw [List.eq_of_mem_replicate hy]; decide
      · intro y hy
        have : y ∈ x := by
          cases x with
          | nil => exact absurd rfl hx.1
          | cons z zs => cases hy; simp
        have := hx.2 y this
        revert this
        by_cases hyb : y = ' '
        · subst hyb; decide
        · intro _; simpa using hyb
      · exact stops_flat gapText hg l' _ (by intro c hc; cases hc; decide)

theorem vRow_no {α : Type} (rest : Str) (hr : ∀ c ∈ rest.head?, c ≠ ' ' ∧ isDigit c = false) (prev caps) (k : St → Option α) :
    run (.seq (.star true (.chr ' ')) (.seq .digit (.seq (.star true .nonspace)
      (.seq (.plus true (.seq (.plus true (.chr ' ')) (.plus true .nonspace))) (.chr '\n'))))) ⟨prev, rest, caps⟩ k = none := by
  rw [run_seq]
  cases rest with
  | nil =>
    rw [Re.chr, run_star_cls_nil, run_seq, Re.digit, run_cls_nil]
  | cons c cs =>
    obtain ⟨h1, h2⟩ := hr c rfl
    rw [Re.chr, run_star_cls_cons]
    simp [h1, run_seq, Re.digit, run_cls_cons, h2]

theorem first_rows (rs : List VRow) (h0 : rs ≠ []) (h : ∀ r ∈ rs, r.Good) (rest : Str)
    (hr : ∀ c ∈ rest.head?, c ≠ ' ' ∧ isDigit c = false) :
    First vRowsRe (rs.flatMap (fun r => r.text ++ ['\n'])) rest := by
  rw [List.flatMap_def]
  refine First.plus rest (fun _ prev caps k => vRow_no rest hr prev caps k) _ (by simpa using h0) ?_
  intro u w v e
  obtain ⟨r, hr, l', rfl, rfl⟩ := map_split e
  exact ⟨by simp, first_row r (h r hr) _⟩

/-- A block: at least one name and one row. -/
structure VBlock.Good (b : VBlock) : Prop where
  names : b.names ≠ [] ∧ ∀ n ∈ b.names, VWord n
  rows : b.rows ≠ [] ∧ ∀ r ∈ b.rows, r.Good

/-! ### Recognition -/

theorem take_front (w rest : Str) : (w ++ rest).take ((w ++ rest).length - rest.length) = w := by
  simp

theorem split_hit {α : Type} (b : VBlock) (hb : b.Good) (rest : Str) (hr : ∀ c ∈ rest.head?, c ≠ ' ' ∧ isDigit c = false) (prev : Str)
    (k : St → Option α) (x : α) (hk : k ⟨b.text.reverse ++ '\n' :: prev, rest, [(1, b.text)]⟩ = some x) :
    run vSplitRe ⟨prev, '\n' :: (b.text ++ rest), []⟩ k = some x := by
  rw [vSplitRe, run_seq, Re.chr, run_cls_cons, if_pos (by decide), run_grp]
  have h1 := first_names b.names hb.names.1 hb.names.2 (b.rows.flatMap (fun r => r.text ++ ['\n']) ++ rest)
  have h2 := first_rows b.rows hb.rows.1 hb.rows.2 rest hr
  have h : First (.seq (.chr '#') (.seq vNamesRe (.seq (.chr '\n') vRowsRe))) b.text rest := by
    refine First.seq (w := ['#']) (First.cls (by decide) _) (First.seq ?_ (First.seq (w := ['\n']) (First.cls (by decide) _) h2))
    simpa using h1
  apply h
  simp only [take_front]
  exact hk

theorem block_match (b : VBlock) (hb : b.Good) (rest : Str) (hr : ∀ c ∈ rest.head?, c ≠ ' ' ∧ isDigit c = false) :
    ∃ z, reMatch vBlockRe (b.text ++ rest) =
      some [(0, z), (2, b.rows.flatMap (fun r => r.text ++ ['\n'])), (1, b.names.flatMap (fun n => ' ' :: n))] := by
  refine ⟨b.text, ?_⟩
  have h1 := first_names b.names hb.names.1 hb.names.2 (b.rows.flatMap (fun r => r.text ++ ['\n']) ++ rest)
  have h2 := first_rows b.rows hb.rows.1 hb.rows.2 rest hr
  rw [reMatch, vBlockRe, run_seq]
  have e : b.text ++ rest = '#' :: (b.names.flatMap (fun n => ' ' :: n) ++ '\n' :: (b.rows.flatMap (fun r => r.text ++ ['\n']) ++ rest)) := by
    simp [VBlock.text]
  conv => lhs; arg 2; rw [e]
  rw [Re.chr, run_cls_cons, if_pos (by decide), run_seq, run_grp]
  apply h1
  simp only [take_front]
  rw [run_seq, Re.chr, run_cls_cons, if_pos (by decide), run_grp]
  apply h2
  simp only [take_front]

/-! ### Splitting at blanks -/

theorem space_run (n : Nat) (rest : Str) (hr : ∀ c ∈ rest.head?, isSpace c = false) (prev : Str) (m : Nat)
    (hm : rest.length < m) :
    run (.plus true .space) ⟨prev, List.replicate (n + 1) ' ' ++ rest, []⟩ (fun st => if st.rest.length < m then some st else none) =
      some ⟨(List.replicate (n + 1) ' ').reverse ++ prev, rest, []⟩ := by
  apply First.plus_cls
  · intro c hc; rw [List.eq_of_mem_replicate hc]; decide
  · simp [List.replicate_succ]
  · exact hr
  · simp [hm]

theorem word_none {α : Type} (c : Char) (cs : Str) (h : isSpace c = false) (prev caps) (k : St → Option α) :
    run (.plus true .space) ⟨prev, c :: cs, caps⟩ k = none := by
  rw [Re.plus, run_seq, Re.space, run_cls_cons, if_neg (by simp [h])]

theorem ws_word (w : Str) (hw : NoSpace w) (t cur prev : Str) (f : Nat) (hf : w.length ≤ f) :
    splitPieces false cur (finditerAux (.plus true .space) f prev (w ++ t)) =
      splitPieces false (cur ++ w) (finditerAux (.plus true .space) (f - w.length) (w.reverse ++ prev) t) := by
  induction w generalizing cur prev f with
  | nil => simp
  | cons c cs ih =>
    cases f with
    | zero => simp at hf
    | succ f =>
      rw [List.cons_append, finditerAux, word_none c _ (hw c (by simp))]
      simp only [splitPieces]
      rw [ih (fun x hx => hw x (by simp [hx])) _ _ _ (by simpa using hf)]
      simp

theorem ws_gaps (l : List (Nat × Str)) (h : ∀ x ∈ l, VWord x.2) (w : Str) (hw : NoSpace w) (cur prev : Str) (f : Nat)
    (hf : (w ++ l.flatMap gapText).length ≤ f) :
    splitPieces false cur (finditerAux (.plus true .space) f prev (w ++ l.flatMap gapText)) = (cur ++ w) :: l.map (·.2) := by
  induction l generalizing w cur prev f with
  | nil =>
    rw [ws_word w hw _ _ _ _ (by simp at hf; omega)]
    cases f - w.length <;> rfl
  | cons x l ih =>
    obtain ⟨n, v⟩ := x
    have hv := h (n, v) (by simp)
    rw [ws_word w hw _ _ _ _ (by simp at hf; omega)]
    have e : (List.flatMap gapText ((n, v) :: l)) = List.replicate (n + 1) ' ' ++ (v ++ l.flatMap gapText) := by
      simp [gapText]
    rw [e] at hf ⊢
    obtain ⟨g, hg⟩ : ∃ g, f - w.length = g + 1 := ⟨f - w.length - 1, by simp at hf; omega⟩
    rw [hg]
    have hr : ∀ c ∈ (v ++ l.flatMap gapText).head?, isSpace c = false := by
      intro c hc
      cases v with
      | nil => exact absurd rfl hv.1
      | cons y ys => cases hc; exact hv.2 _ (by simp)
    have e2 : List.replicate (n + 1) ' ' ++ (v ++ l.flatMap gapText) = ' ' :: (List.replicate n ' ' ++ (v ++ l.flatMap gapText)) := by
      simp [List.replicate_succ]
    rw [e2, finditerAux, ← e2, space_run n _ hr _ _ (by simp)]
    simp only [splitPieces, Bool.false_eq_true, if_false]
    rw [ih (fun x hx => h x (by simp [hx])) v hv.2 [] _ g (by simp at hf hg ⊢; omega)]
    simp

/-- What the reader makes of a row: an indented row has an empty entry in front. -/
def VRow.read (r : VRow) : List Str := if r.indent = 0 then r.words else [] :: r.words

theorem wsSplit_row (r : VRow) (h : ∀ w ∈ r.words, VWord w) : wsSplit r.text = r.read := by
  obtain ⟨indent, first, others⟩ := r
  have ho : ∀ x ∈ others, VWord x.2 := fun x hx => h _ (by simp only [VRow.words, List.mem_cons, List.mem_map]; exact .inr ⟨x, hx, rfl⟩)
  have hf : VWord first := h _ (by simp [VRow.words])
  rw [wsSplit, reSplit, VRow.text, VRow.read]
  cases indent with
  | zero =>
    have := ws_gaps others ho first hf.2 [] [] _ (Nat.le_refl _)
    simpa [VRow.words] using this
  | succ n =>
    have := ws_gaps ((n, first) :: others) (by simpa using ⟨hf, fun a b hab => ho _ hab⟩) [] (by simp [NoSpace]) [] [] _ (Nat.le_refl _)
    simpa [gapText, VRow.words] using this

theorem wsSplit_names (ns : List Str) (h : ∀ n ∈ ns, VWord n) : wsSplit (ns.flatMap (fun n => ' ' :: n)) = [] :: ns := by
  have := ws_gaps (ns.map (fun n => (0, n))) (by simpa using h) [] (by simp [NoSpace]) [] [] _ (Nat.le_refl _)
  have e : (ns.map (fun n => (0, n))).flatMap gapText = ns.flatMap (fun n => ' ' :: n) := by
    rw [List.flatMap_map]; rfl
  rw [e] at this
  rw [wsSplit, reSplit]
  simpa [Function.comp_def] using this

/-! ### Columns -/

theorem addColumn_get (ps : List Str) (rows : List (List Str)) (j : Nat) :
    (addColumn ps rows)[j]? = rows[j]?.map (· ++ (ps[j]?).toList) := by
  induction ps generalizing rows j with
  | nil =>
    cases rows <;> simp [addColumn]
  | cons p ps ih =>
    cases rows with
    | nil => simp [addColumn]
    | cons r rs =>
      cases j with
      | zero => simp [addColumn]
      | succ j => simpa [addColumn] using ih rs j

theorem addColumns_get (ws : List (List Str)) (rows : List (List Str)) (j : Nat) :
    (ws.foldl (fun rows l => addColumn l rows) rows)[j]? = rows[j]?.map (· ++ ws.filterMap (·[j]?)) := by
  induction ws generalizing rows with
  | nil => cases h : rows[j]? <;> simp [h]
  | cons w ws ih =>
    rw [List.foldl_cons, ih, addColumn_get, Option.map_map]
    congr 1
    funext x
    cases h : w[j]? <;> simp [h]

theorem splitC_lines (ls : List Str) (h : ∀ l ∈ ls, '\n' ∉ l) : splitC '\n' (ls.flatMap (· ++ ['\n'])) = ls ++ [[]] := by
  induction ls with
  | nil => rfl
  | cons l ls ih =>
    rw [List.flatMap_cons, List.append_assoc, splitC_append_free _ _ _ (h l (by simp)), List.cons_append, List.nil_append, splitC_nl,
      ih (fun x hx => h x (by simp [hx]))]
    simp

theorem vWord_nl {w : Str} (h : NoSpace w) : '\n' ∉ w := fun hc => by
  have := h _ hc
  revert this; decide

theorem row_nl (r : VRow) (h : ∀ w ∈ r.words, VWord w) : '\n' ∉ r.text := by
  rw [VRow.text, List.mem_append, List.mem_append]
  rintro (hc | hc | hc)
  · exact absurd (List.eq_of_mem_replicate hc) (by decide)
  · exact vWord_nl (h _ (by simp [VRow.words])).2 hc
  · rw [List.mem_flatMap] at hc
    obtain ⟨⟨n, w⟩, hx, hc⟩ := hc
    rw [gapText, List.mem_append] at hc
    rcases hc with hc | hc
    · exact absurd (List.eq_of_mem_replicate hc) (by decide)
    · exact vWord_nl (h w (by simp only [VRow.words, List.mem_cons, List.mem_map]; exact .inr ⟨_, hx, rfl⟩)).2 hc

/-- The token of a block; whatever follows in the same token is lost. -/
theorem vToken_rest (b : VBlock) (hb : b.Good) (rest : Str) (hr : ∀ c ∈ rest.head?, c ≠ ' ' ∧ isDigit c = false) :
    vToken (b.text ++ rest) = '\n' :: cardLines (b.names.mapIdx (fun j n => n :: b.rows.filterMap (·.read[j]?))) := by
  obtain ⟨z, h⟩ := block_match b hb rest hr
  rw [vToken, h]
  simp only [cap, List.lookup, Option.getD_some]
  have e : b.rows.flatMap (fun r => r.text ++ ['\n']) = (b.rows.map VRow.text).flatMap (· ++ ['\n']) := by
    rw [List.flatMap_map]
  have hw : ∀ r ∈ b.rows, ∀ w ∈ r.words, VWord w := fun r hr => (hb.rows.2 r hr).1
  simp only [show ((1 : Nat) == 0) = false from rfl, show ((1 : Nat) == 2) = false from rfl, show ((2 : Nat) == 0) = false from rfl, beq_self_eq_true, Option.getD_some]
  rw [wsSplit_names _ hb.names.2, e, splitC_lines _ (by
    intro l hl
    obtain ⟨r, hr, rfl⟩ := List.mem_map.1 hl
    exact row_nl r (hw r hr))]
  rw [List.dropLast_concat, List.foldl_map]
  have e2 : ∀ (rs : List VRow), (∀ r ∈ rs, ∀ w ∈ r.words, VWord w) → ∀ acc,
      rs.foldl (fun rows r => addColumn (wsSplit r.text) rows) acc = (rs.map VRow.read).foldl (fun rows l => addColumn l rows) acc := by
    intro rs hrs
    induction rs with
    | nil => intro acc; rfl
    | cons r rs ih =>
      intro acc
      rw [List.foldl_cons, List.map_cons, List.foldl_cons, wsSplit_row r (hrs r (by simp)), ih (fun x hx => hrs x (by simp [hx]))]
  rw [e2 _ hw]
  have e3 : (b.rows.map VRow.read).foldl (fun rows l => addColumn l rows) (([] :: b.names).drop 1 |>.map (fun c => [c])) =
      b.names.mapIdx (fun j n => n :: b.rows.filterMap (·.read[j]?)) := by
    apply List.ext_getElem?
    intro j
    rw [addColumns_get, List.getElem?_mapIdx]
    simp only [List.drop_succ_cons, List.drop_zero, List.getElem?_map, Option.map_map]
    congr 1
    funext n
    simp [List.filterMap_map, Function.comp_def]
  rw [e3]
  rfl

theorem vToken_block (b : VBlock) (hb : b.Good) :
    vToken b.text = '\n' :: cardLines (b.names.mapIdx (fun j n => n :: b.rows.filterMap (·.read[j]?))) := by
  have := vToken_rest b hb [] (by simp)
  rwa [List.append_nil] at this

/-! ### Whole texts -/

theorem split_skip (s t : Str) (h : NoHash s) (ht : t.head? ≠ some '#') (f : Nat) (hf : s.length ≤ f) (prev cur : Str) :
    splitPieces true cur (finditerAux vSplitRe f prev (s ++ t)) =
      splitPieces true (cur ++ s) (finditerAux vSplitRe (f - s.length) (s.reverse ++ prev) t) := by
  induction s generalizing f prev cur with
  | nil => simp
  | cons c cs ih =>
    cases f with
    | zero => simp at hf
    | succ f =>
      have : run vSplitRe ⟨prev, c :: (cs ++ t), []⟩ (fun st => if st.rest.length < (c :: (cs ++ t)).length then some st else none) = none := by
        rw [vSplitRe, run_seq, Re.chr, run_cls_cons]
        split
        · rename_i hc
          have hc : c = '\n' := by simpa using hc
          rw [run_grp, run_seq]
          apply run_chr_no
          have := h.1 hc
          cases cs with
          | nil => exact ht
          | cons d ds => exact this
        · rfl
      rw [List.cons_append, finditerAux, this]
      simp only [splitPieces]
      rw [ih h.2 _ (by simpa using hf)]
      simp

theorem vToken_plain (s : Str) (h0 : s.head? ≠ some '#') : vToken s = s := by
  rw [vToken]
  have : reMatch vBlockRe s = none := by
    rw [reMatch, vBlockRe, run_seq]; exact run_chr_no _ _ _ _ _ h0
  rw [this]

/-! ### Lines without blanks or marks -/

theorem splitC_cat (a b : Str) : splitC '\n' (a ++ '\n' :: b) = splitC '\n' a ++ splitC '\n' b := by
  induction a with
  | nil => rw [List.nil_append, splitC_nl]; rfl
  | cons c cs ih =>
    simp only [List.cons_append, splitC, ih]
    split
    · rfl
    · cases h : splitC '\n' cs with
      | nil => exact absurd h (splitC_ne_nil _ _)
      | cons v vs => simp

/-- No line is marked with `#`, and none consists of blanks. -/
def PlainLine (l : Str) : Prop := l.head? ≠ some '#' ∧ (l ≠ [] → ∃ c ∈ l, c ≠ ' ')

def Plain (s : Str) : Prop := ∀ l ∈ splitC '\n' s, PlainLine l

theorem mark_line (b : Str) (c : Char) (hc : c ≠ '\n') (h : b.head? = some c) : ∃ l ∈ splitC '\n' b, l.head? = some c := by
  cases b with
  | nil => cases h
  | cons d ds =>
    cases h
    have e : splitC '\n' (c :: ds) = match splitC '\n' ds with | [] => [[c]] | v :: vs => (c :: v) :: vs :=
      splitC_append_free '\n' [c] ds (by simpa using Ne.symm hc)
    rw [e]
    cases splitC '\n' ds with
    | nil => exact ⟨[c], by simp, rfl⟩
    | cons v vs => exact ⟨c :: v, by simp, rfl⟩

theorem noHash_cuts (s : Str) (h : ∀ a b, s = a ++ '\n' :: b → b.head? ≠ some '#') : NoHash s := by
  induction s with
  | nil => trivial
  | cons c cs ih =>
    exact ⟨fun e => h [] cs (by rw [e]; rfl), ih (fun a b e => h (c :: a) b (by rw [e]; rfl))⟩

theorem Plain.noHash {s : Str} (h : Plain s) : NoHash s ∧ s.head? ≠ some '#' := by
  refine ⟨noHash_cuts s ?_, ?_⟩
  · rintro a b rfl hb
    obtain ⟨l, hl, e⟩ := mark_line b '#' (by decide) hb
    exact (h l (by rw [splitC_cat]; simp [hl])).1 e
  · intro hb
    obtain ⟨l, hl, e⟩ := mark_line s '#' (by decide) hb
    exact (h l hl).1 e

/-- Without lines of blanks nothing is replaced. -/
theorem blankLine_id (s : Str) (h : ∀ l ∈ splitC '\n' s, l ≠ [] → ∃ c ∈ l, c ≠ ' ') (f) : reSub blankLineRe f s = s := by
  apply reSub_id
  rintro pre c post st' rfl hst
  rw [blankLineRe, step_seq] at hst
  obtain ⟨m, h1, h2⟩ := hst
  obtain ⟨d, t, hd, e, rfl⟩ := step_cls.1 h1
  cases e
  obtain ⟨m2, h3, h4⟩ := step_seq.1 h2
  obtain ⟨w, r, hne, hw, e, rfl⟩ := step_plus_cls.1 h3
  obtain ⟨d2, t2, hd2, e2, rfl⟩ := step_cls.1 h4
  have hc : c = '\n' := by simpa using hd
  have hd2 : d2 = '\n' := by simpa using hd2
  subst hc; subst hd2
  simp only [St.adv] at e e2
  subst e2
  have hmem : w ∈ splitC '\n' (pre ++ '\n' :: post) := by
    rw [e, splitC_cat, splitC_cat]
    have : splitC '\n' w = [w] := by
      have := splitC_append_free '\n' w [] (fun hx => by have := hw _ hx; revert this; decide)
      simpa [splitC] using this
    rw [this]; simp
  obtain ⟨x, hx, hx2⟩ := h w hmem hne
  exact hx2 (by simpa using hw x hx)

end Inp
