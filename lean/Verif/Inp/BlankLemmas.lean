import Verif.Inp.CardLemmas
/-!
# Printed texts with several blanks between words

Surface and cell cards leave an empty word where an optional entry is unset.
-/
namespace Inp
open Py Types

/-- A word that no shorthand pass touches: not a shorthand letter (an empty word included). -/
def Inert (w : Str) : Prop := NoSpace w ∧ lower w ∉ shorthand

theorem Inert.kw {w : Str} (h : Inert w) {kw : Str} (hk : kw ∈ kws) : isKw kw w = false := by
  cases e : isKw kw w with
  | false => rfl
  | true =>
    have := (isKw_iff hk).1 e
    exact absurd (this ▸ hk) h.2

theorem inert_nil : Inert [] := ⟨(by simp [NoSpace]), by decide⟩

theorem collW_pre {kw : Str} (hk : kw ∈ kws) : ∀ (pre : List Str) (n : Nat) (ws : List Str), (∀ w ∈ pre, Inert w) →
    collW kw (pre.length + n) (pre ++ ws) = pre ++ collW kw n ws
  | [], n, ws, _ => by simp
  | p :: pre, n, ws, h => by
    have : (p :: pre).length + n = (pre.length + n) + 1 := by simp; omega
    rw [this, List.cons_append]
    simp only [collW, (h p (by simp)).kw hk, Bool.false_eq_true, if_false]
    rw [collW_pre hk pre n ws (fun w hw => h w (by simp [hw]))]; rfl

theorem leadKw_post {kw : Str} (hk : kw ∈ kws) : ∀ ws : List Str, leadKw kw (ws ++ [[]]) = leadKw kw ws
  | [] => by simp [leadKw, inert_nil.kw hk]
  | w :: ws => by simp only [List.cons_append, leadKw, leadKw_post hk ws]

theorem leadKw_len (kw : Str) (ws : List Str) : (leadKw kw ws).length ≤ ws.length := by
  have := congrArg List.length (leadKw_spec kw ws).2.1
  rw [List.length_append] at this; omega

theorem collW_post {kw : Str} (hk : kw ∈ kws) : ∀ (n : Nat) (ws : List Str), ws.length ≤ n →
    collW kw (n + 1) (ws ++ [[]]) = collW kw n ws ++ [[]]
  | 0, [], _ => by simp [collW, inert_nil.kw hk]
  | 0, w :: ws, h => by simp at h
  | n + 1, [], _ => by simp [collW, inert_nil.kw hk]
  | n + 1, w :: ws, h => by
    have hl : ws.length ≤ n := by simpa using h
    have ih := collW_post hk n
    have e1 : collW kw (n + 1 + 1) (w :: ws ++ [[]]) = if isKw kw w then
      match leadKw kw (ws ++ [[]]) with
      | [] => w :: collW kw (n + 1) (ws ++ [[]])
      | js => counted kw (js.length + 1) :: copyHead (collW kw (n + 1)) ((ws ++ [[]]).drop js.length)
      else w :: collW kw (n + 1) (ws ++ [[]]) := rfl
    have e2 : collW kw (n + 1) (w :: ws) = if isKw kw w then
      match leadKw kw ws with
      | [] => w :: collW kw n ws
      | js => counted kw (js.length + 1) :: copyHead (collW kw n) (ws.drop js.length)
      else w :: collW kw n ws := rfl
    rw [e1, e2, leadKw_post hk, ih ws hl]
    split
    · have hd := leadKw_len kw ws
      cases hj : leadKw kw ws with
      | nil => rfl
      | cons j js =>
        rw [hj] at hd
        simp only [List.cons_append, List.cons.injEq, true_and]
        rw [List.drop_append_of_le_length hd]
        have hdl : (ws.drop (j :: js).length).length ≤ n := by simp; omega
        cases hr : ws.drop (j :: js).length with
        | nil => simp [copyHead]; cases n <;> rfl
        | cons v vs =>
          rw [hr] at hdl
          simp only [List.cons_append, copyHead, List.cons.injEq, true_and]
          exact ih vs (by simp at hdl; omega)
    · rfl

theorem collW_sp {kw : Str} (hk : kw ∈ kws) : ∀ (n : Nat) (ws : List Str), (∀ w ∈ ws, NoSpace w) → ∀ w ∈ collW kw n ws, NoSpace w
  | 0, ws, h => h
  | n + 1, [], h => by intro w hw; cases hw
  | n + 1, w :: ws, h => by
    have ht : ∀ x ∈ ws, NoSpace x := fun x hx => h x (by simp [hx])
    have hc : ∀ x ∈ w :: collW kw n ws, NoSpace x := by
      intro x hx
      rcases List.mem_cons.1 hx with rfl | hx
      · exact h _ (by simp)
      · exact collW_sp hk n ws ht x hx
    unfold collW
    split
    · cases hj : leadKw kw ws with
      | nil => exact hc
      | cons j js =>
        intro x hx
        rcases List.mem_cons.1 hx with rfl | hx
        · exact (counted_entry kw hk _).sp
        · cases hr : ws.drop (j :: js).length with
          | nil => rw [hr] at hx; cases hx
          | cons v vs =>
            rw [hr] at hx
            have hm : ∀ y ∈ v :: vs, NoSpace y := fun y hy => ht y (List.mem_of_mem_drop (by rw [hr]; exact hy))
            rcases List.mem_cons.1 hx with rfl | hx
            · exact hm _ (by simp)
            · exact collW_sp hk n vs (fun y hy => hm y (by simp [hy])) x hx
    · exact hc

theorem collapse_blank {kw : Str} (hk : kw ∈ kws) (w0 : Str) (h0 : NoSpace w0) (pre ws tl : List Str)
    (hp : ∀ w ∈ pre, Inert w) (hw : ∀ w ∈ ws, NoSpace w) (ht : tl = [] ∨ tl = [[]]) :
    collapse kw (w0 ++ enc (pre ++ (ws ++ tl))) = w0 ++ enc (pre ++ (collW kw ws.length ws ++ tl)) := by
  have hsp : ∀ w ∈ pre ++ (ws ++ tl), NoSpace w := by
    intro w h
    simp only [List.mem_append] at h
    rcases h with h | h | h
    · exact (hp w h).1
    · exact hw w h
    · rcases ht with rfl | rfl
      · cases h
      · simp only [List.mem_singleton] at h; subst h; exact inert_nil.1
  rcases ht with rfl | rfl
  · have := collapse_words (kws_ok hk) (pre ++ (ws ++ [])) hsp w0 h0 (pre.length + ws.length) (by simp) []
    rw [List.append_nil] at this ⊢
    rw [collW_pre hk _ _ _ hp] at this
    rw [List.append_nil]
    exact this
  · have := collapse_words (kws_ok hk) (pre ++ (ws ++ [[]])) hsp w0 h0 (pre.length + (ws.length + 1)) (by simp) []
    rw [collW_pre hk _ _ _ hp, collW_post hk _ _ (Nat.le_refl _)] at this
    exact this

theorem enc_inj : ∀ {a b : List Str}, (∀ w ∈ a, NoSpace w) → (∀ w ∈ b, NoSpace w) → enc a = enc b → a = b
  | [], [], _, _, _ => rfl
  | [], _ :: _, _, _, h => by cases h
  | _ :: _, [], _, _, h => by cases h
  | x :: a, y :: b, ha, hb, h => by
    rw [enc_cons, enc_cons, List.cons.injEq] at h
    have key : ∀ (x y : Str), NoSpace x → NoSpace y → x ++ enc a = y ++ enc b → x = y ∧ enc a = enc b := by
      intro x
      induction x with
      | nil =>
        intro y _ hy h
        cases y with
        | nil => exact ⟨rfl, h⟩
        | cons c y =>
          have := enc_head a c (y ++ enc b) h
          subst this
          exact absurd (hy ' ' (by simp)) (by decide)
      | cons c x ih =>
        intro y hx hy h
        cases y with
        | nil =>
          have := enc_head b c (x ++ enc a) h.symm
          subst this
          exact absurd (hx ' ' (by simp)) (by decide)
        | cons d y =>
          simp only [List.cons_append, List.cons.injEq] at h
          obtain ⟨e1, e2⟩ := ih y (fun z hz => hx z (by simp [hz])) (fun z hz => hy z (by simp [hz])) h.2
          exact ⟨by rw [h.1, e1], e2⟩
    obtain ⟨e1, e2⟩ := key x y (ha x (by simp)) (hb y (by simp)) h.2
    rw [e1, enc_inj (fun w hw => ha w (by simp [hw])) (fun w hw => hb w (by simp [hw])) e2]

/-- Collapsing before and after inert words. -/
theorem collapseAll_blank (w0 : Str) (h0 : NoSpace w0) (pre rest tl : List Str) (hp : ∀ w ∈ pre, Inert w)
    (hr : ∀ w ∈ rest, Stable w) (ht : tl = [] ∨ tl = [[]]) :
    collapseAll (w0 ++ enc (pre ++ (rest ++ tl))) = w0 ++ enc (pre ++ (printedWords rest ++ tl)) := by
  have kj : kwJ ∈ kws := by decide
  have kr : kwR ∈ kws := by decide
  have ki : kwI ∈ kws := by decide
  have kl : kwLog ∈ kws := by decide
  have kil : kwIlog ∈ kws := by decide
  have n0 : ∀ w ∈ rest, NoSpace w := fun w hw => (hr w hw).entry.sp
  have n1 := collW_sp kj rest.length rest n0
  generalize hx1 : collW kwJ rest.length rest = x1 at n1
  have n2 := collW_sp kr x1.length x1 n1
  generalize hx2 : collW kwR x1.length x1 = x2 at n2
  have n3 := collW_sp ki x2.length x2 n2
  generalize hx3 : collW kwI x2.length x2 = x3 at n3
  have n4 := collW_sp kl x3.length x3 n3
  generalize hx4 : collW kwLog x3.length x3 = x4 at n4
  have n5 := collW_sp kil x4.length x4 n4
  generalize hx5 : collW kwIlog x4.length x4 = x5 at n5
  have go : ∀ (w0 : Str), NoSpace w0 → ∀ pre tl, (∀ w ∈ pre, Inert w) → (tl = [] ∨ tl = [[]]) →
      collapseAll (w0 ++ enc (pre ++ (rest ++ tl))) = w0 ++ enc (pre ++ (x5 ++ tl)) := by
    intro w0 h0 pre tl hp ht
    unfold collapseAll
    rw [collapse_blank kj w0 h0 pre rest tl hp n0 ht, hx1, collapse_blank kr w0 h0 pre x1 tl hp n1 ht, hx2,
      collapse_blank ki w0 h0 pre x2 tl hp n2 ht, hx3, collapse_blank kl w0 h0 pre x3 tl hp n3 ht, hx4,
      collapse_blank kil w0 h0 pre x4 tl hp n4 ht, hx5]
  have e1 := go [] (by simp [NoSpace]) [] [] (by simp) (.inl rfl)
  have e2 := collapse_print [] rest (by simp [NoSpace]) (fun w hw => ⟨(hr w hw).entry.ne, (hr w hw).entry.sp⟩)
    (fun w hw n l h => by rw [(hr w hw).cnt] at h; cases h) (stable_adj rest hr)
  simp only [List.nil_append, List.append_nil] at e1 e2
  have e3 : x5 = printedWords rest := by
    refine enc_inj n5 ?_ (e1.symm.trans e2)
    intro w hw
    rcases printed_cases rest (group_ok rest (fun w hw => ⟨(hr w hw).entry.ne, (hr w hw).entry.sp⟩)
      (fun w hw n l h => by rw [(hr w hw).cnt] at h; cases h)) w hw with h | ⟨kw, hk, n, _, rfl⟩
    · exact n0 w h
    · exact (counted_entry kw hk n).sp
  rw [go w0 h0 pre tl hp ht, e3]

theorem Ws.append {a b : Str} (ha : Ws a) (hb : Ws b) : Ws (a ++ b) := by
  induction ha with
  | nil => exact hb
  | sp _ ih => exact .sp ih
  | nl _ ih => exact .nl ih
  | amp n _ ih =>
    rw [List.cons_append, List.append_assoc, List.cons_append]
    exact .amp n ih

/-- The gaps of a wrapped text are blank space. -/
theorem wrap_text_ws (n : Nat) (w : Str) (ws : List Str) :
    ∃ g0 l, join [' '] (wrapWords n (w :: ws)) = g0 ++ (w ++ body l) ∧ Ws g0 ∧
      l.map (·.2) = ws ∧ ∀ x ∈ l, ∃ g, x.1 = .ws g ∧ Ws g ∧ g ≠ [] := by
  induction ws generalizing n w with
  | nil =>
    rw [wrap_cons]
    split
    · exact ⟨brk ++ [' '], [], by simp [wrapWords, join, body], brk_ws, rfl, by simp⟩
    · exact ⟨[], [], by simp [wrapWords, join, body], .nil, rfl, by simp⟩
  | cons v vs ih =>
    rw [wrap_cons]
    split
    · obtain ⟨g0, l, e, h1, h2, h3⟩ := ih (5 + (w.length + 1)) v
      refine ⟨brk ++ [' '], (.ws (' ' :: g0), v) :: l, ?_, brk_ws, by simp [h2], ?_⟩
      · rw [join_cons _ _ _ (by simp), join_cons _ _ _ (wrap_ne _ _ _), e]
        simp [body, Gap.text]
      · intro x hx
        rcases List.mem_cons.1 hx with rfl | hx
        · exact ⟨_, rfl, .sp h1, by simp⟩
        · exact h3 x hx
    · obtain ⟨g0, l, e, h1, h2, h3⟩ := ih (n + (w.length + 1)) v
      refine ⟨[], (.ws (' ' :: g0), v) :: l, ?_, .nil, by simp [h2], ?_⟩
      · rw [join_cons _ _ _ (wrap_ne _ _ _), e]
        simp [body, Gap.text]
      · intro x hx
        rcases List.mem_cons.1 hx with rfl | hx
        · exact ⟨_, rfl, .sp h1, by simp⟩
        · exact h3 x hx

/-- Empty words only widen the gaps. -/
theorem absorb : ∀ l : List (Gap × Str), (∀ x ∈ l, ∃ g, x.1 = .ws g ∧ Ws g ∧ g ≠ []) →
    ∃ l' g1, body l = body l' ++ g1 ∧ Ws g1 ∧ l'.map (·.2) = (l.map (·.2)).filter (fun w => w != []) ∧
      ∀ x ∈ l', ∃ g, x.1 = .ws g ∧ Ws g ∧ g ≠ []
  | [], _ => ⟨[], [], rfl, .nil, rfl, by simp⟩
  | (g, w) :: l, h => by
    obtain ⟨l', g1, e, hg, hm, hx⟩ := absorb l (fun x hx => h x (by simp [hx]))
    obtain ⟨a, ea, wa, na⟩ := h (g, w) (by simp)
    simp only at ea
    subst ea
    by_cases hw : w = []
    · subst hw
      cases l' with
      | nil =>
        refine ⟨[], a ++ g1, ?_, wa.append hg, by simpa using hm, by simp⟩
        show a ++ ([] ++ body l) = _
        rw [e]; simp [body]
      | cons y l' =>
        obtain ⟨b, eb, wb, nb⟩ := hx y (by simp)
        refine ⟨(.ws (a ++ b), y.2) :: l', g1, ?_, hg, by simpa using hm, ?_⟩
        · show a ++ ([] ++ body l) = (a ++ b) ++ (y.2 ++ body l') ++ g1
          rw [e]
          show a ++ ([] ++ (y.1.text ++ (y.2 ++ body l') ++ g1)) = _
          rw [eb]; simp [Gap.text]
        · intro x hx'
          rcases List.mem_cons.1 hx' with rfl | hx'
          · exact ⟨_, rfl, wa.append wb, by simp [na]⟩
          · exact hx x (by simp [hx'])
    · refine ⟨(.ws a, w) :: l', g1, ?_, hg, by simp [hw, hm], ?_⟩
      · show a ++ (w ++ body l) = a ++ (w ++ body l') ++ g1
        rw [e]; simp
      · intro x hx'
        rcases List.mem_cons.1 hx' with rfl | hx'
        · exact ⟨_, rfl, wa, na⟩
        · exact hx x hx'

theorem printedWords_inert : ∀ (pre rest : List Str), (∀ w ∈ pre, lower w ∉ shorthand ∧ countedEntry w = none) →
    printedWords (pre ++ rest) = pre ++ printedWords rest
  | [], _, _ => rfl
  | p :: pre, rest, h => by
    have e := printedWords_inert pre rest (fun w hw => h w (by simp [hw]))
    unfold printedWords at e ⊢
    obtain ⟨h1, h2⟩ := h p (by simp)
    rw [List.cons_append, group_cons, if_neg h1, h2]
    simp only [List.map_cons, words_cons]
    rw [e]
    rfl

/-- A printed text with empty words among the first entries or at the end is read as its entries. -/
theorem blank_roundtrip (w0 : Str) (pre rest tl : List Str) (h0 : Entry w0)
    (hp : ∀ w ∈ pre, w = [] ∨ (Stable w ∧ lower w ∉ shorthand)) (hr : ∀ w ∈ rest, Stable w) (ht : tl = [] ∨ tl = [[]]) :
    cardPreprocess (postprocess (w0 ++ enc (pre ++ (rest ++ tl)))) =
      (w0 ++ enc (pre.filter (fun w => w != []) ++ rest), []) := by
  have hi : ∀ w ∈ pre, Inert w := by
    intro w hw
    rcases hp w hw with rfl | h
    · exact inert_nil
    · exact ⟨h.1.entry.sp, h.2⟩
  have hp' : ∀ w ∈ pre.filter (fun w => w != []), Stable w ∧ lower w ∉ shorthand := by
    intro w hw
    obtain ⟨h1, h2⟩ := List.mem_filter.1 hw
    rcases hp w h1 with rfl | h
    · simp at h2
    · exact h
  have hpr : ∀ w ∈ printedWords rest, Entry w := by
    intro w hw
    rcases printed_cases rest (group_ok rest (fun w hw => ⟨(hr w hw).entry.ne, (hr w hw).entry.sp⟩)
      (fun w hw n l h => by rw [(hr w hw).cnt] at h; cases h)) w hw with h | ⟨kw, hk, n, _, rfl⟩
    · exact (hr w h).entry
    · exact counted_entry kw hk n
  have hsp : ∀ w ∈ w0 :: (pre ++ (printedWords rest ++ tl)), ' ' ∉ w := by
    intro w hw hc
    have : NoSpace w := by
      simp only [List.mem_cons, List.mem_append] at hw
      rcases hw with rfl | hw | hw | hw
      · exact h0.sp
      · exact (hi w hw).1
      · exact (hpr w hw).sp
      · rcases ht with rfl | rfl
        · cases hw
        · simp only [List.mem_singleton] at hw; subst hw; exact inert_nil.1
    exact absurd (this _ hc) (by decide)
  rw [postprocess_words w0 _ _ (collapseAll_blank w0 h0.sp pre rest tl hi hr ht) hsp]
  obtain ⟨g0, l, e, hg, hm, hok⟩ := wrap_text_ws 0 w0 (pre ++ (printedWords rest ++ tl))
  obtain ⟨l', g1, eb, hg1, hm', hok'⟩ := absorb l hok
  have hall : (pre ++ (printedWords rest ++ tl)).filter (fun w => w != []) = pre.filter (fun w => w != []) ++ printedWords rest := by
    have h1 : (printedWords rest).filter (fun w => w != []) = printedWords rest := by
      rw [List.filter_eq_self]; intro w hw; simp [(hpr w hw).ne]
    have h2 : tl.filter (fun w => w != []) = [] := by rcases ht with rfl | rfl <;> rfl
    simp only [List.filter_append, h1, h2, List.append_nil]
  rw [hm, hall] at hm'
  rw [e, eb, read_spaced g0 w0 l' g1 hg h0 (fun x hx => by
    obtain ⟨g, eg, wg, ng⟩ := hok' x hx
    refine ⟨by rw [eg]; exact ⟨wg, ng⟩, ?_⟩
    have hx2 : x.2 ∈ l'.map (·.2) := List.mem_map_of_mem hx
    rw [hm', List.mem_append] at hx2
    rcases hx2 with h | h
    · exact (hp' _ h).1.entry
    · exact hpr _ h) hg1, hm']
  rw [← printedWords_inert _ rest (fun w hw => ⟨(hp' w hw).2, (hp' w hw).1.cnt⟩)]
  have hst : ∀ w ∈ pre.filter (fun w => w != []) ++ rest, Stable w := by
    intro w hw
    rcases List.mem_append.1 hw with h | h
    · exact (hp' w h).1
    · exact hr w h
  have hww : ∀ w ∈ pre.filter (fun w => w != []) ++ rest, w ≠ [] ∧ NoSpace w := fun w hw => ⟨(hst w hw).entry.ne, (hst w hw).entry.sp⟩
  have hcn : ∀ w ∈ pre.filter (fun w => w != []) ++ rest, ∀ n l, countedEntry w = some (n, l) → 0 < n :=
    fun w hw n l h => by rw [(hst w hw).cnt] at h; cases h
  rw [collapse_again w0 _ h0.sp hww hcn (stable_adj _ hst), short_read w0 _ h0.sp hww hcn (fun w hw => (hst w hw).low)
    (stable_adj _ hst), stable_expand _ hst]

end Inp
