import Verif.Outp.SubSpec
/-! `Subtally_1`: three header lines, lines, total; the last line may hold a blank. -/
namespace Outp
open Py Ptrac

section One
variable (h1 h2 h3 h4 h5 h6 : Str)

/-- The pattern of `Subtally_1`. -/
def oneItems (ci g : Bool) : List Item :=
  [text ci h1, .line g 1 [], text ci h2, .fix g 2 12, text ci h3, .fix g 3 11, text ci (h4 ++ ['\n'] ++ h5 ++ ['\n']),
    .gen g 4 (Re.plus false dotLine), text ci h6, .line g 5 [], .gen false 100 (.opt true (Re.chr ' ')), text ci ['\n']]

/-- The lines of the text of a subtally. -/
def oneLines (a v1 b v2 c v3 d e : Str) (ls : List Str) (f v5 : Str) : List Str :=
  (a ++ v1) :: (b ++ v2 ++ c ++ v3 ++ d) :: e :: (ls ++ [f ++ v5])

theorem one_inv (n1 : '\n' ∉ h1) (n2 : '\n' ∉ h2) (n3 : '\n' ∉ h3) (n4 : '\n' ∉ h4) (n5 : '\n' ∉ h5) (n6 : '\n' ∉ h6) (l5 : h5 ≠ [])
    {g : Bool} {u E} (h : Mt (tmplRe (oneItems h1 h2 h3 h4 h5 h6 true g)) u E) :
    ∃ a v1 b v2 c v3 d e ls f v5 o, a.length = h1.length ∧ b.length = h2.length ∧ c.length = h3.length ∧ f.length = h6.length ∧
      NeLine v1 ∧ (v2.length = 12 ∧ '\n' ∉ v2) ∧ (v3.length = 11 ∧ '\n' ∉ v3) ∧ NeLine v5 ∧ ls ≠ [] ∧ (∀ l ∈ ls, NeLine l) ∧
      (∀ l ∈ oneLines a v1 b v2 c v3 d e ls f v5, NeLine l) ∧ (o = [] ∨ o = [' ']) ∧
      u = joinNl (oneLines a v1 b v2 c v3 d e ls f v5) ++ (o ++ ['\n']) ∧
      E = if g then [(5, v5), (4, joinNl ls), (3, v3), (2, v2), (1, v1)] else [] := by
  cases h with | seq i1 h =>
  cases h with | seq i2 h =>
  cases h with | seq i3 h =>
  cases h with | seq i4 h =>
  cases h with | seq i5 h =>
  cases h with | seq i6 h =>
  cases h with | seq i7 h =>
  cases h with | seq i8 h =>
  cases h with | seq i9 h =>
  cases h with | seq i10 h =>
  cases h with | seq i11 h =>
  cases h with | seq i12 h =>
  cases h
  obtain ⟨l1, rfl, m1⟩ := mt_ilit i1
  obtain ⟨v1, w1, rfl, rfl⟩ := mt_line_item i2
  obtain ⟨l2, rfl, m2⟩ := mt_ilit i3
  obtain ⟨w2, w2', rfl⟩ := mt_fix_item i4
  obtain ⟨l3, rfl, m3⟩ := mt_ilit i5
  obtain ⟨w3, w3', rfl⟩ := mt_fix_item i6
  obtain ⟨q, rfl, l4, rfl, mq⟩ := mt_ilit_nl i7
  obtain ⟨q1, e, rfl, k1, k2⟩ := mt_litI_append (s := h4 ++ ['\n']) (t := h5) (w := q) (e := []) (by
    obtain ⟨x, y, hxy, z1, z2⟩ := mt_litI_append i7
    have := mt_litI_nl z2
    subst this
    have : q = x := List.append_cancel_right hxy
    subst this
    exact z1)
  obtain ⟨d, rfl, k3, k3', k4⟩ := mt_ilit_nl (s := h4) k1
  obtain ⟨ls, w4, w5, rfl, rfl⟩ := mt_lines_item i8
  obtain ⟨l6, rfl, m6⟩ := mt_ilit i9
  obtain ⟨v5, w6, rfl, rfl⟩ := mt_line_item i10
  obtain ⟨q2, rfl, l7, rfl, mq2⟩ := mt_ilit_nl (s := []) i12
  have : q2 = [] := List.length_eq_zero_iff.1 l7
  subst this
  have hob : ∀ {o : Str} {eo}, Mt (Item.gen false 100 (.opt true (Re.chr ' '))).re o eo → eo = [] ∧ (o = [] ∨ o = [' ']) := by
    intro o eo h
    have h : Mt (Re.opt true (Re.chr ' ')) o eo := h
    cases h with
    | optNone => exact ⟨rfl, .inl rfl⟩
    | optSome h => obtain ⟨rfl, rfl⟩ := mt_chr h; exact ⟨rfl, .inr rfl⟩
  obtain ⟨rfl, ho⟩ := hob i11
  clear hob
  have k5 := mt_litI k2
  rename_i a b v2 c v3 f o
  refine ⟨a, v1, b, v2, c, v3, d, e, ls, f, v5, o, l1, l2, l3, l6, w1, ⟨w2, w2'⟩, ⟨w3, w3'⟩, w6, w4, w5, ?_, ho, ?_, ?_⟩
  · intro l hl
    simp only [oneLines, List.mem_cons, List.mem_append, List.not_mem_nil, or_false] at hl
    rcases hl with rfl | rfl | rfl | hl | rfl
    · exact ⟨by simp [w1.1], by simp [m1 n1, w1.2]⟩
    · refine ⟨?_, by simp [m2 n2, w2', m3 n3, w3', k4 n4]⟩
      intro e0
      have := congrArg List.length e0
      simp [w2] at this
    · refine ⟨?_, k5.2.2 n5⟩
      intro e0
      rw [e0] at k5
      exact l5 (List.length_eq_zero_iff.1 k5.1.symm)
    · exact w5 l hl
    · exact ⟨by simp [w6.1], by simp [m6 n6, w6.2]⟩
  · simp [oneLines, joinNl]
  · cases g <;> simp

theorem one_self {ci g : Bool} {v1 v2 v3 v5 : Str} {ls : List Str} (w1 : NeLine v1) (w2 : v2.length = 12 ∧ '\n' ∉ v2)
    (w3 : v3.length = 11 ∧ '\n' ∉ v3) (w5 : NeLine v5) (h0 : ls ≠ []) (h : ∀ l ∈ ls, NeLine l) :
    Mt (tmplRe (oneItems h1 h2 h3 h4 h5 h6 ci g)) (joinNl (oneLines h1 v1 h2 v2 h3 v3 h4 h5 ls h6 v5) ++ ['\n'])
      (if g then [(5, v5), (4, joinNl ls), (3, v3), (2, v2), (1, v1)] else []) := by
  have ho : Mt (Item.gen false 100 (.opt true (Re.chr ' '))).re [] [] := Mt.optNone
  have := Mt.seq (text_mt ci h1) (.seq (line_mt w1 g 1) (.seq (text_mt ci h2) (.seq (fix_mt w2.1 w2.2 g 2) (.seq (text_mt ci h3)
    (.seq (fix_mt w3.1 w3.2 g 3) (.seq (text_mt ci (h4 ++ ['\n'] ++ h5 ++ ['\n'])) (.seq (lines_mt (gr := false) h0 h g 4)
      (.seq (text_mt ci h6) (.seq (line_mt w5 g 5) (.seq ho (.seq (text_mt ci ['\n']) .eps)))))))))))
  have e : h1 ++ (v1 ++ ['\n'] ++ (h2 ++ (v2 ++ (h3 ++ (v3 ++ (h4 ++ ['\n'] ++ h5 ++ ['\n'] ++ (joinNl ls ++ (h6 ++ (v5 ++ ['\n'] ++
      ([] ++ (['\n'] ++ []))))))))))) = joinNl (oneLines h1 v1 h2 v2 h3 v3 h4 h5 ls h6 v5) ++ ['\n'] := by simp [oneLines, joinNl]
  rw [e] at this
  cases g <;> simpa [oneItems, tmplRe] using this

theorem one_free (ci g : Bool) : (tmplRe (oneItems h1 h2 h3 h4 h5 h6 ci g)).free = true := by
  have hl : ∀ s : Str, (litC s).free = true := by
    intro s; induction s with
    | nil => rfl
    | cons c s ih => simp [litC, Re.free, Re.chr, ih]
  have hl2 : ∀ s : Str, (litI s).free = true := by
    intro s; induction s with
    | nil => rfl
    | cons c s ih => simp [litI, Re.free, Re.chrI, ih]
  have ht : ∀ s : Str, (text ci s).re.free = true := by
    intro s; cases ci
    · exact hl s
    · exact hl2 s
  simp only [oneItems, tmplRe, Re.free, ht, Bool.and_true, Bool.true_and]
  cases g <;> rfl

theorem one_ci {g : Bool} {u E} (hm : Mt (tmplRe (oneItems h1 h2 h3 h4 h5 h6 false g)) u E) :
    Mt (tmplRe (oneItems h1 h2 h3 h4 h5 h6 true g)) u E := by
  cases hm with | seq i1 hm =>
  cases hm with | seq i2 hm =>
  cases hm with | seq i3 hm =>
  cases hm with | seq i4 hm =>
  cases hm with | seq i5 hm =>
  cases hm with | seq i6 hm =>
  cases hm with | seq i7 hm =>
  cases hm with | seq i8 hm =>
  cases hm with | seq i9 hm =>
  cases hm with | seq i10 hm =>
  cases hm with | seq i11 hm =>
  cases hm with | seq i12 hm =>
  exact .seq (mt_ci i1) (.seq i2 (.seq (mt_ci i3) (.seq i4 (.seq (mt_ci i5) (.seq i6 (.seq (mt_ci i7) (.seq i8 (.seq (mt_ci i9)
    (.seq i10 (.seq i11 (.seq (mt_ci i12) hm)))))))))))

theorem one_runs (n1 : '\n' ∉ h1) (n2 : '\n' ∉ h2) (n3 : '\n' ∉ h3) (n4 : '\n' ∉ h4) (n5 : '\n' ∉ h5) (n6 : '\n' ∉ h6)
    (l1 : 1 ≤ h1.length) (l5 : 2 ≤ h5.length) (l6 : 1 ≤ h6.length)
    {ci g : Bool} {v1 v2 v3 v5 : Str} {ls : List Str} (w1 : NeLine v1) (w2 : v2.length = 12 ∧ '\n' ∉ v2)
    (w3 : v3.length = 11 ∧ '\n' ∉ v3) (w5 : NeLine v5) (h0 : ls ≠ []) (h : ∀ l ∈ ls, NeLine l ∧ l ≠ [' ']) :
    RunsTo (tmplRe (oneItems h1 h2 h3 h4 h5 h6 ci g)) (joinNl (oneLines h1 v1 h2 v2 h3 v3 h4 h5 ls h6 v5) ++ ['\n'])
      (if g then [(5, v5), (4, joinNl ls), (3, v3), (2, v2), (1, v1)] else []) := by
  apply runsTo_unique (one_free h1 h2 h3 h4 h5 h6 ci g) (one_self h1 h2 h3 h4 h5 h6 w1 w2 w3 w5 h0 fun l hl => (h l hl).1)
  intro u E R R' hm he
  have hm' : Mt (tmplRe (oneItems h1 h2 h3 h4 h5 h6 true g)) u E := by
    cases ci with
    | true => exact hm
    | false => exact one_ci h1 h2 h3 h4 h5 h6 hm
  obtain ⟨a, x1, b, x2, c, x3, d, e, ms, f, x5, o, k1, k2, k3, k6, y1, y2, y3, y5, m0, hm2, hm3, ho, rfl, rfl⟩ :=
    one_inv h1 h2 h3 h4 h5 h6 n1 n2 n3 n4 n5 n6 (by intro e; rw [e] at l5; simp at l5) hm'
  have hw : ∀ m ∈ oneLines h1 v1 h2 v2 h3 v3 h4 h5 ls h6 v5, NeLine m ∧ m ≠ [' '] := by
    intro m hm
    simp only [oneLines, List.mem_cons, List.mem_append, List.not_mem_nil, or_false] at hm
    have p1 : 1 ≤ v1.length := List.length_pos_iff.2 w1.1
    have p5 : 1 ≤ v5.length := List.length_pos_iff.2 w5.1
    rcases hm with rfl | rfl | rfl | hm | rfl
    · refine ⟨⟨by simp [w1.1], by simp [n1, w1.2]⟩, fun e => ?_⟩
      have := congrArg List.length e
      simp at this; omega
    · refine ⟨⟨fun e => ?_, by simp [n2, w2.2, n3, w3.2, n4]⟩, fun e => ?_⟩ <;>
      · have := congrArg List.length e
        simp [w2.1] at this <;> omega
    · refine ⟨⟨fun e => ?_, n5⟩, fun e => ?_⟩ <;> (rw [e] at l5; simp at l5)
    · exact h m hm
    · refine ⟨⟨by simp [w5.1], by simp [n6, w5.2]⟩, fun e => ?_⟩
      have := congrArg List.length e
      simp at this; omega
  have := para_unique (o := o) (R := R) (R' := R') hm3 hw ho (by simpa using he)
  obtain ⟨e1, rfl⟩ := this
  simp only [oneLines, List.cons.injEq] at e1
  obtain ⟨q1, q4, rfl, q2⟩ := e1
  obtain ⟨rfl, q3⟩ := List.append_inj' q2 (by simp)
  simp only [List.cons.injEq, and_true] at q3
  obtain ⟨rfl, rfl⟩ := List.append_inj q1 k1
  obtain ⟨rfl, rfl⟩ := List.append_inj q3 k6
  simp only [List.append_assoc] at q4
  obtain ⟨rfl, q5⟩ := List.append_inj q4 k2
  obtain ⟨rfl, q6⟩ := List.append_inj q5 (by rw [y2.1, w2.1])
  obtain ⟨rfl, q7⟩ := List.append_inj q6 k3
  obtain ⟨rfl, rfl⟩ := List.append_inj q7 (by rw [y3.1, w3.1])
  exact ⟨rfl, rfl⟩

/-- A subtally of `Subtally_1`: surface, limits of the angle, lines, total. -/
def OneOk (x : Sub) : Prop :=
  ∃ v1 v2 v3 v5, x.vals = [v1, v2, v3, [], v5] ∧ NeLine v1 ∧ (v2.length = 12 ∧ '\n' ∉ v2) ∧ (v3.length = 11 ∧ '\n' ∉ v3) ∧ NeLine v5 ∧
    x.lines ≠ [] ∧ ∀ l ∈ x.lines, l.Ok

theorem one_spec (d : SubDef) (hi : d.items = oneItems h1 h2 h3 h4 h5 h6) (hg : d.groups = 5) (hs : d.slot = 4)
    (hp : d.parts = [.text h1, .field 1 0, .text ('\n' :: h2), .field 2 0, .text h3, .field 3 0, .text (h4 ++ ['\n'] ++ h5 ++ ['\n']),
      .field 4 0, .text h6, .field 5 0, .text ['\n', '\n']])
    (n1 : '\n' ∉ h1) (n2 : '\n' ∉ h2) (n3 : '\n' ∉ h3) (n4 : '\n' ∉ h4) (n5 : '\n' ∉ h5) (n6 : '\n' ∉ h6)
    (l1 : 1 ≤ h1.length) (l5 : 2 ≤ h5.length) (l6 : 1 ≤ h6.length) : SubSpec d OneOk := by
  have e5 : h5 ≠ [] := by intro e; rw [e] at l5; simp at l5
  have hstr : ∀ (v1 v2 v3 v5 : Str) (ls : List TLine), (⟨[v1, v2, v3, [], v5], ls⟩ : Sub).str d =
      joinNl (oneLines h1 v1 h2 v2 h3 v3 h4 h5 (ls.map TLine.body) h6 v5) ++ ['\n'] := by
    intro v1 v2 v3 v5 ls
    rw [Sub.str, hs, hp]
    simp [partsText, pad, oneLines, joinNl, lines_join]
  have hruns : ∀ {x : Sub}, OneOk x → ∀ {ci g : Bool}, ∃ v1 v2 v3 v5, x.vals = [v1, v2, v3, [], v5] ∧
      RunsTo (tmplRe (d.items ci g)) (x.str d)
        (if g then [(5, v5), (4, joinNl (x.lines.map TLine.body)), (3, v3), (2, v2), (1, v1)] else []) := by
    rintro ⟨vals, ls⟩ ⟨v1, v2, v3, v5, e, w1, w2, w3, w5, h0, hl⟩ ci g
    simp only at e; subst e
    refine ⟨v1, v2, v3, v5, rfl, ?_⟩
    rw [hstr, hi]
    exact one_runs h1 h2 h3 h4 h5 h6 n1 n2 n3 n4 n5 n6 l1 l5 l6 w1 w2 w3 w5 (by simpa using h0) (bodies_ne hl)
  constructor
  · intro s x h h0
    unfold subParse at h
    rw [hi, hs, hg] at h
    cases hm : reMatch (whole (tmplRe (oneItems h1 h2 h3 h4 h5 h6 true true))) s with
    | none => rw [hm] at h; cases h
    | some m =>
      rw [hm] at h
      obtain ⟨e, k1, rfl⟩ := full_match (one_free h1 h2 h3 h4 h5 h6 true true) hm
      obtain ⟨a, v1, b, v2, c, v3, d', e', ls, f, v5, o, _, _, _, _, w1, w2, w3, w5, _, _, _, _, rfl, rfl⟩ :=
        one_inv h1 h2 h3 h4 h5 h6 n1 n2 n3 n4 n5 n6 e5 k1
      simp only [if_true] at h
      cases hl : (finditer lineRe (tok ((0, joinNl (oneLines a v1 b v2 c v3 d' e' ls f v5) ++ (o ++ ['\n'])) ::
          [(5, v5), (4, joinNl ls), (3, v3), (2, v2), (1, v1)]) 4)).mapM lineParse with
      | error e => rw [hl] at h; cases h
      | ok xs =>
        rw [hl] at h
        have := Except.ok.inj h
        subst this
        exact ⟨v1, v2, v3, v5, rfl, w1, w2, w3, w5, h0, lines_ok hl⟩
  · rintro ⟨vals, ls⟩ hx
    obtain ⟨v1, v2, v3, v5, e, h⟩ := hruns hx (ci := true) (g := true)
    obtain ⟨_, _, _, _, _, _, _, _, _, _, hl⟩ := hx
    simp only at e; subst e
    unfold subParse
    rw [runsTo_match h]
    simp only [hs, hg, if_true]
    have e1 : tok ((0, (⟨[v1, v2, v3, [], v5], ls⟩ : Sub).str d) ::
        [(5, v5), (4, joinNl (ls.map TLine.body)), (3, v3), (2, v2), (1, v1)]) 4 = ls.flatMap TLine.str := by rw [lines_join]; rfl
    rw [e1, lines_reread hl]
    rfl
  · intro x hx
    obtain ⟨_, _, _, _, _, h⟩ := hruns hx (ci := true) (g := false)
    exact h
  · intro x hx
    obtain ⟨_, _, _, _, _, h⟩ := hruns hx (ci := false) (g := false)
    exact h
  · rintro ⟨vals, ls⟩ ⟨v1, v2, v3, v5, e, w1, w2, w3, w5, h0, hl⟩
    simp only at e; subst e
    rw [hstr, hi]
    exact one_self h1 h2 h3 h4 h5 h6 (ci := false) (g := false) w1 w2 w3 w5 (by simpa using h0) (fun l hl' => (bodies_ne hl l hl').1)
  · rintro ⟨vals, ls⟩ ⟨v1, v2, v3, v5, e, w1, w2, w3, w5, h0, hl⟩
    simp only at e; subst e
    rw [hstr]
    cases h1 with
    | nil => simp at l1
    | cons c cs => exact ⟨c, _, rfl, fun e => n1 (by simp [e])⟩
  · intro α prev s caps k
    rw [hi]
    cases h1 with
    | nil => simp at l1
    | cons c cs => exact stop_text (fun e => n1 (by simp [e])) _ α prev s caps k
  · intro w h
    rw [hi] at h ⊢
    have hci := one_ci h1 h2 h3 h4 h5 h6 h
    obtain ⟨a, v1, b, v2, c, v3, d', e', ls, f, v5, o, _, _, _, _, w1, w2, w3, w5, _, _, _, _, rfl, _⟩ :=
      one_inv h1 h2 h3 h4 h5 h6 n1 n2 n3 n4 n5 n6 e5 hci
    exact ⟨hci, by simp⟩

end One

theorem sub1_spec : SubSpec sub1 OneOk :=
  one_spec c!" surface  " c!" angle  bin:  " c!" to  "
    c!" degrees                                                                                     " c!"      energy   " c!"      total      "
    sub1 rfl rfl rfl rfl (by decide) (by decide) (by decide) (by decide) (by decide) (by decide) (by decide) (by decide) (by decide)

end Outp
