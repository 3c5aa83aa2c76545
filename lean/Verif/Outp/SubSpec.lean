import Verif.Outp.SubLemmas
/-! What is needed of a subtally class, and the three classes. -/
namespace Outp
open Py Ptrac

theorem mt_ilit {s : Str} {w e} (h : Mt (Item.ilit s).re w e) : w.length = s.length ∧ e = [] ∧ ('\n' ∉ s → '\n' ∉ w) := mt_litI h

theorem mt_ilit_nl {s : Str} {w e} (h : Mt (Item.ilit (s ++ ['\n'])).re w e) :
    ∃ u, w = u ++ ['\n'] ∧ u.length = s.length ∧ e = [] ∧ ('\n' ∉ s → '\n' ∉ u) := by
  have he := (mt_litI h).2.1
  obtain ⟨u, v, rfl, h1, h2⟩ := mt_litI_append h
  have := mt_litI_nl h2
  subst this
  exact ⟨u, rfl, (mt_litI h1).1, he, (mt_litI h1).2.2⟩

theorem mt_line_item {g : Bool} {n : Nat} {w e} (h : Mt (Item.line g n []).re w e) :
    ∃ u, NeLine u ∧ w = u ++ ['\n'] ∧ e = if g then [(n, u)] else [] := by
  obtain ⟨s, hs⟩ := item_inv (i := .line g n []) trivial h (fun _ => [])
  obtain ⟨⟨u, h0, hu, e1⟩, h2, h3⟩ := hs (fun _ => s) (fun _ _ => rfl)
  refine ⟨u, ⟨h0, hu⟩, ?_, ?_⟩
  · rw [h2]; show s ++ ['\n'] = _; rw [show s = u from by simpa using e1]
  · rw [h3]
    have : s = u := by simpa using e1
    subst this
    cases g <;> rfl

theorem mt_fix_item {g : Bool} {n k : Nat} {w e} (h : Mt (Item.fix g n k).re w e) :
    w.length = k ∧ '\n' ∉ w ∧ e = if g then [(n, w)] else [] := by
  obtain ⟨f, h1, rfl⟩ := mt_wrap h
  obtain ⟨a, b, rfl⟩ := mt_dots h1
  exact ⟨a, b, by cases g <;> rfl⟩

theorem mt_lines_item {g gr : Bool} {n : Nat} {w e} (h : Mt (Item.gen g n (Re.plus gr dotLine)).re w e) :
    ∃ ls : List Str, ls ≠ [] ∧ (∀ l ∈ ls, NeLine l) ∧ w = joinNl ls ∧ e = if g then [(n, w)] else [] := by
  obtain ⟨f, h1, rfl⟩ := mt_wrap h
  obtain ⟨rfl, ls, a, b, rfl⟩ := mt_dotLines h1
  exact ⟨ls, a, b, rfl, by cases g <;> rfl⟩

theorem tmplCaps_group {v : Nat → Str} {T : List Item} : tmplCaps v T = (T.flatMap fun i => (i.caps v)).reverse := by
  induction T with
  | nil => rfl
  | cons i T ih =>
    rw [tmplCaps_cons, ih, List.flatMap_cons, List.reverse_append]
    congr 1
    unfold Item.caps
    cases i.group <;> rfl

/-- A text item, whatever the letter case or not. -/
theorem text_mt (ci : Bool) (s : Str) : Mt (text ci s).re s [] := by
  cases ci
  · exact mt_litC_self s
  · exact mt_litC_litI s

theorem line_mt {u : Str} (h : NeLine u) (g : Bool) (n : Nat) : Mt (Item.line g n []).re (u ++ ['\n']) (if g then [(n, u)] else []) := by
  have h1 : Mt (.seq (litC []) (Re.plus true .dot)) u [] := .seq (u := []) (e := []) (f := []) .eps (mt_dot_self h)
  cases g with
  | false => exact .seq (f := []) (e := []) h1 (.cls (by simp))
  | true => exact .seq (f := []) (.grp h1) (.cls (by simp))

theorem dots_self : ∀ {k : Nat} {u : Str}, u.length = k → '\n' ∉ u → Mt (Re.rep k .dot) u []
  | 0, [], _, _ => .eps
  | k + 1, c :: u, h, hu => by
    simp only [List.mem_cons, not_or] at hu
    exact .seq (u := [c]) (e := []) (f := []) (.cls (by simpa using fun e => hu.1 e.symm)) (dots_self (by simpa using h) hu.2)

theorem wrap_mt {r : Re} {u : Str} (h : Mt r u []) (g : Bool) (n : Nat) : Mt (wrap g n r) u (if g then [(n, u)] else []) := by
  cases g with
  | false => exact h
  | true => exact .grp h

theorem fix_mt {k : Nat} {u : Str} (h : u.length = k) (hu : '\n' ∉ u) (g : Bool) (n : Nat) :
    Mt (Item.fix g n k).re u (if g then [(n, u)] else []) := wrap_mt (dots_self h hu) g n

theorem lines_mt {gr : Bool} {ls : List Str} (h0 : ls ≠ []) (h : ∀ l ∈ ls, NeLine l) (g : Bool) (n : Nat) :
    Mt (Item.gen g n (Re.plus gr dotLine)).re (joinNl ls) (if g then [(n, joinNl ls)] else []) := wrap_mt (mt_dotLines_self h0 h) g n

theorem mt_ci {s : Str} {w e} (h : Mt (text false s).re w e) : Mt (text true s).re w e := by
  obtain ⟨rfl, rfl⟩ := mt_litC h
  exact mt_litC_litI _

/-! ## What is needed -/

/-- A subtally class whose well-formed members are read back. -/
structure SubSpec (d : SubDef) (Ok : Sub → Prop) : Prop where
  read : ∀ {s x}, subParse d s = .ok x → x.lines ≠ [] → Ok x
  reread : ∀ {x}, Ok x → subParse d (x.str d) = .ok x
  ci : ∀ {x}, Ok x → RunsTo (tmplRe (d.items true false)) (x.str d) []
  cs : ∀ {x}, Ok x → RunsTo (tmplRe (d.items false false)) (x.str d) []
  mt : ∀ {x}, Ok x → Mt (tmplRe (d.items false false)) (x.str d) []
  start : ∀ {x}, Ok x → ∃ y ys, x.str d = y :: ys ∧ y ≠ '\n'
  stop : ∀ (α : Type) prev s caps (k : St → Option α), run (tmplRe (d.items false false)) ⟨prev, '\n' :: s, caps⟩ k = none
  sub : ∀ {w}, Mt (tmplRe (d.items false false)) w [] → Mt (tmplRe (d.items true false)) w [] ∧ w ≠ []

/-! ## One paragraph: `Subtally_2` and `Subtally_4` -/

section Para
variable (h1 h2 h3 : Str)

/-- The pattern of `Subtally_2` and `Subtally_4`. -/
def paraItems (ci g : Bool) : List Item :=
  [text ci h1, .line g 1 [], text ci (h2 ++ ['\n']), .gen g 2 (Re.plus true dotLine), text ci h3, .line g 3 [], text ci ['\n']]

/-- The lines of the text of a subtally. -/
def paraLines (a v1 b : Str) (ls : List Str) (c v3 : Str) : List Str := (a ++ v1) :: b :: (ls ++ [c ++ v3])

theorem para_inv (n1 : '\n' ∉ h1) (n2 : '\n' ∉ h2) (n3 : '\n' ∉ h3) (e2 : h2 ≠ []) {g : Bool} {u e}
    (h : Mt (tmplRe (paraItems h1 h2 h3 true g)) u e) : ∃ a v1 b ls c v3, a.length = h1.length ∧ c.length = h3.length ∧
      NeLine v1 ∧ NeLine v3 ∧ ls ≠ [] ∧ (∀ l ∈ ls, NeLine l) ∧ (∀ l ∈ paraLines a v1 b ls c v3, NeLine l) ∧
      u = joinNl (paraLines a v1 b ls c v3) ++ ['\n'] ∧ e = if g then [(3, v3), (2, joinNl ls), (1, v1)] else [] := by
  cases h with | seq i1 h =>
  cases h with | seq i2 h =>
  cases h with | seq i3 h =>
  cases h with | seq i4 h =>
  cases h with | seq i5 h =>
  cases h with | seq i6 h =>
  cases h with | seq i7 h =>
  cases h
  obtain ⟨l1, rfl, m1⟩ := mt_ilit i1
  obtain ⟨v1, w1, rfl, rfl⟩ := mt_line_item i2
  obtain ⟨b, rfl, l2, rfl, m2⟩ := mt_ilit_nl i3
  obtain ⟨ls, w2, w3, rfl, rfl⟩ := mt_lines_item i4
  obtain ⟨l3, rfl, m3⟩ := mt_ilit i5
  obtain ⟨v3, w4, rfl, rfl⟩ := mt_line_item i6
  obtain ⟨q, rfl, l4, rfl, mq⟩ := mt_ilit_nl (s := []) i7
  have : q = [] := List.length_eq_zero_iff.1 l4
  subst this
  rename_i a c
  refine ⟨a, v1, b, ls, c, v3, l1, l3, w1, w4, w2, w3, ?_, ?_, ?_⟩
  · intro l hl
    simp only [paraLines, List.mem_cons, List.mem_append, List.not_mem_nil, or_false] at hl
    rcases hl with rfl | rfl | hl | rfl
    · exact ⟨by simp [w1.1], by simp [m1 n1, w1.2]⟩
    · refine ⟨?_, m2 n2⟩
      intro h0
      rw [h0] at l2
      exact e2 (List.length_eq_zero_iff.1 l2.symm)
    · exact w3 l hl
    · exact ⟨by simp [w4.1], by simp [m3 n3, w4.2]⟩
  · simp [paraLines, joinNl]
  · cases g <;> simp

theorem para_self {ci g : Bool} {v1 : Str} {ls : List Str} {v3 : Str} (w1 : NeLine v1) (w3 : NeLine v3) (h0 : ls ≠ [])
    (h : ∀ l ∈ ls, NeLine l) : Mt (tmplRe (paraItems h1 h2 h3 ci g)) (joinNl (paraLines h1 v1 h2 ls h3 v3) ++ ['\n'])
      (if g then [(3, v3), (2, joinNl ls), (1, v1)] else []) := by
  have := Mt.seq (text_mt ci h1) (.seq (line_mt w1 g 1) (.seq (text_mt ci (h2 ++ ['\n'])) (.seq (lines_mt (gr := true) h0 h g 2)
    (.seq (text_mt ci h3) (.seq (line_mt w3 g 3) (.seq (text_mt ci ['\n']) .eps))))))
  have e : h1 ++ (v1 ++ ['\n'] ++ (h2 ++ ['\n'] ++ (joinNl ls ++ (h3 ++ (v3 ++ ['\n'] ++ (['\n'] ++ [])))))) =
      joinNl (paraLines h1 v1 h2 ls h3 v3) ++ ['\n'] := by simp [paraLines, joinNl]
  rw [e] at this
  cases g <;> simpa [paraItems, tmplRe] using this

theorem para_free (ci g : Bool) : (tmplRe (paraItems h1 h2 h3 ci g)).free = true := by
  have hl : ∀ s : Str, (litC s).free = true := by
    intro s; induction s with
    | nil => rfl
    | cons c s ih => simp [litC, Re.free, Re.chr, ih]
  have hl2 : ∀ s : Str, (litI s).free = true := by
    intro s; induction s with
    | nil => rfl
    | cons c s ih => simp [litI, Re.free, Re.chrI, ih]
  have ht : ∀ s : Str, (text ci s).re.free = true := by
    intro s; cases ci
    · exact hl s
    · exact hl2 s
  simp only [paraItems, tmplRe, Re.free, ht, Bool.and_true, Bool.true_and]
  cases g <;> rfl

theorem para_runs (n1 : '\n' ∉ h1) (n2 : '\n' ∉ h2) (n3 : '\n' ∉ h3) (l1 : 1 ≤ h1.length) (l2 : 2 ≤ h2.length) (l3 : 1 ≤ h3.length)
    {ci g : Bool} (hcg : ci = false → g = false) {v1 : Str} {ls : List Str} {v3 : Str} (w1 : NeLine v1) (w3 : NeLine v3)
    (h0 : ls ≠ []) (h : ∀ l ∈ ls, NeLine l ∧ l ≠ [' ']) :
    RunsTo (tmplRe (paraItems h1 h2 h3 ci g)) (joinNl (paraLines h1 v1 h2 ls h3 v3) ++ ['\n'])
      (if g then [(3, v3), (2, joinNl ls), (1, v1)] else []) := by
  apply runsTo_unique (para_free h1 h2 h3 ci g) (para_self h1 h2 h3 w1 w3 h0 fun l hl => (h l hl).1)
  intro u e R R' hm he
  have hm' : Mt (tmplRe (paraItems h1 h2 h3 true g)) u e := by
    cases ci with
    | true => exact hm
    | false =>
      cases hm with | seq i1 hm =>
      cases hm with | seq i2 hm =>
      cases hm with | seq i3 hm =>
      cases hm with | seq i4 hm =>
      cases hm with | seq i5 hm =>
      cases hm with | seq i6 hm =>
      cases hm with | seq i7 hm =>
      exact .seq (mt_ci i1) (.seq i2 (.seq (mt_ci i3) (.seq i4 (.seq (mt_ci i5) (.seq i6 (.seq (mt_ci i7) hm))))))
  obtain ⟨a, x1, b, ms, c, x3, k1, k3, y1, y3, m0, hm2, hm3, rfl, rfl⟩ := para_inv h1 h2 h3 n1 n2 n3
    (by intro e; rw [e] at l2; simp at l2) hm'
  have hw : ∀ m ∈ paraLines h1 v1 h2 ls h3 v3, NeLine m ∧ m ≠ [' '] := by
    intro m hm
    simp only [paraLines, List.mem_cons, List.mem_append, List.not_mem_nil, or_false] at hm
    have p1 : 1 ≤ v1.length := List.length_pos_iff.2 w1.1
    have p3 : 1 ≤ v3.length := List.length_pos_iff.2 w3.1
    rcases hm with rfl | rfl | hm | rfl
    · refine ⟨⟨by simp [w1.1], by simp [n1, w1.2]⟩, fun e => ?_⟩
      have := congrArg List.length e
      simp at this; omega
    · refine ⟨⟨fun e => ?_, n2⟩, fun e => ?_⟩ <;> (rw [e] at l2; simp at l2)
    · exact h m hm
    · refine ⟨⟨by simp [w3.1], by simp [n3, w3.2]⟩, fun e => ?_⟩
      have := congrArg List.length e
      simp at this; omega
  have := para_unique (o := []) (R := R) (R' := R') hm3 hw (.inl rfl) (by simpa using he)
  obtain ⟨e1, _⟩ := this
  simp only [paraLines, List.cons.injEq] at e1
  obtain ⟨q1, rfl, q2⟩ := e1
  obtain ⟨rfl, q3⟩ := List.append_inj' q2 (by simp)
  simp only [List.cons.injEq, and_true] at q3
  obtain ⟨rfl, rfl⟩ := List.append_inj q1 k1
  obtain ⟨rfl, rfl⟩ := List.append_inj q3 k3
  exact ⟨rfl, rfl⟩

/-- A subtally of one paragraph: header, lines, total. -/
def ParaOk (x : Sub) : Prop :=
  ∃ v1 v3, x.vals = [v1, [], v3] ∧ NeLine v1 ∧ NeLine v3 ∧ x.lines ≠ [] ∧ ∀ l ∈ x.lines, l.Ok

/-- A line without its end. -/
def TLine.body (l : TLine) : Str := c!"    " ++ l.bucket ++ c!"   " ++ l.count ++ c!" " ++ l.error

theorem lines_join (ls : List TLine) : ls.flatMap TLine.str = joinNl (ls.map TLine.body) := by
  rw [joinNl, List.flatMap_map]
  rfl

theorem body_ne {l : TLine} (h : l.Ok) : NeLine l.body ∧ l.body ≠ [' '] := by
  have hb := not_space_mem h.b.2 (x := '\n') (by decide)
  have hc := not_space_mem h.c.2 (x := '\n') (by decide)
  have he := not_space_mem h.e.2 (x := '\n') (by decide)
  refine ⟨⟨by simp [TLine.body], by simp [TLine.body, hb, hc, he]⟩, by simp [TLine.body]⟩

theorem bodies_ne {ls : List TLine} (h : ∀ l ∈ ls, l.Ok) : ∀ m ∈ ls.map TLine.body, NeLine m ∧ m ≠ [' '] := by
  intro m hm
  obtain ⟨l, hl, rfl⟩ := List.mem_map.1 hm
  exact body_ne (h l hl)

/-- The pattern fails where its first text does not begin. -/
theorem stop_text {c : Char} {cs : Str} (hc : c ≠ '\n') (T : List Item) (α : Type) (prev s : Str) (caps) (k : St → Option α) :
    run (tmplRe (text false (c :: cs) :: T)) ⟨prev, '\n' :: s, caps⟩ k = none := by
  show run (.seq (.seq (Re.chr c) (litC cs)) (tmplRe T)) _ _ = none
  rw [run_seq, run_seq, Re.chr, run_cls_cons, if_neg (by simpa using fun e => hc e.symm)]

/-- The lines of a text that can be read are well formed. -/
theorem lines_ok {r : Re} {s : Str} {ls : List TLine} (h : (finditer r s).mapM lineParse = .ok ls) : ∀ l ∈ ls, l.Ok := by
  intro l hl
  obtain ⟨t, _, e⟩ := (mapM_mem h).1 l hl
  exact lineParse_ok e

theorem para_spec (d : SubDef) (hi : d.items = paraItems h1 h2 h3) (hg : d.groups = 3) (hs : d.slot = 2)
    (hp : d.parts = [.text h1, .field 1 0, .text ('\n' :: (h2 ++ ['\n'])), .field 2 0, .text h3, .field 3 0, .text ['\n', '\n']])
    (n1 : '\n' ∉ h1) (n2 : '\n' ∉ h2) (n3 : '\n' ∉ h3) (l1 : 1 ≤ h1.length) (l2 : 2 ≤ h2.length) (l3 : 1 ≤ h3.length) :
    SubSpec d ParaOk := by
  have e2 : h2 ≠ [] := by intro e; rw [e] at l2; simp at l2
  have hstr : ∀ (v1 v3 : Str) (ls : List TLine), (⟨[v1, [], v3], ls⟩ : Sub).str d =
      joinNl (paraLines h1 v1 h2 (ls.map TLine.body) h3 v3) ++ ['\n'] := by
    intro v1 v3 ls
    rw [Sub.str, hs, hp]
    simp [partsText, pad, paraLines, joinNl, lines_join]
  have hruns : ∀ {x : Sub}, ParaOk x → ∀ {ci g : Bool}, (ci = false → g = false) → ∃ v1 v3, x.vals = [v1, [], v3] ∧
      RunsTo (tmplRe (d.items ci g)) (x.str d) (if g then [(3, v3), (2, joinNl (x.lines.map TLine.body)), (1, v1)] else []) := by
    rintro ⟨vals, ls⟩ ⟨v1, v3, e, w1, w3, h0, hl⟩ ci g hcg
    simp only at e; subst e
    refine ⟨v1, v3, rfl, ?_⟩
    rw [hstr, hi]
    exact para_runs h1 h2 h3 n1 n2 n3 l1 l2 l3 hcg w1 w3 (by simpa using h0) (bodies_ne hl)
  constructor
  · intro s x h h0
    unfold subParse at h
    rw [hi, hs, hg] at h
    cases hm : reMatch (whole (tmplRe (paraItems h1 h2 h3 true true))) s with
    | none => rw [hm] at h; cases h
    | some m =>
      rw [hm] at h
      obtain ⟨e, k1, rfl⟩ := full_match (para_free h1 h2 h3 true true) hm
      obtain ⟨a, v1, b, ls, c, v3, _, _, w1, w3, _, _, _, rfl, rfl⟩ := para_inv h1 h2 h3 n1 n2 n3 e2 k1
      simp only [if_true] at h
      cases hl : (finditer lineRe (tok ((0, joinNl (paraLines a v1 b ls c v3) ++ ['\n']) ::
          [(3, v3), (2, joinNl ls), (1, v1)]) 2)).mapM lineParse with
      | error e => rw [hl] at h; cases h
      | ok xs =>
        rw [hl] at h
        have := Except.ok.inj h
        subst this
        exact ⟨v1, v3, rfl, w1, w3, h0, lines_ok hl⟩
  · rintro ⟨vals, ls⟩ hx
    obtain ⟨v1, v3, e, h⟩ := hruns hx (ci := true) (g := true) (by simp)
    obtain ⟨_, _, _, _, _, _, hl⟩ := hx
    simp only at e; subst e
    unfold subParse
    rw [runsTo_match h]
    simp only [hs, hg, if_true]
    have e1 : tok ((0, (⟨[v1, [], v3], ls⟩ : Sub).str d) :: [(3, v3), (2, joinNl (ls.map TLine.body)), (1, v1)]) 2 =
      ls.flatMap TLine.str := by rw [lines_join]; rfl
    rw [e1, lines_reread hl]
    rfl
  · intro x hx
    obtain ⟨_, _, _, h⟩ := hruns hx (ci := true) (g := false) (by simp)
    exact h
  · intro x hx
    obtain ⟨_, _, _, h⟩ := hruns hx (ci := false) (g := false) (by simp)
    exact h
  · rintro ⟨vals, ls⟩ ⟨v1, v3, e, w1, w3, h0, hl⟩
    simp only at e; subst e
    rw [hstr, hi]
    exact para_self h1 h2 h3 (ci := false) (g := false) w1 w3 (by simpa using h0) (fun l hl' => (bodies_ne hl l hl').1)
  · rintro ⟨vals, ls⟩ ⟨v1, v3, e, w1, w3, h0, hl⟩
    simp only at e; subst e
    rw [hstr]
    cases h1 with
    | nil => simp at l1
    | cons c cs => exact ⟨c, _, rfl, fun e => n1 (by simp [e])⟩
  · intro α prev s caps k
    rw [hi]
    cases h1 with
    | nil => simp at l1
    | cons c cs => exact stop_text (fun e => n1 (by simp [e])) _ α prev s caps k
  · intro w h
    rw [hi] at h ⊢
    have hci : Mt (tmplRe (paraItems h1 h2 h3 true false)) w [] := by
      generalize he : ([] : List (Nat × Str)) = e0 at h
      cases h with | seq i1 hm =>
      cases hm with | seq i2 hm =>
      cases hm with | seq i3 hm =>
      cases hm with | seq i4 hm =>
      cases hm with | seq i5 hm =>
      cases hm with | seq i6 hm =>
      cases hm with | seq i7 hm =>
      exact .seq (mt_ci i1) (.seq i2 (.seq (mt_ci i3) (.seq i4 (.seq (mt_ci i5) (.seq i6 (.seq (mt_ci i7) hm))))))
    obtain ⟨a, v1, b, ls, c, v3, _, _, _, _, _, _, _, rfl, _⟩ := para_inv h1 h2 h3 n1 n2 n3 e2 hci
    exact ⟨hci, by simp⟩

end Para

theorem sub4_spec : SubSpec sub4 ParaOk :=
  para_spec c!" cell  " c!"      energy   " c!"      total      " sub4 rfl rfl rfl rfl (by decide) (by decide) (by decide) (by decide)
    (by decide) (by decide)

theorem sub2_spec : SubSpec sub2 ParaOk :=
  para_spec c!"      surface:  " c!"        time   " c!"      total      " sub2 rfl rfl rfl rfl (by decide) (by decide) (by decide)
    (by decide) (by decide) (by decide)

end Outp
