import Verif.Inp.FreeSpec
import Verif.Inp.RowRound
import Verif.Inp.CommentRead
/-!
# Reading and printing cards that end in a text
-/
set_option maxRecDepth 100000
namespace Inp
open Py Types

theorem any_re (n : Nat) : anyText.re n = .plus true (.cls (CC.set false [.S, .s]).test) := rfl

theorem any_test (c : Char) : (CC.set false [.S, .s]).test c = true := by
  simp only [CC.test, Bool.false_bne, List.any_cons, List.any_nil, Bool.or_false]
  cases h : isSpace c <;> simp [CI.test, h]

theorem any_full (t : Str) : Full (anyText.re n) t ↔ t ≠ [] := by
  rw [any_re]
  constructor
  · rintro ⟨e, h⟩; exact (mt_plus_cls.1 h).1
  · intro h; exact ⟨_, mt_plus_cls.2 ⟨h, fun c _ => any_test c, rfl⟩⟩

/-- Everything about a card of the table. -/
structure FreeCard.Ok (r : FreeCard) : Prop where
  shape : r.c.shape = .flat r.h [⟨anyText, .req⟩]
  head : r.h.ok = true
  attrs : r.c.attrs = r.as ++ [r.a]
  len : r.as.length = r.h.ng
  one : ∀ b ∈ r.as, b.many = false
  text : r.a.many = false ∧ r.a.ty = .base .str

theorem freeCards_ok : ∀ r ∈ freeCards, r.Ok := by
  intro r hr
  simp only [freeCards, List.mem_cons, List.not_mem_nil, or_false] at hr
  rcases hr with rfl | rfl | rfl <;> exact ⟨rfl, by decide, rfl, rfl, by decide, rfl, rfl⟩

theorem free_parts {r : FreeCard} (ok : r.Ok) {w : Str} {e} : Mt (r.c.pat.re 1) w e ↔
    ∃ u t x, Mt (headRe r.h 1) u x ∧ t ≠ [] ∧ w = u ++ ' ' :: t ∧ e = (1 + r.h.ng, ' ' :: t) :: x := by
  have hpat : r.c.pat = Pat.cat (r.h.pats ++ [Field.pat ⟨anyText, .req⟩]) := by simp [Cls.pat, ok.shape, Shape.pat]
  rw [hpat, mt_cat_append]
  have : (Pat.cat [Field.pat ⟨anyText, .req⟩]).re (1 + (Pat.cat r.h.pats).ng) =
      .seq (.grp (1 + r.h.ng) (.seq (litRe c!" ") (.plus true (.cls (CC.set false [.S, .s]).test)))) .eps := rfl
  rw [this]
  constructor
  · rintro ⟨u, v, x, y, m1, m2, rfl, rfl⟩
    obtain ⟨v, t, x', y', m3, m4, rfl, rfl⟩ := mt_seq.1 m2
    obtain ⟨z, m5, rfl⟩ := mt_grp.1 m3
    obtain ⟨b, t', x2, y2, m6, m7, rfl, rfl⟩ := mt_seq.1 m5
    obtain ⟨rfl, rfl⟩ := mt_eps.1 m4
    obtain ⟨h1, -, rfl⟩ := mt_plus_cls.1 m7
    obtain ⟨rfl, rfl⟩ := (blank_lit.mt _ _).1 m6
    exact ⟨u, t', x, m1, h1, by simp, by simp⟩
  · rintro ⟨u, t, x, m1, h1, rfl, rfl⟩
    refine ⟨u, ' ' :: t, x, [(1 + r.h.ng, ' ' :: t)], m1, mt_seq.2 ⟨' ' :: t, [], [(1 + r.h.ng, ' ' :: t)], [], mt_grp.2 ⟨[], ?_, rfl⟩, .eps, by simp, rfl⟩, rfl, rfl⟩
    exact mt_seq.2 ⟨[' '], t, [], [], (blank_lit.mt _ _).2 ⟨rfl, rfl⟩, mt_plus_cls.2 ⟨h1, fun c _ => any_test c, rfl⟩, rfl, rfl⟩

/-- How the text of such a card is taken apart. -/
theorem free_match {r : FreeCard} (ok : r.Ok) (hd : Str) (ws : List Str) (hw : Words (hd :: ws)) :
    ((readHead r.h hd = none ∨ ws = []) → reMatch r.c.re (hd ++ enc ws) = none) ∧
    (∀ hv, readHead r.h hd = some hv → ws ≠ [] → ∃ x, reMatch r.c.re (hd ++ enc ws) = some ((0, hd ++ enc ws) :: (1 + r.h.ng, enc ws) :: x) ∧
      Caps x 1 hv ∧ hv.length = r.h.ng) := by
  have hhw := (Pat.cat r.h.pats).facts (r.h.word ok.head) 1
  have hfree : (r.c.pat.re 1).free = true := by
    have hpat : r.c.pat = Pat.cat (r.h.pats ++ [Field.pat ⟨anyText, .req⟩]) := by simp [Cls.pat, ok.shape, Shape.pat]
    rw [hpat, free_cat, hhw.1]
    rfl
  have parts : ∀ e, Mt (r.c.pat.re 1) (hd ++ enc ws) e → ∃ x, Mt (headRe r.h 1) hd x ∧ ws ≠ [] ∧ e = (1 + r.h.ng, enc ws) :: x := by
    intro e he
    obtain ⟨u, t, x, m1, h1, h2, rfl⟩ := (free_parts ok).1 he
    obtain ⟨q, q1, q2⟩ := prefix_word (noSp_mt hhw.2.1 _ _ m1) (enc_bnd ws) h2
    have hq : q = [] := by
      cases q with
      | nil => rfl
      | cons c q =>
        simp only [List.cons_append, List.cons.injEq] at q2
        have h3 := (hw hd (by simp)).1 c (by rw [q1]; simp)
        rw [← q2.1] at h3
        exact absurd h3 (by decide)
    subst hq
    simp only [List.append_nil, List.nil_append] at q1 q2
    subst q1
    refine ⟨x, m1, ?_, by rw [q2]⟩
    rintro rfl
    cases q2
  refine ⟨fun h => ?_, fun hv hr hne => ?_⟩
  · cases hm : reMatch r.c.re (hd ++ enc ws) with
    | none => rfl
    | some m =>
      obtain ⟨e, he, -⟩ := full_match hfree hm
      obtain ⟨x, m1, h1, -⟩ := parts e he
      obtain ⟨vs, -, -, h2⟩ := head_mt ok.head m1
      rcases h with h | h
      · rw [h] at h2; cases h2
      · exact absurd h h1
  · obtain ⟨x0, hx0⟩ := head_full hr (hw hd (by simp)).1 1
    have full : Full (r.c.pat.re 1) (hd ++ enc ws) := by
      cases ws with
      | nil => exact absurd rfl hne
      | cons w ws =>
        refine ⟨_, (free_parts ok).2 ⟨hd, w ++ enc ws, x0, hx0, ?_, by rw [enc_cons], rfl⟩⟩
        have := (hw w (by simp)).2
        simp [this]
    obtain ⟨m, hm⟩ := Option.isSome_iff_exists.1 ((full_iff _ hfree _).2 full)
    obtain ⟨e, he, rfl⟩ := full_match hfree hm
    obtain ⟨x, m1, h1, rfl⟩ := parts e he
    obtain ⟨vs, h2, h3, h4⟩ := head_mt ok.head m1
    rw [hr] at h4
    cases h4
    exact ⟨x, hm, h2, h3⟩

theorem free_read {r : FreeCard} (ok : r.Ok) (hd : Str) (ws : List Str) (hw : Words (hd :: ws)) :
    (match reMatch r.c.re (hd ++ enc ws) with | none => (.error .inp : Res Val) | some m => r.c.build m) = readFree r hd ws := by
  obtain ⟨h1, h2⟩ := free_match ok hd ws hw
  unfold readFree
  cases hr : readHead r.h hd with
  | none => rw [h1 (.inl hr)]
  | some hv =>
    simp only
    by_cases hne : ws = []
    · rw [h1 (.inr hne), if_pos hne]
    · rw [if_neg hne]
      obtain ⟨x, hm, hc, hl⟩ := h2 hv hr hne
      rw [hm]
      simp only
      have hng : r.c.pat.ng = r.h.ng + 1 := by
        simp only [Cls.pat, ok.shape, Shape.pat, List.map_cons, List.map_nil, Pat.ng_cat_append]
        rfl
      unfold Cls.build
      rw [ok.attrs]
      generalize hM : (0, hd ++ enc ws) :: (1 + r.h.ng, enc ws) :: x = m at *
      have hcapt : ∀ j v, hv[j]? = some v → cap m (0 + 1 + j) = v := by
        intro j v hj
        have hlt := (List.getElem?_eq_some_iff.1 hj).1
        have := hc.get j v hj
        rw [← this, ← hM]
        have h3 : (0 + 1 + j == 0) = false := by simp
        have h4 : (0 + 1 + j == 1 + r.h.ng) = false := by simp; omega
        simp only [cap, List.lookup, h3, h4]
      have ha : attrVal r.c.pat.ng m r.h.ng r.a = .ok (.sc (.str (join [' '] ws))) := by
        unfold attrVal
        have hcap : cap m (r.h.ng + 1) = some (enc ws) := by
          rw [← hM]
          have h3 : (r.h.ng + 1 == 0) = false := by simp
          have h4 : (r.h.ng + 1 == 1 + r.h.ng) = true := by simp; omega
          simp only [cap, List.lookup, h3, h4]
        rw [if_neg (by omega), hcap]
        cases ws with
        | nil => exact absurd rfl hne
        | cons w ws =>
          have hst := strip_enc w ws (fun x hx => hw x (by simp only [List.mem_cons] at hx ⊢; exact .inr hx))
          rw [enc_cons] at hst ⊢
          simp only [Attr.parse, ok.text.1, ok.text.2, Bool.false_eq_true, if_false, hst, join_enc]
          rfl
      have key : ∀ (bs : List Attr) (us : List (Option Str)) (i : Nat), bs.length = us.length → (∀ b ∈ bs, b.many = false) →
          (∀ v ∈ us, ∀ w ∈ v, NoSpace w ∧ w ≠ []) → (∀ j v, us[j]? = some v → cap m (i + 1 + j) = v) → i + us.length = r.h.ng →
          attrVals r.c.pat.ng m i (bs ++ [r.a]) = (match readVals bs (us.map (·.map ([·]))) with
            | .error e => .error e
            | .ok xs => .ok (xs ++ [.sc (.str (join [' '] ws))])) := by
        intro bs
        induction bs with
        | nil =>
          intro us i hi _ _ _ hn
          cases us with
          | cons => simp at hi
          | nil =>
            simp only [List.length_nil, Nat.add_zero] at hn
            subst hn
            simp only [List.nil_append, attrVals, ha, readVals]
        | cons b bs ih =>
          intro us i hi hb hwd hc hn
          cases us with
          | nil => simp at hi
          | cons v us =>
            simp only [List.length_cons] at hn hi
            have h1 : attrVal r.c.pat.ng m i b = readVal b (v.map ([·])) :=
              attr_word _ m i b (by omega) (hb b (by simp)) v (by simpa using hc 0 v (by simp)) (hwd v (by simp))
            have h2 := ih us (i + 1) (by omega) (fun d hd => hb d (by simp [hd])) (fun d hd => hwd d (by simp [hd])) (by
              intro j w hj
              have := hc (j + 1) w (by simpa using hj)
              rw [← this]; congr 1; omega) (by omega)
            simp only [List.cons_append, List.map_cons, attrVals, readVals, h1, h2]
            cases readVal b (v.map ([·])) with
            | error => rfl
            | ok x' =>
              simp only
              cases readVals bs (us.map (·.map ([·]))) <;> rfl
      rw [key r.as hv 0 (by rw [ok.len, hl]) ok.one (readHead_words hr (hw hd (by simp)).1) hcapt (by omega)]
      cases readVals r.as (hv.map (·.map ([·]))) <;> rfl

/-- The card without its text. -/
def FreeCard.front (r : FreeCard) : Cls :=
  { r.c with shape := .flat r.h [], attrs := r.as, info := { r.c.info with attrs := r.c.info.attrs.dropLast } }

/-- The card with words in place of its text. -/
def FreeCard.wordy (r : FreeCard) : Cls :=
  { r.c with shape := .flat r.h [⟨.ty (.base .str), .many⟩], attrs := r.as ++ [⟨r.a.name, .base .str, true, none⟩] }

def FreeCard.printed (r : FreeCard) : Bool :=
  r.front.std r.h [] && r.wordy.std r.h [⟨.ty (.base .str), .many⟩] && r.c.info.style == .card

theorem freeCards_printed : freeCards.all FreeCard.printed = true := by decide +kernel

/-- Printing and reading back. -/
theorem free_round {r : FreeCard} (hr : r ∈ freeCards) (hv : List Val) (ws : List Str) (hh : HeadOk r.h hv) (hne : ws ≠ [])
    (hx : ∀ w ∈ ws, Stable w) (v : Val) (hmk : r.c.mk' (hv ++ [.sc (.str (join [' '] ws))]) = .ok v) :
    ∃ hd, Entry hd ∧ v.str = postprocess (join [' '] (hd :: ws)) ∧ cardParse r.c v.str = .ok (v, []) ∧
      readHead r.h hd = some (hv.map Val.text) ∧ v.headWord = hd := by
  have ok := freeCards_ok r hr
  have hpr := List.all_eq_true.1 freeCards_printed r hr
  simp only [FreeCard.printed, Bool.and_eq_true, beq_iff_eq] at hpr
  obtain ⟨⟨hfr, hwo⟩, hsty⟩ := hpr
  have hdrop : r.wordy.attrs.drop r.h.ng = [⟨r.a.name, .base .str, true, none⟩] := by
    show (r.as ++ _).drop r.h.ng = _
    rw [← ok.len]; simp
  obtain ⟨hd, he, hst', h1, h2, hrd, hw, -, hl⟩ := std_facts r.wordy r.h _ hwo hv
    [.tuple (ws.map (fun w => .sc (.str w)))] hh (by
      rw [hdrop]
      refine ⟨⟨rfl, by simpa using hne, .str, rfl, ?_⟩, trivial⟩
      intro v hv
      obtain ⟨w, hw, rfl⟩ := List.mem_map.1 hv
      exact ⟨_, rfl, hx w hw⟩)
  have hfl : Assign.flat ([Val.tuple (ws.map (fun w => .sc (.str w)))].map Val.words) = ws := by
    have : (ws.map (fun w => Val.sc (.str w))).map Val.str = ws := by
      rw [List.map_map]; exact (List.map_congr_left (fun y _ => rfl)).trans (List.map_id _)
    simp only [List.map_cons, List.map_nil, Val.words, this, Assign.flat, List.flatMap_cons, List.flatMap_nil, Option.getD_some,
      List.append_nil]
  rw [hfl] at h2 hst'
  rw [show r.wordy.info = r.c.info from rfl] at h1 h2
  have hdrop' : r.front.attrs.drop r.h.ng = [] := by
    show r.as.drop r.h.ng = _
    rw [← ok.len]; simp
  obtain ⟨hd', -, -, -, -, hrd', hw', hrv, -⟩ := std_facts r.front r.h [] hfr hv [] hh (by rw [hdrop']; trivial)
  have hparts : Val.parts (hv ++ [.sc (.str (join [' '] ws))]) = Val.parts (hv ++ [.tuple (ws.map (fun w => .sc (.str w)))]) := by
    rw [Val.parts_eq, Val.parts_eq, List.map_append, List.map_append]
    congr 1
    have e2 : (Val.parts (ws.map (fun w => Val.sc (.str w)))).map orNil = ws := by
      rw [Val.parts_eq, List.map_map, List.map_map]
      exact (List.map_congr_left (fun y _ => rfl)).trans (List.map_id _)
    simp only [List.map_cons, List.map_nil, Val.text, e2]
    rfl
  have hws : Words (hd :: ws) := by
    intro w hw
    rcases List.mem_cons.1 hw with rfl | hw
    · exact ⟨he.sp, he.ne⟩
    · exact ⟨(hst' w hw).entry.sp, (hst' w hw).entry.ne⟩
  have hobj := Props.mk_obj hmk
  have hstr : v.str = postprocess (join [' '] (hd :: ws)) := by
    rw [hobj, obj_str]
    unfold objStr
    simp only [hsty, hparts]
    rw [h1, h2, strip_text hd _ hws]
  have hread := free_read ok hd ws hws
  have hv1 : readVals r.as ((hv.map Val.text).map (·.map ([·]))) = .ok hv := by
    rw [← hw]
    simpa [FreeCard.front] using hrv
  unfold readFree at hread
  rw [hrd] at hread
  simp only [if_neg hne, hv1, hmk] at hread
  refine ⟨hd, he, hstr, ?_, hrd, ?_⟩
  · rw [hstr]
    unfold cardParse
    rw [Props.C18_wrap_roundtrip hd _ (fun w hw => by
      rcases List.mem_cons.1 hw with rfl | hw
      · exact he
      · exact (hst' w hw).entry) (fun w hw => (hst' w hw).low) (fun w hw => (hst' w hw).cnt), join_enc]
    simp only
    cases hm : reMatch r.c.re (hd ++ enc ws) with
    | none => rw [hm] at hread; cases hread
    | some m =>
      rw [hm] at hread
      simp only at hread ⊢
      rw [hread]
  · rw [hobj]
    simp only [Val.headWord, hparts]
    exact h1

end Inp
