import Verif.Inp.LongSpec
import Verif.Inp.OptionRound
/-!
# Options that lose entries
-/
set_option maxRecDepth 100000
namespace Inp
open Py Types

/-- The texts of the options that are found. -/
abbrev found : Str ⊕ (Str × List (Nat × Str)) → Option Str := fun | .inl _ => none | .inr (t, _) => some t

/-- Nothing is found at a character with which no option begins. -/
theorem quiet_none (cs : List Cls) (hg : ∀ c ∈ cs, c.pat.Good) (hb : ∀ c ∈ cs, c.pat.nb = true) (a : Char) (s prev : Str)
    (ha : a = ' ' ∨ quiet cs a = true) :
    run (altsRe (sortLen cs) 1) ⟨prev, a :: s, []⟩ (fun st => if st.rest.length < (a :: s).length then some st else none) = none := by
  have hfree := (alts_any (sortLen cs) (fun c hc => hg c ((mem_sortLen cs).1 hc)) 1).1
  apply run_none
  intro st' hst
  obtain ⟨u, e', h1, h2, h3, h4⟩ := hst.mt hfree
  cases u with
  | nil =>
    simp only [List.nil_append] at h2
    rw [← h2]; simp
  | cons b u =>
    simp only [List.cons_append, List.cons.injEq] at h2
    exfalso
    obtain ⟨d, hd1, e1, hd2⟩ := (alts_full (sortLen cs) (fun c hc => hg c ((mem_sortLen cs).1 hc)) 1 (b :: u)).1 ⟨_, h1⟩
    have hdc := (mem_sortLen cs).1 hd1
    rcases ha with rfl | ha
    · have := Pat.nb_mt (hb d hdc) hd2
      rw [← h2.1] at this
      exact this rfl
    · obtain ⟨x, hx, hx1, -⟩ := Pat.leads_mt hd2
      have hq := List.all_eq_true.1 (List.all_eq_true.1 ha d hdc) x hx
      obtain ⟨t, ht⟩ := hx1
      cases hk : x.1 with
      | nil => rw [hk] at hq; cases hq
      | cons k ks =>
        rw [hk] at hq ht
        have : k = lowerC b := by
          simp only [lower, List.map_cons, List.cons_append, List.cons.injEq] at ht
          exact ht.1
        rw [this, h2.1] at hq
        simp at hq

/-- Characters with which no option begins are passed over. -/
theorem quiet_skip (cs : List Cls) (hg : ∀ c ∈ cs, c.pat.Good) (hb : ∀ c ∈ cs, c.pat.nb = true) (t : Str) :
    ∀ (s prev : Str) (n : Nat), (∀ a ∈ s, a = ' ' ∨ quiet cs a = true) →
      (finditerAux (altsRe (sortLen cs) 1) (s.length + n) prev (s ++ t)).filterMap found =
        (finditerAux (altsRe (sortLen cs) 1) n (s.reverse ++ prev) t).filterMap found := by
  intro s
  induction s with
  | nil => intro prev n _; simp
  | cons a s ih =>
    intro prev n h
    rw [show (a :: s).length + n = (s.length + n) + 1 by simp; omega, List.cons_append, finditerAux,
      quiet_none cs hg hb a (s ++ t) prev (h a (by simp))]
    simp only [List.filterMap_cons]
    rw [ih (a :: prev) n (fun x hx => h x (by simp [hx]))]
    simp

theorem enc_chars {ws : List Str} {a : Char} (h : a ∈ enc ws) : a = ' ' ∨ ∃ w ∈ ws, a ∈ w := by
  induction ws with
  | nil => cases h
  | cons w ws ih =>
    rw [enc_cons] at h
    rcases List.mem_cons.1 h with rfl | h
    · exact .inl rfl
    · rcases List.mem_append.1 h with h | h
      · exact .inr ⟨w, by simp, h⟩
      · rcases ih h with h | ⟨w', h1, h2⟩
        · exact .inl h
        · exact .inr ⟨w', by simp [h1], h2⟩

theorem longWords_cons (c : Cls) (hd : Str) (ws ex : List Str) (l : List Long) :
    longWords ((c, (hd, ws), ex) :: l) = hd :: (ws ++ (ex ++ longWords l)) := by
  simp [longWords]

/-- Splitting a text into options. -/
theorem long_split (cs : List Cls) (hg : ∀ c ∈ cs, c.pat.Good) (hb : ∀ c ∈ cs, c.pat.nb = true) (hn : (cs.map (·.info.name)).Nodup)
    (hns : ((sortLen cs).map (·.info.name)).Nodup) : ∀ (l : List Long) (c : Cls) (hd : Str) (ws ex : List Str),
    Words (longWords ((c, (hd, ws), ex) :: l)) → OwnedLong cs ((c, (hd, ws), ex) :: l) → ∀ (prev : Str) (n : Nat),
      (hd ++ enc (ws ++ (ex ++ longWords l))).length ≤ n →
      (finditerAux (altsRe (sortLen cs) 1) n prev (hd ++ enc (ws ++ (ex ++ longWords l)))).filterMap found =
        ((c, (hd, ws), ex) :: l).map (fun x => x.2.1.1 ++ enc x.2.1.2) := by
  intro l
  induction l with
  | nil =>
    intro c hd ws ex hw ho prev n hlen
    rw [longWords_cons] at hw
    obtain ⟨hc, ho1, -, hq, -⟩ := ho
    obtain ⟨f1, -, f2, -⟩ := owned_class hg hn hns hc ho1 hw
    obtain ⟨e, he⟩ := find_class cs hg c hd ws (ex ++ longWords []) (fun x hx => hw x (by
      rcases List.mem_cons.1 hx with rfl | hx
      · simp
      · simp [hx])) f1 f2 prev
    have hne := (hw hd (by simp)).2
    obtain ⟨a, t, rfl⟩ : ∃ a t, hd = a :: t := by
      cases hd with
      | nil => exact absurd rfl hne
      | cons a t => exact ⟨a, t, rfl⟩
    obtain ⟨n, rfl⟩ : ∃ m, n = m + 1 := by
      cases n with
      | zero => simp at hlen
      | succ m => exact ⟨m, rfl⟩
    rw [List.cons_append] at he ⊢
    rw [finditerAux]
    unfold findK at he
    rw [he]
    have e0 : longWords ([] : List Long) = [] := rfl
    have htake : (a :: (t ++ enc (ws ++ (ex ++ longWords [])))).take ((a :: (t ++ enc (ws ++ (ex ++ longWords [])))).length
        - (enc (ex ++ longWords [])).length) = a :: t ++ enc ws := by
      have := take_consumed (a :: t ++ enc ws) (enc (ex ++ longWords []))
      rw [List.append_assoc, ← enc_append] at this
      exact this
    simp only [List.filterMap_cons, htake, List.map_cons, List.map_nil]
    congr 1
    rw [e0, List.append_nil] at hlen ⊢
    obtain ⟨m, rfl⟩ : ∃ m, n = (enc ex).length + m := by
      refine ⟨n - (enc ex).length, ?_⟩
      simp only [enc_append, List.length_append, List.length_cons] at hlen
      omega
    have := quiet_skip cs hg hb [] (enc ex) ((a :: t ++ enc ws).reverse ++ prev) m (fun x hx => by
      rcases enc_chars hx with h | ⟨w, h1, h2⟩
      · exact .inl h
      · exact .inr (hq w h1 x h2))
    rw [List.append_nil] at this
    rw [this]
    cases m <;> rfl
  | cons i l ih =>
    intro c hd ws ex hw ho prev n hlen
    obtain ⟨c', ⟨hd', ws'⟩, ex'⟩ := i
    rw [longWords_cons] at hw
    obtain ⟨hc, ho1, -, hq, ho2⟩ := ho
    obtain ⟨f1, -, f2, -⟩ := owned_class hg hn hns hc ho1 hw
    obtain ⟨e, he⟩ := find_class cs hg c hd ws (ex ++ longWords ((c', (hd', ws'), ex') :: l)) (fun x hx => hw x (by
      rcases List.mem_cons.1 hx with rfl | hx
      · simp
      · simp [hx])) f1 f2 prev
    have hne := (hw hd (by simp)).2
    obtain ⟨a, t, rfl⟩ : ∃ a t, hd = a :: t := by
      cases hd with
      | nil => exact absurd rfl hne
      | cons a t => exact ⟨a, t, rfl⟩
    obtain ⟨n, rfl⟩ : ∃ m, n = m + 1 := by
      cases n with
      | zero => simp at hlen
      | succ m => exact ⟨m, rfl⟩
    rw [List.cons_append] at he ⊢
    rw [finditerAux]
    unfold findK at he
    rw [he]
    have htake : (a :: (t ++ enc (ws ++ (ex ++ longWords ((c', (hd', ws'), ex') :: l))))).take
        ((a :: (t ++ enc (ws ++ (ex ++ longWords ((c', (hd', ws'), ex') :: l))))).length
        - (enc (ex ++ longWords ((c', (hd', ws'), ex') :: l))).length) = a :: t ++ enc ws := by
      have := take_consumed (a :: t ++ enc ws) (enc (ex ++ longWords ((c', (hd', ws'), ex') :: l)))
      rw [List.append_assoc, ← enc_append] at this
      exact this
    simp only [List.filterMap_cons, htake]
    rw [List.map_cons]
    congr 1
    have hrest : enc (ex ++ longWords ((c', (hd', ws'), ex') :: l)) = (enc ex ++ [' ']) ++ (hd' ++ enc (ws' ++ (ex' ++ longWords l))) := by
      rw [longWords_cons, enc_append, enc_cons]; simp
    obtain ⟨m, rfl⟩ : ∃ m, n = (enc ex ++ [' ']).length + m := by
      refine ⟨n - (enc ex ++ [' ']).length, ?_⟩
      rw [enc_append, hrest] at hlen
      simp only [List.length_append, List.length_cons, List.length_nil] at hlen ⊢
      omega
    rw [hrest, quiet_skip cs hg hb _ (enc ex ++ [' ']) _ m (fun x hx => by
      rcases List.mem_append.1 hx with hx | hx
      · rcases enc_chars hx with h | ⟨w, h1, h2⟩
        · exact .inl h
        · exact .inr (hq w h1 x h2)
      · simp only [List.mem_singleton] at hx; exact .inl hx)]
    refine ih c' hd' ws' ex' (fun x hx => hw x (by simp only [List.mem_cons, List.mem_append]; exact .inr (.inr (.inr hx)))) ho2 _ m ?_
    rw [enc_append, hrest] at hlen
    simp only [List.length_append, List.length_cons, List.length_nil] at hlen ⊢
    omega

/-- The options that are found are read by their classes. -/
theorem long_mapM (cs : List Cls) (hg : ∀ c ∈ cs, c.pat.Good) (hn : (cs.map (·.info.name)).Nodup)
    (hns : ((sortLen cs).map (·.info.name)).Nodup) : ∀ (l : List Long), OwnedLong cs l → (∀ w ∈ longWords l, Stable w) →
    (l.map (fun x => x.2.1.1 ++ enc x.2.1.2)).mapM (unionParse cs) = readOwned (cutShort l) := by
  intro l
  induction l with
  | nil => intro _ _; rfl
  | cons i l ih =>
    intro ho hst
    obtain ⟨c, ⟨hd, ws⟩, ex⟩ := i
    rw [longWords_cons] at hst
    obtain ⟨hc, ho1, -, -, ho2⟩ := ho
    have hw : Words (hd :: (ws ++ (ex ++ longWords l))) := fun w h => ⟨(hst w h).entry.sp, (hst w h).entry.ne⟩
    obtain ⟨-, f1, -, f2⟩ := owned_class hg hn hns hc ho1 hw
    have h1 := option_read cs c hd ws f1 f2 (hst hd (by simp)).entry (fun w h => hst w (by simp [h]))
    have h2 := ih ho2 (fun w h => hst w (by simp [h]))
    simp only [cutShort, List.map_cons, List.mapM_cons, readOwned, h1] at h2 ⊢
    rw [h2]
    cases c.readW hd ws with
    | error e => rfl
    | ok v => cases readOwned (l.map (fun x => (x.1, x.2.1))) with
      | error e => rfl
      | ok vs => rfl

/-- A class that accepts the words matches their text. -/
theorem accepts_full {c : Cls} (hg : c.pat.Good) (hp : c.isPlain = true) {hd : Str} {ws : List Str} (hw : Words (hd :: ws))
    (ha : c.accepts hd ws = true) : Full (c.pat.re 1) (hd ++ enc ws) := by
  obtain ⟨-, -, h⟩ := plain_match c hp hd ws hw
  rw [ha] at h
  obtain ⟨m, hm⟩ := Option.isSome_iff_exists.1 h
  obtain ⟨st', h1, h2⟩ := reMatch_some hm
  unfold Cls.re anchored at h1
  rcases h1 with ⟨⟩
  rename_i s2 h0 h3
  rcases h3 with ⟨⟩
  rename_i s3 h5 h4
  cases h4
  rename_i hr
  cases h0
  obtain ⟨u, e', m1, m2, -, -⟩ := h5.mt (hg.any 1).1
  rw [hr, List.append_nil] at m2
  simp only at m2
  exact ⟨e', by rw [m2]; exact m1⟩

/-- Reading a card whose list of options is read as `R`. -/
def withOptions (c : Cls) (h : Head) (gs : List Field) (hd : Str) (gws : List Str) (none : Bool) (R : Res (List Val)) : Res Val :=
  match readHead h hd, assign (gs.map Field.spec) gws with
  | some hv, some vs =>
    match readVals c.attrs.dropLast (hv.map (·.map ([·])) ++ vs) with
    | .error e => .error e
    | .ok xs =>
      if none then c.mk' (xs ++ [.none]) else
        match R with
        | .error e => .error e
        | .ok ys => c.mk' (xs ++ [.tuple ys])
  | _, _ => .error .inp

/-- Reading a card by what is made of the text of its options. -/
theorem optcard_with {c h gs nm cs mode as a} (oc : OptCard c h gs nm cs mode as a) (hd : Str) (gws : List Str) (l : List Opt)
    (hlen : gws.length = gs.length) (hw : Words (hd :: (gws ++ optWords l))) (hne : mode = .many → l ≠ [])
    (hf : ∀ i ∈ l, ∃ d ∈ cs, Full (d.pat.re 1) (i.1 ++ enc i.2)) (R : Res (List Val))
    (hR : ∀ i l', l = i :: l' → tupleParse (unionTy nm cs) (i.1 ++ enc (i.2 ++ optWords l')) = R.map .tuple) :
    (match reMatch c.re (hd ++ enc (gws ++ optWords l)) with | none => .error .inp | some m => c.build m) =
      withOptions c h gs hd gws l.isEmpty R := by
  obtain ⟨m1, m2⟩ := optcard_match oc hd gws l hlen hw hne hf
  unfold withOptions
  cases hr : readHead h hd with
  | none => rw [m1 (.inl hr)]
  | some hv =>
    cases ha : assign (gs.map Field.spec) gws with
    | none => rw [m1 (.inr ha)]
    | some vs =>
      obtain ⟨m, hm, hl, g1, g2⟩ := m2 hv vs hr ha
      rw [hm]
      show c.build m = _
      have hp := oc.plain
      simp only [Cls.plain, Bool.and_eq_true, List.all_eq_true, beq_iff_eq, Bool.not_eq_true'] at hp
      obtain ⟨⟨⟨⟨⟨hok, hu⟩, hal⟩, hlen'⟩, hmany⟩, hof⟩ := hp
      obtain ⟨ft, fl⟩ := assign_sound ha
      have hgng : ∀ gs : List Field, gs.length ≤ (Pat.cat (gs.map Field.pat)).ng := by
        intro gs
        induction gs with
        | nil => simp
        | cons f fs ih => simp only [List.map_cons, Pat.cat, Pat.ng, List.length_cons, f.ng_pat]; omega
      have hng : h.ng + gs.length + 1 ≤ c.pat.ng := by
        have h1 : c.pat.ng = h.ng + (Pat.cat ((gs ++ [(⟨.ngrp (.ty (unionTy nm cs)), mode⟩ : Field)]).map Field.pat)).ng := by
          simp only [Cls.pat, oc.shape, Shape.pat, Pat.ng_cat_append]; rfl
        have h2 := hgng (gs ++ [(⟨.ngrp (.ty (unionTy nm cs)), mode⟩ : Field)])
        simp only [List.length_append, List.length_singleton] at h2
        omega
      have hvl : vs.length = gs.length := by
        clear m1 m2 g2 hm
        have : ∀ (fs : List Field) (vs : Assign), Fits (fs.map Field.spec) vs → vs.length = fs.length := by
          intro fs
          induction fs with
          | nil => intro vs h; cases vs with
            | nil => rfl
            | cons v vs => cases h
          | cons f fs ih =>
            intro vs h
            cases vs with
            | nil => cases h
            | cons v vs =>
              cases v with
              | none => simp [ih vs h.2]
              | some ws => simp [ih vs h.2.2.2]
        exact this gs vs ft
      have hasl : as.length = h.ng + gs.length := by
        have : ∀ (as : List Attr) (fs : List Field), okFields as fs = true → as.length = fs.length := by
          intro as
          induction as with
          | nil => intro fs h; cases fs with
            | nil => rfl
            | cons => cases h
          | cons a as ih =>
            intro fs h
            cases fs with
            | nil => cases h
            | cons f fs => simp only [okFields, Bool.and_eq_true] at h; simp [ih fs h.2]
        have h1 := this _ _ hof
        simp only [List.length_drop] at h1
        simp only [List.length_take] at hlen'
        omega
      have hat := attrs_fields c.pat.ng m gs (as.drop h.ng) vs h.ng hof hu ft
        (by rw [fl]; exact fun w hwm => hw w (by simp [hwm])) (by
        intro j v hj
        have := g2 j v (by rw [List.getElem?_append_left (List.getElem?_eq_some_iff.1 hj).1]; exact hj)
        rw [← this]; congr 1; omega) (by omega)
      have hhead := attrs_head c.pat.ng m hv (as.take h.ng) (as.drop h.ng) vs 0 (by rw [hl]; exact hlen')
        (by simpa using hmany) (readHead_words hr (hw hd (by simp)).1) (by
          intro j v hj
          have := g1 j v hj
          rw [← this]) (by omega) (by rw [hl, Nat.zero_add]; exact hat)
      rw [List.take_append_drop] at hhead
      unfold Cls.build
      rw [oc.attrs, attrVals_append, hhead, List.dropLast_concat]
      simp only
      cases readVals as (hv.map (·.map ([·])) ++ vs) with
      | error e => rfl
      | ok xs =>
        simp only [Nat.zero_add, hasl, attrVals]
        have hcap : cap m (h.ng + gs.length + 1) = (if l = [] then none else some (optWords l)).map enc := by
          have := g2 gs.length (if l = [] then none else some (optWords l)) (by rw [List.getElem?_append_right (by omega)]; simp [hvl])
          rw [← this]; congr 1; omega
        unfold attrVal
        rw [if_neg (by omega), hcap]
        cases l with
        | nil => simp
        | cons i l =>
          obtain ⟨hd', ws'⟩ := i
          have hwo : Words (hd' :: (ws' ++ optWords l)) := fun w h => hw w (by
            refine List.mem_cons_of_mem _ (List.mem_append_right _ ?_)
            rw [optWords_cons]; exact h)
          have hstrip : strip (enc (hd' :: (ws' ++ optWords l))) = hd' ++ enc (ws' ++ optWords l) := strip_enc _ _ hwo
          simp only [reduceCtorEq, if_false, Option.map_some, optWords_cons]
          rw [enc_cons] at hstrip ⊢
          simp only [hstrip, Attr.parse, oc.many, if_true, oc.ty]
          rw [hR (hd', ws') l rfl]
          cases R with
          | error e => rfl
          | ok ys => rfl

/-- The words as those of options with all their entries. -/
theorem longWords_opts (l : List Long) : longWords l = optWords (l.map (fun x => (x.2.1.1, x.2.1.2 ++ x.2.2))) := by
  unfold longWords optWords
  rw [List.flatMap_map]
  rfl

theorem long_fulls {cs : List Cls} (hg : ∀ c ∈ cs, c.pat.Good) : ∀ (l : List Long), OwnedLong cs l → Words (longWords l) →
    ∀ i ∈ l.map (fun x => (x.2.1.1, x.2.1.2 ++ x.2.2)), ∃ d ∈ cs, Full (d.pat.re 1) (i.1 ++ enc i.2) := by
  intro l
  induction l with
  | nil => intro _ _ i hi; cases hi
  | cons x l ih =>
    intro ho hw i hi
    obtain ⟨c, ⟨hd, ws⟩, ex⟩ := x
    rw [longWords_cons] at hw
    obtain ⟨hc, ho1, ha, -, ho2⟩ := ho
    rw [List.map_cons] at hi
    rcases List.mem_cons.1 hi with rfl | hi
    · have hp : c.isPlain = true := by
        unfold owns at ho1
        rw [Bool.and_eq_true] at ho1
        have := ho1.1
        unfold Cls.takes at this
        rw [Bool.and_eq_true] at this
        exact this.1
      exact ⟨c, hc, accepts_full (hg c hc) hp (fun w h => hw w (by
        simp only [List.mem_cons, List.mem_append] at h ⊢
        rcases h with h | h | h
        · exact .inl h
        · exact .inr (.inl h)
        · exact .inr (.inr (.inl h)))) ha⟩
    · exact ih ho2 (fun w h => hw w (by simp [h])) i hi

/-- Reading a card with options that have more entries than are found. -/
theorem long_parse {r : OptRow} (hr : r ∈ optRows) (s w0 : Str) (gws : List Str) (os : List Long)
    (h1 : cardPreprocess s = (w0 ++ enc (gws ++ longWords os), [])) (hw0 : NoSpace w0 ∧ w0 ≠ [])
    (hst : ∀ w ∈ gws ++ longWords os, Stable w)
    (hg : gws.length = r.gs.length) (hne : r.mode = .many → os ≠ []) (ho : OwnedLong r.plain os) :
    cardParse r.c s = (readOwnedCard r.c r.h r.gs w0 gws (cutShort os)).map (fun v => (v, [])) := by
  obtain ⟨as, a, oc, hdl⟩ := row_plain_ok r hr
  obtain ⟨n1, n2⟩ := plain_names r hr
  have hw : Words (w0 :: (gws ++ longWords os)) := by
    intro w h
    rcases List.mem_cons.1 h with rfl | h
    · exact hw0
    · exact ⟨(hst w h).entry.sp, (hst w h).entry.ne⟩
  have hwl : Words (longWords os) := fun w h => hw w (by simp [h])
  have key := optcard_with oc w0 gws (os.map (fun x => (x.2.1.1, x.2.1.2 ++ x.2.2))) hg (by rw [← longWords_opts]; exact hw)
    (by intro hm h0; exact hne hm (List.map_eq_nil_iff.1 h0)) (long_fulls oc.good os ho hwl) (readOwned (cutShort os)) (by
      intro i l' hl
      cases os with
      | nil => cases hl
      | cons x os =>
        obtain ⟨c, ⟨hd, ws⟩, ex⟩ := x
        simp only [List.map_cons, List.cons.injEq] at hl
        obtain ⟨rfl, rfl⟩ := hl
        rw [← longWords_opts, List.append_assoc]
        unfold tupleParse
        have e1 : (unionTy r.nm r.plain).re 1 = altsRe (sortLen r.plain) 1 := rfl
        have e2 : (unionTy r.nm r.plain).parse = unionParse r.plain := rfl
        have := long_split r.plain oc.good oc.nb n1 n2 os c hd ws ex hwl ho [] _ (Nat.le_refl _)
        rw [e1, e2]
        have e3 : finditer (altsRe (sortLen r.plain) 1) (hd ++ enc (ws ++ (ex ++ longWords os))) =
            ((c, (hd, ws), ex) :: os).map (fun x => x.2.1.1 ++ enc x.2.1.2) := this
        rw [show ((hd, ws ++ ex) : Opt).1 = hd from rfl, e3, long_mapM r.plain oc.good n1 n2 _ ho (fun w h => hst w (by simp [h]))])
  rw [← longWords_opts] at key
  have hattrs : r.plainly.c.attrs.dropLast = r.c.attrs.dropLast := by rw [oc.attrs, hdl]; simp
  have hmk : ∀ vs, r.plainly.c.mk' vs = r.c.mk' vs := fun vs => ((row_rel r hr).mk' vs).symm
  have hrd : withOptions r.plainly.c r.h r.gs w0 gws (os.map (fun x => (x.2.1.1, x.2.1.2 ++ x.2.2))).isEmpty (readOwned (cutShort os)) =
      readOwnedCard r.c r.h r.gs w0 gws (cutShort os) := by
    unfold withOptions readOwnedCard
    cases readHead r.h w0 with
    | none => rfl
    | some hv =>
      cases assign (r.gs.map Field.spec) gws with
      | none => rfl
      | some vs =>
        simp only
        rw [hattrs]
        cases readVals r.c.attrs.dropLast (hv.map (·.map ([·])) ++ vs) with
        | error e => rfl
        | ok xs =>
          cases os with
          | nil => exact hmk _
          | cons o os =>
            simp only [cutShort, List.map_cons, List.isEmpty_cons, hmk, Bool.false_eq_true, if_false]
            rfl
  rw [hrd] at key
  rw [(row_rel r hr).card]
  unfold cardParse
  rw [h1]
  simp only
  rw [← key]
  cases reMatch r.plainly.c.re (w0 ++ enc (gws ++ longWords os)) with
  | none => rfl
  | some m =>
    simp only
    cases r.plainly.c.build m <;> rfl

end Inp
