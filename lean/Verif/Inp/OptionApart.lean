import Verif.Inp.OptionRead
/-!
# Options told apart by their keywords

When no option of another class can begin with the keyword of a class, the options are found by their keywords
(`named_splits`).
-/
namespace Inp
open Py Types

/-! ## How matches begin -/

theorem lower_append (a b : Str) : lower (a ++ b) = lower a ++ lower b := by simp [lower]

theorem mapM_ch : ∀ (l : List CI) (cs : List Char), l.mapM (fun | .ch c => some (lowerC c) | _ => none) = some cs →
    ∀ x, l.any (fun i => i.test x) = true → lowerC x ∈ cs := by
  intro l
  induction l with
  | nil => intro cs _ x hx; simp at hx
  | cons i l ih =>
    intro cs h x hx
    rw [List.mapM_cons] at h
    cases i with
    | ch c =>
      cases hl : l.mapM (fun | .ch c => some (lowerC c) | _ => none) with
      | none => simp [hl] at h
      | some ds =>
        simp only [hl, Option.bind_eq_bind, Option.bind_some, Option.pure_def, Option.some.injEq] at h
        subst h
        simp only [List.any_cons, Bool.or_eq_true, CI.test, beq_iff_eq] at hx
        rcases hx with hx | hx
        · simp [hx]
        · exact List.mem_cons_of_mem _ (ih ds hl x hx)
    | _ => simp at h

theorem Pat.leads_mt {p : Pat} {n w e} (hm : Mt (p.re n) w e) :
    ∃ x ∈ p.leads, x.1 <+: lower w ∧ (x.2 = true → x.1 = lower w) := by
  induction p generalizing n w e with
  | lits s => exact ⟨(lower s, true), by simp [Pat.leads], by rw [(mt_lit.1 hm).1]; exact List.prefix_refl _, fun _ => (mt_lit.1 hm).1.symm⟩
  | cls c =>
    obtain ⟨x, h1, rfl, -⟩ := mt_cls.1 hm
    unfold Pat.leads
    split
    · rename_i l hl
      refine ⟨([lowerC x], true), ?_, by simp [lower], by simp [lower]⟩
      rw [List.mem_map]
      refine ⟨lowerC x, ?_, rfl⟩
      cases c with
      | set neg cs =>
        cases neg with
        | true => cases hl
        | false =>
          refine mapM_ch cs l hl x ?_
          simpa [CC.test] using h1
      | _ => cases hl
    · exact ⟨([], false), by simp, by simp, by simp⟩
  | ty t => exact ⟨([], false), by simp [Pat.leads], by simp, by simp⟩
  | star a => exact ⟨([], false), by simp [Pat.leads], by simp, by simp⟩
  | behind => exact ⟨([], false), by simp [Pat.leads], by simp, by simp⟩
  | seq a b iha ihb =>
    obtain ⟨u, v, x, y, h1, h2, rfl, -⟩ := mt_seq.1 hm
    obtain ⟨s, hs, hs1, hs2⟩ := iha h1
    obtain ⟨t, ht, ht1, ht2⟩ := ihb h2
    by_cases hb : s.2 = true
    · refine ⟨(s.1 ++ t.1, t.2), ?_, ?_, ?_⟩
      · unfold Pat.leads
        rw [List.mem_flatMap]
        exact ⟨s, hs, by rw [if_pos hb]; exact List.mem_map.2 ⟨t, ht, rfl⟩⟩
      · rw [lower_append, hs2 hb]
        exact (List.prefix_append_right_inj _).2 ht1
      · intro h; rw [lower_append, hs2 hb]; simp only; rw [ht2 h]
    · refine ⟨s, ?_, ?_, fun h => absurd h hb⟩
      · unfold Pat.leads
        rw [List.mem_flatMap]
        exact ⟨s, hs, by rw [if_neg hb]; simp⟩
      · rw [lower_append]; exact hs1.trans (List.prefix_append _ _)
  | alt a b iha ihb =>
    unfold Pat.leads
    rcases mt_alt.1 hm with hm | hm
    · obtain ⟨x, h1, h2⟩ := iha hm; exact ⟨x, by simp [h1], h2⟩
    · obtain ⟨x, h1, h2⟩ := ihb hm; exact ⟨x, by simp [h1], h2⟩
  | opt a iha =>
    unfold Pat.leads
    rcases mt_opt.1 hm with ⟨rfl, -⟩ | hm
    · exact ⟨([], true), by simp, by simp, by simp [lower]⟩
    · obtain ⟨x, h1, h2⟩ := iha hm; exact ⟨x, by simp [h1], h2⟩
  | plus g a iha =>
    obtain ⟨u, v, x, y, h1, h2, rfl, -⟩ := mt_seq.1 hm
    obtain ⟨s, hs, hs1, -⟩ := iha h1
    refine ⟨(s.1, false), by unfold Pat.leads; exact List.mem_map.2 ⟨s, hs, rfl⟩, ?_, by simp⟩
    rw [lower_append]; exact hs1.trans (List.prefix_append _ _)
  | grp a iha => obtain ⟨x, h1, -⟩ := mt_grp.1 hm; exact iha h1
  | ngrp a iha => exact iha hm

/-! ## Keywords -/

theorem apartKw_prefix {k s r : Str} (h : apartKw k s = true) (hr : ∀ c ∈ r.head?, follows c = true) : ¬ s <+: k ++ r := by
  intro hp
  unfold apartKw at h
  simp only [Bool.and_eq_true, Bool.not_eq_true', Bool.or_eq_true] at h
  obtain ⟨h1, h2⟩ := h
  have h1 : ¬ s <+: k := by rw [← List.isPrefixOf_iff_prefix]; simp [h1]
  rcases Nat.le_total s.length k.length with hl | hl
  · exact h1 (List.prefix_of_prefix_length_le hp (List.prefix_append _ _) hl)
  · obtain ⟨t, rfl⟩ := List.prefix_of_prefix_length_le (List.prefix_append k r) hp hl
    have htr : t <+: r := (List.prefix_append_right_inj k).1 hp
    have : k.isPrefixOf (k ++ t) = true := List.isPrefixOf_iff_prefix.2 (List.prefix_append _ _)
    rw [this, List.drop_left] at h2
    cases t with
    | nil => simp at h1
    | cons c t =>
      obtain ⟨u, rfl⟩ := htr
      have := hr c (by simp)
      simp [this] at h2

theorem lower_digit {c : Char} (h : isDigit c = true) : lowerC c = c := by
  unfold isDigit at h
  unfold lowerC
  rw [if_neg]
  simp only [Bool.and_eq_true, decide_eq_true_eq, Char.le_def, UInt32.le_iff_toNat_le] at h ⊢
  have e1 : ('9' : Char).val.toNat = 57 := rfl
  have e2 : ('A' : Char).val.toNat = 65 := rfl
  omega

theorem suf_des_follows {h : Head} {t x u d} (hs : readSuf h.suf t = some (x, u)) (hd : readDes h.des u = some d) (r : Str)
    (hr : r = [] ∨ ∃ r', r = ' ' :: r') : ∀ c ∈ (lower (t ++ r)).head?, follows c = true := by
  have hu : ∀ c ∈ u.head?, c = ':' := by
    intro c hc
    unfold readDes at hd
    split at hd <;> first | (simp at hc; done) | (simp at hc; exact hc.symm) | cases hd
  have hrr : ∀ c ∈ (lower r).head?, follows c = true := by
    rcases hr with rfl | ⟨r', rfl⟩
    · simp [lower]
    · simp [lower]; decide
  have hcol : ∀ (u : Str), (∀ c ∈ u.head?, c = ':') → ∀ c ∈ (lower (u ++ r)).head?, follows c = true := by
    intro u hu
    cases u with
    | nil => exact hrr
    | cons a u => have := hu a (by simp); subst this; simp [lower]; decide
  have hdig : ∀ (t : Str), (∀ c ∈ (t.dropWhile isDigit).head?, c = ':') → ∀ c ∈ (lower (t ++ r)).head?, follows c = true := by
    intro t ht
    cases t with
    | nil => exact hrr
    | cons a t =>
      by_cases ha : isDigit a = true
      · intro c hc
        simp only [lower, List.cons_append, List.map_cons, List.head?_cons, Option.mem_def, Option.some.injEq] at hc
        rw [lower_digit ha] at hc
        subst hc
        simp [follows, ha]
      · exact hcol _ (by rw [List.dropWhile_cons_of_neg ha] at ht; exact ht)
  unfold readSuf at hs
  split at hs
  · cases hs; exact hcol _ hu
  · split at hs
    · cases hs
    · cases hs; exact hdig _ hu
  · cases hs; exact hdig _ hu

/-- What begins with a keyword is no option of another class. -/
theorem apart_begins {h : Head} {d : Cls} (hg : d.pat.Good) (ha : keyApart h d = true) {hd : Str} (hh : (readHead h hd).isSome = true)
    (ws : List Str) : d.begins (hd ++ enc ws) = false := by
  have hr : enc ws = [] ∨ ∃ r', enc ws = ' ' :: r' := by
    cases ws with
    | nil => exact .inl rfl
    | cons w ws => exact .inr ⟨_, by simp [enc]; rfl⟩
  have hpre : ∃ p : Str, (p = [] ∨ ∃ c ∈ h.pre.chars, p = [c]) ∧ ∃ r, lower (hd ++ enc ws) = lower p ++ lower h.kw ++ r ∧
      ∀ c ∈ r.head?, follows c = true := by
    unfold readHead at hh
    split at hh
    · cases hh
    · rename_i t hk
      split at hh
      · cases hh
      · rename_i x u hs
        rw [Option.isSome_map] at hh
        obtain ⟨dv, hd'⟩ := Option.isSome_iff_exists.1 hh
        have hf := suf_des_follows hs hd' (enc ws) hr
        have hp : ∃ p : Str, (p = [] ∨ ∃ c ∈ h.pre.chars, p = [c]) ∧ hd = p ++ (readPre h.pre hd).2 := by
          unfold readPre
          split
          · exact ⟨[], .inl rfl, rfl⟩
          · split
            · exact ⟨[], .inl rfl, rfl⟩
            · split
              · rename_i c t' hc; exact ⟨[c], .inr ⟨c, hc, rfl⟩, rfl⟩
              · exact ⟨[], .inl rfl, rfl⟩
        obtain ⟨p, hp1, hp2⟩ := hp
        refine ⟨p, hp1, lower (t ++ enc ws), ?_, hf⟩
        unfold readKw at hk
        split at hk
        · rename_i hkw
          cases hk
          conv => lhs; rw [hp2]
          have : lower (readPre h.pre hd).2 = lower h.kw ++ lower ((readPre h.pre hd).2.drop h.kw.length) := by
            rw [← hkw, ← lower_append, List.take_append_drop]
          simp only [lower_append, this, List.append_assoc]
        · cases hk
  obtain ⟨p, hp1, r, hp2, hf⟩ := hpre
  cases hb : d.begins (hd ++ enc ws) with
  | false => rfl
  | true =>
    exfalso
    unfold Cls.begins at hb
    obtain ⟨m, hm⟩ := Option.isSome_iff_exists.1 hb
    obtain ⟨st', h1, -⟩ := reMatch_some hm
    obtain ⟨u, e, h2, h3, -, -⟩ := h1.mt (hg.any 1).1
    obtain ⟨x, hx, hx1, -⟩ := Pat.leads_mt h2
    have h3' : hd ++ enc ws = u ++ st'.rest := h3
    have hx2 : x.1 <+: lower p ++ lower h.kw ++ r := by
      rw [← hp2, h3', lower_append]
      exact hx1.trans (List.prefix_append _ _)
    have := List.all_eq_true.1 ha x hx
    simp only [Bool.and_eq_true, List.all_eq_true] at this
    rcases hp1 with rfl | ⟨c, hc, rfl⟩
    · exact apartKw_prefix this.1 hf hx2
    · exact apartKw_prefix (this.2 c hc) hf hx2

/-! ## Options found by class -/

theorem misses_begins {d : Cls} (hg : d.pat.Good) {h : Head} {hd : Str} {ws : List Str} (hm : d.misses h hd ws = true)
    (hh : (readHead h hd).isSome = true) (hw : Words (hd :: ws)) : d.begins (hd ++ enc ws) = false := by
  unfold Cls.misses at hm
  rw [Bool.or_eq_true, Bool.or_eq_true] at hm
  rcases hm with (hm | hm) | hm
  · exact apart_begins hg hm hh ws
  · split at hm
    · rename_i h' f fs hsh
      simp only [Bool.and_eq_true, Bool.or_eq_true, beq_iff_eq] at hm
      obtain ⟨⟨⟨hok, hfw⟩, hmode⟩, hx⟩ := hm
      have hst : startsReq (f :: fs) = true := by simpa [startsReq] using hmode
      have hrun : ∀ {α : Type} (k : St → Option α), run (d.pat.re 1) ⟨[], hd ++ enc ws, []⟩ k =
          run (headRe h' 1) ⟨[], hd ++ enc ws, []⟩ (fun st => run (fieldsRe (f :: fs) (1 + h'.ng)) st k) := by
        intro α k
        unfold Cls.pat
        rw [hsh]
        simp only [Shape.pat]
        rw [run_cat_append]
        rfl
      unfold Cls.begins reMatch
      rw [Option.isSome_eq_false_iff, Option.isNone_iff_eq_none, hrun]
      apply run_none
      intro st' hst'
      have hfacts := (Pat.cat h'.pats).facts (h'.word hok) 1
      obtain ⟨u, e, m1, m2, m3, m4⟩ := hst'.mt hfacts.1
      obtain ⟨v, hv1, hv2⟩ := prefix_word (noSp_mt hfacts.2.1 u e m1) (enc_bnd _) m2
      have hdsp : ∀ c ∈ hd, isSpace c = false := (hw hd (by simp)).1
      cases v with
      | cons a v =>
        apply startsReq_blocked hst
        rw [hv2]
        intro y hy hys
        simp at hy
        subst hys
        have := hdsp ' ' (by rw [hv1, ← hy]; simp)
        exact absurd this (by decide)
      | nil =>
        rw [List.append_nil] at hv1
        subst hv1
        rw [List.nil_append] at hv2
        rcases hx with hx | hx
        · obtain ⟨vs, -, -, h3⟩ := head_mt hok m1
          rw [h3] at hx; cases hx
        · obtain ⟨p', r', c'⟩ := st'
          simp only at hv2
          subst hv2
          cases ws with
          | nil => exact startsReq_blocked hst _ _ _ (by simp)
          | cons w ws =>
            have hx : unitPre f.unit w = false := by simpa using hx
            rw [fieldsRe_cons, run_seq, Field.re_eq]
            rcases hmode with hmode | hmode
            · rw [hmode]; simp only [run_grp]; exact unit_pre_none f hfw _ w ws _ _ _ hx
            · rw [hmode]; simp only [run_grp, run_seq]; exact unit_pre_none f hfw _ w ws _ _ _ hx
    · cases hm
  · simpa using hm

theorem takeWhile_find {cs : List Cls} {c : Cls} (hc : c ∈ cs) (hn : (cs.map (·.info.name)).Nodup) (p : Cls → Bool)
    (hp : p c = true) (hb : ∀ d ∈ cs.takeWhile (·.info.name != c.info.name), p d = false) : cs.find? p = some c := by
  induction cs with
  | nil => cases hc
  | cons d cs ih =>
    by_cases hd : d.info.name = c.info.name
    · have : d = c := by
        rcases List.mem_cons.1 hc with rfl | hc
        · rfl
        · rw [List.map_cons, List.nodup_cons] at hn
          exact absurd (List.mem_map.2 ⟨c, hc, hd.symm⟩) hn.1
      subst this
      rw [List.find?_cons_of_pos hp]
    · have hcs : c ∈ cs := by
        rcases List.mem_cons.1 hc with rfl | hc
        · exact absurd rfl hd
        · exact hc
      rw [List.takeWhile_cons_of_pos (by simpa using hd)] at hb
      rw [List.find?_cons_of_neg (by rw [hb d (by simp)]; simp)]
      exact ih hcs (List.nodup_cons.1 hn).2 (fun x hx => hb x (by simp [hx]))

theorem mem_takeWhile {α : Type} {p : α → Bool} {x : α} : ∀ {l : List α}, x ∈ l.takeWhile p → x ∈ l
  | a :: l, h => by
    rw [List.takeWhile_cons] at h
    split at h
    · rcases List.mem_cons.1 h with rfl | h
      · simp
      · exact List.mem_cons_of_mem _ (mem_takeWhile h)
    · cases h

/-- The class of an option finds it and reads it. -/
theorem owned_class {cs : List Cls} (hg : ∀ c ∈ cs, c.pat.Good) (hn : (cs.map (·.info.name)).Nodup)
    (hns : ((sortLen cs).map (·.info.name)).Nodup) {c : Cls} {hd : Str} {ws rest : List Str} (hc : c ∈ cs) (ho1 : owns cs c hd ws rest = true)
    (hw : Words (hd :: (ws ++ rest))) :
    firstOf cs (hd ++ enc (ws ++ rest)) = some c ∧ wholeOf cs (hd ++ enc ws) = some c ∧ c.takes hd ws rest.head? = true ∧ c.isPlain = true := by
  unfold owns at ho1
  rw [Bool.and_eq_true] at ho1
  obtain ⟨ht, ho1⟩ := ho1
  have ht' := ht
  unfold Cls.takes at ht'
  rw [Bool.and_eq_true] at ht'
  obtain ⟨hpl, ht'⟩ := ht'
  split at ho1
  · rename_i h fs hsh
    rw [hsh] at ht'
    simp only [Bool.and_eq_true] at ht'
    have hh := ht'.1.2
    simp only [Bool.and_eq_true, List.all_eq_true] at ho1
    obtain ⟨hm1, hm2⟩ := ho1
    have hw1 : Words (hd :: ws) := fun x hx => hw x (by
      rcases List.mem_cons.1 hx with rfl | hx
      · simp
      · simp [hx])
    have hfull := takes_full ht (hg c hc) hw1
    refine ⟨?_, ?_, ht, hpl⟩
    · refine takeWhile_find ((mem_sortLen cs).2 hc) hns _ ?_ ?_
      · cases hb : c.begins (hd ++ enc (ws ++ rest)) with
        | true => rfl
        | false =>
          rw [enc_append, ← List.append_assoc] at hb
          exact absurd hfull (begins_full (hg c hc) hb 1)
      · intro d hd'
        exact misses_begins (hg d ((mem_sortLen cs).1 (mem_takeWhile hd'))) (hm1 d hd') hh hw
    · refine takeWhile_find hc hn _ ?_ ?_
      · exact (full_iff _ ((hg c hc).any 1).1 _).2 hfull
      · intro d hd'
        have hd2 := hg d (mem_takeWhile hd')
        have hnf : ¬ Full (d.pat.re 1) (hd ++ enc ws) := by
          have := hm2 d hd'
          rw [Bool.or_eq_true] at this
          rcases this with hm | hm
          · have := misses_begins hd2 hm hh hw1
            have := begins_full (u := hd ++ enc ws) (v := []) hd2 (by rw [List.append_nil]; exact this) 1
            exact this
          · simp only [Bool.and_eq_true, Bool.not_eq_true'] at hm
            rw [plain_full hm.1 hd2 hd ws hw1, hm.2]
            simp
        cases hb : (reMatch d.re (hd ++ enc ws)).isSome with
        | false => rfl
        | true => exact absurd ((full_iff _ (hd2.any 1).1 _).1 hb) hnf
  · cases ho1

theorem owned_splits {cs : List Cls} (hg : ∀ c ∈ cs, c.pat.Good) (hn : (cs.map (·.info.name)).Nodup)
    (hns : ((sortLen cs).map (·.info.name)).Nodup) : ∀ (l : List (Cls × Opt)), Owned cs l → Words (optWords (l.map (·.2))) →
    splits cs (l.map (·.2)) = true ∧ readOpts cs (l.map (·.2)) = readOwned l
  | [], _, _ => ⟨rfl, rfl⟩
  | (c, hd, ws) :: l, ho, hw => by
    obtain ⟨hc, ho1, ho2⟩ := ho
    have hw : Words (hd :: (ws ++ optWords (l.map (·.2)))) := hw
    obtain ⟨i1, i2⟩ := owned_splits hg hn hns l ho2 (fun x hx => hw x (by simp [hx]))
    obtain ⟨hfirst, hwhole, ht, hpl⟩ := owned_class hg hn hns hc ho1 hw
    simp only [List.map_cons, splits, hfirst, hwhole, ht, hpl, i1, readOpts, readOwned, i2, Bool.and_self, true_and]

/-- In a union told apart by keywords an option belongs to the class that takes it. -/
theorem keyworded_owns {cs : List Cls} (hk : keyworded cs = true) {c : Cls} (hc : c ∈ cs) {hd ws rest}
    (ht : c.takes hd ws rest.head? = true) : owns cs c hd ws rest = true := by
  have hk := List.all_eq_true.1 hk c hc
  have hne : ∀ {l : List Cls} {d}, d ∈ l.takeWhile (·.info.name != c.info.name) → (d.info.name == c.info.name) = false := by
    intro l d h
    induction l with
    | nil => cases h
    | cons x l ih =>
      rw [List.takeWhile_cons] at h
      split at h
      · rename_i hx
        rcases List.mem_cons.1 h with rfl | h
        · simpa using hx
        · exact ih h
      · cases h
  unfold owns
  rw [ht, Bool.true_and]
  split at hk
  · rename_i h fs hsh
    simp only [Bool.and_eq_true, List.all_eq_true]
    have hap : ∀ d ∈ cs, (d.info.name == c.info.name) = false → keyApart h d = true := by
      intro d hd' hn
      have := List.all_eq_true.1 hk d hd'
      simpa [hn] using this
    refine ⟨fun d hd' => ?_, fun d hd' => ?_⟩
    · simp [Cls.misses, hap d ((mem_sortLen cs).1 (mem_takeWhile hd')) (hne hd')]
    · simp [Cls.misses, hap d (mem_takeWhile hd') (hne hd')]
  · rename_i p hsh
    unfold Cls.takes at ht
    rw [hsh] at ht
    simp at ht

/-! ## Longer names are tried first -/

theorem insertLen_sorted (c : Cls) : ∀ cs : List Cls, cs.Pairwise (fun a b => b.info.name.length ≤ a.info.name.length) →
    (insertLen c cs).Pairwise (fun a b => b.info.name.length ≤ a.info.name.length)
  | [], _ => by simp [insertLen]
  | d :: ds, h => by
    rw [List.pairwise_cons] at h
    unfold insertLen
    split
    · rename_i hlt
      refine List.pairwise_cons.2 ⟨?_, List.pairwise_cons.2 h⟩
      intro x hx
      rcases List.mem_cons.1 hx with rfl | hx
      · omega
      · have := h.1 x hx; omega
    · rename_i hlt
      refine List.pairwise_cons.2 ⟨?_, insertLen_sorted c ds h.2⟩
      intro x hx
      rcases mem_insertLen.1 hx with rfl | hx
      · omega
      · exact h.1 x hx

theorem sortLen_sorted (cs : List Cls) : (sortLen cs).Pairwise (fun a b => b.info.name.length ≤ a.info.name.length) := by
  have : ∀ (cs acc : List Cls), acc.Pairwise (fun a b => b.info.name.length ≤ a.info.name.length) →
      (cs.foldl (fun acc c => insertLen c acc) acc).Pairwise (fun a b => b.info.name.length ≤ a.info.name.length) := by
    intro cs
    induction cs with
    | nil => intro acc h; exact h
    | cons c cs ih => intro acc h; exact ih _ (insertLen_sorted c acc h)
  exact this cs [] List.Pairwise.nil

/-- A class whose pattern accepts no beginning of the text cannot begin there. -/
theorem none_begins {c : Cls} (hg : c.pat.Good) {s : Str} {α : Type} {n : Nat} {f : St → α}
    (h : run (c.pat.re n) ⟨[], s, []⟩ (fun st => some (f st)) = none) : c.begins s = false := by
  unfold Cls.begins
  rw [Option.isSome_eq_false_iff, Option.isNone_iff_eq_none]
  cases hm : reMatch (c.pat.re 1) s with
  | none => rfl
  | some m =>
    obtain ⟨st', hst, -⟩ := reMatch_some hm
    obtain ⟨u, e, h1, h2, -, -⟩ := hst.mt (hg.any 1).1
    obtain ⟨e', h3⟩ := (Full.congr (hg.erase 1 n)).1 ⟨e, h1⟩
    have h4 := h3.step [] st'.rest []
    have h2' : s = u ++ st'.rest := h2
    rw [← h2'] at h4
    have := (run_spec (c.pat.re n) _ _).1.1 h _ h4
    cases this

/-- The alternative that is found: the classes before it cannot begin there. -/
theorem alts_first {α : Type} (s : Str) (f : St → α) : ∀ (cs : List Cls) (n : Nat), (∀ c ∈ cs, c.pat.Good) → ∀ {r : α},
    run (altsRe cs n) ⟨[], s, []⟩ (fun st => some (f st)) = some r →
    ∃ l1 c l2 k, cs = l1 ++ c :: l2 ∧ (∀ d ∈ l1, d.begins s = false) ∧
      run (c.pat.re k) ⟨[], s, []⟩ (fun st => some (f st)) = some r
  | [], n, _, r, h => by
    obtain ⟨st', h1, -⟩ := (run_spec _ _ _).2 _ h
    unfold altsRe at h1
    cases h1
    rename_i hc
    cases hc
  | [c], n, _, r, h => ⟨[], c, [], n, rfl, by simp, h⟩
  | c :: d :: cs, n, hg, r, h => by
    rw [altsRe, run_alt] at h
    cases hr : run (c.pat.re n) ⟨[], s, []⟩ (fun st => some (f st)) with
    | some x =>
      rw [hr] at h
      cases h
      exact ⟨[], c, d :: cs, n, rfl, by simp, hr⟩
    | none =>
      rw [hr] at h
      obtain ⟨l1, c', l2, k, e, h1, h2⟩ := alts_first s f (d :: cs) (n + c.pat.ng) (fun x hx => hg x (by simp [hx])) h
      refine ⟨c :: l1, c', l2, k, by rw [e]; rfl, ?_, h2⟩
      intro x hx
      rcases List.mem_cons.1 hx with rfl | hx
      · exact none_begins (hg _ (by simp)) hr
      · exact h1 x hx

/-- The text found by a search for an option. -/
theorem union_first (nm : String) (cs : List Cls) (hg : ∀ c ∈ cs, c.pat.Good) (s : Str) (m : List (Nat × Str))
    (h : reMatch ((unionTy nm cs).re 1) s = some m) :
    ∃ c ∈ cs, ∃ t rest, cap m 0 = some t ∧ s = t ++ rest ∧ Full (c.pat.re 1) t ∧
      ∀ d ∈ cs, c.info.name.length < d.info.name.length → d.begins s = false := by
  have e : (unionTy nm cs).re 1 = altsRe (sortLen cs) 1 := rfl
  rw [e] at h
  unfold reMatch at h
  obtain ⟨l1, c, l2, k, hl, h1, h2⟩ := alts_first s _ (sortLen cs) 1 (fun c hc => hg c ((mem_sortLen cs).1 hc)) h
  have hc : c ∈ cs := (mem_sortLen cs).1 (by rw [hl]; simp)
  obtain ⟨st', h3, h4⟩ := (run_spec _ _ _).2 _ h2
  obtain ⟨u, e, h5, h6, -, -⟩ := h3.mt ((hg c hc).any k).1
  have h6' : s = u ++ st'.rest := h6
  refine ⟨c, hc, u, st'.rest, ?_, h6', (Full.congr ((hg c hc).erase k 1)).1 ⟨e, h5⟩, ?_⟩
  · simp only [Option.some.injEq] at h4
    rw [← h4]
    simp [cap, h6']
  · intro d hd hlt
    have hs := sortLen_sorted cs
    have hd' : d ∈ l1 ++ c :: l2 := by rw [← hl]; exact (mem_sortLen cs).2 hd
    rw [hl, List.pairwise_append, List.pairwise_cons] at hs
    rcases List.mem_append.1 hd' with hd' | hd'
    · exact h1 d hd'
    · rcases List.mem_cons.1 hd' with rfl | hd'
      · omega
      · have := hs.2.1.1 d hd'; omega

end Inp
