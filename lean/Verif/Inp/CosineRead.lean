import Verif.Inp.RowOption
/-!
# Reading cards of cosine bins
-/
set_option maxRecDepth 100000
namespace Inp
open Py Types

abbrev cosHead : Head := ⟨.star, c!"c", .req, .no⟩

abbrev cosFields : List Field := [⟨.ty (.base .real), .many⟩, ⟨.ty (.base .str), .opt⟩, ⟨.ty (.base .str), .opt⟩]

/-- The first word (src/pymcnp/inp/C.py:23): unlike in other cards the group of the star is always set. -/
abbrev cosPat : Pat := .seq (.grp (.opt (.cls (.set false [.ch '*'])))) (.seq (.lits c!"c") (.grp (.plus true (.cls (.one .d)))))

theorem cos_run (s : Str) : reMatch Tab.C.re s = run (cosPat.re 1) ⟨[], s, []⟩ (fun st => run (fieldsRe cosFields 3) st
    (fun st => run .eos st (fun st => some ((0, s.take (s.length - st.rest.length)) :: st.caps)))) := rfl

theorem cos_head_re : headRe cosHead 1 = .seq (.opt true (.grp 1 (.cls (CC.test (.set false [.ch '*']))))) (.seq (litRe c!"c")
    (.seq (.grp 2 (.plus true (.cls (CC.test (.one .d))))) .eps)) := rfl

theorem cos_pat_re : cosPat.re 1 = .seq (.grp 1 (.opt true (.cls (CC.test (.set false [.ch '*']))))) (.seq (litRe c!"c")
    (.grp 2 (.plus true (.cls (CC.test (.one .d)))))) := rfl

/-- The two ways to write the head match the same words. -/
theorem cos_head_iff (hd : Str) : Full (headRe cosHead 1) hd ↔ Full (cosPat.re 1) hd := by
  rw [cos_head_re, cos_pat_re]
  constructor
  · rintro ⟨e, h⟩
    obtain ⟨u, _, _, _, h1, g1, rfl, -⟩ := mt_seq.1 h
    obtain ⟨v, _, _, _, h2, g2, rfl, -⟩ := mt_seq.1 g1
    obtain ⟨w, t, _, _, h3, h4, rfl, -⟩ := mt_seq.1 g2
    obtain ⟨rfl, -⟩ := mt_eps.1 h4
    have : ∃ e, Mt (.opt true (.cls (CC.test (.set false [.ch '*'])))) u e := by
      rcases mt_opt.1 h1 with ⟨rfl, -⟩ | h1
      · exact ⟨_, mt_opt.2 (.inl ⟨rfl, rfl⟩)⟩
      · obtain ⟨z, h1, -⟩ := mt_grp.1 h1
        exact ⟨_, mt_opt.2 (.inr h1)⟩
    obtain ⟨e', h5⟩ := this
    exact ⟨_, mt_seq.2 ⟨u, v ++ w, _, _, mt_grp.2 ⟨e', h5, rfl⟩, mt_seq.2 ⟨v, w, _, _, h2, h3, rfl, rfl⟩, by simp, rfl⟩⟩
  · rintro ⟨e, h⟩
    obtain ⟨u, _, _, _, h1, g1, rfl, -⟩ := mt_seq.1 h
    obtain ⟨v, w, _, _, h2, h3, rfl, -⟩ := mt_seq.1 g1
    obtain ⟨z, h1, -⟩ := mt_grp.1 h1
    have : ∃ e, Mt (.opt true (.grp 1 (.cls (CC.test (.set false [.ch '*']))))) u e := by
      rcases mt_opt.1 h1 with ⟨rfl, -⟩ | h1
      · exact ⟨_, mt_opt.2 (.inl ⟨rfl, rfl⟩)⟩
      · exact ⟨_, mt_opt.2 (.inr (mt_grp.2 ⟨_, h1, rfl⟩))⟩
    obtain ⟨e', h5⟩ := this
    exact ⟨_, mt_seq.2 ⟨u, v ++ w, _, _, h5, mt_seq.2 ⟨v, w, _, _, h2, mt_seq.2 ⟨w, [], _, [], h3, mt_eps.2 ⟨rfl, rfl⟩, by simp, rfl⟩, rfl, rfl⟩, rfl, rfl⟩⟩

/-- And capture the same texts, except for a missing star. -/
theorem cos_head_mt {hd e} (h : Mt (cosPat.re 1) hd e) : ∃ a b, readHead cosHead hd = some [a, some b] ∧ e = [(2, b), (1, a.getD [])] := by
  rw [cos_pat_re] at h
  obtain ⟨u, _, _, _, h1, g1, rfl, rfl⟩ := mt_seq.1 h
  obtain ⟨v, w, _, _, h2, h3, rfl, rfl⟩ := mt_seq.1 g1
  obtain ⟨z, k1, rfl⟩ := mt_grp.1 h1
  obtain ⟨y, k3, rfl⟩ := mt_grp.1 h3
  obtain ⟨q1, q2, rfl⟩ := mt_plus_cls.1 k3
  obtain ⟨q3, rfl⟩ := mt_lit.1 h2
  have hh : ∃ a e', Mt (headRe cosHead 1) (u ++ (v ++ w)) e' ∧ u = a.getD [] ∧ z = [] ∧ e'.lookup 1 = a ∧ e'.lookup 2 = some w := by
    rw [cos_head_re]
    rcases mt_opt.1 k1 with ⟨rfl, rfl⟩ | k1
    · refine ⟨none, _, mt_seq.2 ⟨[], v ++ w, _, _, mt_opt.2 (.inl ⟨rfl, rfl⟩), mt_seq.2 ⟨v, w, _, _, h2, mt_seq.2 ⟨w, [], _, [],
        mt_grp.2 ⟨_, k3, rfl⟩, mt_eps.2 ⟨rfl, rfl⟩, by simp, rfl⟩, rfl, rfl⟩, rfl, rfl⟩, rfl, rfl, ?_, ?_⟩ <;> simp [List.lookup]
    · obtain ⟨c, hc, rfl, rfl⟩ := mt_cls.1 k1
      refine ⟨some [c], _, mt_seq.2 ⟨[c], v ++ w, _, _, mt_opt.2 (.inr (mt_grp.2 ⟨_, k1, rfl⟩)), mt_seq.2 ⟨v, w, _, _, h2, mt_seq.2 ⟨w, [], _, [],
        mt_grp.2 ⟨_, k3, rfl⟩, mt_eps.2 ⟨rfl, rfl⟩, by simp, rfl⟩, rfl, rfl⟩, rfl, rfl⟩, rfl, rfl, ?_, ?_⟩ <;> simp [List.lookup]
  obtain ⟨a, e', m1, rfl, rfl, l1, l2⟩ := hh
  obtain ⟨hv, hc, hl, hr⟩ := head_mt (h := cosHead) (by decide +kernel) m1
  have hl2 : hv.length = 2 := hl
  obtain ⟨x, y, rfl⟩ : ∃ x y, hv = [x, y] := by
    match hv, hl2 with
    | [x, y], _ => exact ⟨x, y, rfl⟩
  have e0 := hc.get 0 x rfl
  have e1 := hc.get 1 y rfl
  simp only [Nat.add_zero] at e0
  rw [l1] at e0
  rw [show 1 + 1 = 2 from rfl, l2] at e1
  refine ⟨a, w, by rw [hr, e0, e1], ?_⟩
  simp

theorem cos_match (hd : Str) (ws : List Str) (hw : Words (hd :: ws)) :
    ((readHead cosHead hd = none ∨ assign (cosFields.map Field.spec) ws = none) → reMatch Tab.C.re (hd ++ enc ws) = none) ∧
    (∀ a b vs, readHead cosHead hd = some [a, some b] → assign (cosFields.map Field.spec) ws = some vs →
      ∃ m, reMatch Tab.C.re (hd ++ enc ws) = some m ∧ cap m 1 = some (a.getD []) ∧ cap m 2 = some b ∧
        (∀ i v, vs[i]? = some v → cap m (3 + i) = v.map enc)) := by
  rw [cos_run]
  let k : St → Option (List (Nat × Str)) := fun st => run .eos st (fun st =>
    some ((0, (hd ++ enc ws).take ((hd ++ enc ws).length - st.rest.length)) :: st.caps))
  have hk : ∀ st, st.rest ≠ [] → k st = none := by
    intro st hs; show run .eos st _ = none; rw [run_eos, if_neg hs]
  have hs : ∀ st, st.rest = [] → (k st).isSome = true := by
    intro st hs; show (run .eos st _).isSome = true; rw [run_eos, if_pos hs]; rfl
  have hu : ∀ f ∈ cosFields, f.unit.word = true := by decide +kernel
  have ha : aligned cosFields = true := by decide +kernel
  have hhw := cosPat.facts (by decide +kernel) 1
  have key := run_word (cosPat.re 1) hhw.1 (noSp_mt hhw.2.1) hd (enc ws) [] [] (enc_bnd ws)
    (fun st => run (fieldsRe cosFields 3) st k) (by
      intro u v e huv hv
      apply fieldsRe_blocked _ _ _ _ _ _ hk
      · intro c hc hcs
        subst hcs
        cases v with
        | nil => exact hv rfl
        | cons d ds =>
          simp at hc; subst hc
          have := (hw hd (by simp)).1 ' ' (by rw [huv]; simp)
          exact absurd this (by decide)
      · simp [hv])
  have hsem := fields_sem cosFields hu 3 k hk hs ws hw.tail
  constructor
  · rintro (h1 | h1)
    · apply key.2
      rintro ⟨e, he⟩
      obtain ⟨a, b, h2, -⟩ := cos_head_mt he
      rw [h1] at h2; cases h2
    · by_cases hf : Full (cosPat.re 1) hd
      · obtain ⟨e, he, hr⟩ := key.1 hf
        exact hr.trans ((hsem _ _).1 h1)
      · exact key.2 hf
  · intro a b vs h1 h2
    obtain ⟨e, he, hr⟩ := key.1 ((cos_head_iff hd).1 (head_full h1 (hw hd (by simp)).1 1))
    obtain ⟨a', b', h3, rfl⟩ := cos_head_mt he
    rw [h1] at h3
    simp only [Option.some.injEq, List.cons.injEq, and_true] at h3
    obtain ⟨rfl, rfl⟩ := h3
    obtain ⟨e2, hg, hr2⟩ := (hsem (hd.reverse ++ []) ([(2, b), (1, a.getD [])] ++ [])).2 vs h2
    obtain ⟨g1, g2⟩ := good_get hg ha
    refine ⟨(0, hd ++ enc ws) :: (e2 ++ [(2, b), (1, a.getD [])]), ?_, ?_, ?_, ?_⟩
    · refine hr.trans (hr2.trans ?_)
      show run .eos _ _ = _
      rw [run_eos, if_pos rfl]
      simp only [List.length_nil, Nat.sub_zero, List.take_length, List.append_nil]
    · unfold cap
      have : ((1 : Nat) == 0) = false := rfl
      rw [List.lookup, this, lookup_append, lookup_none (e := e2) (by intro x hx; have := g2 x hx; omega), Option.none_or]
      rfl
    · unfold cap
      have : ((2 : Nat) == 0) = false := rfl
      rw [List.lookup, this, lookup_append, lookup_none (e := e2) (by intro x hx; have := g2 x hx; omega), Option.none_or]
      rfl
    · intro i v hi
      unfold cap
      have : (3 + i == 0) = false := by simp
      rw [List.lookup, this, lookup_append, g1 i v hi, lookup_none (e := [(2, b), (1, a.getD [])]) (by
        intro x hx
        simp only [List.mem_cons, List.not_mem_nil, or_false] at hx
        rcases hx with rfl | rfl <;> simp <;> omega), Option.or_none]

theorem cos_head_two {hd hv} (h : readHead cosHead hd = some hv) (hs : NoSpace hd) : ∃ a b, hv = [a, some b] := by
  obtain ⟨e, he⟩ := (cos_head_iff hd).1 (head_full h hs 1)
  obtain ⟨a, b, h1, -⟩ := cos_head_mt he
  rw [h] at h1
  exact ⟨a, b, Option.some.inj h1⟩

/-- Cards of cosine bins are read like other cards: word by word. -/
theorem cos_read (hd : Str) (ws : List Str) (hw : Words (hd :: ws)) :
    (match reMatch Tab.C.re (hd ++ enc ws) with | none => (.error .inp : Res Val) | some m => Tab.C.build m) = readWords Tab.C cosHead cosFields hd ws := by
  obtain ⟨m1, m2⟩ := cos_match hd ws hw
  unfold readWords
  cases hr : readHead cosHead hd with
  | none => rw [m1 (.inl hr)]
  | some hv =>
    cases hf : assign (cosFields.map Field.spec) ws with
    | none => rw [m1 (.inr hf)]
    | some vs =>
      obtain ⟨a, b, rfl⟩ := cos_head_two hr (hw hd (by simp)).1
      obtain ⟨m, hm, g0, g1, g2⟩ := m2 a b vs hr hf
      rw [hm]
      obtain ⟨ft, fl⟩ := assign_sound hf
      have hwd := readHead_words hr (hw hd (by simp)).1
      have hat := attrs_fields Tab.C.pat.ng m cosFields (Tab.C.attrs.drop 2) vs 2 (by decide +kernel) (by decide +kernel) ft (by rw [fl]; exact hw.tail) (by
        intro j v hj
        exact g2 j v hj) (by decide +kernel)
      obtain ⟨a0, a1, hca⟩ : ∃ a0 a1, Tab.C.attrs = a0 :: a1 :: Tab.C.attrs.drop 2 ∧ a0.many = false ∧ a1.many = false := ⟨_, _, rfl, rfl, rfl⟩
      have b0 : attrVal Tab.C.pat.ng m 0 a0 = readVal a0 (a.map ([·])) := by
        cases a with
        | none =>
          unfold attrVal
          rw [if_neg (by decide +kernel), g0]
          rfl
        | some s => exact attr_word _ m 0 a0 (by decide +kernel) hca.2.1 (some s) g0 (hwd _ (by simp))
      have b1 : attrVal Tab.C.pat.ng m (0 + 1) a1 = readVal a1 ((some b).map ([·])) :=
        attr_word _ m 1 a1 (by decide +kernel) hca.2.2 (some b) g1 (hwd _ (by simp))
      show Tab.C.build m = _
      unfold Cls.build
      rw [hca.1]
      simp only [attrVals, List.map_cons, List.map_nil, List.cons_append, List.nil_append, readVals]
      rw [b0, b1, hat]
      rfl

end Inp
