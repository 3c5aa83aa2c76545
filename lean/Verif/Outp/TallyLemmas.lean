import Verif.Outp.BlockLemmas
import Verif.Outp.Sub1Spec
/-! Lemmas on tallies. -/
namespace Outp
open Py Ptrac

/-- A text beginning with a match has at least one match. -/
theorem finditer_ne {r : Re} {w : Str} (h : Mt r w []) (h0 : w ≠ []) (R : Str) : finditer r (w ++ R) ≠ [] := by
  cases w with
  | nil => exact absurd rfl h0
  | cons c cs =>
    have hs := h.step [] R []
    unfold finditer
    rw [List.cons_append, List.length_cons, finditerAux]
    cases hr : run r ⟨[], c :: (cs ++ R), []⟩ fun st => if st.rest.length < (c :: (cs ++ R)).length then some st else none with
    | some st => simp
    | none =>
      have := ((run_spec r ⟨[], c :: (cs ++ R), []⟩ fun st => if st.rest.length < (c :: (cs ++ R)).length then some st else none).1.1 hr) _ hs
      simp at this
      omega

theorem slot_unique : ∀ {T : List Item}, (T.filterMap Item.slot).Nodup → ∀ {i j : Item}, i ∈ T → j ∈ T → ∀ {n}, i.slot = some n →
    j.slot = some n → i = j
  | [], _, i, j, hi, _, n, _, _ => by cases hi
  | a :: T, hn, i, j, hi, hj, n, h1, h2 => by
    have hT : (T.filterMap Item.slot).Nodup := by
      rw [List.filterMap_cons] at hn
      cases ha : a.slot with
      | none => rwa [ha] at hn
      | some m => rw [ha] at hn; exact (List.nodup_cons.1 hn).2
    have hno : ∀ {m}, a.slot = some m → ∀ b ∈ T, b.slot ≠ some m := by
      intro m ha b hb hbm
      rw [List.filterMap_cons, ha] at hn
      exact (List.nodup_cons.1 hn).1 (List.mem_filterMap.2 ⟨b, hb, hbm⟩)
    rcases List.mem_cons.1 hi with rfl | hi'
    · rcases List.mem_cons.1 hj with rfl | hj'
      · rfl
      · exact absurd h2 (hno h1 j hj')
    · rcases List.mem_cons.1 hj with rfl | hj'
      · exact absurd h1 (hno h2 i hi')
      · exact slot_unique hT hi' hj' h1 h2

theorem valsOf_set (G : Nat) (v : Nat → Str) (n : Nat) (h1 : 1 ≤ n) (s : Str) :
    (valsOf G v).set (n - 1) s = valsOf G (fun m => if m = n then s else v m) := by
  apply List.ext_getElem
  · simp [valsOf]
  · intro i h2 h3
    simp only [valsOf, List.getElem_set, List.getElem_map, List.getElem_range]
    by_cases e : n - 1 = i
    · rw [if_pos e, if_pos (by omega)]
    · rw [if_neg e, if_neg (by omega)]

section
variable {d : TallyDef} {σ : Nat → List Sym} {Ok : Sub → Prop}

/-- What is needed of the tables of a tally class. -/
structure TallyAgree (d : TallyDef) (σ : Nat → List Sym) : Prop where
  agree : Agree d.items d.parts d.groups σ
  one : 1 ≤ d.slot
  le : d.slot ≤ d.groups
  many : Item.many true d.slot (tmplRe (d.sub.items false false)) ∈ d.items

theorem tally_read (h : TallyAgree d σ) (hO : SubSpec d.sub Ok) {s : Str} {t : Tally} (ht : tallyParse d s = .ok t) :
    ∃ v : Nat → Str, (∀ i ∈ d.items, i.Shape v) ∧ s = tmplText v d.items ∧ t.vals = (valsOf d.groups v).set (d.slot - 1) [] ∧
      t.subs ≠ [] ∧ ∀ x ∈ t.subs, ∃ u, subParse d.sub u = .ok x := by
  unfold tallyParse at ht
  cases hm : reMatch (whole (tmplRe d.items)) s with
  | none => rw [hm] at ht; cases ht
  | some m =>
    rw [hm] at ht
    obtain ⟨v, a, c, rfl⟩ := tmpl_read (innerB_spec h.agree.inner) h.agree.nodup hm
    have hg : d.slot ∈ d.items.filterMap Item.group := List.mem_filterMap.2 ⟨_, h.many, rfl⟩
    have htok : tok ((0, s) :: tmplCaps v d.items) d.slot = v d.slot := by
      have := h.one
      rw [tok, cap_tmpl hg s (by omega)]; rfl
    simp only [htok, groupTexts_tmpl h.agree.groups] at ht
    cases hx : (finditer (tmplRe (d.sub.items true false)) (v d.slot)).mapM (subParse d.sub) with
    | error e => rw [hx] at ht; cases ht
    | ok xs =>
      rw [hx] at ht
      have := Except.ok.inj ht
      subst this
      obtain ⟨k1, k2⟩ := mapM_mem hx
      refine ⟨v, a, c, rfl, ?_, fun x hx => ?_⟩
      · obtain ⟨ws, w0, w1, w2⟩ := a _ h.many
        intro e
        simp only at e
        rw [e] at k2
        cases ws with
        | nil => exact w0 rfl
        | cons w ws =>
          obtain ⟨y1, y2⟩ := hO.sub (w1 w (by simp))
          have := finditer_ne y1 y2 ws.flatten
          rw [w2, List.flatten_cons] at k2
          exact this (List.length_eq_zero_iff.1 k2.symm)
      · obtain ⟨u, _, e⟩ := k1 x hx
        exact ⟨u, e⟩

/-- What a tally whose subtallies are well formed prints. -/
theorem tally_print (h : TallyAgree d σ) (hO : SubSpec d.sub Ok) {s : Str} {t : Tally} (ht : tallyParse d s = .ok t)
    (hl : ∀ x ∈ t.subs, x.lines ≠ []) (hmsg : ∀ n, d.msg = some n → 1 ≤ n ∧ n ≤ d.groups ∧ n ≠ d.slot ∧ attr t.vals n = []) :
    ∃ v w : Nat → Str, (∀ i ∈ d.items, i.Shape v) ∧ (∀ i ∈ d.items, i.Shape w) ∧ s = tmplText v d.items ∧ t.str d = tmplText w d.items ∧
      (∀ n, 1 ≤ n → n ≤ d.groups → n ≠ d.slot → w n = v n) ∧ w d.slot = t.subs.flatMap (Sub.str d.sub) ∧ t.subs ≠ [] ∧
      (∀ x ∈ t.subs, Ok x) ∧ (∀ n, d.msg = some n → w n = []) ∧ t.vals = (valsOf d.groups w).set (d.slot - 1) [] := by
  obtain ⟨v, a, rfl, hv, h0, hp⟩ := tally_read h hO ht
  have hok : ∀ x ∈ t.subs, Ok x := fun x hx => by obtain ⟨u, e⟩ := hp x hx; exact hO.read e (hl x hx)
  obtain ⟨vals, subs⟩ := t
  simp only at hv h0 hok hmsg hl
  subst hv
  have one := h.one
  -- the attributes as printed
  have hb : ∀ X : Str, ((valsOf d.groups v).set (d.slot - 1) []).set (d.slot - 1) X =
      valsOf d.groups fun m => if m = d.slot then X else v m := by
    intro X
    rw [List.set_set, valsOf_set _ _ _ one]
  let v₁ : Nat → Str := fun m => if m = d.slot then subs.flatMap (Sub.str d.sub) else v m
  have hv1 : ∀ i ∈ d.items, i.Shape v₁ := by
    intro i hi
    by_cases hs : i.slot = some d.slot
    · have := slot_unique h.agree.nodup hi h.many hs rfl
      subst this
      refine ⟨subs.map (Sub.str d.sub), by simpa using h0, ?_, ?_⟩
      · intro w hw
        obtain ⟨x, hx, rfl⟩ := List.mem_map.1 hw
        exact hO.mt (hok x hx)
      · simp [v₁, List.flatMap]
    · apply Item.shape_congr _ (a i hi)
      intro n hn
      have : n ≠ d.slot := fun e => hs (e ▸ hn)
      simp [v₁, this]
  have hm1 : ∀ n, d.msg = some n → v₁ n = [] := by
    intro n hn
    obtain ⟨m1, m2, m3, m4⟩ := hmsg n hn
    simp only [v₁, if_neg m3]
    rw [valsOf_set _ _ _ one, attr, valsOf_getD m1 m2, if_neg m3] at m4
    exact m4
  have hstr : (⟨(valsOf d.groups v).set (d.slot - 1) [], subs⟩ : Tally).str d = partsText (valsOf d.groups v₁) d.parts := by
    unfold Tally.str
    simp only [hb]
    cases hn : d.msg with
    | none => rfl
    | some n =>
      obtain ⟨m1, m2, m3, m4⟩ := hmsg n hn
      have e := hm1 n hn
      show partsText ((valsOf d.groups v₁).set (n - 1) (msgText ((valsOf d.groups v₁).getD (n - 1) []))) d.parts = _
      rw [valsOf_getD m1 m2, e]
      show partsText ((valsOf d.groups v₁).set (n - 1) []) d.parts = _
      rw [valsOf_set _ _ _ m1]
      congr 1
      apply valsOf_congr
      intro k _ _
      by_cases hk : k = n
      · rw [if_pos hk, hk, e]
      · rw [if_neg hk]
  let w : Nat → Str := filled d.groups σ (attr (valsOf d.groups v₁))
  have hw : ∀ i ∈ d.items, i.Shape w := filled_shape h.agree hv1
  have hwn : ∀ n, 1 ≤ n → n ≤ d.groups → w n = v₁ n := by
    intro n a b
    show filled _ _ _ n = _
    unfold filled
    rw [if_pos b, attr, valsOf_getD a b]
  refine ⟨v, w, a, hw, rfl, by rw [hstr, print_eq h.agree hv1], ?_, ?_, h0, hok, ?_, ?_⟩
  · intro n a b c
    rw [hwn n a b]; simp [v₁, c]
  · rw [hwn _ one h.le]; simp [v₁]
  · intro n hn
    obtain ⟨m1, m2, _, _⟩ := hmsg n hn
    rw [hwn n m1 m2, hm1 n hn]
  · have e1 : valsOf d.groups w = valsOf d.groups v₁ := filled_vals _ (valsOf_length _ _)
    rw [e1, valsOf_set _ _ _ one, valsOf_set _ _ _ one]
    show (valsOf d.groups fun m => if m = d.slot then [] else v m) = _
    apply valsOf_congr
    intro k _ _
    by_cases hk : k = d.slot
    · rw [if_pos hk, if_pos hk]
    · rw [if_neg hk, if_neg hk]; simp [v₁, hk]

/-- A tally whose subtallies are well formed is read back, when its pattern reads what is printed in one way. -/
theorem tally_core (h : TallyAgree d σ) (hO : SubSpec d.sub Ok) {s : Str} {t : Tally} (ht : tallyParse d s = .ok t)
    (hl : ∀ x ∈ t.subs, x.lines ≠ []) (hmsg : ∀ n, d.msg = some n → 1 ≤ n ∧ n ≤ d.groups ∧ n ≠ d.slot ∧ attr t.vals n = [])
    (hrun : ∀ w : Nat → Str, (∀ i ∈ d.items, i.Shape w) → w d.slot = t.subs.flatMap (Sub.str d.sub) → t.subs ≠ [] → (∀ x ∈ t.subs, Ok x) →
      (∀ n, d.msg = some n → w n = []) → RunsAt (tmplRe d.items) (tmplText w d.items) (tmplCaps w d.items) []) :
    tallyParse d (t.str d) = .ok t := by
  obtain ⟨v, w, _, hw, _, hstr, _, hws, h0, hok, hm, hvals⟩ := tally_print h hO ht hl hmsg
  have one := h.one
  have hR := hrun w hw hws h0 hok hm
  have hg : d.slot ∈ d.items.filterMap Item.group := List.mem_filterMap.2 ⟨_, h.many, rfl⟩
  rw [hstr]
  unfold tallyParse
  rw [whole, runsAt_match hR]
  have htok : tok ((0, tmplText w d.items) :: tmplCaps w d.items) d.slot = t.subs.flatMap (Sub.str d.sub) := by
    rw [tok, cap_tmpl hg _ (by omega), ← hws]; rfl
  simp only [htok, groupTexts_tmpl h.agree.groups]
  have hne : ∀ x ∈ t.subs, Sub.str d.sub x ≠ [] := by
    intro x hx e
    obtain ⟨y, ys, e', _⟩ := hO.start (hok x hx)
    rw [e] at e'; cases e'
  rw [finditer_runsTo t.subs (Sub.str d.sub) (fun _ => []) (fun x hx => ⟨hO.ci (hok x hx), hne x hx⟩),
    mapM_map (Sub.str d.sub) (subParse d.sub) id t.subs (fun x hx => hO.reread (hok x hx))]
  show Except.ok (Tally.mk ((valsOf d.groups w).set (d.slot - 1) []) (t.subs.map id)) = _
  rw [← hvals, List.map_id]

theorem words_subs (hO : SubSpec d.sub Ok) {subs : List Sub} (h0 : subs ≠ []) (hok : ∀ x ∈ subs, Ok x) :
    Words (tmplRe (d.sub.items false false)) (subs.map (Sub.str d.sub)) := by
  refine ⟨by simpa using h0, ?_, hO.stop⟩
  intro w hw
  obtain ⟨x, hx, rfl⟩ := List.mem_map.1 hw
  exact ⟨hO.cs (hok x hx), hO.start (hok x hx)⟩

theorem fit_subs (h : TallyAgree d σ) (hO : SubSpec d.sub Ok) {w : Nat → Str} {subs : List Sub} (hw : ∀ i ∈ d.items, i.Shape w)
    (hws : w d.slot = subs.flatMap (Sub.str d.sub)) (h0 : subs ≠ []) (hok : ∀ x ∈ subs, Ok x) {i : Item} (hi : i ∈ d.items)
    (hd : i.slot ≠ some d.slot → detItem i) : i.Fit w := by
  by_cases hs : i.slot = some d.slot
  · have := slot_unique h.agree.nodup hi h.many hs rfl
    subst this
    exact ⟨_, words_subs hO h0 hok, by rw [hws]; rfl⟩
  · exact fit_of_shape (hd hs) (hw i hi)

/-- Tallies without a message. -/
theorem tally_reread (h : TallyAgree d σ) (hO : SubSpec d.sub Ok) (hn : d.msg = none) (hd : ∀ i ∈ d.items, i.slot ≠ some d.slot → detItem i)
    {s : Str} {t : Tally} (ht : tallyParse d s = .ok t) (hl : ∀ x ∈ t.subs, x.lines ≠ []) : tallyParse d (t.str d) = .ok t := by
  apply tally_core h hO ht hl (by intro n e; rw [hn] at e; cases e)
  intro w hw hws h0 hok _
  exact (runsTo_tmpl fun i hi => fit_subs h hO hw hws h0 hok hi (hd i hi)).at []

/-- The pattern of the particles and of the message. -/
def msgItems : List Item :=
  [.gen true 4 (Re.plus true .dot), .gen true 5 (.opt true (.seq (Re.chr '\n') (.star true .dot))), .lit c!"\n \n"]

theorem msg_runs {w : Nat → Str} (h4 : NeLine (w 4)) (h5 : w 5 = []) {R : Str} (hR : ∃ R', R = ' ' :: 'c' :: R') :
    RunsAt (tmplRe msgItems) (tmplText w msgItems) (tmplCaps w msgItems) R := by
  have e1 : tmplText w msgItems = w 4 ++ ['\n', ' ', '\n'] := by simp [msgItems, tmplText, Item.text, h5]
  have e2 : tmplCaps w msgItems = [(5, []), (4, w 4)] := by
    show [(5, w 5), (4, w 4)] = _
    rw [h5]
  rw [e1, e2]
  apply runsAt_unique (by decide)
  · have m1 : Mt (Item.gen true 4 (Re.plus true .dot)).re (w 4) [(4, w 4)] := .grp (mt_dot_self h4)
    have m2 : Mt (Item.gen true 5 (.opt true (.seq (Re.chr '\n') (.star true .dot)))).re [] [(5, [])] := .grp .optNone
    have m3 : Mt (Item.lit c!"\n \n").re c!"\n \n" [] := mt_litC_self _
    have := Mt.seq m1 (.seq m2 (.seq m3 .eps))
    simpa [tmplRe, msgItems] using this
  · intro u e R' hm he
    cases hm with | seq i1 hm =>
    cases hm with | seq i2 hm =>
    cases hm with | seq i3 hm =>
    cases hm
    obtain ⟨f1, j1, rfl⟩ := mt_wrap i1
    obtain ⟨f2, j2, rfl⟩ := mt_wrap i2
    obtain ⟨rfl, rfl⟩ := mt_litC i3
    obtain ⟨rfl, a1, a2⟩ := mt_dot_plus j1
    cases j2 with
    | optNone =>
      simp only [List.append_assoc, List.nil_append, List.append_nil, List.cons_append] at he
      obtain ⟨rfl, _⟩ := split_first a2 h4.2 he
      exact ⟨by simp, rfl⟩
    | optSome j2 =>
      exfalso
      cases j2 with | seq j3 j4 =>
      obtain ⟨rfl, rfl⟩ := mt_chr j3
      obtain ⟨rfl, ws, b1, rfl⟩ := mt_star (by trivial) j4
      have hq : '\n' ∉ ws.flatten := by
        intro hc
        obtain ⟨x, hx, hc⟩ := List.mem_flatten.1 hc
        obtain ⟨b2, _⟩ := b1 x hx
        cases b2 with
        | cls hp =>
          simp only [List.mem_singleton] at hc
          subst hc
          simp at hp
      simp only [List.append_assoc, List.nil_append, List.append_nil, List.cons_append] at he
      obtain ⟨rfl, he2⟩ := split_first a2 h4.2 he
      have he3 : ws.flatten ++ '\n' :: ' ' :: '\n' :: R' = [' '] ++ '\n' :: R := by simpa using he2
      obtain ⟨_, e5⟩ := split_first hq (by decide) he3
      obtain ⟨R2, rfl⟩ := hR
      simp at e5

/-- Tallies with a message, when there is none. -/
theorem tally_reread_msg (h : TallyAgree d σ) (hO : SubSpec d.sub Ok) (hn : d.msg = some 5) (hs : d.slot ≠ 5) (h5 : 5 ≤ d.groups)
    {A B : List Item} (hT : d.items = A ++ (msgItems ++ (Item.many true d.slot (tmplRe (d.sub.items false false)) :: B)))
    (hd : ∀ i ∈ A ++ B, detItem i) (hc : ∀ x : Sub, ∃ r, x.str d.sub = ' ' :: 'c' :: r)
    {s : Str} {t : Tally} (ht : tallyParse d s = .ok t) (hl : ∀ x ∈ t.subs, x.lines ≠ []) (hm : attr t.vals 5 = []) :
    tallyParse d (t.str d) = .ok t := by
  apply tally_core h hO ht hl
  · intro n e
    rw [hn] at e
    cases e
    exact ⟨by omega, h5, fun e => hs e.symm, hm⟩
  · intro w hw hws h0 hok hmsg
    have fitB : RunsTo (tmplRe (Item.many true d.slot (tmplRe (d.sub.items false false)) :: B))
        (tmplText w (Item.many true d.slot (tmplRe (d.sub.items false false)) :: B))
        (tmplCaps w (Item.many true d.slot (tmplRe (d.sub.items false false)) :: B)) := by
      apply runsTo_tmpl
      intro i hi
      rcases List.mem_cons.1 hi with rfl | hi
      · exact ⟨_, words_subs hO h0 hok, by rw [hws]; rfl⟩
      · exact fit_of_shape (hd i (by simp [hi])) (hw i (by rw [hT]; simp [hi]))
    have fitA : RunsTo (tmplRe A) (tmplText w A) (tmplCaps w A) :=
      runsTo_tmpl fun i hi => fit_of_shape (hd i (by simp [hi])) (hw i (by rw [hT]; simp [hi]))
    have h4 : NeLine (w 4) := by
      have : Mt (Re.plus true .dot) (w 4) [] := hw (.gen true 4 (Re.plus true .dot)) (by rw [hT]; simp [msgItems])
      exact ⟨(mt_dot_plus this).2.1, (mt_dot_plus this).2.2⟩
    rw [hT]
    refine runsAt_append (fitA.at _) (runsAt_append (msg_runs h4 (hmsg 5 hn) ?_) (fitB.at []))
    cases hsub : t.subs with
    | nil => exact absurd hsub h0
    | cons x xs =>
      obtain ⟨r, e⟩ := hc x
      refine ⟨r ++ xs.flatMap (Sub.str d.sub) ++ '\n' :: tmplText w B, ?_⟩
      simp [tmplText, Item.text, hws, hsub, e]

end
end Outp
