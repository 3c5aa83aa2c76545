import Verif.Inp.TableAll
import Verif.Inp.CardLemmas
import Verif.Inp.FitsLemmas
import Verif.Inp.AssignMore
/-!
# Card, option and entry properties: C22 – C29, C48

The general theorems hold for every class made of a first word and scalar entries (`c.std h fs`), which are
546 of the 679 classes (`Tab.count`).  Reading is specified entry by entry in `Verif/Inp/WordSpec.lean`
(`readHead`, `assign`) and `Verif/Inp/ReadSpec.lean` (`readWords`), readable values in
`Verif/Inp/RoundSpec.lean`, card texts in `Verif/Inp/CardSpec.lean`.
-/
namespace Props
open Py Types Inp

/-! ## C25 – reading -/

/-- Any card text, with arbitrary spacing, continuation lines and shorthand: every attribute is read from
exactly the entries assigned to its field, and all entries are assigned (`assign_sound`). Missing: classes with fields that
are not scalar entries; for `m` and `fmult` the claim is false (`C25_violated`). -/
theorem C25_card_read_partial (c : Cls) (h : Head) (fs : List Field) (hs : c.shape = .flat h fs) (hst : c.std h fs = true)
    (g0 w0 : Str) (l : List (Gap × Str)) (g1 : Str) (ht : Spaced g0 w0 l g1) :
    cardParse c (g0 ++ (w0 ++ (body l ++ g1))) = (readWords c h fs w0 (entries l)).map (fun v => (v, [])) := by
  obtain ⟨hpre, -, hw⟩ := spaced_prep ht
  unfold cardParse
  rw [hpre]
  obtain ⟨e, -⟩ := flat_read c h fs hs (std_plain hst) w0 _ hw
  rw [← e]
  cases reMatch c.re (w0 ++ enc (entries l)) with
  | none => rfl
  | some m =>
    simp only
    cases c.build m <;> rfl

/-- The text `e4  1 &⏎ 2.5 2j = nt`: the hypotheses of the theorem are met. -/
example : Spaced [] c!"e4" [(.ws c!"  ", c!"1"), (.ws c!" &\n ", c!"2.5"), (.ws c!" ", c!"2j"), (.eq c!" " [], c!"nt")] c!" " where
  first := .nil
  word := by decide
  words := by
    intro x hx
    simp only [List.mem_cons, List.not_mem_nil, or_false] at hx
    rcases hx with rfl | rfl | rfl | rfl
    · exact ⟨⟨.sp (.sp .nil), by decide⟩, by decide⟩
    · exact ⟨⟨.sp (.amp 0 (.sp .nil)), by decide⟩, by decide⟩
    · exact ⟨⟨.sp .nil, by decide⟩, by decide⟩
    · exact ⟨⟨.sp .nil, .nil⟩, by decide⟩
  last := .sp .nil
  low := by decide
  pos := by decide
  adj := by decide

/-- The same for options and entries, read with their own class. Missing: classes with fields that are not scalar entries. -/
theorem C25_option_read_partial (c : Cls) (h : Head) (fs : List Field) (hs : c.shape = .flat h fs) (hst : c.std h fs = true)
    (g0 w0 : Str) (l : List (Gap × Str)) (g1 : Str) (ht : Spaced g0 w0 l g1) :
    unionParse [c] (g0 ++ (w0 ++ (body l ++ g1))) = readWords c h fs w0 (entries l) := by
  obtain ⟨-, hpre, hw⟩ := spaced_prep ht
  unfold unionParse
  rw [hpre]
  obtain ⟨e, e0⟩ := flat_read c h fs hs (std_plain hst) w0 _ hw
  rw [← e]
  unfold firstMatch
  cases hm : reMatch c.re (w0 ++ enc (entries l)) with
  | none => rfl
  | some m => simp only [e0 m hm, if_true]

/-- What reading a text entry by entry guarantees: the entries of the fields, put together, are the entries
of the text; each field has a number of entries that its mode allows, all accepted by it. -/
theorem C25_assign_all (fs : List ((Str → Bool) × Mode)) (ws : List Str) (vs : Assign) (h : assign fs ws = some vs) :
    Fits fs vs ∧ Assign.flat vs = ws := assign_sound h

/-- And a text whose entries fit the fields in some way is never refused for its entries. -/
theorem C25_assign_some (fs : List ((Str → Bool) × Mode)) (vs : Assign) (h : Fits fs vs) :
    (assign fs (Assign.flat vs)).isSome = true := assign_complete h

/-- The attributes of a successfully read object. -/
def attrsOf : Res (Val × List Str) → Option (List Val)
  | .ok (.obj _ l, _) => some l
  | _ => none

/-- The material card drops its options: `m1 1001 1 nlib 80c` is accepted and has no options, because the group
read for that attribute is a group inside the pattern of the ZAID.  `fmult` likewise. -/
theorem C25_violated :
    attrsOf (cardParse Tab.M_0 c!"m1 1001 1 nlib 80c") = some [.sc (.int (.num 1)),
      .tuple [.sc (.subst ⟨⟨1, 1, none⟩, .num (.fin ⟨false, 1, 0⟩)⟩)], .tuple []] ∧
    attrsOf (cardParse Tab.Fmult c!"fmult 92235 sfnu 2.4 width 1.1") = some [.sc (.zaid ⟨92, 235, none⟩), .tuple []] := by
  decide +kernel

/-! ## C23 – printing and reading back -/

theorem mk_obj {c : Cls} {l : List Val} {v : Val} (h : c.mk' l = .ok v) : v = .obj c.info l := by
  unfold Cls.mk' at h
  split at h <;> cases h; rfl

/-- A card whose values are readable is read back unchanged exactly when its printed entries are assigned
to the fields they were printed from. Missing: classes with fields that are not scalar entries, and values without a text
that can be read, such as infinities. -/
theorem C23_card_exact_partial (c : Cls) (h : Head) (fs : List Field) (hs : c.shape = .flat h fs) (hst : c.std h fs = true)
    (hc : c.info.style = .card) (hv fv : List Val) (ho : HeadOk h hv) (hr : ReadVals (c.attrs.drop h.ng) fv)
    (v : Val) (hmk : c.mk' (hv ++ fv) = .ok v) :
    cardParse c v.str = .ok (v, []) ↔
      assign (fs.map Field.spec) (Assign.flat (fv.map Val.words)) = some (fv.map Val.words) := by
  obtain ⟨hd, he, hst', hh, hb, hrd, hw, hrv, hl⟩ := std_facts c h fs hst hv fv ho hr
  have hws : Words (hd :: Assign.flat (fv.map Val.words)) := by
    intro w hw
    rcases List.mem_cons.1 hw with rfl | hw
    · exact ⟨he.sp, he.ne⟩
    · exact ⟨(hst' w hw).entry.sp, (hst' w hw).entry.ne⟩
  have hstr : v.str = postprocess (join [' '] (hd :: Assign.flat (fv.map Val.words))) := by
    rw [mk_obj hmk, obj_str]
    unfold objStr
    simp only [hc]
    rw [hh, hb, strip_text hd _ hws]
  rw [hstr]
  unfold cardParse
  rw [C18_wrap_roundtrip hd _ (fun w hw => by
      rcases List.mem_cons.1 hw with rfl | hw
      · exact he
      · exact (hst' w hw).entry) (fun w hw => (hst' w hw).low) (fun w hw => (hst' w hw).cnt), join_enc]
  obtain ⟨e, -⟩ := flat_read c h fs hs (std_plain hst) hd _ hws
  rw [← readWords_iff c h fs hst hv fv hd hrd hw hrv hl v hmk, ← e]
  cases reMatch c.re (hd ++ enc (Assign.flat (fv.map Val.words))) with
  | none => simp
  | some m =>
    simp only
    cases c.build m with
    | error e => simp
    | ok u => simp

/-- The same for options, which print without line breaks. Missing: as in `C23_card_exact_partial`. -/
theorem C23_option_exact_partial (c : Cls) (h : Head) (fs : List Field) (hs : c.shape = .flat h fs) (hst : c.std h fs = true)
    (hc : c.info.style = .option) (hv fv : List Val) (ho : HeadOk h hv) (hr : ReadVals (c.attrs.drop h.ng) fv)
    (v : Val) (hmk : c.mk' (hv ++ fv) = .ok v) :
    unionParse [c] v.str = .ok v ↔
      assign (fs.map Field.spec) (Assign.flat (fv.map Val.words)) = some (fv.map Val.words) := by
  obtain ⟨hd, he, hst', hh, hb, hrd, hw, hrv, hl⟩ := std_facts c h fs hst hv fv ho hr
  have hstr : v.str = hd ++ ' ' :: join [' '] (Assign.flat (fv.map Val.words)) := by
    rw [mk_obj hmk, obj_str]
    unfold objStr
    simp only [hc]
    rw [hh, hb]
  obtain ⟨l, g1, hsp, htx, hen⟩ := spaced_text hd _ he hst'
  rw [hstr, htx, C25_option_read_partial c h fs hs hst [] hd l g1 hsp, hen]
  exact readWords_iff c h fs hst hv fv hd hrd hw hrv hl v hmk

/-- Cards that round trip: required fields set, no unset field before a set one, lists only in the last place
or before required entries. -/
theorem C23_card_partial (c : Cls) (h : Head) (fs : List Field) (hs : c.shape = .flat h fs) (hst : c.std h fs = true)
    (hn : nativeFields (c.attrs.drop h.ng) fs = true) (hc : c.info.style = .card) (hv fv : List Val) (ho : HeadOk h hv)
    (hr : ReadVals (c.attrs.drop h.ng) fv) (hp : Present (fs.map (·.mode)) fv)
    (hcan : Canon (fs.map (·.mode)) (fv.map Val.words)) (v : Val) (hmk : c.mk' (hv ++ fv) = .ok v) :
    cardParse c v.str = .ok (v, []) := by
  rw [C23_card_exact_partial c h fs hs hst hc hv fv ho hr v hmk]
  exact assign_canon _ _ (fits_vals _ _ _ (std_fields hst) hn hr hp) (by rw [List.map_map]; exact hcan)

/-- Options that round trip. Missing: options with an unset entry before a set one and lists that are followed by other
entries, for which the claim is false (`C24_violated`, `C26_violated`). -/
theorem C23_option_partial (c : Cls) (h : Head) (fs : List Field) (hs : c.shape = .flat h fs) (hst : c.std h fs = true)
    (hn : nativeFields (c.attrs.drop h.ng) fs = true) (hc : c.info.style = .option) (hv fv : List Val) (ho : HeadOk h hv)
    (hr : ReadVals (c.attrs.drop h.ng) fv) (hp : Present (fs.map (·.mode)) fv)
    (hcan : Canon (fs.map (·.mode)) (fv.map Val.words)) (v : Val) (hmk : c.mk' (hv ++ fv) = .ok v) :
    unionParse [c] v.str = .ok v := by
  rw [C23_option_exact_partial c h fs hs hst hc hv fv ho hr v hmk]
  exact assign_canon _ _ (fits_vals _ _ _ (std_fields hst) hn hr hp) (by rw [List.map_map]; exact hcan)

/-- A list of elements printed in the last place, an optional entry left out at the end. -/
example : cardParse Tab.Cut (Val.obj Tab.Cut.info [.sc (.desig ['n']), .sc (.real (.num (.fin ⟨false, 25, -1⟩))),
      .sc (.real (.hor (.jump none))), .none, .none, .none]).str =
    .ok (.obj Tab.Cut.info [.sc (.desig ['n']), .sc (.real (.num (.fin ⟨false, 25, -1⟩))),
      .sc (.real (.hor (.jump none))), .none, .none, .none], []) := by
  refine C23_card_partial Tab.Cut ⟨.no, c!"cut", .no, .req⟩ _ rfl (by decide +kernel) (by decide +kernel) rfl
    [.sc (.desig ['n'])] [.sc (.real (.num (.fin ⟨false, 25, -1⟩))), .sc (.real (.hor (.jump none))), .none, .none, .none]
    ⟨[], [], [.sc (.desig ['n'])], rfl, rfl, rfl, ['n'], rfl, by decide +kernel, by decide, by decide, by decide⟩ ?_ ?_ ?_ _ (by decide +kernel)
  · exact ⟨⟨rfl, .real, rfl, trivial⟩, ⟨rfl, .real, rfl, rfl⟩, trivial, trivial, trivial, trivial⟩
  · exact ⟨.inl rfl, .inl rfl, .inl rfl, .inl rfl, .inl rfl, trivial⟩
  · intro v hv
    revert hv; simp [Val.words]

/-! ## C24 – unset entries -/

/-- For a card all of whose entries are optional and of one type: the printed card is read back unchanged
exactly when no unset entry precedes a set one.  Otherwise later values move to earlier attributes. Missing: the claim
itself, which is false for an unset entry before a set one (`C24_violated`), and cards of entries of several types. -/
theorem C24_holes_partial (c : Cls) (h : Head) (fs : List Field) (hs : c.shape = .flat h fs) (hst : c.std h fs = true)
    (hc : c.info.style = .card) (k : Kind) (hk : ∀ f ∈ fs, f.mode = .opt ∧ f.unit.kind? = some k)
    (hn : nativeFields (c.attrs.drop h.ng) fs = true)
    (hv fv : List Val) (ho : HeadOk h hv) (hr : ReadVals (c.attrs.drop h.ng) fv)
    (v : Val) (hmk : c.mk' (hv ++ fv) = .ok v) :
    cardParse c v.str = .ok (v, []) ↔ fv.Pairwise (fun a b => a = .none → b = .none) := by
  rw [C23_card_exact_partial c h fs hs hst hc hv fv ho hr v hmk]
  have hfit : Fits (fs.map Field.spec) (fv.map Val.words) := by
    refine fits_vals _ _ _ (std_fields hst) hn hr ?_
    have hlen : (c.attrs.drop h.ng).length = fs.length ∧ fv.length = (c.attrs.drop h.ng).length :=
      ⟨okFields_length (std_fields hst), hr.length⟩
    clear hmk ho hs hst hn
    have : fv.length = fs.length := by omega
    clear hlen hr
    induction fs generalizing fv with
    | nil => cases fv with
      | nil => trivial
      | cons a b => simp at this
    | cons f fs ih => cases fv with
      | nil => simp at this
      | cons a b => exact ⟨.inl (hk f (by simp)).1, ih (fun g hg => hk g (by simp [hg])) b (by simpa using this)⟩
  have hone : ∀ u ∈ fv, u.words = none ∧ u = .none ∨ ∃ w, u.words = some [w] := by
    have hmany : ∀ a ∈ c.attrs.drop h.ng, a.many = false := by
      have := std_fields hst
      revert this
      clear hfit hmk ho hs hst hn hr
      generalize c.attrs.drop h.ng = as
      induction fs generalizing as with
      | nil => cases as with
        | nil => intro _ a ha; cases ha
        | cons a b => intro h; cases h
      | cons f fs ih => cases as with
        | nil => intro h; cases h
        | cons a b =>
          intro h
          simp only [okFields, Bool.and_eq_true] at h
          intro x hx
          rcases List.mem_cons.1 hx with rfl | hx
          · have := h.1
            unfold okField at this
            rw [(hk f (by simp)).1] at this
            simpa using this
          · exact ih (fun g hg => hk g (by simp [hg])) b h.2 x hx
    intro u hu
    obtain ⟨a, ha, hav⟩ := readVals_mem hr hu
    cases u with
    | none => exact .inl ⟨rfl, rfl⟩
    | sc s => exact .inr ⟨_, rfl⟩
    | tuple l => have := hav.1; rw [hmany a ha] at this; cases this
    | obj i l => exact False.elim hav
  have hopts := assign_opts (fs.map Field.spec) (by
    intro f hf; obtain ⟨g, hg, rfl⟩ := List.mem_map.1 hf; exact (hk g hg).1) (Assign.flat (fv.map Val.words))
    (fits_length _ (by
      intro f hf; obtain ⟨g, hg, rfl⟩ := List.mem_map.1 hf; exact .inr (hk g hg).1) _ hfit).2 (by
    intro f hf w hw
    obtain ⟨g, hg, rfl⟩ := List.mem_map.1 hf
    obtain ⟨f', hf', ho'⟩ := fits_mem hfit hw
    obtain ⟨g', hg', rfl⟩ := List.mem_map.1 hf'
    simp only [Field.spec] at ho' ⊢
    rw [unitOk_kind (hk g hg).2]
    rw [unitOk_kind (hk g' hg').2] at ho'
    exact ho')
  rw [hopts, Option.some.injEq]
  have hflen : (fs.map Field.spec).length = fv.length := by rw [← hfit.length, List.length_map]
  rw [hflen]
  exact holes_iff fv hone

/-- `cut:n` with only the energy cutoff set reads back as a time cutoff; two positions of `prdmp` likewise. -/
theorem C24_violated :
    cardParse Tab.Cut (Val.obj Tab.Cut.info [.sc (.desig ['n']), .none, .sc (.real (.num (.fin ⟨false, 1, -1⟩))), .none, .none, .none]).str =
      .ok (.obj Tab.Cut.info [.sc (.desig ['n']), .sc (.real (.num (.fin ⟨false, 1, -1⟩))), .none, .none, .none, .none], []) ∧
    cardParse Tab.Prdmp (Val.obj Tab.Prdmp.info [.sc (.int (.num 5)), .none, .none, .sc (.int (.num 2)), .none]).str =
      .ok (.obj Tab.Prdmp.info [.sc (.int (.num 5)), .sc (.int (.num 2)), .none, .none, .none], []) := by
  decide +kernel

/-! ## C26 – bin lists -/

/-- In `e` and `t` cards with at least three entries after the keyword, the last two are always taken as the
flags, whatever they are; the bounds are all the others. Missing: the claim itself, which is false when the flags are left
out (`C26_violated`). -/
theorem C26_last_two_partial (c : Cls) (hc : c = Tab.E ∨ c = Tab.T_0) (g0 w0 : Str) (l : List (Gap × Str)) (g1 : Str)
    (ht : Spaced g0 w0 l g1) (w : Str) (bs : List Str) (a b : Str) (he : entries l = w :: (bs ++ [a, b]))
    (hb : ∀ x ∈ w :: bs, unitOk (.ty (.base .real)) x = true) (v : Val) (cs : List Str)
    (hv : cardParse c (g0 ++ (w0 ++ (body l ++ g1))) = .ok (v, cs)) :
    ∃ s bounds, v = .obj c.info [s, .tuple bounds, .sc (.str a), .sc (.str b)] ∧
      (w :: bs).mapM (Kind.parse .real) = .ok bounds := by
  have hW := (spaced_prep ht).2.2
  have hany : ∀ x ∈ [a, b], unitOk (.ty (.base .str)) x = true := by
    intro x hx
    obtain ⟨h1, h2⟩ := hW x (by
      rw [he]
      simp only [List.mem_cons, List.mem_append, List.not_mem_nil, or_false] at hx ⊢
      exact .inr (.inr (.inr hx)))
    exact (unitOk_iff (.ty (.base .str)) rfl 1 x).2 ⟨[], mt_plus_cls.2 ⟨h2, fun c hc => by simp [h1 c hc], rfl⟩⟩
  have hasg := list_flags (unitOk (.ty (.base .real))) (unitOk (.ty (.base .str))) (unitOk (.ty (.base .str))) w bs a b hb
    (hany a (by simp)) (hany b (by simp))
  have key : ∀ (c : Cls) (kw : Str), c.shape = .flat ⟨.no, kw, .req, .no⟩ [⟨.ty (.base .real), .many⟩, ⟨.ty (.base .str), .opt⟩, ⟨.ty (.base .str), .opt⟩] →
      c.std ⟨.no, kw, .req, .no⟩ [⟨.ty (.base .real), .many⟩, ⟨.ty (.base .str), .opt⟩, ⟨.ty (.base .str), .opt⟩] = true →
      ∀ a1 a2 a3 a4 : Attr, c.attrs = [a1, a2, a3, a4] → (a2.ty = .base .real ∧ a2.many = true) → (a3.ty = .base .str ∧ a3.many = false) →
      (a4.ty = .base .str ∧ a4.many = false) →
      cardParse c (g0 ++ (w0 ++ (body l ++ g1))) = .ok (v, cs) →
      ∃ s bounds, v = .obj c.info [s, .tuple bounds, .sc (.str a), .sc (.str b)] ∧
        (w :: bs).mapM (Kind.parse .real) = .ok bounds := by
    intro c kw hs hst a1 a2 a3 a4 hca p2 p3 p4 hv
    rw [C25_card_read_partial c _ _ hs hst g0 w0 l g1 ht, he] at hv
    unfold readWords at hv
    simp only [List.map_cons, List.map_nil, Field.spec] at hv
    rw [hasg] at hv
    cases hr : readHead ⟨.no, kw, .req, .no⟩ w0 with
    | none => rw [hr] at hv; cases hv
    | some hh =>
      have hl := (readHead_words hr (hW w0 (by simp)).1)
      have hlen : hh.length = 1 := readHead_length hr
      obtain ⟨x, rfl⟩ := List.length_eq_one_iff.1 hlen
      rw [hr] at hv
      rw [hca] at hv
      have r2 : readVal a2 (some (w :: bs)) = ((w :: bs).mapM (Kind.parse .real)).map .tuple := by
        simp only [readVal, p2.1, p2.2, if_true]; rfl
      have r3 : readVal a3 (some [a]) = .ok (.sc (.str a)) := by
        simp only [readVal, p3.1, p3.2]; rfl
      have r4 : readVal a4 (some [b]) = .ok (.sc (.str b)) := by
        simp only [readVal, p4.1, p4.2]; rfl
      simp only [List.map_cons, List.map_nil, List.cons_append, List.nil_append, readVals, r2, r3, r4] at hv
      cases h1 : readVal a1 (x.map ([·])) with
      | error e => rw [h1] at hv; cases hv
      | ok s =>
        rw [h1] at hv
        cases h2 : (w :: bs).mapM (Kind.parse .real) with
        | error e => rw [h2] at hv; cases hv
        | ok bounds =>
          rw [h2] at hv
          simp only [Except.map] at hv
          cases hm : c.mk' [s, .tuple bounds, .sc (.str a), .sc (.str b)] with
          | error e => rw [hm] at hv; cases hv
          | ok u =>
            rw [hm] at hv
            simp only [Except.ok.injEq, Prod.mk.injEq] at hv
            exact ⟨s, bounds, by rw [← hv.1, mk_obj hm], rfl⟩
  rcases hc with rfl | rfl
  · exact key Tab.E c!"e" rfl (by decide +kernel) _ _ _ _ rfl ⟨rfl, rfl⟩ ⟨rfl, rfl⟩ ⟨rfl, rfl⟩ hv
  · exact key Tab.T_0 c!"t" rfl (by decide +kernel) _ _ _ _ rfl ⟨rfl, rfl⟩ ⟨rfl, rfl⟩ ⟨rfl, rfl⟩ hv

/-- Four bounds: two of them end up as flags. -/
theorem C26_violated :
    attrsOf (cardParse Tab.E c!"e4 1 2 3 4") = some [.sc (.int (.num 4)),
      .tuple [.sc (.real (.num (.fin ⟨false, 1, 0⟩))), .sc (.real (.num (.fin ⟨false, 2, 0⟩)))], .sc (.str ['3']), .sc (.str ['4'])] ∧
    attrsOf (cardParse Tab.T_0 c!"t4 1 2") = some [.sc (.int (.num 4)),
      .tuple [.sc (.real (.num (.fin ⟨false, 1, 0⟩)))], .sc (.str ['2']), .none] ∧
    attrsOf (cardParse Tab.C c!"c4 1 2 3 4") = some [.none, .sc (.int (.num 4)),
      .tuple [.sc (.real (.num (.fin ⟨false, 1, 0⟩))), .sc (.real (.num (.fin ⟨false, 2, 0⟩)))], .sc (.str ['3']), .sc (.str ['4'])] := by
  decide +kernel

/-! ## C27 – adjacent lists -/

/-- `histp` is read back unchanged exactly when the history length is set or there are no cells. Missing: the claim itself,
which is false for cells without a history length (`C27_violated`). -/
theorem C27_histp_partial (lhist cells : Val)
    (hr : ReadVals Tab.Histp.attrs [lhist, cells]) (v : Val) (hmk : Tab.Histp.mk' [lhist, cells] = .ok v) :
    cardParse Tab.Histp v.str = .ok (v, []) ↔ lhist ≠ .none ∨ cells = .none := by
  rw [C23_card_exact_partial Tab.Histp ⟨.no, c!"histp", .no, .no⟩ _ rfl (by decide +kernel) rfl [] [lhist, cells]
    ⟨[], [], [], rfl, rfl, rfl, rfl⟩ hr v hmk]
  have hfit := fits_vals Tab.Histp.attrs [⟨.ty (.base .int), .opt⟩, ⟨.ty (.base .int), .manyOpt⟩] [lhist, cells] rfl rfl hr
    ⟨.inl rfl, .inr (.inl rfl), trivial⟩
  simp only [List.map_cons, List.map_nil, Field.spec] at hfit ⊢
  obtain ⟨h1, h2, -⟩ := hr
  cases lhist with
  | obj _ _ => exact False.elim h1
  | tuple _ => have := h1.1; cases this
  | sc s =>
    have hcan := assign_canon _ _ hfit (by cases cells <;> simp [Canon, Val.words])
    rw [hcan]
    simp
  | none =>
    cases cells with
    | obj _ _ => exact False.elim h2
    | sc _ => have := h2.1; cases this
    | none => simp [Val.words, Assign.flat, assign, takeOne, takeMany]
    | tuple l =>
      have hne : l ≠ [] := h2.2.1
      have hok : ∀ u ∈ l.map Val.str, unitOk (.ty (.base .int)) u = true := hfit.2.2.1
      simp only [Val.words, Assign.flat, List.flatMap_cons, List.flatMap_nil, Option.getD_none, Option.getD_some, List.nil_append,
        List.append_nil, ne_eq, not_true_eq_false, reduceCtorEq, or_self, iff_false]
      match l, hne with
      | [x], _ => rw [List.map_cons, List.map_nil, opt_list_one _ _ (hok _ (by simp))]; simp
      | x :: y :: l, _ =>
        simp only [List.map_cons]
        rw [opt_list _ _ _ _ (by simpa using hok)]; simp

example : ReadVals Tab.Histp.attrs [.none, .tuple [.sc (.int (.num 1)), .sc (.int (.num 2))]] :=
  ⟨trivial, ⟨rfl, by simp, .int, rfl, by
    intro v hv
    simp only [List.mem_cons, List.not_mem_nil, or_false] at hv
    rcases hv with rfl | rfl <;> exact ⟨_, rfl, trivial⟩⟩, trivial⟩

/-- Two lists of two surfaces and one cell: after reading there is one surface and two cells. -/
theorem C27_violated :
    cardParse Tab.Ssw (Val.obj Tab.Ssw.info [.tuple [.sc (.int (.num 1)), .sc (.int (.num 2))], .tuple [.sc (.int (.num 3))], .none]).str =
      .ok (.obj Tab.Ssw.info [.tuple [.sc (.int (.num 1))], .tuple [.sc (.int (.num 2)), .sc (.int (.num 3))], .none], []) ∧
    cardParse Tab.Histp (Val.obj Tab.Histp.info [.none, .tuple [.sc (.int (.num 1)), .sc (.int (.num 2))]]).str =
      .ok (.obj Tab.Histp.info [.sc (.int (.num 1)), .tuple [.sc (.int (.num 2))]], []) := by
  decide +kernel

/-! ## C48 – unions -/

/-- Options and entries: the text is read by the first class, in declaration order, that accepts the first
word and can place all entries; it fails with an input error only if no class does. -/
theorem C48_option_union_partial (cs : List Cls) (hp : ∀ c ∈ cs, c.isPlain = true)
    (g0 w0 : Str) (l : List (Gap × Str)) (g1 : Str) (ht : Spaced g0 w0 l g1) :
    unionParse cs (g0 ++ (w0 ++ (body l ++ g1))) =
      match cs.find? (fun c => c.accepts w0 (entries l)) with
      | none => .error .inp
      | some c => c.readW w0 (entries l) := by
  obtain ⟨-, hpre, hw⟩ := spaced_prep ht
  unfold unionParse
  rw [hpre]
  induction cs with
  | nil => rfl
  | cons c cs ih =>
    obtain ⟨e1, e2, e3⟩ := plain_match c (hp c (by simp)) w0 (entries l) hw
    unfold firstMatch
    cases hm : reMatch c.re (w0 ++ enc (entries l)) with
    | none =>
      rw [hm] at e3
      rw [List.find?_cons_of_neg (by rw [← e3]; simp)]
      exact ih (fun d hd => hp d (by simp [hd]))
    | some m =>
      rw [hm] at e1 e3
      rw [List.find?_cons_of_pos (by rw [← e3]; rfl)]
      simp only [e2 m hm, if_true]
      exact e1

/-- A union of card classes returns the card of a class that reads the text, all classes before it having
refused it; conversely such a class determines the result. -/
theorem C48_card_union (cs : List Cls) (s : Str) (r : Val × List Str) :
    cardUnion cs s = .ok r ↔
      ∃ before c after, cs = before ++ c :: after ∧ cardParse c s = .ok r ∧
        ∀ d ∈ before, ∃ e : Err, cardParse d s = .error e ∧ e.isLibrary = true := by
  induction cs with
  | nil =>
    constructor
    · intro h; cases h
    · rintro ⟨b, c, a, h, -⟩; simp at h
  | cons d cs ih =>
    unfold cardUnion
    cases hd : cardParse d s with
    | ok v =>
      simp only [Except.ok.injEq]
      constructor
      · rintro rfl; exact ⟨[], d, cs, rfl, hd, by simp⟩
      · rintro ⟨b, c, a, h, hc, hb⟩
        cases b with
        | nil =>
          simp only [List.nil_append, List.cons.injEq] at h
          rw [← h.1, hd] at hc; cases hc; rfl
        | cons x b =>
          simp only [List.cons_append, List.cons.injEq] at h
          obtain ⟨e, he, -⟩ := hb x (by simp)
          rw [← h.1, hd] at he; cases he
    | error e =>
      simp only
      cases hl : e.isLibrary with
      | true =>
        rw [if_pos rfl, ih]
        constructor
        · rintro ⟨b, c, a, rfl, hc, hb⟩
          refine ⟨d :: b, c, a, rfl, hc, ?_⟩
          intro x hx
          rcases List.mem_cons.1 hx with rfl | hx
          · exact ⟨e, hd, hl⟩
          · exact hb x hx
        · rintro ⟨b, c, a, h, hc, hb⟩
          cases b with
          | nil =>
            simp only [List.nil_append, List.cons.injEq] at h
            rw [← h.1, hd] at hc; cases hc
          | cons x b =>
            simp only [List.cons_append, List.cons.injEq] at h
            exact ⟨b, c, a, h.2, hc, fun y hy => hb y (by simp [hy])⟩
      | false =>
        rw [if_neg (by simp)]
        constructor
        · intro h; cases h
        · rintro ⟨b, c, a, h, hc, hb⟩
          cases b with
          | nil =>
            simp only [List.nil_append, List.cons.injEq] at h
            rw [← h.1, hd] at hc; cases hc
          | cons x b =>
            simp only [List.cons_append, List.cons.injEq] at h
            obtain ⟨e', he, hl'⟩ := hb x (by simp)
            rw [← h.1, hd] at he; cases he
            rw [hl] at hl'; cases hl'

/-- When a union reports its own error, every class has refused the text. -/
theorem C48_card_union_fails (cs : List Cls) (s : Str) (e : Err) (h : cardUnion cs s = .error e) (hl : e.isLibrary = true) :
    e = .types ∧ ∀ d ∈ cs, ∃ e' : Err, cardParse d s = .error e' ∧ e'.isLibrary = true := by
  induction cs with
  | nil => cases h; exact ⟨rfl, by simp⟩
  | cons d cs ih =>
    unfold cardUnion at h
    cases hd : cardParse d s with
    | ok v => rw [hd] at h; cases h
    | error e' =>
      rw [hd] at h
      simp only at h
      cases hl' : e'.isLibrary with
      | true =>
        rw [hl', if_pos rfl] at h
        obtain ⟨h1, h2⟩ := ih h
        refine ⟨h1, ?_⟩
        intro x hx
        rcases List.mem_cons.1 hx with rfl | hx
        · exact ⟨e', hd, hl'⟩
        · exact h2 x hx
      | false =>
        rw [hl', if_neg (by simp)] at h
        cases h; rw [hl] at hl'; cases hl'

/-- A class that raises an error of another kind ends the search: `nps j` fails with a `TypeError` in `Nps`. -/
theorem C48_violated : cardUnion [Tab.Nps] c!"nps j" = .error .typeErr := by decide +kernel

/-! ## C28 – transformations -/

/-- The transformation cards in the order of the data union (src/pymcnp/Inp.py:139-143). -/
def trs : List Cls := [Tab.Tr_0, Tab.Tr_1, Tab.Tr_2, Tab.Tr_3, Tab.Tr_4]

/-- Number of entries without the system flag. -/
def trN (i : Nat) : Nat := [12, 9, 8, 6, 3].getD i 0

def trHead : Head := ⟨.star, c!"tr", .req, .no⟩
def trFields (n : Nat) : List Field := List.replicate n ⟨.ty (.base .real), .req⟩ ++ [⟨.ty (.base .int), .opt⟩]

theorem trs_shape : ∀ (i : Nat) (c : Cls), trs[i]? = some c → c.shape = .flat trHead (trFields (trN i)) ∧ c.info.style = .card := by
  intro i c h
  match i with
  | 0 | 1 | 2 | 3 | 4 => cases h; exact ⟨rfl, rfl⟩
  | _ + 5 => cases h

theorem trs_std : ∀ (i : Nat) (c : Cls), trs[i]? = some c → c.std trHead (trFields (trN i)) = true ∧
    nativeFields (c.attrs.drop trHead.ng) (trFields (trN i)) = true := by
  intro i c h
  match i with
  | 0 | 1 | 2 | 3 | 4 => cases h; decide +kernel
  | _ + 5 => cases h

/-- A transformation card with readable entries is read back by the union as the same card, except the one
with eight entries and a system flag. Missing: the union with all other data cards (see C70) and eight entries with a system
flag, for which the claim is false (`C28_violated`). -/
theorem C28_partial (i : Nat) (c : Cls) (hc : trs[i]? = some c) (hv fv : List Val) (m : Val)
    (ho : HeadOk trHead hv) (hr : ReadVals (c.attrs.drop trHead.ng) (fv ++ [m])) (hset : ∀ x ∈ fv, x ≠ .none)
    (hne : ¬ (i = 2 ∧ m ≠ .none)) (v : Val) (hmk : c.mk' (hv ++ (fv ++ [m])) = .ok v) :
    cardUnion trs v.str = .ok (v, []) := by
  obtain ⟨hs, hsty⟩ := trs_shape i c hc
  obtain ⟨hst, hn⟩ := trs_std i c hc
  have hmode : ∀ n f, f ∈ (trFields n).map Field.spec → f.2 = .req ∨ f.2 = .opt := by
    intro n f hf
    obtain ⟨g, hg, rfl⟩ := List.mem_map.1 hf
    rcases List.mem_append.1 hg with hg | hg
    · rw [(List.mem_replicate.1 hg).2]; exact .inl rfl
    · simp only [List.mem_singleton] at hg; subst hg; exact .inr rfl
  have hreq : ∀ n, (((trFields n).map Field.spec).filter (fun f => f.2 == .req)).length = n := by
    intro n
    simp only [trFields, List.map_append, List.map_replicate, List.filter_append, List.length_append, List.map_cons, List.map_nil]
    rw [List.filter_eq_self.2 (by intro a ha; rw [(List.mem_replicate.1 ha).2]; rfl)]
    simp [Field.spec]
  have hlen : (fv ++ [m]).length = (trFields (trN i)).length := by
    rw [hr.length, okFields_length (std_fields hst)]
  have hpres : ∀ (n : Nat) (fv : List Val), (∀ x ∈ fv, x ≠ .none) → (fv ++ [m]).length = (trFields n).length →
      Present ((trFields n).map (·.mode)) (fv ++ [m]) ∧ Canon ((trFields n).map (·.mode)) ((fv ++ [m]).map Val.words) := by
    intro n
    induction n with
    | zero =>
      intro fv _ hl
      have : fv = [] := by
        cases fv with
        | nil => rfl
        | cons a b => simp [trFields] at hl
      subst this
      refine ⟨⟨.inl rfl, trivial⟩, ?_⟩
      show Canon [.opt] [m.words]
      cases m.words <;> simp [Canon]
    | succ n ih =>
      intro fv hx hl
      cases fv with
      | nil => simp [trFields] at hl
      | cons a fv =>
        obtain ⟨i1, i2⟩ := ih fv (fun x h => hx x (by simp [h])) (by simpa [trFields] using hl)
        have e : trFields (n + 1) = ⟨.ty (.base .real), .req⟩ :: trFields n := rfl
        rw [e]
        refine ⟨⟨.inr (.inr (hx a (by simp))), i1⟩, ?_⟩
        have : ∃ w, a.words = some w := by
          cases a with
          | none => exact absurd rfl (hx .none (by simp))
          | sc _ | tuple _ | obj _ _ => exact ⟨_, rfl⟩
        obtain ⟨w, hw⟩ := this
        rw [List.cons_append, List.map_cons, List.map_cons, hw]
        exact i2
  obtain ⟨hp, hcan⟩ := hpres _ fv hset hlen
  have hok := C23_card_partial c _ _ hs hst hn hsty hv (fv ++ [m]) ho hr hp hcan v hmk
  have hfit := fits_vals _ _ _ (std_fields hst) hn hr hp
  rw [C48_card_union]
  refine ⟨trs.take i, c, trs.drop (i + 1), ?_, hok, ?_⟩
  · obtain ⟨hi, hg⟩ := List.getElem?_eq_some_iff.1 hc
    rw [← hg, List.getElem_cons_drop, List.take_append_drop]
  · intro d hd
    obtain ⟨j, hj, hjd⟩ := List.mem_iff_getElem.1 hd
    rw [List.length_take] at hj
    rw [List.getElem_take] at hjd
    have hdj : trs[j]? = some d := by rw [← hjd]; exact List.getElem?_eq_getElem (by omega)
    obtain ⟨hs', -⟩ := trs_shape j d hdj
    obtain ⟨hst', -⟩ := trs_std j d hdj
    obtain ⟨hd', he, hstb, hh, hb, -⟩ := std_facts c _ _ hst hv (fv ++ [m]) ho hr
    have hws : Words (hd' :: Assign.flat ((fv ++ [m]).map Val.words)) := by
      intro w hw
      rcases List.mem_cons.1 hw with rfl | hw
      · exact ⟨he.sp, he.ne⟩
      · exact ⟨(hstb w hw).entry.sp, (hstb w hw).entry.ne⟩
    have hstr : v.str = postprocess (join [' '] (hd' :: Assign.flat ((fv ++ [m]).map Val.words))) := by
      rw [mk_obj hmk, obj_str]
      unfold objStr
      simp only [hsty]
      rw [hh, hb, strip_text hd' _ hws]
    refine ⟨.inp, ?_, rfl⟩
    rw [hstr]
    unfold cardParse
    rw [C18_wrap_roundtrip hd' _ (fun w hw => by
        rcases List.mem_cons.1 hw with rfl | hw
        · exact he
        · exact (hstb w hw).entry) (fun w hw => (hstb w hw).low) (fun w hw => (hstb w hw).cnt), join_enc]
    have hpl : d.isPlain = true := by unfold Cls.isPlain; rw [hs']; exact std_plain hst'
    obtain ⟨-, -, e3⟩ := plain_match d hpl hd' (Assign.flat ((fv ++ [m]).map Val.words)) hws
    have hrej : d.accepts hd' (Assign.flat ((fv ++ [m]).map Val.words)) = false := by
      unfold Cls.accepts
      rw [hs']
      simp only
      rw [assign_length _ (hmode _) _ (by
        left
        rw [hreq]
        have hub := (fits_length _ (hmode _) _ hfit).2
        have hji : j < i := by omega
        have hi5 : i < 5 := by
          obtain ⟨hi, -⟩ := List.getElem?_eq_some_iff.1 hc
          exact hi
        have hub' : m = .none → (Assign.flat ((fv ++ [m]).map Val.words)).length ≤ trN i := by
          rintro rfl
          have hone : ∀ x ∈ fv, ∃ w, x.words = some [w] := by
            intro x hx
            have : ∀ (n : Nat) (fv : List Val) , Fits ((trFields n).map Field.spec) ((fv ++ [Val.none]).map Val.words) →
                (∀ x ∈ fv, x ≠ .none) → (fv ++ [Val.none]).length = (trFields n).length → ∀ x ∈ fv, ∃ w, x.words = some [w] := by
              intro n
              induction n with
              | zero =>
                intro fv _ _ hl x hx
                cases fv with
                | nil => cases hx
                | cons a b => simp [trFields] at hl
              | succ n ih =>
                intro fv hf hx hl y hy
                cases fv with
                | nil => cases hy
                | cons a b =>
                  have e : trFields (n + 1) = ⟨.ty (.base .real), .req⟩ :: trFields n := rfl
                  rw [e, List.cons_append, List.map_cons, List.map_cons] at hf
                  cases haw : a.words with
                  | none => rw [haw] at hf; rcases hf.1 with h | h <;> cases h
                  | some ws =>
                    rw [haw] at hf
                    obtain ⟨w, rfl⟩ := List.length_eq_one_iff.1 (hf.2.2.1 (.inl rfl))
                    rcases List.mem_cons.1 hy with rfl | hy
                    · exact ⟨w, haw⟩
                    · exact ih b hf.2.2.2 (fun x h => hx x (by simp [h])) (by simpa [trFields] using hl) y hy
            exact this _ fv hfit hset hlen x hx
          have hcount : ∀ fv : List Val, (∀ x ∈ fv, ∃ w, x.words = some [w]) →
              (Assign.flat ((fv ++ [Val.none]).map Val.words)).length = fv.length := by
            intro fv
            induction fv with
            | nil => intro _; rfl
            | cons a b ih =>
              intro h
              obtain ⟨w, hw⟩ := h a (by simp)
              rw [List.cons_append, List.map_cons, hw, flat_cons_some, List.length_append, ih (fun x hx => h x (by simp [hx]))]
              simp; omega
          rw [hcount fv hone]
          simp [trFields] at hlen
          omega
        have hl2 : ((trFields (trN i)).map Field.spec).length = trN i + 1 := by simp [trFields]
        rw [hl2] at hub
        have tab : ∀ i : Fin 5, ∀ j : Fin 5, j < i → trN i.1 + 1 < trN j.1 ∨ (i.1 = 2 ∧ trN i.1 < trN j.1) := by decide
        rcases tab ⟨i, hi5⟩ ⟨j, by omega⟩ hji with h | h
        · simp only at h; omega
        · simp only at h
          have : m = .none := by
            by_cases hm : m = .none
            · exact hm
            · exact absurd ⟨h.1, hm⟩ hne
          have := hub' this
          omega)]
      simp
    rw [hrej] at e3
    cases hm : reMatch d.re (hd' ++ enc (Assign.flat ((fv ++ [m]).map Val.words))) with
    | none => rfl
    | some x => rw [hm] at e3; cases e3

/-- `*tr7` with three entries and the system flag. -/
example : cardUnion trs (Val.obj Tab.Tr_4.info [.sc (.str ['*']), .sc (.int (.num 7)), .sc (.real (.num (.fin ⟨false, 1, 0⟩))),
      .sc (.real (.num (.fin ⟨true, 25, -1⟩))), .sc (.real (.num (.fin ⟨false, 0, 0⟩))), .sc (.int (.num 1))]).str =
    .ok (.obj Tab.Tr_4.info [.sc (.str ['*']), .sc (.int (.num 7)), .sc (.real (.num (.fin ⟨false, 1, 0⟩))),
      .sc (.real (.num (.fin ⟨true, 25, -1⟩))), .sc (.real (.num (.fin ⟨false, 0, 0⟩))), .sc (.int (.num 1))], []) := by
  refine C28_partial 4 Tab.Tr_4 rfl [.sc (.str ['*']), .sc (.int (.num 7))] [.sc (.real (.num (.fin ⟨false, 1, 0⟩))),
      .sc (.real (.num (.fin ⟨true, 25, -1⟩))), .sc (.real (.num (.fin ⟨false, 0, 0⟩)))] (.sc (.int (.num 1)))
    ⟨[.sc (.str ['*'])], [.sc (.int (.num 7))], [], rfl, .inr ⟨'*', by decide, rfl⟩, ⟨7, rfl⟩, rfl⟩ ?_ (by simp) (by simp) _ (by decide +kernel)
  exact ⟨⟨rfl, .real, rfl, trivial⟩, ⟨rfl, .real, rfl, trivial⟩, ⟨rfl, .real, rfl, trivial⟩, ⟨rfl, .int, rfl, trivial⟩, trivial⟩

/-- Eight entries and a system flag are read as the card with nine entries. -/
theorem C28_violated :
    (cardUnion trs c!"tr5 1 2 3 1 0 0 0 1 -1").map (fun r => match r.1 with | .obj i l => (i.name, l.length) | _ => ("", 0)) =
      .ok ("Tr_1", 12) ∧
    (cardUnion [Tab.Tr_2] c!"tr5 1 2 3 1 0 0 0 1 -1").map (fun r => match r.1 with | .obj i l => (i.name, l.getLast?) | _ => ("", none)) =
      .ok ("Tr_2", some (.sc (.int (.num (-1))))) := by
  decide +kernel

/-! ## C29 – letter case of the keyword -/

theorem readHead_case (h : Head) (hok : h.ok = true) (p k k' t : Str) (hp : p = [] ∨ ∃ c ∈ h.pre.chars, p = [c])
    (hk : lower k = lower h.kw) (hk' : lower k' = lower h.kw) :
    readHead h (p ++ (k ++ t)) = readHead h (p ++ (k' ++ t)) := by
  have hlen : k.length = h.kw.length := lower_length hk
  have hlen' : k'.length = h.kw.length := lower_length hk'
  have hkw : ∀ k : Str, lower k = lower h.kw → readKw h.kw (k ++ t) = some t := by
    intro k hk
    have hl : k.length = h.kw.length := lower_length hk
    unfold readKw
    rw [← hl, List.take_left, List.drop_left, if_pos hk]
  have hpre : ∀ k : Str, lower k = lower h.kw → readPre h.pre (p ++ (k ++ t)) =
      (if h.pre = .no then [] else [if p = [] then none else some p], k ++ t) := by
    intro k hk
    obtain ⟨k1, k2⟩ := kw_head hok hk t
    unfold readPre
    by_cases h0 : h.pre = .no
    · rw [if_pos h0, if_pos h0]
      rcases hp with rfl | ⟨c, hc, rfl⟩
      · rfl
      · rw [h0] at hc; cases hc
    · rw [if_neg h0, if_neg h0]
      rcases hp with rfl | ⟨c, hc, rfl⟩
      · cases hkt : k ++ t with
        | nil => exact absurd hkt k2
        | cons x r =>
          have hx := k1 x (by rw [hkt]; rfl)
          simp only [List.nil_append]
          rw [if_neg]
          · rfl
          · intro hm
            rcases Pre.chars_mem hm with e | e
            · exact hx.1 e
            · exact hx.2 e
      · simp only [List.cons_append, List.nil_append]
        rw [if_pos hc]; rfl
  unfold readHead
  rw [hpre k hk, hpre k' hk']
  simp only [hkw k hk, hkw k' hk']

/-- The letter case of the keyword changes neither acceptance nor any attribute. Missing: the entries, see
`C29_case_partial`; for all of the text the claim is false (`C29_violated`). -/
theorem C29_keyword_case_partial (c : Cls) (h : Head) (fs : List Field) (hs : c.shape = .flat h fs) (hst : c.std h fs = true)
    (g0 p k k' t : Str) (l : List (Gap × Str)) (g1 : Str) (hp : p = [] ∨ ∃ c ∈ h.pre.chars, p = [c])
    (hk : lower k = lower h.kw) (hk' : lower k' = lower h.kw)
    (ht : Spaced g0 (p ++ (k ++ t)) l g1) (ht' : Spaced g0 (p ++ (k' ++ t)) l g1) :
    cardParse c (g0 ++ ((p ++ (k ++ t)) ++ (body l ++ g1))) = cardParse c (g0 ++ ((p ++ (k' ++ t)) ++ (body l ++ g1))) := by
  have hok : h.ok = true := by
    simp only [Cls.std, Cls.plain, Bool.and_eq_true] at hst
    exact hst.1.1.1.1.1.1.1.1.1.1.1.1
  rw [C25_card_read_partial c h fs hs hst _ _ _ _ ht, C25_card_read_partial c h fs hs hst _ _ _ _ ht']
  unfold readWords
  rw [readHead_case h hok p k k' t hp hk hk']

example : lower c!"CuT" = lower (Head.kw ⟨.no, c!"cut", .no, .req⟩) ∧ Entry ([] ++ (c!"CuT" ++ c!":n")) := by decide

set_option maxRecDepth 20000 in
/-- The number of classes to which `C23_card_partial` and `C23_option_partial` apply. -/
theorem native_count : (Tab.classes.filter (fun c => match c.shape with
    | .flat h fs => c.std h fs && nativeFields (c.attrs.drop h.ng) fs | .other _ => false)).length = 536 := by
  decide +kernel

/-! ## C22 – comments -/

/-- The comment of `nps 5 $ runs` is collected when reading, but not part of the printed card. -/
theorem C22_violated : ∃ v, cardParse Tab.Nps c!"nps 5 $ runs" = .ok (v, [c!" runs"]) ∧ v.str = c!"nps 5" :=
  ⟨.obj Tab.Nps.info [.sc (.int (.num 5)), .none], by decide +kernel, by decide +kernel⟩

end Props
