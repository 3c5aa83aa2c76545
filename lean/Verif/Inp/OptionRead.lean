import Verif.Inp.OptionLemmas
/-!
# Lists of options: reading
-/
namespace Inp
open Py Types

/-! ## The list of options -/

theorem placed_end {fs : List Field} {ws : List Str} {nx : Option Str} (h : placed fs ws nx = true) : placed fs ws none = true := by
  induction fs generalizing ws with
  | nil => cases ws with
    | nil => rfl
    | cons => cases h
  | cons f fs ih =>
    cases ws with
    | nil =>
      unfold placed at h
      simp only [Bool.and_eq_true] at h
      show ((f.mode == .opt || f.mode == .manyOpt) && true && placed fs [] none) = true
      rw [h.1.1, ih h.2]; rfl
    | cons w ws =>
      simp only [placed, Bool.and_eq_true] at h ⊢
      exact ⟨h.1, ih h.2⟩

theorem takes_end {c : Cls} {hd ws nx} (h : c.takes hd ws nx = true) : c.takes hd ws none = true := by
  unfold Cls.takes at h ⊢
  rw [Bool.and_eq_true] at h ⊢
  refine ⟨h.1, ?_⟩
  have h2 := h.2
  split at h2
  · rename_i hd' fs hs
    rw [Bool.and_eq_true] at h2 ⊢
    exact ⟨h2.1, placed_end h2.2⟩
  · cases h2

theorem takes_full {c : Cls} {hd ws nx} (h : c.takes hd ws nx = true) (hg : c.pat.Good) (hw : Words (hd :: ws)) :
    Full (c.pat.re 1) (hd ++ enc ws) := by
  obtain ⟨e, he⟩ := free_option c hd ws [] (takes_end h) hw 1 [] [] some (fun _ => rfl)
  rw [List.append_nil] at he
  obtain ⟨st', h1, h2⟩ := (run_spec (c.pat.re 1) _ _).2 _ he
  simp only [Option.some.injEq] at h2
  obtain ⟨u, e', m1, m2, -, -⟩ := h1.mt (hg.any 1).1
  rw [h2] at m2
  simp only [enc_nil, List.append_nil] at m2
  exact ⟨e', by rw [m2]; exact m1⟩

theorem anchored_whole {p : Re} {s : Str} {m} (h : reMatch (anchored p) s = some m) : cap m 0 = some s := by
  obtain ⟨st', h1, h2⟩ := reMatch_some h
  unfold anchored at h1
  rcases h1 with ⟨⟩
  rename_i s2 _ h3
  rcases h3 with ⟨⟩
  rename_i s3 _ h4
  cases h4
  rename_i hr
  rw [h2, hr]
  simp [cap]

/-- One option. -/
theorem option_read (cs : List Cls) (d : Cls) (hd : Str) (ws : List Str) (ho : wholeOf cs (hd ++ enc ws) = some d)
    (hpl : d.isPlain = true) (he : Entry hd) (hs : ∀ w ∈ ws, Stable w) : unionParse cs (hd ++ enc ws) = d.readW hd ws := by
  obtain ⟨h1, h2⟩ := spaced_single hd ws [] he hs .nil
  have := spaced_prep h1
  rw [single_body, h2] at this
  obtain ⟨-, h3, h4⟩ := this
  rw [List.nil_append, List.append_nil] at h3
  obtain ⟨e1, -, -⟩ := plain_match d hpl hd ws h4
  have key : ∀ ds : List Cls, ds.find? (fun c => (reMatch c.re (hd ++ enc ws)).isSome) = some d →
      ∃ m, reMatch d.re (hd ++ enc ws) = some m ∧ firstMatch (hd ++ enc ws) ds = some (d, m) := by
    intro ds
    induction ds with
    | nil => intro h; cases h
    | cons x ds ih =>
      intro h
      unfold firstMatch
      cases hx : reMatch x.re (hd ++ enc ws) with
      | none =>
        rw [List.find?_cons_of_neg (by rw [hx]; simp)] at h
        exact ih h
      | some m =>
        rw [List.find?_cons_of_pos (by rw [hx]; rfl)] at h
        simp only [Option.some.injEq] at h
        subst h
        have hw0 : cap m 0 = some (hd ++ enc ws) := anchored_whole hx
        exact ⟨m, hx, by simp only [hw0, if_true]⟩
  obtain ⟨m, hm, hf⟩ := key cs ho
  rw [hm] at e1
  unfold unionParse
  rw [h3, hf]
  exact e1

/-- Options are read one by one. -/
theorem options_mapM (cs : List Cls) : ∀ (l : List Opt), splits cs l = true →
    (∀ i ∈ l, Entry i.1 ∧ ∀ w ∈ i.2, Stable w) →
    (l.map (fun i => i.1 ++ enc i.2)).mapM (unionParse cs) = readOpts cs l := by
  intro l
  induction l with
  | nil => intro _ _; rfl
  | cons i l ih =>
    intro hs hw
    obtain ⟨hd, ws⟩ := i
    simp only [splits, Bool.and_eq_true] at hs
    obtain ⟨⟨-, hs1⟩, hs2⟩ := hs
    split at hs1
    · rename_i d hc
      have h1 := option_read cs d hd ws hc hs1 (hw (hd, ws) (by simp)).1 (hw (hd, ws) (by simp)).2
      have h2 := ih hs2 (fun i hi => hw i (by simp [hi]))
      simp only [List.map_cons, List.mapM_cons, readOpts, hc, h1, h2]
      cases d.readW hd ws with
      | error e => rfl
      | ok v => cases readOpts cs l with
        | error e => rfl
        | ok vs => rfl
    · cases hs1

theorem opt_words {l : List Opt} (hw : ∀ i ∈ l, Entry i.1 ∧ ∀ w ∈ i.2, Stable w) : Words (optWords l) := by
  intro w h
  obtain ⟨i, hi, hwi⟩ := List.mem_flatMap.1 h
  obtain ⟨h1, h2⟩ := hw i hi
  rcases List.mem_cons.1 hwi with rfl | h
  · exact ⟨h1.sp, h1.ne⟩
  · exact ⟨(h2 w h).entry.sp, (h2 w h).entry.ne⟩

/-- `Tuple(T).from_mcnp` for a type with option classes `cs`. -/
theorem options_read (nm : String) (cs : List Cls) (hg : ∀ c ∈ cs, c.pat.Good) (hb : ∀ c ∈ cs, c.pat.nb = true)
    (hd : Str) (ws : List Str) (l : List Opt) (hs : splits cs ((hd, ws) :: l) = true)
    (hw : ∀ i ∈ (hd, ws) :: l, Entry i.1 ∧ ∀ w ∈ i.2, Stable w) :
    tupleParse (unionTy nm cs) (hd ++ enc (ws ++ optWords l)) = (readOpts cs ((hd, ws) :: l)).map .tuple := by
  unfold tupleParse
  have : (unionTy nm cs).re 1 = altsRe (sortLen cs) 1 := rfl
  rw [this, options_split cs hg hb hd ws l (opt_words hw) hs]
  have : (unionTy nm cs).parse = unionParse cs := rfl
  rw [this, options_mapM cs _ hs hw]

/-! ## Cards -/

/-- A card made of a head, single entries and a list of options. -/
structure OptCard (c : Cls) (h : Head) (gs : List Field) (nm : String) (cs : List Cls) (mode : Mode) (as : List Attr) (a : Attr) : Prop where
  shape : c.shape = .flat h (gs ++ [⟨.ngrp (.ty (unionTy nm cs)), mode⟩])
  mode : mode = .manyOpt ∨ mode = .many
  attrs : c.attrs = as ++ [a]
  ty : a.ty = unionTy nm cs
  many : a.many = true
  plain : Cls.plain { c with shape := .flat h gs, attrs := as } h gs = true
  req : gs.all (fun f => f.mode == .req && f.unit.ng == 0) = true
  good : ∀ d ∈ cs, d.pat.Good
  nb : ∀ d ∈ cs, d.pat.nb = true

/-- Single entries before the last field. -/
theorem req_fields {α : Type} (gs : List Field) (o : Field) (hr : gs.all (fun f => f.mode == .req && f.unit.ng == 0) = true)
    (hu : ∀ f ∈ gs, f.unit.word = true) (k : St → Option α) (hk : ∀ st, st.rest ≠ [] → k st = none) :
    ∀ (gws ows : List Str) (n : Nat) (prev caps), gws.length = gs.length → Words (gws ++ ows) →
    (assign (gs.map Field.spec) gws = none → run (fieldsRe (gs ++ [o]) n) ⟨prev, enc (gws ++ ows), caps⟩ k = none) ∧
    (∀ vs, assign (gs.map Field.spec) gws = some vs → ∃ e, Good n gs vs e ∧
      run (fieldsRe (gs ++ [o]) n) ⟨prev, enc (gws ++ ows), caps⟩ k =
        run (fieldsRe [o] (n + gs.length)) ⟨(enc gws).reverse ++ prev, enc ows, e ++ caps⟩ k) := by
  induction gs with
  | nil =>
    intro gws ows n prev caps hl hw
    have : gws = [] := by simpa using hl
    subst this
    refine ⟨(fun h => by cases h), fun vs h => ?_⟩
    simp only [List.map_nil, assign, Option.some.injEq] at h
    subst h
    exact ⟨[], .nil, by simp⟩
  | cons g gs ih =>
    intro gws ows n prev caps hl hw
    simp only [List.all_cons, Bool.and_eq_true, beq_iff_eq] at hr
    obtain ⟨⟨hm, hng⟩, hr'⟩ := hr
    have ih := ih hr' (fun f hf => hu f (by simp [hf]))
    cases gws with
    | nil => simp at hl
    | cons w gws =>
      have hsp : g.spec = (unitOk g.unit, .req) := by simp [Field.spec, hm]
      have has : assign ((g :: gs).map Field.spec) (w :: gws) =
          if unitOk g.unit w then (assign (gs.map Field.spec) gws).map (some [w] :: ·) else none := by
        rw [List.map_cons, hsp]; rfl
      rw [has]
      have hgng : g.pat.ng = 1 := by rw [g.ng_pat, hng]
      have hrun : ∀ (s : Str), run (fieldsRe (g :: gs ++ [o]) n) ⟨prev, s, caps⟩ k =
          run (unitRe g (n + 1)) ⟨prev, s, caps⟩ (fun st => run (fieldsRe (gs ++ [o]) (n + 1))
            ⟨st.prev, st.rest, (n, s.take (s.length - st.rest.length)) :: st.caps⟩ k) := by
        intro s
        rw [List.cons_append, fieldsRe_cons, run_seq, Field.re_eq, hm, hgng]
        simp only [run_grp]
      have hunit := unit_words g (hu g (by simp)) (n + 1) w (gws ++ ows) hw prev caps
        (fun st => run (fieldsRe (gs ++ [o]) (n + 1)) ⟨st.prev, st.rest,
          (n, (enc (w :: gws ++ ows)).take ((enc (w :: gws ++ ows)).length - st.rest.length)) :: st.caps⟩ k)
        (fun st h1 h2 => fieldsRe_blocked _ _ _ _ h1 h2 hk)
      rw [hrun]
      cases hok : unitOk g.unit w with
      | false => exact ⟨fun _ => hunit.2 hok, fun vs h => by simp at h⟩
      | true =>
        obtain ⟨e, he1, he2⟩ := hunit.1 hok
        have he0 : e = [] := by
          cases e with
          | nil => rfl
          | cons x e => have := he1 x (by simp); omega
        subst he0
        simp only [List.nil_append] at he2
        have htake : (enc (w :: gws ++ ows)).take ((enc (w :: gws ++ ows)).length - (enc (gws ++ ows)).length) = enc [w] :=
          take_enc [w] (gws ++ ows)
        obtain ⟨i1, i2⟩ := ih gws ows (n + 1) ((enc [w]).reverse ++ prev) ((n, enc [w]) :: caps)
          (by simpa using hl) (fun x hx => hw x (by simp only [List.cons_append, List.mem_cons]; exact .inr hx))
        simp only [if_true, Option.map_eq_none_iff, Option.map_eq_some_iff]
        have he3 : run (unitRe g (n + 1)) ⟨prev, enc (w :: gws ++ ows), caps⟩ (fun st => run (fieldsRe (gs ++ [o]) (n + 1)) ⟨st.prev, st.rest,
          (n, (enc (w :: gws ++ ows)).take ((enc (w :: gws ++ ows)).length - st.rest.length)) :: st.caps⟩ k) =
          run (fieldsRe (gs ++ [o]) (n + 1)) ⟨(enc [w]).reverse ++ prev, enc (gws ++ ows), (n, enc [w]) :: caps⟩ k := by
          refine Eq.trans he2 ?_
          rw [htake]
        rw [he3]
        refine ⟨i1, ?_⟩
        rintro vs ⟨vs', h1, rfl⟩
        obtain ⟨e2, hg2, hr2⟩ := i2 vs' h1
        refine ⟨e2 ++ (n, enc [w]) :: [], .some (by simp) (by rw [hgng]; exact hg2), ?_⟩
        rw [hr2]
        have e4 : n + 1 + gs.length = n + (g :: gs).length := by simp; omega
        have e5 : (enc gws).reverse ++ ((enc [w]).reverse ++ prev) = (enc (w :: gws)).reverse ++ prev := by
          have : enc (w :: gws) = enc [w] ++ enc gws := by simp
          rw [this]; simp only [List.reverse_append, List.append_assoc]
        rw [e4, e5]
        simp

/-- A list of texts accepted by the unit. -/
theorem plus_full (o : Field) (n : Nat) (l : List Opt) (hne : l ≠ [])
    (h : ∀ i ∈ l, Full (o.unit.re n) (i.1 ++ enc i.2)) :
    Full (.seq (unitRe o n) (.star false (unitRe o n))) (enc (optWords l)) := by
  have one : ∀ i ∈ l, ∃ e, Mt (unitRe o n) (enc (Opt.words i)) e := by
    intro i hi
    obtain ⟨e, he⟩ := h i hi
    have h1 : Mt (.seq (.seq (.chrI ' ') .eps) (o.unit.re n)) (([' '] ++ []) ++ (i.1 ++ enc i.2)) (e ++ ([] ++ [])) :=
      Mt.seq (Mt.seq (Mt.cls (by simp)) Mt.eps) he
    exact ⟨_, by simpa [Opt.words, unitRe] using h1⟩
  have star : ∀ l : List Opt, (∀ i ∈ l, ∃ e, Mt (unitRe o n) (enc (Opt.words i)) e) →
      ∃ e, Mt (.star false (unitRe o n)) (enc (optWords l)) e := by
    intro l
    induction l with
    | nil => intro _; exact ⟨[], .starNil⟩
    | cons i l ih =>
      intro h
      obtain ⟨e, he⟩ := ih (fun j hj => h j (by simp [hj]))
      obtain ⟨f, hf⟩ := h i (by simp)
      have : enc (optWords (i :: l)) = enc (Opt.words i) ++ enc (optWords l) := by
        rw [← enc_append]; rfl
      rw [this]
      exact ⟨_, .starCons (by simp [Opt.words]) hf he⟩
  cases l with
  | nil => exact absurd rfl hne
  | cons i l =>
    obtain ⟨e, he⟩ := one i (by simp)
    obtain ⟨f, hf⟩ := star l (fun j hj => one j (by simp [hj]))
    have : enc (optWords (i :: l)) = enc (Opt.words i) ++ enc (optWords l) := by
      rw [← enc_append]; rfl
    rw [this]
    exact ⟨_, .seq he hf⟩

/-- The last field on a list of options. -/
theorem last_options {α : Type} (o : Field) (ho : o.mode = .manyOpt ∨ o.mode = .many) (hg : o.unit.Good) (n : Nat) (l : List Opt)
    (hne : l ≠ []) (h : ∀ i ∈ l, Full (o.unit.re (n + 1)) (i.1 ++ enc i.2)) (prev caps) (k : St → Option α)
    (hk : ∀ st, st.rest ≠ [] → k st = none) (hs : ∀ st, st.rest = [] → (k st).isSome = true) :
    ∃ e, Good n [o] [some (optWords l)] e ∧ run (fieldsRe [o] n) ⟨prev, enc (optWords l), caps⟩ k =
      k ⟨(enc (optWords l)).reverse ++ prev, [], e ++ caps⟩ := by
  obtain ⟨e0, he0⟩ := plus_full o (n + 1) l hne h
  have hwne : enc (optWords l) ≠ [] := by
    cases l with
    | nil => exact absurd rfl hne
    | cons i l => rw [show optWords (i :: l) = i.1 :: (i.2 ++ optWords l) from rfl]; simp
  have hfr : (o.pat.re n).free = true := by
    have := hg.any (n + 1)
    rw [Field.re_eq]
    rcases ho with ho | ho <;> rw [ho] <;> simp [Re.free, unitRe, Re.chrI, this.1]
  have hgi := (hg.any (n + 1)).2
  -- matches of the whole rest
  have hmt : ∀ e, Mt (o.pat.re n) (enc (optWords l)) e → ∃ x, e = (n, enc (optWords l)) :: x ∧ ∀ y ∈ x, n < y.1 ∧ y.1 < n + o.pat.ng := by
    intro e he
    have hpl : ∀ x, Mt (.seq (unitRe o (n + 1)) (.star false (unitRe o (n + 1)))) (enc (optWords l)) x → ∀ y ∈ x, n < y.1 ∧ y.1 < n + o.pat.ng := by
      intro x hx y hy
      have hgu : (Re.seq (unitRe o (n + 1)) (.star false (unitRe o (n + 1)))).groupsIn (n + 1) (n + 1 + o.unit.ng) :=
        ⟨⟨⟨trivial, trivial⟩, hgi⟩, ⟨trivial, trivial⟩, hgi⟩
      have := hx.groups hgu y hy
      rw [o.ng_pat]; omega
    rw [Field.re_eq] at he
    rcases ho with ho | ho
    · rw [ho] at he
      rcases mt_opt.1 he with ⟨h1, -⟩ | he
      · exact absurd h1 hwne
      · obtain ⟨x, h1, h2⟩ := mt_grp.1 he
        exact ⟨x, h2, hpl x h1⟩
    · rw [ho] at he
      obtain ⟨x, h1, h2⟩ := mt_grp.1 he
      exact ⟨x, h2, hpl x h1⟩
  have hex : ∃ e, Mt (o.pat.re n) (enc (optWords l)) e := by
    rw [Field.re_eq]
    rcases ho with ho | ho
    · rw [ho]; exact ⟨_, mt_opt.2 (.inr (.grp he0))⟩
    · rw [ho]; exact ⟨_, .grp he0⟩
  have hrun : run (fieldsRe [o] n) ⟨prev, enc (optWords l), caps⟩ k = run (o.pat.re n) ⟨prev, enc (optWords l), caps⟩ k := by
    rw [fieldsRe_cons, run_seq]; rfl
  rw [hrun]
  cases hx : run (o.pat.re n) ⟨prev, enc (optWords l), caps⟩ k with
  | none =>
    obtain ⟨e, he⟩ := hex
    have h1 := he.step prev [] caps
    rw [List.append_nil] at h1
    have := (run_spec (o.pat.re n) _ _).1.1 hx _ h1
    have h2 := hs ⟨(enc (optWords l)).reverse ++ prev, [], e ++ caps⟩ rfl
    rw [this] at h2; cases h2
  | some x =>
    obtain ⟨st', h1, h2⟩ := (run_spec (o.pat.re n) _ _).2 x hx
    obtain ⟨u, e, m1, m2, m3, m4⟩ := h1.mt hfr
    have hrest : st'.rest = [] := by
      cases hr : st'.rest with
      | nil => rfl
      | cons c t => rw [hk st' (by rw [hr]; simp)] at h2; cases h2
    rw [hrest, List.append_nil] at m2
    simp only at m2
    rw [← m2] at m1 m3
    obtain ⟨y, rfl, hy⟩ := hmt e m1
    refine ⟨[] ++ (n, enc (optWords l)) :: y, .some hy .nil, ?_⟩
    have : st' = ⟨(enc (optWords l)).reverse ++ prev, [], [] ++ (n, enc (optWords l)) :: y ++ caps⟩ := St.ext' m3 hrest m4
    rw [← this, h2]

theorem last_none {α : Type} (o : Field) (ho : o.mode = .manyOpt) (n : Nat) (prev caps) (k : St → Option α) :
    run (fieldsRe [o] n) ⟨prev, [], caps⟩ k = k ⟨prev, [], caps⟩ := by
  rw [fieldsRe_cons, run_seq, Field.re_eq, ho]
  simp only [run_opt_greedy, run_grp, run_seq]
  rw [unitRe_blocked _ _ _ _ (by simp)]
  rfl

theorem good_append {n : Nat} {gs : List Field} {vs : Assign} {e : List (Nat × Str)} (h : Good n gs vs e)
    (hr : gs.all (fun f => f.mode == .req && f.unit.ng == 0) = true) {o : Field} {v e2} (h2 : Good (n + gs.length) [o] [v] e2) :
    Good n (gs ++ [o]) (vs ++ [v]) (e2 ++ e) := by
  induction h with
  | nil => simpa using h2
  | @some n f fs ws vs e1 e3 h1 h3 ih =>
    simp only [List.all_cons, Bool.and_eq_true, beq_iff_eq] at hr
    have hng : f.pat.ng = 1 := by rw [f.ng_pat, hr.1.2]
    have := ih hr.2 (by
      have e : n + f.pat.ng + fs.length = n + (f :: fs).length := by simp; omega
      rw [e]; exact h2)
    have r := Good.some (ws := ws) h1 this
    simpa using r
  | @none n f fs vs e3 h3 ih =>
    simp only [List.all_cons, Bool.and_eq_true, beq_iff_eq] at hr
    have hng : f.pat.ng = 1 := by rw [f.ng_pat, hr.1.2]
    have := ih hr.2 (by
      have e : n + f.pat.ng + fs.length = n + (f :: fs).length := by simp; omega
      rw [e]; exact h2)
    exact Good.none this

theorem aligned_append (gs : List Field) (o : Field) (hr : gs.all (fun f => f.mode == .req && f.unit.ng == 0) = true) :
    aligned (gs ++ [o]) = true := by
  induction gs with
  | nil => rfl
  | cons g gs ih =>
    simp only [List.all_cons, Bool.and_eq_true, beq_iff_eq] at hr
    have := ih (by simpa using hr.2)
    cases gs with
    | nil => simp [aligned, hr.1.2]
    | cons g' gs => simp only [List.cons_append, aligned, Bool.and_eq_true, beq_iff_eq] at this ⊢; exact ⟨hr.1.2, this⟩

theorem attrVals_append (ng : Nat) (m) (as bs : List Attr) (i : Nat) : attrVals ng m i (as ++ bs) =
    match attrVals ng m i as with
    | .error e => .error e
    | .ok xs =>
      match attrVals ng m (i + as.length) bs with
      | .error e => .error e
      | .ok ys => .ok (xs ++ ys) := by
  induction as generalizing i with
  | nil => simp only [List.nil_append, attrVals, List.length_nil, Nat.add_zero]; cases attrVals ng m i bs <;> rfl
  | cons a as ih =>
    simp only [List.cons_append, attrVals, List.length_cons]
    cases attrVal ng m i a with
    | error e => rfl
    | ok v =>
      simp only
      rw [ih]
      have : i + (as.length + 1) = i + 1 + as.length := by omega
      rw [this]
      cases attrVals ng m (i + 1) as with
      | error e => rfl
      | ok xs => simp only; cases attrVals ng m (i + 1 + as.length) bs <;> rfl

/-- The whole pattern of a card with options. -/
theorem optcard_match {c h gs nm cs mode as a} (oc : OptCard c h gs nm cs mode as a) (hd : Str) (gws : List Str) (l : List Opt)
    (hlen : gws.length = gs.length) (hw : Words (hd :: (gws ++ optWords l))) (hne : mode = .many → l ≠ [])
    (hf : ∀ i ∈ l, ∃ d ∈ cs, Full (d.pat.re 1) (i.1 ++ enc i.2)) :
    ((readHead h hd = none ∨ assign (gs.map Field.spec) gws = none) → reMatch c.re (hd ++ enc (gws ++ optWords l)) = none) ∧
    (∀ hv vs, readHead h hd = some hv → assign (gs.map Field.spec) gws = some vs →
      ∃ m, reMatch c.re (hd ++ enc (gws ++ optWords l)) = some m ∧ hv.length = h.ng ∧
        (∀ i v, hv[i]? = some v → cap m (1 + i) = v) ∧
        (∀ i v, (vs ++ [if l = [] then none else some (optWords l)])[i]? = some v → cap m (1 + h.ng + i) = v.map enc)) := by
  have hp := oc.plain
  simp only [Cls.plain, Bool.and_eq_true, List.all_eq_true, beq_iff_eq, Bool.not_eq_true'] at hp
  obtain ⟨⟨⟨⟨⟨hok, hu⟩, ha⟩, hlen'⟩, hmany⟩, hof⟩ := hp
  let o : Field := ⟨.ngrp (.ty (unionTy nm cs)), mode⟩
  have hre : c.re = anchored ((Shape.flat h (gs ++ [o])).pat.re 1) := by simp [Cls.re, Cls.pat, oc.shape, o]
  rw [hre]
  let k : St → Option (List (Nat × Str)) := finish (hd ++ enc (gws ++ optWords l))
  have hk : ∀ st, st.rest ≠ [] → k st = none := fun st h => finish_none _ st h
  have hs : ∀ st, st.rest = [] → (k st).isSome = true := by
    rintro ⟨p, r, cp⟩ hs
    simp only at hs; subst hs
    show (finish _ _).isSome = true
    rw [finish_end]; rfl
  have hrun : reMatch (anchored ((Shape.flat h (gs ++ [o])).pat.re 1)) (hd ++ enc (gws ++ optWords l)) =
      run (headRe h 1) ⟨[], hd ++ enc (gws ++ optWords l), []⟩ (fun st => run (fieldsRe (gs ++ [o]) (1 + h.ng)) st k) := by
    unfold reMatch anchored
    rw [run_seq, run_bos, if_pos rfl, run_seq]
    simp only [Shape.pat]
    rw [run_cat_append]
    rfl
  rw [hrun]
  have hhw := (Pat.cat h.pats).facts (h.word hok) 1
  have key := run_word (headRe h 1) hhw.1 (noSp_mt hhw.2.1) hd (enc (gws ++ optWords l)) [] [] (enc_bnd _)
    (fun st => run (fieldsRe (gs ++ [o]) (1 + h.ng)) st k) (by
      intro u v e huv hv
      apply fieldsRe_blocked _ _ _ _ _ _ hk
      · intro c hc hcs
        subst hcs
        cases v with
        | nil => exact hv rfl
        | cons d ds =>
          simp at hc; subst hc
          have := (hw hd (by simp)).1 ' ' (by rw [huv]; simp)
          exact absurd this (by decide)
      · simp [hv])
  have hreq := req_fields gs o oc.req hu k hk gws (optWords l) (1 + h.ng)
  have hnone : readHead h hd = none → run (headRe h 1) ⟨[], hd ++ enc (gws ++ optWords l), []⟩
      (fun st => run (fieldsRe (gs ++ [o]) (1 + h.ng)) st k) = none := by
    intro h1
    apply key.2
    rintro ⟨e, he⟩
    obtain ⟨vs, _, _, h2⟩ := head_mt hok he
    rw [h1] at h2; cases h2
  constructor
  · rintro (h1 | h1)
    · exact hnone h1
    · cases hr : readHead h hd with
      | none => exact hnone hr
      | some hv =>
        obtain ⟨e, he, hr⟩ := key.1 (head_full hr (hw hd (by simp)).1 1)
        rw [hr]
        exact (hreq _ _ hlen hw.tail).1 h1
  · intro hv vs h1 h2
    obtain ⟨e, he, hr⟩ := key.1 (head_full h1 (hw hd (by simp)).1 1)
    obtain ⟨hv', hc, hl, h3⟩ := head_mt hok he
    rw [h1] at h3
    simp only [Option.some.injEq] at h3
    subst h3
    obtain ⟨e2, hg2, hr2⟩ := (hreq (hd.reverse ++ []) (e ++ []) hlen hw.tail).2 vs h2
    have hlast : ∃ e3, Good (1 + h.ng + gs.length) [o] [if l = [] then none else some (optWords l)] e3 ∧
        ∃ p, run (fieldsRe [o] (1 + h.ng + gs.length)) ⟨(enc gws).reverse ++ (hd.reverse ++ []), enc (optWords l), e2 ++ (e ++ [])⟩ k =
          k ⟨p, [], e3 ++ (e2 ++ (e ++ []))⟩ := by
      by_cases hle : l = []
      · subst hle
        have hm : o.mode = .manyOpt := by
          rcases oc.mode with h | h
          · exact h
          · exact absurd rfl (hne h)
        refine ⟨[], .none .nil, (enc gws).reverse ++ (hd.reverse ++ []), ?_⟩
        rw [show optWords [] = [] from rfl, enc_nil, last_none o hm]
        rfl
      · have hgd : o.unit.Good := unionTy_good nm cs oc.good
        obtain ⟨e3, h4, h5⟩ := last_options o oc.mode hgd (1 + h.ng + gs.length) l hle (by
          intro i hi
          obtain ⟨d, hd1, hd2⟩ := hf i hi
          exact (alts_full (sortLen cs) (fun x hx => oc.good x ((mem_sortLen cs).1 hx)) _ _).2 ⟨d, (mem_sortLen cs).2 hd1, hd2⟩)
          ((enc gws).reverse ++ (hd.reverse ++ [])) (e2 ++ (e ++ [])) k hk hs
        rw [if_neg hle]
        exact ⟨e3, h4, _, h5⟩
    obtain ⟨e3, hg3, p, hr3⟩ := hlast
    obtain ⟨g1, g2⟩ := good_get (good_append hg2 oc.req hg3) (aligned_append gs o oc.req)
    refine ⟨(0, hd ++ enc (gws ++ optWords l)) :: ((e3 ++ e2) ++ e), ?_, hl, ?_, ?_⟩
    · rw [hr, hr2, hr3]
      show finish _ _ = _
      rw [finish_end]
      simp
    · intro i v hi
      have hil : i < hv.length := (List.getElem?_eq_some_iff.1 hi).1
      unfold cap
      have : (1 + i == 0) = false := by simp
      rw [List.lookup, this, lookup_append, lookup_none (e := e3 ++ e2) (by intro x hx; have := g2 x hx; omega), Option.none_or]
      exact hc.get i v hi
    · intro i v hi
      unfold cap
      have : (1 + h.ng + i == 0) = false := by simp
      rw [List.lookup, this, lookup_append, g1 i v hi, lookup_none (e := e) (by
        intro x hx; have := hc.keys x hx; rw [hl] at this; omega), Option.or_none]

/-- Reading a card with options. -/
theorem optcard_read {c h gs nm cs mode as a} (oc : OptCard c h gs nm cs mode as a) (hd : Str) (gws : List Str) (l : List Opt)
    (hlen : gws.length = gs.length) (hw : Words (hd :: (gws ++ optWords l))) (hne : mode = .many → l ≠ [])
    (hs : splits cs l = true) (hst : ∀ i ∈ l, Entry i.1 ∧ ∀ w ∈ i.2, Stable w) :
    (match reMatch c.re (hd ++ enc (gws ++ optWords l)) with | none => .error .inp | some m => c.build m) =
      readOptCard c h gs cs hd gws l := by
  have hsplit : ∀ l : List Opt, splits cs l = true → (∀ i ∈ l, Words (i.1 :: i.2)) → ∀ i ∈ l, ∃ d ∈ cs, Full (d.pat.re 1) (i.1 ++ enc i.2) := by
    intro l
    induction l with
    | nil => intro _ _ i hi; cases hi
    | cons i l ih =>
      intro hs hwl j hj
      obtain ⟨hd, ws⟩ := i
      simp only [splits, Bool.and_eq_true] at hs
      obtain ⟨⟨hs1, -⟩, hs2⟩ := hs
      rcases List.mem_cons.1 hj with rfl | hj
      · split at hs1
        · rename_i d hd'
          have hm := (firstOf_split hd').1
          exact ⟨d, hm, takes_full hs1 (oc.good d hm) (hwl (hd, ws) (by simp))⟩
        · cases hs1
      · exact ih hs2 (fun i hi => hwl i (by simp [hi])) j hj
  have hf := hsplit l hs (by
    intro i hi w hwi
    exact hw w (by
      refine List.mem_cons_of_mem _ (List.mem_append_right _ ?_)
      exact List.mem_flatMap.2 ⟨i, hi, hwi⟩))
  obtain ⟨m1, m2⟩ := optcard_match oc hd gws l hlen hw hne hf
  unfold readOptCard
  cases hr : readHead h hd with
  | none => rw [m1 (.inl hr)]
  | some hv =>
    cases ha : assign (gs.map Field.spec) gws with
    | none => rw [m1 (.inr ha)]
    | some vs =>
      obtain ⟨m, hm, hl, g1, g2⟩ := m2 hv vs hr ha
      rw [hm]
      show c.build m = _
      have hp := oc.plain
      simp only [Cls.plain, Bool.and_eq_true, List.all_eq_true, beq_iff_eq, Bool.not_eq_true'] at hp
      obtain ⟨⟨⟨⟨⟨hok, hu⟩, hal⟩, hlen'⟩, hmany⟩, hof⟩ := hp
      obtain ⟨ft, fl⟩ := assign_sound ha
      have hgng : ∀ gs : List Field, gs.length ≤ (Pat.cat (gs.map Field.pat)).ng := by
        intro gs
        induction gs with
        | nil => simp
        | cons f fs ih => simp only [List.map_cons, Pat.cat, Pat.ng, List.length_cons, f.ng_pat]; omega
      have hng : h.ng + gs.length + 1 ≤ c.pat.ng := by
        have h1 : c.pat.ng = h.ng + (Pat.cat ((gs ++ [(⟨.ngrp (.ty (unionTy nm cs)), mode⟩ : Field)]).map Field.pat)).ng := by
          simp only [Cls.pat, oc.shape, Shape.pat, Pat.ng_cat_append]; rfl
        have h2 := hgng (gs ++ [(⟨.ngrp (.ty (unionTy nm cs)), mode⟩ : Field)])
        simp only [List.length_append, List.length_singleton] at h2
        omega
      have hvl : vs.length = gs.length := by
        clear m1 m2 g2 hm
        have : ∀ (fs : List Field) (vs : Assign), Fits (fs.map Field.spec) vs → vs.length = fs.length := by
          intro fs
          induction fs with
          | nil => intro vs h; cases vs with
            | nil => rfl
            | cons v vs => cases h
          | cons f fs ih =>
            intro vs h
            cases vs with
            | nil => cases h
            | cons v vs =>
              cases v with
              | none => simp [ih vs h.2]
              | some ws => simp [ih vs h.2.2.2]
        exact this gs vs ft
      have hasl : as.length = h.ng + gs.length := by
        have : ∀ (as : List Attr) (fs : List Field), okFields as fs = true → as.length = fs.length := by
          intro as
          induction as with
          | nil => intro fs h; cases fs with
            | nil => rfl
            | cons => cases h
          | cons a as ih =>
            intro fs h
            cases fs with
            | nil => cases h
            | cons f fs => simp only [okFields, Bool.and_eq_true] at h; simp [ih fs h.2]
        have h1 := this _ _ hof
        simp only [List.length_drop] at h1
        simp only [List.length_take] at hlen'
        omega
      have hat := attrs_fields c.pat.ng m gs (as.drop h.ng) vs h.ng hof hu ft
        (by rw [fl]; exact fun w hwm => hw w (by simp [hwm])) (by
        intro j v hj
        have := g2 j v (by rw [List.getElem?_append_left (List.getElem?_eq_some_iff.1 hj).1]; exact hj)
        rw [← this]; congr 1; omega) (by omega)
      have hhead := attrs_head c.pat.ng m hv (as.take h.ng) (as.drop h.ng) vs 0 (by rw [hl]; exact hlen')
        (by simpa using hmany) (readHead_words hr (hw hd (by simp)).1) (by
          intro j v hj
          have := g1 j v hj
          rw [← this]) (by omega) (by rw [hl, Nat.zero_add]; exact hat)
      rw [List.take_append_drop] at hhead
      unfold Cls.build
      rw [oc.attrs, attrVals_append, hhead, List.dropLast_concat]
      simp only
      cases readVals as (hv.map (·.map ([·])) ++ vs) with
      | error e => rfl
      | ok xs =>
        simp only [Nat.zero_add, hasl, attrVals]
        have hcap : cap m (h.ng + gs.length + 1) = (if l = [] then none else some (optWords l)).map enc := by
          have := g2 gs.length (if l = [] then none else some (optWords l)) (by rw [List.getElem?_append_right (by omega)]; simp [hvl])
          rw [← this]; congr 1; omega
        unfold attrVal
        rw [if_neg (by omega), hcap]
        cases l with
        | nil => simp
        | cons i l =>
          obtain ⟨hd', ws'⟩ := i
          have hwo : Words (hd' :: (ws' ++ optWords l)) := opt_words hst
          have hstrip : strip (enc (hd' :: (ws' ++ optWords l))) = hd' ++ enc (ws' ++ optWords l) := strip_enc _ _ hwo
          simp only [reduceCtorEq, if_false, Option.map_some, optWords_cons]
          rw [enc_cons] at hstrip ⊢
          simp only [hstrip, Attr.parse, oc.many, if_true, oc.ty]
          rw [options_read nm cs oc.good oc.nb hd' ws' l hs hst]
          cases readOpts cs ((hd', ws') :: l) with
          | error e => rfl
          | ok ys => rfl

end Inp
