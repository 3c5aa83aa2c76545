import Verif.Inp.SurfaceRead
import Verif.Inp.OptionSpec
/-!
# Lists of options: splitting

`Tuple(T).from_mcnp` on a text of options finds the options one by one (`options_split`).
-/
namespace Inp
open Py Types

/-! ## Matches do not start with a blank -/

/-- No empty match. -/
def Pat.firm : Pat → Bool
  | .lits s => s != []
  | .cls _ => true
  | .ty _ => false
  | .seq a b => a.firm || b.firm
  | .alt a b => a.firm && b.firm
  | .opt _ | .star _ | .behind _ _ => false
  | .plus _ a | .grp a | .ngrp a => a.firm

/-- No match starts with a blank. -/
def Pat.nb : Pat → Bool
  | .lits s => s.head? != some ' '
  | .cls c => !c.test ' '
  | .ty (.base k) => k.word
  | .ty (.other _ _ _ _) => false
  | .seq a b => a.nb && (a.firm || b.nb)
  | .alt a b => a.nb && b.nb
  | .opt a | .star a | .plus _ a | .grp a | .ngrp a => a.nb
  | .behind _ _ => false

theorem Pat.firm_mt {p : Pat} (h : p.firm = true) {n e} : ¬ Mt (p.re n) [] e := by
  induction p generalizing n e with
  | lits s =>
    intro hm
    have := (mt_lit.1 hm).1
    cases s with
    | nil => simp [Pat.firm] at h
    | cons c s => simp [lower] at this
  | cls c => intro hm; obtain ⟨x, -, h2, -⟩ := mt_cls.1 hm; cases h2
  | ty => cases h
  | seq a b iha ihb =>
    intro hm
    obtain ⟨u, v, x, y, h1, h2, h3, -⟩ := mt_seq.1 hm
    obtain ⟨rfl, rfl⟩ := List.append_eq_nil_iff.1 h3.symm
    simp only [Pat.firm, Bool.or_eq_true] at h
    rcases h with h | h
    · exact iha h h1
    · exact ihb h h2
  | alt a b iha ihb =>
    intro hm
    simp only [Pat.firm, Bool.and_eq_true] at h
    rcases mt_alt.1 hm with hm | hm
    · exact iha h.1 hm
    · exact ihb h.2 hm
  | opt => cases h
  | star => cases h
  | behind => cases h
  | plus g a iha =>
    intro hm
    obtain ⟨u, v, x, y, h1, h2, h3, -⟩ := mt_seq.1 hm
    obtain ⟨rfl, rfl⟩ := List.append_eq_nil_iff.1 h3.symm
    exact iha h h1
  | grp a iha => intro hm; obtain ⟨x, h1, -⟩ := mt_grp.1 hm; exact iha h h1
  | ngrp a iha => intro hm; exact iha h hm

theorem mt_star_head {g a} (h : ∀ w e, Mt a w e → w.head? ≠ some ' ') : ∀ {r w e}, Mt r w e → r = .star g a → w.head? ≠ some ' ' := by
  intro r w e hm
  induction hm with
  | starNil => intro _; simp
  | starCons hne h1 h2 ih1 ih2 =>
    intro hr
    cases hr
    have := h _ _ h1
    rename_i w _ _ _
    cases w with
    | nil => exact absurd rfl hne
    | cons c w => simpa using this
  | _ => intro hr; cases hr

theorem Pat.nb_mt {p : Pat} (h : p.nb = true) {n w e} (hm : Mt (p.re n) w e) : w.head? ≠ some ' ' := by
  induction p generalizing n w e with
  | lits s =>
    have := (mt_lit.1 hm).1
    cases s with
    | nil => cases w with
      | nil => simp
      | cons c w => simp [lower] at this
    | cons c s =>
      cases w with
      | nil => simp
      | cons x w =>
        simp only [lower, List.map_cons, List.cons.injEq] at this
        simp only [Pat.nb, List.head?_cons, bne_iff_ne, ne_eq, Option.some.injEq] at h ⊢
        rintro rfl
        exact h (lower_space.1 this.1.symm)
  | cls c =>
    obtain ⟨x, h1, rfl, -⟩ := mt_cls.1 hm
    simp only [Pat.nb, Bool.not_eq_true'] at h
    simp only [List.head?_cons, ne_eq, Option.some.injEq]
    rintro rfl
    rw [h1] at h; cases h
  | ty t =>
    cases t with
    | base k =>
      have := noSp_mt (k.facts h n).2.1 _ _ hm
      cases w with
      | nil => simp
      | cons c w =>
        have := this c (by simp)
        simp only [List.head?_cons, ne_eq, Option.some.injEq]
        rintro rfl
        exact absurd this (by decide)
    | other => cases h
  | seq a b iha ihb =>
    obtain ⟨u, v, x, y, h1, h2, rfl, -⟩ := mt_seq.1 hm
    simp only [Pat.nb, Bool.and_eq_true, Bool.or_eq_true] at h
    cases u with
    | nil =>
      rcases h.2 with h3 | h3
      · exact absurd h1 (Pat.firm_mt h3)
      · simpa using ihb h3 h2
    | cons c u => have := iha h.1 h1; simpa using this
  | alt a b iha ihb =>
    simp only [Pat.nb, Bool.and_eq_true] at h
    rcases mt_alt.1 hm with hm | hm
    · exact iha h.1 hm
    · exact ihb h.2 hm
  | opt a iha =>
    rcases mt_opt.1 hm with ⟨rfl, -⟩ | hm
    · simp
    · exact iha h hm
  | star a iha => exact mt_star_head (fun w e hw => iha h hw) hm rfl
  | behind => cases h
  | plus g a iha =>
    obtain ⟨u, v, x, y, h1, h2, rfl, -⟩ := mt_seq.1 hm
    cases u with
    | nil => simpa using mt_star_head (fun w e hw => iha h hw) h2 rfl
    | cons c u => have := iha h h1; simpa using this
  | grp a iha => obtain ⟨x, h1, -⟩ := mt_grp.1 hm; exact iha h h1
  | ngrp a iha => exact iha h hm

/-! ## Classes that cannot begin here -/

theorem begins_none {c : Cls} (hg : c.pat.Good) {s : Str} (h : c.begins s = false) {α : Type} (n prev caps) (k : St → Option α) :
    run (c.pat.re n) ⟨prev, s, caps⟩ k = none := by
  apply run_none
  intro st' hst
  exfalso
  obtain ⟨u, e, h1, h2, -, -⟩ := hst.mt (hg.any n).1
  obtain ⟨e', h3⟩ := (Full.congr (hg.erase n 1)).1 ⟨e, h1⟩
  have h4 := h3.step [] st'.rest []
  have h2' : s = u ++ st'.rest := h2
  rw [← h2'] at h4
  unfold Cls.begins reMatch at h
  rw [Option.isSome_eq_false_iff, Option.isNone_iff_eq_none] at h
  have := (run_spec (c.pat.re 1) _ _).1.1 h _ h4
  cases this

/-- A class that cannot begin here accepts no beginning of the text. -/
theorem begins_full {c : Cls} (hg : c.pat.Good) {u v : Str} (h : c.begins (u ++ v) = false) (n : Nat) : ¬ Full (c.pat.re n) u := by
  rintro ⟨e, he⟩
  have h1 := he.step [] v []
  have := (run_spec (c.pat.re n) ⟨[], u ++ v, []⟩ some).1.1 (begins_none hg h n [] [] some) _ h1
  cases this

/-! ## The class of the option takes exactly its entries -/

theorem Kind.tok_any {k : Kind} (h : k.tok = true) (n : Nat) : Tok (k.re n) := by
  cases k with
  | int => exact tok_num
  | real => exact tok_num
  | str => exact tok_plus_cls (by intro c hc; simp [hc])
  | zaid => exact tok_zaid n
  | dist => exact tok_dist n
  | desig => exact tok_desig n
  | _ => cases h

theorem Pat.kind_re {p : Pat} {k : Kind} (h : p.kind? = some k) (n : Nat) : p.re n = k.re n := by
  induction p with
  | ty t =>
    cases t with
    | base k' => simp only [Pat.kind?, Ty.kind?, Option.some.injEq] at h; rw [h]; rfl
    | other => cases h
  | ngrp a ih => exact ih h
  | _ => cases h

theorem Pat.kind_word {p : Pat} {k : Kind} (h : p.kind? = some k) (hw : k.word = true) : p.word = true := by
  induction p with
  | ty t =>
    cases t with
    | base k' => simp only [Pat.kind?, Ty.kind?, Option.some.injEq] at h; rw [← h] at hw; exact hw
    | other => cases h
  | ngrp a ih => exact ih h
  | _ => cases h

theorem unitRe_words {α : Type} (f : Field) (n : Nat) (w : Str) (ws : List Str) (prev caps) (k : St → Option α) :
    run (unitRe f n) ⟨prev, enc (w :: ws), caps⟩ k = run (f.unit.re n) ⟨' ' :: prev, w ++ enc ws, caps⟩ k := by
  unfold unitRe
  rw [run_seq, run_seq, enc_cons]
  simp [Re.chrI, run_cls_cons, run_eps]

theorem choices_full : ∀ {p : Pat} {l : List Str}, p.choices = some l → ∀ {n w}, Full (p.re n) w → ∃ a ∈ l, lower w = lower a
  | .lits s, l, h, n, w, hf => by
    simp only [Pat.choices, Option.some.injEq] at h
    obtain ⟨e, he⟩ := hf
    exact ⟨s, by simp [← h], (mt_lit.1 he).1⟩
  | .alt a b, l, h, n, w, hf => by
    simp only [Pat.choices] at h
    split at h
    · rename_i x y hx hy
      simp only [Option.some.injEq] at h
      subst h
      obtain ⟨e, he⟩ := hf
      rcases mt_alt.1 he with he | he
      · obtain ⟨c, hc, h1⟩ := choices_full hx ⟨e, he⟩
        exact ⟨c, by simp [hc], h1⟩
      · obtain ⟨c, hc, h1⟩ := choices_full hy ⟨e, he⟩
        exact ⟨c, by simp [hc], h1⟩
    · cases h
  | .ngrp a, l, h, n, w, hf => choices_full (p := a) h hf
  | .cls _, _, h, _, _, _ | .ty _, _, h, _, _, _ | .seq _ _, _, h, _, _, _ | .opt _, _, h, _, _, _ | .plus _ _, _, h, _, _, _
  | .star _, _, h, _, _, _ | .grp _, _, h, _, _, _ | .behind _ _, _, h, _, _, _ => by cases h

theorem choices_word : ∀ {p : Pat} {l : List Str}, p.choices = some l → p.word = true → ∀ a ∈ l, ∀ c ∈ a, isSpace c = false
  | .lits s, l, h, hw => by
    simp only [Pat.choices, Option.some.injEq] at h
    subst h
    intro a ha c hc
    simp only [List.mem_singleton] at ha
    subst ha
    simpa using List.all_eq_true.1 hw c hc
  | .alt a b, l, h, hw => by
    simp only [Pat.choices] at h
    simp only [Pat.word, Bool.and_eq_true] at hw
    split at h
    · rename_i x y hx hy
      simp only [Option.some.injEq] at h
      subst h
      intro c hc
      rcases List.mem_append.1 hc with hc | hc
      · exact choices_word hx hw.1 c hc
      · exact choices_word hy hw.2 c hc
    · cases h
  | .ngrp a, l, h, hw => choices_word (p := a) h hw
  | .cls _, _, h, _ | .ty _, _, h, _ | .seq _ _, _, h, _ | .opt _, _, h, _ | .plus _ _, _, h, _
  | .star _, _, h, _ | .grp _, _, h, _ | .behind _ _, _, h, _ => by cases h

/-- The first word that matches. -/
def firstRun {α : Type} (st : St) (k : St → Option α) : List Str → Option α
  | [] => none
  | a :: l => (run (litRe a) st k).or (firstRun st k l)

theorem firstRun_append {α : Type} (st : St) (k : St → Option α) (x y : List Str) :
    firstRun st k (x ++ y) = (firstRun st k x).or (firstRun st k y) := by
  induction x with
  | nil => simp [firstRun]
  | cons a x ih => simp only [List.cons_append, firstRun, ih, Option.or_assoc]

theorem run_choices {α : Type} (st : St) (k : St → Option α) : ∀ {p : Pat} {l : List Str}, p.choices = some l → ∀ n,
    run (p.re n) st k = firstRun st k l
  | .lits s, l, h, n => by
    simp only [Pat.choices, Option.some.injEq] at h
    subst h
    simp [firstRun, Pat.re]
  | .alt a b, l, h, n => by
    simp only [Pat.choices] at h
    split at h
    · rename_i x y hx hy
      simp only [Option.some.injEq] at h
      subst h
      rw [firstRun_append, ← run_choices st k hx n, ← run_choices st k hy (n + a.ng)]
      rfl
    · cases h
  | .ngrp a, l, h, n => run_choices (p := a) st k h n
  | .cls _, _, h, _ | .ty _, _, h, _ | .seq _ _, _, h, _ | .opt _, _, h, _ | .plus _ _, _, h, _
  | .star _, _, h, _ | .grp _, _, h, _ | .behind _ _, _, h, _ => by cases h

theorem tok_choices {p : Pat} {l : List Str} (h : p.choices = some l) (hw : p.word = true) (ha : apartChoices l = true) (n : Nat) : Tok (p.re n) := by
  intro w hf rest hb prev caps k hs
  obtain ⟨a, hal, hwa⟩ := choices_full h hf
  have hsp := choices_word h hw
  refine ⟨caps, ?_⟩
  rw [run_choices _ k h n]
  clear h
  induction l with
  | nil => cases hal
  | cons b l ih =>
    simp only [apartChoices, Bool.and_eq_true, List.all_eq_true] at ha
    simp only [firstRun]
    by_cases hba : lower w = lower b
    · rw [run_lit_ok b w hba]
      obtain ⟨x, hx⟩ := Option.isSome_iff_exists.1 (hs caps)
      rw [hx]; rfl
    · have hal' : a ∈ l := by
        rcases List.mem_cons.1 hal with rfl | h
        · exact absurd hwa hba
        · exact h
      have hnone : run (litRe b) ⟨prev, w ++ rest, caps⟩ k = none := by
        refine run_none (fun st' hst => ?_)
        exfalso
        obtain ⟨u, e, h1, h2, -, -⟩ := hst.mt (litRe_any b 0 0).1
        have hu := (mt_lit.1 h1).1
        have husp : ∀ c ∈ u, isSpace c = false := noSp_mt (litRe_facts b (hsp b (by simp)) 0 0).2.1 _ _ h1
        obtain ⟨v, hv, -⟩ := prefix_word husp hb h2
        have hpre : (lower b).isPrefixOf (lower a) = true := by
          rw [← hwa, ← hu, hv, List.isPrefixOf_iff_prefix]
          exact ⟨lower v, by simp [lower]⟩
        have := ha.1 a hal'
        rw [hpre] at this
        cases this
      rw [hnone, Option.none_or]
      exact ih ha.2 hal' (fun c hc => hsp c (by simp [hc]))

theorem unitTok_word {p : Pat} (h : unitTok p = true) : p.word = true := by
  unfold unitTok at h
  split at h
  · rename_i k hk; exact Pat.kind_word hk (Kind.tok_word h)
  · rw [Bool.and_eq_true] at h; exact h.1

theorem unitTok_tok {p : Pat} (h : unitTok p = true) (n : Nat) : Tok (p.re n) := by
  unfold unitTok at h
  split at h
  · rename_i k hk; rw [Pat.kind_re hk]; exact Kind.tok_any h n
  · rw [Bool.and_eq_true] at h
    obtain ⟨hw, h⟩ := h
    split at h
    · rename_i l hl; exact tok_choices hl hw h n
    · cases h

/-- A unit followed by a continuation that always succeeds after the whole word. -/
theorem free_unit (f : Field) (hk : unitTok f.unit = true) (n : Nat)
    (w : Str) (ws : List Str) (prev caps) (k : St → Option St) (ho : unitOk f.unit w = true)
    (hs : ∀ e, (k ⟨(enc [w]).reverse ++ prev, enc ws, e⟩).isSome = true) :
    ∃ e, run (unitRe f n) ⟨prev, enc (w :: ws), caps⟩ k = k ⟨(enc [w]).reverse ++ prev, enc ws, e⟩ := by
  rw [unitRe_words]
  have hfull : Full (f.unit.re n) w := (unitOk_iff f.unit (unitTok_word hk) n w).1 ho
  have e1 : (enc [w]).reverse ++ prev = w.reverse ++ (' ' :: prev) := by simp
  rw [e1] at hs ⊢
  exact unitTok_tok hk n w hfull (enc ws) (enc_bnd ws) (' ' :: prev) caps k hs

/-- A unit that accepts no beginning of the next word. -/
theorem unit_pre_none {α : Type} (f : Field) (hw : f.unit.word = true) (n : Nat) (w : Str) (ws : List Str) (prev caps)
    (k : St → Option α) (h : unitPre f.unit w = false) : run (unitRe f n) ⟨prev, enc (w :: ws), caps⟩ k = none := by
  rw [unitRe_words]
  apply run_none
  intro st' hst
  exfalso
  obtain ⟨f1, f2, -⟩ := f.unit.facts hw n
  obtain ⟨u, e, h1, h2, -, -⟩ := hst.mt f1
  obtain ⟨v, rfl, -⟩ := prefix_word (noSp_mt f2 _ _ h1) (enc_bnd ws) h2
  obtain ⟨e', h3⟩ := (Full.congr (f.unit.erase hw n 1)).1 ⟨e, h1⟩
  have h4 := h3.step [] v []
  unfold unitPre reMatch at h
  rw [Option.isSome_eq_false_iff, Option.isNone_iff_eq_none] at h
  have := (run_spec (f.unit.re 1) _ _).1.1 h _ h4
  cases this

theorem free_fields (fs : List Field)
    (hk : ∀ f ∈ fs, unitTok f.unit = true) (rest : List Str) :
    ∀ (ws : List Str) (n : Nat) (prev : Str) (caps : List (Nat × Str)) (k : St → Option St), placed fs ws rest.head? = true →
    (∀ e, (k ⟨(enc ws).reverse ++ prev, enc rest, e⟩).isSome = true) →
    ∃ e, run (fieldsRe fs n) ⟨prev, enc (ws ++ rest), caps⟩ k = k ⟨(enc ws).reverse ++ prev, enc rest, e⟩ := by
  induction fs with
  | nil =>
    intro ws n prev caps k hp hs
    cases ws with
    | nil => exact ⟨caps, by simp [fieldsRe_nil, run_eps]⟩
    | cons w ws => cases hp
  | cons f fs ih =>
    intro ws n prev caps k hp hs
    have hkf := hk f (by simp)
    have ih := ih (fun g hg => hk g (by simp [hg]))
    have hfw : f.unit.word = true := unitTok_word hkf
    cases ws with
    | nil =>
      have hp' : ((f.mode == .opt || f.mode == .manyOpt) && (match rest.head? with | none => true | some w => !unitPre f.unit w)
          && placed fs [] rest.head?) = true := hp
      simp only [Bool.and_eq_true, Bool.or_eq_true, beq_iff_eq] at hp'
      obtain ⟨⟨hm, hn⟩, hp2⟩ := hp'
      have hu : ∀ (m : Nat) (caps : List (Nat × Str)) (k : St → Option St),
          run (unitRe f m) ⟨prev, enc ([] ++ rest), caps⟩ k = none := by
        intro m caps k
        cases rest with
        | nil => exact unitRe_blocked _ _ _ _ (by simp)
        | cons w rest => exact unit_pre_none f hfw m w rest prev caps k (by simpa using hn)
      obtain ⟨e, he⟩ := ih [] (n + f.pat.ng) prev caps k hp2 hs
      refine ⟨e, ?_⟩
      rw [fieldsRe_cons, run_seq, Field.re_eq]
      rcases hm with hm | hm
      · rw [hm]
        simp only [run_opt_greedy, run_grp]
        rw [hu, Option.none_or]; exact he
      · rw [hm]
        simp only [run_opt_greedy, run_grp, run_seq]
        rw [hu, Option.none_or]; exact he
    | cons w ws =>
      simp only [placed, Bool.and_eq_true, bne_iff_ne, ne_eq] at hp
      obtain ⟨⟨hm, ho⟩, hp2⟩ := hp
      have hend : (enc (w :: ws)).reverse ++ prev = (enc ws).reverse ++ ((enc [w]).reverse ++ prev) := by
        have : enc (w :: ws) = enc [w] ++ enc ws := by simp
        rw [this]; simp only [List.reverse_append, List.append_assoc]
      rw [hend] at hs ⊢
      have hrest : ∀ caps, ∃ e, run (fieldsRe fs (n + f.pat.ng)) ⟨(enc [w]).reverse ++ prev, enc (ws ++ rest), caps⟩ k =
          k ⟨(enc ws).reverse ++ ((enc [w]).reverse ++ prev), enc rest, e⟩ := by
        intro caps
        exact ih ws (n + f.pat.ng) ((enc [w]).reverse ++ prev) caps k hp2 hs
      have hsome : ∀ caps, (run (fieldsRe fs (n + f.pat.ng)) ⟨(enc [w]).reverse ++ prev, enc (ws ++ rest), caps⟩ k).isSome = true := by
        intro caps
        obtain ⟨e, he⟩ := hrest caps
        rw [he]; exact hs e
      -- the unit, then a group end, then the rest
      have one : ∀ (t : Str), ∃ e, run (unitRe f (n + 1)) ⟨prev, enc (w :: (ws ++ rest)), caps⟩
          (fun st => run (fieldsRe fs (n + f.pat.ng)) ⟨st.prev, st.rest, (n, t.take (t.length - st.rest.length)) :: st.caps⟩ k) =
          k ⟨(enc ws).reverse ++ ((enc [w]).reverse ++ prev), enc rest, e⟩ := by
        intro t
        obtain ⟨e, he⟩ := free_unit f hkf (n + 1) w (ws ++ rest) prev caps
          (fun st => run (fieldsRe fs (n + f.pat.ng)) ⟨st.prev, st.rest, (n, t.take (t.length - st.rest.length)) :: st.caps⟩ k) ho
          (fun e => hsome _)
        rw [he]
        exact hrest _
      have lazy : ∀ (t : Str), ∃ e, run (unitRe f (n + 1)) ⟨prev, enc (w :: (ws ++ rest)), caps⟩
          (fun st => run (.star false (unitRe f (n + 1))) st
            (fun st => run (fieldsRe fs (n + f.pat.ng)) ⟨st.prev, st.rest, (n, t.take (t.length - st.rest.length)) :: st.caps⟩ k)) =
          k ⟨(enc ws).reverse ++ ((enc [w]).reverse ++ prev), enc rest, e⟩ := by
        intro t
        have hstar : ∀ e, run (.star false (unitRe f (n + 1))) ⟨(enc [w]).reverse ++ prev, enc (ws ++ rest), e⟩
            (fun st => run (fieldsRe fs (n + f.pat.ng)) ⟨st.prev, st.rest, (n, t.take (t.length - st.rest.length)) :: st.caps⟩ k) =
            run (fieldsRe fs (n + f.pat.ng)) ⟨(enc [w]).reverse ++ prev, enc (ws ++ rest),
              (n, t.take (t.length - (enc (ws ++ rest)).length)) :: e⟩ k := by
          intro e
          rw [run_star_unfold]
          simp only [Bool.false_eq_true, if_false]
          obtain ⟨x, hx⟩ := Option.isSome_iff_exists.1 (hsome ((n, t.take (t.length - (enc (ws ++ rest)).length)) :: e))
          rw [hx]; rfl
        obtain ⟨e, he⟩ := free_unit f hkf (n + 1) w (ws ++ rest) prev caps
          (fun st => run (.star false (unitRe f (n + 1))) st
            (fun st => run (fieldsRe fs (n + f.pat.ng)) ⟨st.prev, st.rest, (n, t.take (t.length - st.rest.length)) :: st.caps⟩ k)) ho
          (fun e => by rw [hstar]; exact hsome _)
        rw [he, hstar]
        exact hrest _
      have orl : ∀ {x y : Option St} {e}, x = k ⟨(enc ws).reverse ++ ((enc [w]).reverse ++ prev), enc rest, e⟩ → x.or y = x := by
        intro x y e hx
        obtain ⟨z, hz⟩ := Option.isSome_iff_exists.1 (hs e)
        rw [hx, hz]; rfl
      rw [fieldsRe_cons, run_seq, Field.re_eq]
      cases hmode : f.mode with
      | req => simp only [run_grp]; exact one _
      | opt =>
        simp only [run_opt_greedy, run_grp]
        obtain ⟨e, he⟩ := one (enc (w :: ws ++ rest))
        exact ⟨e, by rw [orl (e := e)] <;> exact he⟩
      | many => simp only [run_grp, run_seq]; exact lazy _
      | greedy => exact absurd hmode hm
      | manyOpt =>
        simp only [run_opt_greedy, run_grp, run_seq]
        obtain ⟨e, he⟩ := lazy (enc (w :: ws ++ rest))
        exact ⟨e, by rw [orl (e := e)] <;> exact he⟩

theorem startsReq_blocked {α : Type} {fs : List Field} (h : startsReq fs = true) (n : Nat) (st : St) (k : St → Option α)
    (hb : ∀ c ∈ st.rest.head?, c ≠ ' ') : run (fieldsRe fs n) st k = none := by
  cases fs with
  | nil => cases h
  | cons f fs =>
    simp only [startsReq, Bool.or_eq_true, beq_iff_eq] at h
    rw [fieldsRe_cons, run_seq, Field.re_eq]
    rcases h with h | h
    · rw [h]; simp only [run_grp]; exact unitRe_blocked _ _ _ _ hb
    · rw [h]; simp only [run_grp, run_seq]; exact unitRe_blocked _ _ _ _ hb

/-- The length of a first word without number and designator. -/
theorem bare_length {h : Head} (h1 : h.suf = .no) (h2 : h.des = .no) {s v} (hr : readHead h s = some v) :
    (readPre h.pre s).2.length = h.kw.length := by
  unfold readHead at hr
  rw [h1, h2] at hr
  split at hr
  · cases hr
  · rename_i t ht
    simp only [readSuf] at hr
    unfold readKw at ht
    split at ht
    · rename_i hkw
      simp only [Option.some.injEq] at ht
      have hl := lower_length hkw
      rw [List.length_take] at hl
      cases t with
      | nil => have := congrArg List.length ht; simp only [List.length_drop, List.length_nil] at this; omega
      | cons c t => simp [readDes] at hr
    · cases ht

theorem bare_prefix {h : Head} (hok : h.ok = true) (h1 : h.suf = .no) (h2 : h.des = .no) {u v a b}
    (hu : readHead h u = some a) (huv : readHead h (u ++ v) = some b) : v = [] := by
  have l1 := bare_length h1 h2 hu
  have l2 := bare_length h1 h2 huv
  have hk : 0 < h.kw.length := by
    unfold Head.ok at hok
    split at hok
    · cases hok
    · rename_i hk; rw [hk]; simp
  have : (readPre h.pre (u ++ v)).2.length = (readPre h.pre u).2.length + v.length := by
    unfold readPre at l1 ⊢
    split
    · simp
    · rename_i hp
      rw [if_neg hp] at l1
      cases u with
      | nil => simp at l1; omega
      | cons c u =>
        simp only [List.cons_append]
        split <;> simp <;> omega
  cases v with
  | nil => rfl
  | cons c v => rw [this] at l2; simp only [List.length_cons] at l2; omega

/-- The class of an option takes exactly the option. -/
theorem free_option (c : Cls) (hd : Str) (ws rest : List Str) (ht : c.takes hd ws rest.head? = true) (hw : Words (hd :: ws))
    (n : Nat) (prev : Str) (caps : List (Nat × Str)) (k : St → Option St)
    (hs : ∀ e, (k ⟨(hd ++ enc ws).reverse ++ prev, enc rest, e⟩).isSome = true) :
    ∃ e, run (c.pat.re n) ⟨prev, hd ++ enc (ws ++ rest), caps⟩ k = k ⟨(hd ++ enc ws).reverse ++ prev, enc rest, e⟩ := by
  unfold Cls.takes at ht
  rw [Bool.and_eq_true] at ht
  obtain ⟨hpl, ht⟩ := ht
  cases hsh : c.shape with
  | other p => rw [hsh] at ht; cases ht
  | flat h fs =>
    rw [hsh] at ht
    simp only [Bool.and_eq_true, Bool.or_eq_true, List.all_eq_true, beq_iff_eq] at ht
    obtain ⟨⟨⟨hk, hst⟩, hhd⟩, hpl2⟩ := ht
    have hok : h.ok = true := by
      unfold Cls.isPlain at hpl
      rw [hsh] at hpl
      simp only [Cls.plain, Bool.and_eq_true] at hpl
      exact hpl.1.1.1.1.1
    have hrun : run (c.pat.re n) ⟨prev, hd ++ enc (ws ++ rest), caps⟩ k =
        run (headRe h n) ⟨prev, hd ++ enc (ws ++ rest), caps⟩ (fun st => run (fieldsRe fs (n + h.ng)) st k) := by
      unfold Cls.pat
      rw [hsh]
      simp only [Shape.pat]
      rw [run_cat_append]
      rfl
    rw [hrun]
    have hsp : (hd ++ enc ws).reverse ++ prev = (enc ws).reverse ++ (hd.reverse ++ prev) := by simp
    rw [hsp] at hs ⊢
    have hrest : ∀ e, ∃ e', run (fieldsRe fs (n + h.ng)) ⟨hd.reverse ++ prev, enc (ws ++ rest), e⟩ k =
        k ⟨(enc ws).reverse ++ (hd.reverse ++ prev), enc rest, e'⟩ :=
      fun e => free_fields fs (fun f hf => hk f hf) rest ws _ _ e k hpl2 hs
    obtain ⟨hv, hr⟩ := Option.isSome_iff_exists.1 hhd
    have hdsp : ∀ c ∈ hd, isSpace c = false := (hw hd (by simp)).1
    obtain ⟨e0, he0⟩ := head_full hr hdsp n
    have hfacts := (Pat.cat h.pats).facts (h.word hok) n
    cases hx : run (headRe h n) ⟨prev, hd ++ enc (ws ++ rest), caps⟩ (fun st => run (fieldsRe fs (n + h.ng)) st k) with
    | none =>
      have := (run_spec (headRe h n) _ _).1.1 hx _ (he0.step prev (enc (ws ++ rest)) caps)
      obtain ⟨e', he'⟩ := hrest (e0 ++ caps)
      have h3 := hs e'
      rw [← he', this] at h3
      cases h3
    | some x =>
      obtain ⟨st', h1, h2⟩ := (run_spec (headRe h n) _ _).2 x hx
      obtain ⟨u, e, m1, m2, m3, m4⟩ := h1.mt hfacts.1
      obtain ⟨v, hv1, hv2⟩ := prefix_word (noSp_mt hfacts.2.1 u e m1) (enc_bnd _) m2
      have hvn : v = [] := by
        rcases hst with hst | ⟨b1, b2⟩
        · cases v with
          | nil => rfl
          | cons a v =>
            rw [startsReq_blocked hst _ _ _ (by
              rw [hv2]
              intro y hy hys
              simp at hy
              subst hys
              have := hdsp ' ' (by rw [hv1, ← hy]; simp)
              exact absurd this (by decide))] at h2
            cases h2
        · obtain ⟨vs, -, -, h3⟩ := head_mt hok m1
          exact bare_prefix hok b1 b2 h3 (by rw [← hv1]; exact hr)
      subst hvn
      rw [List.append_nil] at hv1
      subst hv1
      have hst' : st' = ⟨hd.reverse ++ prev, enc (ws ++ rest), e ++ caps⟩ := St.ext' m3 (by simpa using hv2) m4
      obtain ⟨e', he'⟩ := hrest (e ++ caps)
      rw [hst', he'] at h2
      exact ⟨e', h2.symm⟩

/-- The alternation at the start of an option. -/
theorem alts_option (as bs : List Cls) (c : Cls) (st : St) (k : St → Option St) (P : St → Prop)
    (hd : ∀ d ∈ as, ∀ n, run (d.pat.re n) st k = none)
    (hr : ∀ n, ∃ st', P st' ∧ run (c.pat.re n) st k = some st') (n : Nat) :
    ∃ st', P st' ∧ run (altsRe (as ++ c :: bs) n) st k = some st' := by
  induction as generalizing n with
  | nil =>
    cases bs with
    | nil => exact hr n
    | cons b bs =>
      simp only [List.nil_append, altsRe, run_alt]
      obtain ⟨st', h1, h2⟩ := hr n
      exact ⟨st', h1, by rw [h2]; rfl⟩
  | cons d as ih =>
    have ih := ih (fun x hx => hd x (by simp [hx]))
    have hne : ∃ y ys, as ++ c :: bs = y :: ys := by
      cases as with
      | nil => exact ⟨c, bs, rfl⟩
      | cons y ys => exact ⟨y, ys ++ c :: bs, rfl⟩
    obtain ⟨y, ys, hy⟩ := hne
    rw [List.cons_append]
    rw [hy] at ih ⊢
    simp only [altsRe, run_alt]
    rw [hd d (by simp), Option.none_or]
    exact ih _

theorem firstOf_split {cs : List Cls} {s : Str} {c : Cls} (h : firstOf cs s = some c) :
    c ∈ cs ∧ ∃ as bs, sortLen cs = as ++ c :: bs ∧ ∀ d ∈ as, d ∈ cs ∧ d.begins s = false := by
  unfold firstOf at h
  refine ⟨(mem_sortLen cs).1 (List.mem_of_find?_eq_some h), ?_⟩
  obtain ⟨-, as, bs, h1, h2⟩ := List.find?_eq_some_iff_append.1 h
  refine ⟨as, bs, h1, fun d hd => ⟨(mem_sortLen cs).1 (by rw [h1]; simp [hd]), ?_⟩⟩
  simpa using h2 d hd

theorem optWords_cons (hd : Str) (ws : List Str) (l : List Opt) : optWords ((hd, ws) :: l) = hd :: (ws ++ optWords l) := rfl

/-- An option is found by the class whose pattern begins there first. -/
theorem find_class (cs : List Cls) (hg : ∀ c ∈ cs, c.pat.Good) (c : Cls) (hd : Str) (ws rest : List Str) (hw : Words (hd :: ws))
    (hc : firstOf cs (hd ++ enc (ws ++ rest)) = some c) (hs : c.takes hd ws rest.head? = true) (prev : Str) :
    ∃ e, run (altsRe (sortLen cs) 1) ⟨prev, hd ++ enc (ws ++ rest), []⟩ (findK (hd ++ enc (ws ++ rest)).length) =
      some ⟨(hd ++ enc ws).reverse ++ prev, enc rest, e⟩ := by
  obtain ⟨-, as, bs, hsort, hdead⟩ := firstOf_split hc
  have hne := (hw hd (by simp)).2
  have hk : ∀ e, findK (hd ++ enc (ws ++ rest)).length ⟨(hd ++ enc ws).reverse ++ prev, enc rest, e⟩ =
      some ⟨(hd ++ enc ws).reverse ++ prev, enc rest, e⟩ := by
    intro e
    unfold findK
    rw [if_pos]
    cases hd with
    | nil => exact absurd rfl hne
    | cons a t => simp only [enc_append, List.length_append, List.length_cons]; omega
  obtain ⟨st', ⟨e, rfl⟩, h2⟩ := alts_option as bs c ⟨prev, hd ++ enc (ws ++ rest), []⟩
    (findK (hd ++ enc (ws ++ rest)).length) (fun st => ∃ e, st = ⟨(hd ++ enc ws).reverse ++ prev, enc rest, e⟩)
    (fun d hd' n => begins_none (hg d (hdead d hd').1) (hdead d hd').2 n _ _ _)
    (by
      intro n
      obtain ⟨e, he⟩ := free_option c hd ws rest hs hw n prev [] (findK (hd ++ enc (ws ++ rest)).length)
        (by intro e; rw [hk]; rfl)
      exact ⟨_, ⟨e, rfl⟩, by rw [he, hk]⟩) 1
  rw [hsort]
  exact ⟨e, h2⟩

/-- The first option is found. -/
theorem find_option (cs : List Cls) (hg : ∀ c ∈ cs, c.pat.Good) (hd : Str) (ws : List Str)
    (l : List Opt) (hw : Words (optWords ((hd, ws) :: l))) (hs : splits cs ((hd, ws) :: l) = true) (prev : Str) :
    ∃ e, run (altsRe (sortLen cs) 1) ⟨prev, hd ++ enc (ws ++ optWords l), []⟩ (findK (hd ++ enc (ws ++ optWords l)).length) =
      some ⟨(hd ++ enc ws).reverse ++ prev, enc (optWords l), e⟩ := by
  simp only [splits, Bool.and_eq_true] at hs
  obtain ⟨⟨hs, -⟩, -⟩ := hs
  split at hs
  · rename_i c hc
    refine find_class cs hg c hd ws (optWords l) (fun x hx => hw x ?_) hc hs prev
    rw [optWords_cons]
    simp only [List.mem_cons, List.mem_append] at hx ⊢
    rcases hx with hx | hx
    · exact .inl hx
    · exact .inr (.inl hx)
  · cases hs

/-- Splitting a text into options. -/
theorem options_split (cs : List Cls) (hg : ∀ c ∈ cs, c.pat.Good) (hb : ∀ c ∈ cs, c.pat.nb = true) (hd : Str) (ws : List Str)
    (l : List Opt) (hw : Words (optWords ((hd, ws) :: l))) (hs : splits cs ((hd, ws) :: l) = true) :
    finditer (altsRe (sortLen cs) 1) (hd ++ enc (ws ++ optWords l)) = ((hd, ws) :: l).map (fun i => i.1 ++ enc i.2) := by
  have hfree := (alts_any (sortLen cs) (fun c hc => hg c ((mem_sortLen cs).1 hc)) 1).1
  have hit : ∀ (l : List Opt) (hd : Str) (ws : List Str), Words (optWords ((hd, ws) :: l)) → splits cs ((hd, ws) :: l) = true →
      ∀ (prev : Str) (n : Nat), (hd ++ enc (ws ++ optWords l)).length ≤ n →
      (finditerAux (altsRe (sortLen cs) 1) n prev (hd ++ enc (ws ++ optWords l))).filterMap (fun | .inl _ => none | .inr (t, _) => some t) =
        ((hd, ws) :: l).map (fun i => i.1 ++ enc i.2) := by
    intro l
    induction l with
    | nil =>
      intro hd ws hw hs prev n hn
      have hne := (hw hd (by simp [optWords_cons])).2
      obtain ⟨c, t, rfl⟩ : ∃ c t, hd = c :: t := by
        cases hd with
        | nil => exact absurd rfl hne
        | cons c t => exact ⟨c, t, rfl⟩
      obtain ⟨e, he⟩ := find_option cs hg (c :: t) ws [] hw hs prev
      cases n with
      | zero => simp at hn
      | succ n =>
        rw [List.cons_append] at he ⊢
        rw [finditerAux]
        unfold findK at he
        rw [he]
        have e1 : optWords [] = [] := rfl
        simp only [List.filterMap_cons, e1, enc_nil, List.append_nil, List.length_nil, Nat.sub_zero, List.take_length]
        have : finditerAux (altsRe (sortLen cs) 1) n ((c :: t ++ enc ws).reverse ++ prev) [] = [] := by cases n <;> rfl
        rw [this]; simp
    | cons i l ih =>
      intro hd ws hw hs prev n hn
      obtain ⟨hd', ws'⟩ := i
      have hne := (hw hd (by simp [optWords_cons])).2
      obtain ⟨c, t, rfl⟩ : ∃ c t, hd = c :: t := by
        cases hd with
        | nil => exact absurd rfl hne
        | cons c t => exact ⟨c, t, rfl⟩
      obtain ⟨e, he⟩ := find_option cs hg (c :: t) ws ((hd', ws') :: l) hw hs prev
      cases n with
      | zero => simp at hn
      | succ n =>
        rw [List.cons_append] at he ⊢
        rw [finditerAux]
        unfold findK at he
        rw [he]
        simp only [List.filterMap_cons, List.map_cons]
        have htake : (c :: (t ++ enc (ws ++ optWords ((hd', ws') :: l)))).take ((c :: (t ++ enc (ws ++ optWords ((hd', ws') :: l)))).length
            - (enc (optWords ((hd', ws') :: l))).length) = c :: t ++ enc ws := by
          have := take_consumed (c :: t ++ enc ws) (enc (optWords ((hd', ws') :: l)))
          rw [List.append_assoc, ← enc_append] at this
          exact this
        rw [htake]
        congr 1
        rw [optWords_cons, enc_cons]
        have hn' : (hd' ++ enc (ws' ++ optWords l)).length + 1 ≤ n := by
          simp only [optWords_cons, enc_cons, enc_append, List.length_append, List.length_cons] at hn ⊢
          omega
        cases n with
        | zero => omega
        | succ n =>
          rw [finditerAux]
          have : run (altsRe (sortLen cs) 1) ⟨(c :: t ++ enc ws).reverse ++ prev, ' ' :: (hd' ++ enc (ws' ++ optWords l)), []⟩
              (fun st => if st.rest.length < (' ' :: (hd' ++ enc (ws' ++ optWords l))).length then some st else none) = none := by
            apply run_none
            intro st' hst
            obtain ⟨u, e', h1, h2, h3, h4⟩ := hst.mt hfree
            cases u with
            | nil =>
              simp only [List.nil_append] at h2
              rw [← h2]; simp
            | cons a u =>
              simp only [List.cons_append, List.cons.injEq] at h2
              exfalso
              obtain ⟨d, hd1, e1, hd2⟩ := (alts_full (sortLen cs) (fun c hc => hg c ((mem_sortLen cs).1 hc)) 1 (a :: u)).1 ⟨_, h1⟩
              have := Pat.nb_mt (hb d ((mem_sortLen cs).1 hd1)) hd2
              rw [← h2.1] at this
              exact this rfl
          rw [this]
          simp only [List.filterMap_cons]
          refine ih hd' ws' ?_ ?_ _ n (by omega)
          · intro x hx; exact hw x (by rw [optWords_cons] at hx ⊢; simp only [List.mem_cons, List.mem_append, optWords_cons] at hx ⊢; exact .inr (.inr hx))
          · simp only [splits, Bool.and_eq_true] at hs ⊢; exact hs.2
  exact hit l hd ws hw hs [] _ (Nat.le_refl _)

end Inp
