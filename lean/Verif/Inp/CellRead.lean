import Verif.Inp.CellSpec
import Verif.Inp.OptionRead
import Verif.Inp.OptionApart
import Verif.Inp.SurfaceRead
/-!
# Cell cards are read entry by entry
-/
set_option maxRecDepth 100000
namespace Inp
open Py Types

theorem cellOptions_good : ∀ c ∈ cellOptions, c.pat.Good := by
  have : cellOptions.all (·.pat.base) = true := by decide +kernel
  intro c hc
  exact Pat.base_good (List.all_eq_true.1 this c hc)

theorem cellOptions_nb : ∀ c ∈ cellOptions, c.pat.nb = true := by
  have : cellOptions.all (·.pat.nb) = true := by decide +kernel
  exact List.all_eq_true.1 this

theorem cellOptions_names : (cellOptions.map (·.info.name)).Nodup ∧ ((sortLen cellOptions).map (·.info.name)).Nodup := by
  decide +kernel

theorem cell_ty : Tab.T_cell_CellOption = unionTy "cell.CellOption" cellOptions := rfl

/-- The field of the options. -/
def cellField : Field := ⟨.ngrp (.ty (unionTy "cell.CellOption" cellOptions)), .manyOpt⟩

/-- `[^a-z]` -/
def geoCls : CC := .set true [.range 'a' 'z']

/-- `( [^a-z]+)` -/
def geomRe : Re := .grp 4 (.seq (litRe c!" ") (.plus true (.cls geoCls.test)))

/-- `((?<! 0) \S+|(?<= 0))` -/
def densRe : Re := .grp 3 (.alt (.seq (.behind false c!" 0") (.seq (litRe c!" ") wordRe)) (.behind true c!" 0"))

theorem cell_re : Tab.Cell.re = anchored (.seq (.grp 1 wordRe) (.seq (.grp 2 (.seq (litRe c!" ") wordRe))
    (.seq densRe (.seq geomRe (cellField.pat.re 5))))) := rfl

theorem upper_cases {c : Char} (h : 'A' ≤ c ∧ c ≤ 'Z') : ∃ n < 26, c = Char.ofNat (65 + n) := by
  obtain ⟨h1, h2⟩ := h
  have e1 : 65 ≤ c.toNat := h1
  have e2 : c.toNat ≤ 90 := h2
  exact ⟨c.toNat - 65, by omega, by rw [show 65 + (c.toNat - 65) = c.toNat by omega, Char.ofNat_toNat]⟩

theorem upper_all : ∀ n < 26, geoCls.test (Char.ofNat (65 + n)) = false ∧ isLetter (Char.ofNat (65 + n)) = true := by decide

theorem geo_test (c : Char) : geoCls.test c = !isLetter c := by
  by_cases h : 'A' ≤ c ∧ c ≤ 'Z'
  · obtain ⟨n, hn, rfl⟩ := upper_cases h
    obtain ⟨h1, h2⟩ := upper_all n hn
    rw [h1, h2]; rfl
  · have hl : lowerC c = c := by unfold lowerC; rw [if_neg (by simpa using h)]
    have hu : ('A' ≤ c && c ≤ 'Z') = false := by simpa using h
    simp only [geoCls, CC.test, CI.test, List.any_cons, List.any_nil, isLetter, Bool.or_false, hl, hu, Bool.or_self]
    cases ('a' ≤ c && c ≤ 'z') <;> rfl

/-! ## Words -/

/-- The continuation fails unless a blank follows. -/
def Blocked {α : Type} (k : St → Option α) : Prop := ∀ st, (∀ c ∈ st.rest.head?, c ≠ ' ') → k st = none

theorem word_run {α : Type} (w rest : Str) (hw : NoSpace w) (hne : w ≠ []) (hr : Bnd rest) (prev caps) (k : St → Option α)
    (hk : Blocked k) : run wordRe ⟨prev, w ++ rest, caps⟩ k = k ⟨w.reverse ++ prev, rest, caps⟩ := by
  obtain ⟨e, he, h⟩ := (run_word wordRe rfl word_nosp w rest prev caps hr k (by
    intro u v e huv hv
    exact hk _ (blocked_of_word hw huv hv _))).1 ((word_full w).2 ⟨hne, hw⟩)
  rw [mt_word he] at h
  exact h

theorem blank_run {α : Type} (r : Re) (s prev : Str) (caps) (k : St → Option α) :
    run (.seq (litRe c!" ") r) ⟨prev, ' ' :: s, caps⟩ k = run r ⟨' ' :: prev, s, caps⟩ k := by
  rw [run_seq]
  unfold litRe litRe
  rw [run_seq, Re.chrI, run_cls_cons]
  simp [run_eps]

theorem blank_none {α : Type} (r : Re) (k : St → Option α) : Blocked (fun st => run (.seq (litRe c!" ") r) st k) := by
  rintro ⟨prev, rest, caps⟩ h
  simp only
  rw [run_seq]
  unfold litRe litRe
  rw [run_seq, Re.chrI]
  cases rest with
  | nil => rfl
  | cons c cs =>
    have : c ≠ ' ' := h c (by simp)
    simp only [run_cls_cons, beq_iff_eq, lower_space, this, if_false]

/-! ## Geometry and options -/

/-- The word begins with a letter, possibly after an asterisk. -/
def optStart (w : Str) : Prop := ∃ p c t, w = p ++ c :: t ∧ (p = [] ∨ p = ['*']) ∧ isLetter c = true

theorem field_run {α : Type} (st : St) (k : St → Option α) : run (cellField.pat.re 5) st k = run (fieldsRe [cellField] 5) st k := by
  rw [fieldsRe_cons, run_seq]
  rfl

theorem geo_run (s : Str) (gws : List Str) (hg : gws ≠ []) (hw : Words gws) (hgw : ∀ w ∈ gws, geoWord w = true) (l : List Opt)
    (hf : ∀ i ∈ l, ∃ d ∈ cellOptions, Full (d.pat.re 1) (i.1 ++ enc i.2)) (hst : ∀ i ∈ l.head?, optStart i.1) (prev caps) :
    ∃ e, Good 5 [cellField] [if l = [] then none else some (optWords l)] e ∧
      run (.seq geomRe (cellField.pat.re 5)) ⟨prev, enc (gws ++ optWords l), caps⟩ (finish s) =
        some ((0, s) :: (e ++ (4, enc gws) :: caps)) := by
  obtain ⟨g, gs, rfl⟩ := List.exists_cons_of_ne_nil hg
  obtain ⟨c, g', rfl⟩ := List.exists_cons_of_ne_nil (hw g (by simp)).2
  have hk : ∀ st, st.rest ≠ [] → finish s st = none := fun st h => finish_none _ st h
  have hs : ∀ st, st.rest = [] → (finish s st).isSome = true := by
    rintro ⟨p, r, cp⟩ hs
    simp only at hs; subst hs
    rw [finish_end]; rfl
  have hlast : ∀ prev caps, ∃ e3, Good 5 [cellField] [if l = [] then none else some (optWords l)] e3 ∧
      run (fieldsRe [cellField] 5) ⟨prev, enc (optWords l), caps⟩ (finish s) = some ((0, s) :: (e3 ++ caps)) := by
    intro prev caps
    by_cases hle : l = []
    · subst hle
      refine ⟨[], .none .nil, ?_⟩
      rw [show optWords [] = [] from rfl, enc_nil, last_none cellField rfl, finish_end]
      rfl
    · obtain ⟨e3, h4, h5⟩ := last_options cellField (.inl rfl) (unionTy_good "cell.CellOption" cellOptions cellOptions_good) 5 l hle (by
        intro i hi
        obtain ⟨d, hd1, hd2⟩ := hf i hi
        exact (alts_full (sortLen cellOptions) (fun x hx => cellOptions_good x ((mem_sortLen _).1 hx)) _ _).2
          ⟨d, (mem_sortLen _).2 hd1, hd2⟩) prev caps (finish s) hk hs
      rw [if_neg hle]
      exact ⟨e3, h4, by rw [h5, finish_end]⟩
  have hchar : ∀ w ∈ (c :: g') :: gs, ∀ x ∈ w, geoCls.test x = true := by
    intro w hw' x hx
    rw [geo_test]
    exact List.all_eq_true.1 (hgw w hw') x hx
  have hsplit : ∃ w2 r, enc (optWords l) = w2 ++ r ∧ (∀ x ∈ w2, geoCls.test x = true) ∧
      (∀ x xs, r = x :: xs → geoCls.test x = false) ∧
      ∀ a b, a ≠ [] → w2 = a ++ b → b ++ r ≠ [] ∧ ∀ x ∈ (b ++ r).head?, x ≠ ' ' := by
    cases l with
    | nil => exact ⟨[], [], rfl, by simp, by simp, fun a b ha hab => by simp at hab; exact absurd hab.1 ha⟩
    | cons i l =>
      obtain ⟨p, x, t, h1, h2, h3⟩ := hst i (by simp)
      have h3' : geoCls.test x = false := by rw [geo_test, h3]; rfl
      have hx : x ≠ ' ' := by rintro rfl; revert h3; decide
      refine ⟨' ' :: p, x :: (t ++ enc (i.2 ++ optWords l)), ?_, ?_, ?_, ?_⟩
      · rw [show optWords (i :: l) = i.1 :: (i.2 ++ optWords l) from rfl, enc_cons, h1]; simp
      · rcases h2 with rfl | rfl <;> decide
      · intro y ys hy; cases hy; exact h3'
      · intro a b ha hab
        obtain ⟨a0, a', rfl⟩ := List.exists_cons_of_ne_nil ha
        simp only [List.cons_append, List.cons.injEq] at hab
        refine ⟨by simp, ?_⟩
        cases b with
        | nil => intro y hy; simp at hy; rw [← hy]; exact hx
        | cons b0 b =>
          intro y hy
          simp at hy
          subst hy
          rcases h2 with rfl | rfl
          · simp at hab
          · have : b0 ∈ ['*'] := by rw [hab.2]; simp
            simp at this
            rw [this]; decide
  obtain ⟨w2, r, hr1, hr2, hr3, hr4⟩ := hsplit
  have hinner : ∀ x ∈ g' ++ enc gs, geoCls.test x = true := by
    intro x hx
    rcases List.mem_append.1 hx with hx | hx
    · exact hchar (c :: g') (by simp) x (by simp [hx])
    · obtain ⟨w, hw', hx⟩ := List.mem_flatMap.1 hx
      rcases List.mem_cons.1 hx with rfl | hx
      · decide
      · exact hchar w (by simp [hw']) x hx
  obtain ⟨e, he, hrun⟩ := hlast ((enc ((c :: g') :: gs)).reverse ++ prev) ((4, enc ((c :: g') :: gs)) :: caps)
  refine ⟨e, he, ?_⟩
  rw [run_seq]
  unfold geomRe
  rw [run_grp]
  have htext : enc ((c :: g') :: gs ++ optWords l) = ' ' :: c :: ((g' ++ enc gs) ++ (w2 ++ r)) := by
    rw [enc_append, hr1]; simp
  simp only [htext]
  rw [blank_run]
  unfold Re.plus
  rw [run_seq, run_cls_cons, if_pos (hchar (c :: g') (by simp) c (by simp))]
  refine run_star_cls_greedy geoCls.test (g' ++ enc gs) w2 r _ _ _ _ hinner hr2 hr3 ?_ ?_
  · simp only
    rw [field_run]
    have e1 : ((g' ++ enc gs).reverse ++ c :: ' ' :: prev) = (enc ((c :: g') :: gs)).reverse ++ prev := by simp
    have e2 : (' ' :: c :: ((g' ++ enc gs) ++ (w2 ++ r))).take ((' ' :: c :: ((g' ++ enc gs) ++ (w2 ++ r))).length - (w2 ++ r).length) =
        enc ((c :: g') :: gs) := by
      have := take_consumed (' ' :: c :: (g' ++ enc gs)) (w2 ++ r)
      simp only [List.cons_append] at this
      rw [this]; simp
    rw [e1, e2, ← hr1, hrun]
  · intro a b ha hab
    obtain ⟨q1, q2⟩ := hr4 a b ha hab
    simp only
    rw [field_run]
    exact fieldsRe_blocked _ _ _ _ q2 q1 hk

/-! ## The whole pattern -/

theorem geo_blocked (s : Str) : Blocked (fun st => run (.seq geomRe (cellField.pat.re 5)) st (finish s)) := by
  intro st h
  simp only
  rw [run_seq]
  unfold geomRe
  rw [run_grp]
  exact blank_none _ _ st h

theorem dens_blocked {α : Type} (k : St → Option α) (hk : Blocked k) :
    Blocked (fun st => run densRe st k) := by
  intro st h
  simp only
  unfold densRe
  rw [run_grp, run_alt, run_seq]
  have h1 : run (.behind false c!" 0") st (fun st' => run (.seq (litRe c!" ") wordRe) st' (fun st'' =>
      k ⟨st''.prev, st''.rest, (3, st.rest.take (st.rest.length - st''.rest.length)) :: st''.caps⟩)) = none := by
    unfold run
    split
    · exact blank_none _ _ st h
    · rfl
  rw [h1]
  simp only [Option.none_or]
  unfold run
  split
  · exact hk _ h
  · rfl

theorem behind_zero (m p : Str) (hm : NoSpace m) (hne : m ≠ []) :
    (c!" 0").reverse.isPrefixOf (m.reverse ++ ' ' :: p) = decide (m = c!"0") := by
  have hsp : ∀ x ∈ m.reverse, isSpace x = false := fun x hx => hm x (List.mem_reverse.1 hx)
  have hrev : m = m.reverse.reverse := by simp
  have hne' : m.reverse ≠ [] := by simpa using hne
  rw [hrev]
  generalize m.reverse = u at hsp hne'
  rw [List.reverse_reverse]
  obtain ⟨x, u, rfl⟩ := List.exists_cons_of_ne_nil hne'
  cases u with
  | nil =>
    by_cases hx : x = '0'
    · subst hx; rfl
    · have : ([x].reverse = c!"0") = False := by simp [hx]
      rw [decide_eq_false (by rw [this]; exact id)]
      simp [List.isPrefixOf, Ne.symm hx]
  | cons y u =>
    have hy : y ≠ ' ' := by
      rintro rfl
      exact absurd (hsp ' ' (by simp)) (by decide)
    rw [decide_eq_false (by
      intro h
      have := congrArg List.length h
      simp at this)]
    simp [List.isPrefixOf, Ne.symm hy]

/-- The captures of a cell card. -/
theorem cell_match (n m : Str) (d : Option Str) (gws : List Str) (l : List Opt)
    (hw : Words (n :: m :: (d.toList ++ (gws ++ optWords l)))) (hd : d = none ↔ m = c!"0")
    (hg : gws ≠ []) (hgw : ∀ w ∈ gws, geoWord w = true)
    (hf : ∀ i ∈ l, ∃ d ∈ cellOptions, Full (d.pat.re 1) (i.1 ++ enc i.2)) (hst : ∀ i ∈ l.head?, optStart i.1) :
    ∃ e, Good 5 [cellField] [if l = [] then none else some (optWords l)] e ∧
      reMatch Tab.Cell.re (n ++ enc (m :: (d.toList ++ (gws ++ optWords l)))) =
        some ((0, n ++ enc (m :: (d.toList ++ (gws ++ optWords l)))) ::
          (e ++ (4, enc gws) :: (3, enc d.toList) :: (2, enc [m]) :: (1, n) :: [])) := by
  have hwg : Words gws := fun w h => hw w (by simp [h])
  obtain ⟨n1, n2⟩ := hw n (by simp)
  obtain ⟨m1, m2⟩ := hw m (by simp)
  generalize hs : n ++ enc (m :: (d.toList ++ (gws ++ optWords l))) = s
  obtain ⟨e, he, hrun⟩ := geo_run s gws hg hwg hgw l hf hst
    ((enc d.toList).reverse ++ (m.reverse ++ ' ' :: (n.reverse ++ [])))
    ((3, enc d.toList) :: (2, enc [m]) :: (1, n) :: [])
  refine ⟨e, he, ?_⟩
  have h0 : reMatch Tab.Cell.re s = run (.seq (.grp 1 wordRe) (.seq (.grp 2 (.seq (litRe c!" ") wordRe))
      (.seq densRe (.seq geomRe (cellField.pat.re 5))))) ⟨[], s, []⟩ (finish s) := by
    unfold reMatch
    rw [cell_re]
    unfold anchored
    rw [run_seq, run_bos, if_pos rfl, run_seq]
    rfl
  have hdb : Blocked (fun st => run (.seq densRe (.seq geomRe (cellField.pat.re 5))) st (finish s)) := by
    intro st h
    simp only
    rw [run_seq]
    exact dens_blocked _ (geo_blocked s) st h
  rw [h0, run_seq, run_grp, ← hs, word_run n _ n1 n2 (enc_bnd _)]
  · simp only [take_consumed]
    rw [run_seq, run_grp]
    simp only [enc_cons]
    rw [blank_run, word_run m _ m1 m2 (enc_bnd _)]
    · simp only
      have ht := take_consumed (' ' :: m) (enc (d.toList ++ (gws ++ optWords l)))
      simp only [List.cons_append] at ht
      rw [ht]
      rw [run_seq]
      unfold densRe
      rw [run_grp, run_alt]
      have hb : ∀ (pos : Bool) (k : St → Option (List (Nat × Str))) (rest caps),
          run (.behind pos c!" 0") ⟨m.reverse ++ ' ' :: (n.reverse ++ []), rest, caps⟩ k =
          if decide (m = c!"0") = pos then k ⟨m.reverse ++ ' ' :: (n.reverse ++ []), rest, caps⟩ else none := by
        intro pos k rest caps
        conv => lhs; unfold run
        simp only
        rw [behind_zero m _ m1 m2]
      rw [run_seq, hb, hb]
      cases d with
      | none =>
        have hm0 : m = c!"0" := hd.1 rfl
        rw [decide_eq_true hm0]
        simp only [Option.toList, List.nil_append, enc_nil, List.reverse_nil] at hrun ⊢
        simp only [if_true, Bool.true_eq_false, if_false, Option.none_or]
        have : (enc (gws ++ optWords l)).take ((enc (gws ++ optWords l)).length - (enc (gws ++ optWords l)).length) = [] := by simp
        rw [this]
        simp only [Option.toList, List.nil_append, enc_cons] at hs
        rw [hs]
        simp only [enc_cons, enc_nil, List.append_nil] at hrun ⊢
        exact hrun
      | some d =>
        have hm0 : m ≠ c!"0" := fun h => by cases hd.2 h
        rw [decide_eq_false hm0]
        obtain ⟨d1, d2⟩ := hw d (by simp)
        simp only [Option.toList, List.cons_append, List.nil_append, enc_cons, enc_nil, List.append_nil] at hrun hs ⊢
        simp only [if_true]
        rw [blank_run, word_run d _ d1 d2 (enc_bnd _)]
        · have ht := take_consumed (' ' :: d) (enc (gws ++ optWords l))
          simp only [List.cons_append] at ht
          simp only
          rw [ht]
          rw [hs]
          have e1 : (' ' :: d).reverse ++ (m.reverse ++ ' ' :: n.reverse) = d.reverse ++ ' ' :: (m.reverse ++ ' ' :: n.reverse) := by simp
          rw [e1] at hrun
          rw [hrun]
          rfl
        · intro st h
          rw [hs]
          exact geo_blocked s _ h
    · intro st h
      have : (n ++ ' ' :: (m ++ enc (d.toList ++ (gws ++ optWords l)))) = s := by rw [← hs]; simp
      rw [this]
      exact hdb _ h
  · intro st h
    rw [hs]
    simp only
    rw [run_seq, run_grp]
    exact blank_none _ _ _ h

/-- Options of a cell begin with a letter, possibly after an asterisk. -/
def lettered (c : Cls) : Bool :=
  match c.shape with
  | .flat h _ => (h.pre == .no || h.pre == .star) && (match h.kw with | c :: _ => decide (c ∈ c!"abcdefghijklmnopqrstuvwxyz") | [] => false)
  | .other _ => true

theorem cellOptions_lettered : cellOptions.all lettered = true := by decide +kernel

theorem lower_letter {x c : Char} (hc : c ∈ c!"abcdefghijklmnopqrstuvwxyz") (h : lowerC x = lowerC c) : isLetter x = true := by
  by_cases hu : 'A' ≤ x ∧ x ≤ 'Z'
  · simp [isLetter, hu]
  · have hl : lowerC x = x := by unfold lowerC; rw [if_neg (by simpa using hu)]
    have : ∀ c ∈ c!"abcdefghijklmnopqrstuvwxyz", isLetter (lowerC c) = true := by decide
    rw [← hl, h]
    exact this c hc

theorem takes_start {c : Cls} (hc : c ∈ cellOptions) {hd ws nx} (ht : c.takes hd ws nx = true) : optStart hd := by
  have hl := List.all_eq_true.1 cellOptions_lettered c hc
  unfold Cls.takes at ht
  rw [Bool.and_eq_true] at ht
  obtain ⟨-, ht⟩ := ht
  unfold lettered at hl
  split at hl
  · rename_i h fs hsh
    rw [hsh] at ht
    simp only [Bool.and_eq_true] at ht
    have hh := ht.1.2
    simp only [Bool.and_eq_true, Bool.or_eq_true, beq_iff_eq] at hl
    obtain ⟨hp, hk⟩ := hl
    split at hk
    · rename_i k ks hkw
      have hkm : k ∈ c!"abcdefghijklmnopqrstuvwxyz" := of_decide_eq_true hk
      unfold readHead at hh
      split at hh
      · cases hh
      · rename_i t hrk
        have hpre : ∃ p : Str, (p = [] ∨ p = ['*']) ∧ hd = p ++ (readPre h.pre hd).2 := by
          unfold readPre
          rcases hp with hp | hp
          · rw [hp]; exact ⟨[], .inl rfl, rfl⟩
          · rw [hp]
            split
            · exact ⟨[], .inl rfl, rfl⟩
            · split
              · exact ⟨[], .inl rfl, rfl⟩
              · split
                · rename_i c t' hc
                  have : c = '*' := by simpa [Pre.chars] using hc
                  exact ⟨[c], .inr (by rw [this]), rfl⟩
                · exact ⟨[], .inl rfl, rfl⟩
        obtain ⟨p, hp1, hp2⟩ := hpre
        unfold readKw at hrk
        split at hrk
        · rename_i hkk
          rw [hkw] at hkk
          cases hr : (readPre h.pre hd).2 with
          | nil => rw [hr] at hkk; simp [lower] at hkk
          | cons x xs =>
            rw [hr] at hkk hp2
            simp only [List.length_cons, List.take_succ_cons, lower, List.map_cons, List.cons.injEq] at hkk
            exact ⟨p, x, xs, hp2, hp1, lower_letter hkm hkk.1⟩
        · cases hrk
    · cases hk
  · rename_i hsh
    rw [hsh] at ht
    cases ht

theorem cell_ng : 5 ≤ Tab.Cell.pat.ng := by decide +kernel

theorem cellField_aligned : aligned [cellField] = true := by decide +kernel

theorem join_enc_cons (w : Str) (ws : List Str) : join [' '] (w :: ws) = w ++ enc ws := by
  induction ws generalizing w with
  | nil => simp [join]
  | cons v ws ih =>
    rw [join, ih v]
    · simp [enc_cons]
    · simp

theorem cell_options (s : Str) : Tab.Cell.attrs[4].parse s = tupleParse (unionTy "cell.CellOption" cellOptions) s := by
  have h : Tab.Cell.attrs[4] = ⟨"options", Tab.T_cell_CellOption, true, none⟩ := rfl
  rw [h, cell_ty]
  simp only [Attr.parse, if_true]

/-- A list of owned options is read option by option. -/
theorem owned_tuple (nm : String) (cs : List Cls) (hg : ∀ c ∈ cs, c.pat.Good) (hb : ∀ c ∈ cs, c.pat.nb = true)
    (c : Cls) (hd : Str) (ws : List Str) (os : List (Cls × Opt))
    (s1 : splits cs (((c, hd, ws) :: os).map (·.2)) = true)
    (s2 : readOpts cs (((c, hd, ws) :: os).map (·.2)) = readOwned ((c, hd, ws) :: os))
    (hw : ∀ i ∈ ((c, hd, ws) :: os).map (·.2), ∀ w ∈ i.1 :: i.2, Stable w) :
    tupleParse (unionTy nm cs) (hd ++ enc (ws ++ optWords (os.map (·.2)))) = (readOwned ((c, hd, ws) :: os)).map .tuple := by
  rw [← s2]
  generalize hl : os.map (·.2) = l
  simp only [List.map_cons, hl] at s1 hw ⊢
  exact options_read nm cs hg hb hd ws l s1
        (fun i hi => ⟨(hw i hi i.1 (by simp)).entry, fun w hw' => hw i hi w (by simp [hw'])⟩)

/-- A cell card with its entries is read by them, if its options are read as `r`. -/
theorem cell_read_with (n m : Str) (d : Option Str) (gws : List Str) (is : List Opt) (r : Res Val)
    (hw : Words (n :: m :: (d.toList ++ (gws ++ optWords is))))
    (hd : d = none ↔ m = c!"0") (hg : gws ≠ []) (hgw : ∀ w ∈ gws, geoWord w = true)
    (hf : ∀ i ∈ is, ∃ d ∈ cellOptions, Full (d.pat.re 1) (i.1 ++ enc i.2)) (hst : ∀ i ∈ is.head?, optStart i.1)
    (h0 : is = [] → r = .ok .none)
    (hr : ∀ nm hd ws js, is = (hd, ws) :: js → tupleParse (unionTy nm cellOptions) (hd ++ enc (ws ++ optWords js)) = r) :
    (match reMatch Tab.Cell.re (n ++ enc (m :: (d.toList ++ (gws ++ optWords is)))) with
      | none => .error .inp | some m => Tab.Cell.build m) = readCellWith n m d gws r := by
  obtain ⟨e, he, hm⟩ := cell_match n m d gws is hw hd hg hgw hf hst
  obtain ⟨g1, g2⟩ := good_get he cellField_aligned
  rw [hm]
  simp only
  generalize hM : (0, n ++ enc (m :: (d.toList ++ (gws ++ optWords is)))) ::
          (e ++ (4, enc gws) :: (3, enc d.toList) :: (2, enc [m]) :: (1, n) :: []) = M
  have hno : ∀ i, i < 5 → e.lookup i = none := by
    intro i hi
    rw [List.lookup_eq_none_iff]
    intro x hx
    have := g2 x hx
    simp only [beq_eq_false_iff_ne, bne_iff_ne, ne_eq]
    omega
  have hlk : ∀ i, 0 < i → i < 5 → cap M i = ((4, enc gws) :: (3, enc d.toList) :: (2, enc [m]) :: (1, n) :: []).lookup i := by
    intro i h0 hi
    rw [← hM, cap, List.lookup_cons, show (i == 0) = false by simp; omega]
    simp only [List.lookup_append, hno i hi, Option.none_or]
  have hng := cell_ng
  obtain ⟨n1, n2⟩ := hw n (by simp)
  obtain ⟨m1, m2⟩ := hw m (by simp)
  have a0 : attrVal Tab.Cell.pat.ng M 0 Tab.Cell.attrs[0] = (intParse n).map (fun v => .sc (.int v)) :=
    attr_word _ M 0 Tab.Cell.attrs[0] (by omega) rfl (some n) (by rw [hlk 1 (by omega) (by omega)]; rfl) (by
      intro w hw; cases hw; exact ⟨n1, n2⟩)
  have a1 : attrVal Tab.Cell.pat.ng M 1 Tab.Cell.attrs[1] = (intParse m).map (fun v => .sc (.int v)) := by
    rw [attr_text _ M 1 _ (by omega) m [] (by rw [hlk 2 (by omega) (by omega)]; rfl) (by
      intro w hw; simp only [List.mem_singleton] at hw; subst hw; exact ⟨m1, m2⟩)]
    rw [show enc [] = [] from rfl, List.append_nil]
    rfl
  have a2 : attrVal Tab.Cell.pat.ng M 2 Tab.Cell.attrs[2] = readVal ⟨"density", .base .real, false, none⟩ (d.map ([·])) := by
    cases d with
    | none =>
      unfold attrVal
      rw [if_neg (by omega), hlk 3 (by omega) (by omega)]
      rfl
    | some d =>
      rw [attr_text _ M 2 _ (by omega) d [] (by rw [hlk 3 (by omega) (by omega)]; rfl) (by
        intro w hw'; simp only [List.mem_singleton] at hw'; subst hw'; exact hw w (by simp))]
      rw [show enc [] = [] from rfl, List.append_nil]
      rfl
  have a3 : attrVal Tab.Cell.pat.ng M 3 Tab.Cell.attrs[3] = (geoParse (join [' '] gws)).map (fun v => .sc (.geo v)) := by
    cases gws with
    | nil => exact absurd rfl hg
    | cons g gws =>
      rw [attr_text _ M 3 _ (by omega) g gws (by rw [hlk 4 (by omega) (by omega)]; rfl) (by
        intro w hw'; exact hw w (by
          simp only [List.mem_cons, List.mem_append]; exact .inr (.inr (.inr (.inl (List.mem_cons.1 hw')))))), join_enc_cons]
      rfl
  have a4 : attrVal Tab.Cell.pat.ng M 4 Tab.Cell.attrs[4] = r := by
    have hcap : cap M 5 = (if is = [] then none else some (optWords is)).map enc := by
      have := g1 0 _ rfl
      rw [← hM, cap, List.lookup_cons, show ((5 : Nat) == 0) = false by rfl]
      simp only [List.lookup_append]
      rw [show 5 + 0 = 5 from rfl] at this
      rw [this]
      cases is with
      | nil => rfl
      | cons o os => rfl
    cases is with
    | nil =>
      unfold attrVal
      rw [if_neg (by omega), hcap, h0 rfl]
      rfl
    | cons o is =>
      obtain ⟨hd', ws'⟩ := o
      have hwo : Words (hd' :: (ws' ++ optWords is)) := by
        intro x hx
        exact hw x (by simp only [List.mem_cons, List.mem_append]; exact .inr (.inr (.inr (.inr (by simpa [optWords, Opt.words] using hx)))))
      rw [attr_text _ M 4 _ (by omega) hd' (ws' ++ optWords is) hcap hwo]
      rw [cell_options]
      exact hr _ _ _ _ rfl
  have hat : Tab.Cell.attrs = [Tab.Cell.attrs[0], Tab.Cell.attrs[1], Tab.Cell.attrs[2], Tab.Cell.attrs[3], Tab.Cell.attrs[4]] := rfl
  unfold Cls.build readCellWith
  rw [hat]
  simp only [attrVals, a0, a1, a2, a3, a4]
  cases intParse n with
  | error e => rfl
  | ok nv =>
    cases intParse m with
    | error e => rfl
    | ok mv =>
      simp only [Except.map]
      cases readVal ⟨"density", .base .real, false, none⟩ (d.map ([·])) with
      | error e => rfl
      | ok dv =>
        cases geoParse (join [' '] gws) with
        | error e => rfl
        | ok gv =>
          cases r <;> rfl

/-- A cell card with its entries is read by them. -/
theorem cell_read (n m : Str) (d : Option Str) (gws : List Str) (os : List (Cls × Opt))
    (hn : Entry n) (hs : ∀ w ∈ m :: (d.toList ++ (gws ++ optWords (os.map (·.2)))), Stable w)
    (hd : d = none ↔ m = c!"0") (hg : gws ≠ []) (hgw : ∀ w ∈ gws, geoWord w = true) (ho : Owned cellOptions os) :
    (match reMatch Tab.Cell.re (n ++ enc (m :: (d.toList ++ (gws ++ optWords (os.map (·.2)))))) with
      | none => .error .inp | some m => Tab.Cell.build m) = readCell n m d gws os := by
  have hw : Words (n :: m :: (d.toList ++ (gws ++ optWords (os.map (·.2))))) := by
    intro w hw
    rcases List.mem_cons.1 hw with rfl | hw
    · exact ⟨hn.sp, hn.ne⟩
    · exact ⟨(hs w hw).entry.sp, (hs w hw).entry.ne⟩
  obtain ⟨s1, s2⟩ := owned_splits cellOptions_good cellOptions_names.1 cellOptions_names.2 os ho
    (fun x hx => hw x (by simp only [List.mem_cons, List.mem_append]; exact .inr (.inr (.inr (.inr hx)))))
  have htk : ∀ (os : List (Cls × Opt)), Owned cellOptions os → (∀ x ∈ os, Words (x.2.1 :: x.2.2)) →
      (∀ i ∈ os.map (·.2), ∃ d ∈ cellOptions, Full (d.pat.re 1) (i.1 ++ enc i.2)) ∧
      ∀ i ∈ (os.map (·.2)).head?, optStart i.1 := by
    intro os
    induction os with
    | nil => intro _ _; exact ⟨by simp, by simp⟩
    | cons o os ih =>
      obtain ⟨c, hd, ws⟩ := o
      intro ho hwo
      obtain ⟨hc, ho1, ho2⟩ := ho
      unfold owns at ho1
      rw [Bool.and_eq_true] at ho1
      refine ⟨?_, ?_⟩
      · intro i hi
        rcases List.mem_cons.1 hi with rfl | hi
        · exact ⟨c, hc, takes_full ho1.1 (cellOptions_good c hc) (hwo (c, hd, ws) (by simp))⟩
        · exact (ih ho2 (fun x hx => hwo x (by simp [hx]))).1 i hi
      · intro i hi
        simp only [List.map_cons, List.head?_cons, Option.mem_def, Option.some.injEq] at hi
        subst hi
        exact takes_start hc ho1.1
  have hmemo : ∀ i ∈ os.map (·.2), ∀ w ∈ i.1 :: i.2, Stable w := by
    intro i hi w hwi
    refine hs w ?_
    simp only [List.mem_cons, List.mem_append]
    exact .inr (.inr (.inr (List.mem_flatMap.2 ⟨i, hi, hwi⟩)))
  obtain ⟨hf, hst⟩ := htk os ho (by
    intro x hx w hwx
    have := hmemo x.2 (List.mem_map.2 ⟨x, hx, rfl⟩) w hwx
    exact ⟨this.entry.sp, this.entry.ne⟩)
  have := cell_read_with n m d gws (os.map (·.2)) (match os with | [] => .ok .none | o :: os => (readOwned (o :: os)).map .tuple) hw hd hg hgw hf hst
    (by intro h; cases os with | nil => rfl | cons o os => cases h)
    (by
      intro nm hd' ws' js h
      cases os with
      | nil => cases h
      | cons o os =>
        obtain ⟨c, h1, h2⟩ := o
        cases h
        exact owned_tuple _ cellOptions cellOptions_good cellOptions_nb c hd' ws' os s1 s2 hmemo)
  rw [this]
  unfold readCellWith readCell
  cases intParse n with
  | error e => rfl
  | ok nv =>
    cases intParse m with
    | error e => rfl
    | ok mv =>
      simp only
      cases readVal ⟨"density", .base .real, false, none⟩ (d.map ([·])) with
      | error e => rfl
      | ok dv =>
        cases geoParse (join [' '] gws) with
        | error e => rfl
        | ok gv =>
          cases os with
          | nil => rfl
          | cons o os =>
            simp only
            cases readOwned (o :: os) with
            | error e => rfl
            | ok ys => rfl

end Inp
