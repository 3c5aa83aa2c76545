import Verif.Inp.FillLostSpec
import Verif.Inp.LatticeRead
import Verif.Inp.DeepFind
import Verif.Inp.OptionLost
/-!
# Options found with a part of their words
-/
set_option maxRecDepth 100000
namespace Inp
open Py Types

/-- An option with the words that are found, the words after them and what it is read as. -/
abbrev Part := Opt × List Str × Res Val

def partWords (l : List Part) : List Str := optWords (l.map (fun x => (x.1.1, x.1.2 ++ x.2.1)))

/-- All options are found, each with a part of its words. -/
inductive Parts (cs : List Cls) : List Part → Prop where
  | nil : Parts cs []
  | cons {i ex r l} (sw : Bool) : Found cs i (ex ++ partWords l) sw r → (∀ w ∈ ex, ∀ a ∈ w, quiet cs a = true) → Parts cs l → Parts cs ((i, ex, r) :: l)

theorem finditer_nil (r : Re) (n : Nat) (p : Str) : finditerAux r n p [] = [] := by cases n <;> rfl

/-- `Tuple(T).from_mcnp` on such options. -/
theorem part_tuple (nm : String) (cs : List Cls) (hg : ∀ c ∈ cs, c.pat.Good) (hb : ∀ c ∈ cs, c.pat.nb = true) (i : Opt) (ex : List Str) (r : Res Val)
    (l : List Part) (hf : Parts cs ((i, ex, r) :: l)) (hw : ∀ x ∈ (i, ex, r) :: l, x.1.1 ≠ []) :
    tupleParse (unionTy nm cs) (i.1 ++ enc (i.2 ++ (ex ++ partWords l))) = (allOk (((i, ex, r) :: l).map (·.2.2))).map .tuple := by
  have hit : ∀ (l : List Part) (i : Opt) (ex : List Str) (r : Res Val), Parts cs ((i, ex, r) :: l) → (∀ x ∈ (i, ex, r) :: l, x.1.1 ≠ []) →
      ∀ (prev : Str) (n : Nat), (i.1 ++ enc (i.2 ++ (ex ++ partWords l))).length ≤ n →
      ((finditerAux (altsRe (sortLen cs) 1) n prev (i.1 ++ enc (i.2 ++ (ex ++ partWords l)))).filterMap found).mapM (unionParse cs) =
        allOk (((i, ex, r) :: l).map (·.2.2)) := by
    intro l
    induction l with
    | nil =>
      intro i ex r hf hw prev n hn
      obtain ⟨hd, ws⟩ := i
      cases hf with
      | cons sw hf1 hq hf2 =>
      obtain ⟨c, t, rfl⟩ := List.exists_cons_of_ne_nil (show hd ≠ [] from hw ((hd, ws), ex, r) (List.mem_cons_self ..))
      obtain ⟨e, he⟩ := hf1.find prev
      have hr := hf1.read
      have e0 : partWords [] = [] := rfl
      rw [e0, List.append_nil] at he hn ⊢
      cases n with
      | zero => simp at hn
      | succ n =>
        simp only [List.cons_append] at he ⊢
        rw [finditerAux]
        unfold findK at he
        rw [he]
        have hcut : c :: (t ++ enc (ws ++ ex)) = (c :: t ++ enc ws ++ swal sw) ++ (enc ex).drop (swal sw).length := by
          cases sw with
          | false => simp [swal, enc_append]
          | true =>
            obtain ⟨w, ex', rfl⟩ := List.exists_cons_of_ne_nil (show ex ≠ [] from by
              have := hf1.more rfl
              rw [e0, List.append_nil] at this
              exact this)
            simp [swal, enc_append]
        have htake : (c :: (t ++ enc (ws ++ ex))).take ((c :: (t ++ enc (ws ++ ex))).length - ((enc ex).drop (swal sw).length).length) =
            c :: t ++ enc ws ++ swal sw := by
          rw [hcut]; exact take_consumed _ _
        simp only [List.filterMap_cons, htake]
        have hlen : ((enc ex).drop (swal sw).length).length ≤ n := by
          have := congrArg List.length hcut
          simp only [List.length_append, List.length_cons] at this hn
          omega
        obtain ⟨q, rfl⟩ := Nat.exists_eq_add_of_le hlen
        have hsk := quiet_skip cs hg hb [] ((enc ex).drop (swal sw).length) ((c :: t ++ enc ws ++ swal sw).reverse ++ prev) q (by
          intro a ha
          rcases enc_chars (List.mem_of_mem_drop ha) with h | ⟨w, h1, h2⟩
          · exact .inl h
          · exact .inr (hq w h1 a h2))
        rw [List.append_nil, finditer_nil] at hsk
        simp only [List.cons_append] at hsk hr ⊢
        rw [hsk, mapM_cons_res, hr]
        cases r <;> rfl
    | cons x l ih =>
      intro i ex r hf hw prev n hn
      obtain ⟨⟨hd', ws'⟩, ex', r'⟩ := x
      obtain ⟨hd, ws⟩ := i
      cases hf with
      | cons sw hf1 hq hf2 =>
      obtain ⟨c, t, rfl⟩ := List.exists_cons_of_ne_nil (show hd ≠ [] from hw ((hd, ws), ex, r) (List.mem_cons_self ..))
      obtain ⟨e, he⟩ := hf1.find prev
      have hr := hf1.read
      have hrest : partWords (((hd', ws'), ex', r') :: l) = hd' :: (ws' ++ (ex' ++ partWords l)) := by simp [partWords, optWords, Opt.words]
      have ih := ih (hd', ws') ex' r' hf2 (fun x hx => hw x (by simp only [List.mem_cons] at hx ⊢; exact .inr hx))
      rw [hrest] at he hn ⊢
      simp only at ih
      generalize hT : hd' ++ enc (ws' ++ (ex' ++ partWords l)) = T at ih
      have henc : enc (ex ++ hd' :: (ws' ++ (ex' ++ partWords l))) = (enc ex ++ [' ']) ++ T := by
        rw [enc_append, enc_cons, hT]; simp
      cases n with
      | zero => simp at hn
      | succ n =>
        simp only [List.cons_append] at he ⊢
        rw [finditerAux]
        unfold findK at he
        rw [he]
        have hdrop : ((enc ex ++ [' ']) ++ T).drop (swal sw).length = (enc ex ++ [' ']).drop (swal sw).length ++ T := by
          rw [List.drop_append_of_le_length]
          cases sw <;> simp [swal]
        have hsw : enc ex ++ [' '] = swal sw ++ (enc ex ++ [' ']).drop (swal sw).length := by
          cases sw with
          | false => simp [swal]
          | true => cases ex <;> simp [swal]
        have hcut : c :: (t ++ enc (ws ++ (ex ++ hd' :: (ws' ++ (ex' ++ partWords l))))) =
            (c :: t ++ enc ws ++ swal sw) ++ ((enc ex ++ [' ']).drop (swal sw).length ++ T) := by
          rw [enc_append, henc]
          conv => lhs; rw [hsw]
          simp
        have htake : (c :: (t ++ enc (ws ++ (ex ++ hd' :: (ws' ++ (ex' ++ partWords l)))))).take
            ((c :: (t ++ enc (ws ++ (ex ++ hd' :: (ws' ++ (ex' ++ partWords l)))))).length -
              ((enc (ex ++ hd' :: (ws' ++ (ex' ++ partWords l)))).drop (swal sw).length).length) = c :: t ++ enc ws ++ swal sw := by
          rw [henc, hdrop, hcut]; exact take_consumed _ _
        simp only [List.filterMap_cons, htake]
        rw [henc, hdrop]
        have hlen : ((enc ex ++ [' ']).drop (swal sw).length).length + T.length ≤ n := by
          have := congrArg List.length hcut
          simp only [List.length_append, List.length_cons] at this hn ⊢
          omega
        obtain ⟨q, rfl⟩ := Nat.exists_eq_add_of_le hlen
        have hsk := quiet_skip cs hg hb T ((enc ex ++ [' ']).drop (swal sw).length) ((c :: t ++ enc ws ++ swal sw).reverse ++ prev) (T.length + q) (by
          intro a ha
          rcases List.mem_append.1 (List.mem_of_mem_drop ha) with ha | ha
          · rcases enc_chars ha with h | ⟨w, h1, h2⟩
            · exact .inl h
            · exact .inr (hq w h1 a h2)
          · exact .inl (List.mem_singleton.1 ha))
        rw [← Nat.add_assoc] at hsk
        simp only [List.cons_append] at hsk hr ⊢
        rw [hsk, mapM_cons_res, List.map_cons, allOk_cons, hr, ih _ _ (by omega)]
  unfold tupleParse
  have h1 : (unionTy nm cs).re 1 = altsRe (sortLen cs) 1 := rfl
  have h2 : (unionTy nm cs).parse = unionParse cs := rfl
  rw [h1, h2]
  exact congrArg (Except.map Val.tuple) (hit l i ex r hf hw [] _ (Nat.le_refl _))

/-! ## Short transformations -/

theorem enc_starts : ∀ (qs ws : List Str) (z : Str), (∀ w ∈ ws, NoSpace w) → (∀ q ∈ qs, NoSpace q) → enc ws = enc qs ++ ' ' :: z →
    ∃ r, r ≠ [] ∧ ws = qs ++ r
  | [], ws, z, _, _, h => ⟨ws, by rintro rfl; simp [enc] at h, rfl⟩
  | q :: qs, [], z, _, _, h => by simp [enc] at h
  | q :: qs, w :: ws, z, h1, h2, h => by
    rw [enc_cons, enc_cons] at h
    simp only [List.cons_append, List.cons.injEq, true_and, List.append_assoc] at h
    obtain ⟨rfl, h3⟩ := words_eq (h1 w (by simp)) (h2 q (by simp)) (enc_bnd ws) (by
      cases qs with
      | nil => exact bnd_blank _
      | cons x xs => rw [enc_cons]; exact bnd_blank _) h
    obtain ⟨r, hr, rfl⟩ := enc_starts qs ws z (fun x hx => h1 x (by simp [hx])) (fun x hx => h2 x (by simp [hx])) h3
    exact ⟨r, hr, rfl⟩

/-- No transformation of twelve entries begins here. -/
def Barred (ws : List Str) : Prop := ws.length ≤ 11 ∨ ∃ w ∈ ws.take 11, ∃ c ∈ w, trC c = false ∧ c ≠ '('

theorem barred_trans {w : Str} {rest : List Str} (hw : ∀ x ∈ w :: rest, NoSpace x) {o' : Str} (ho' : o' = [] ∨ o' = ['(']) (hl : Barred (w :: rest)) {t v : Str}
    {ps : List Str} (h : TransText 0 t ps) (e : w ++ enc rest = o' ++ (t ++ v)) : False := by
  obtain ⟨hlen, hch, hf, o, c, ho, hc, rfl⟩ := h
  simp only [trCount] at hlen hf
  obtain ⟨p, q, rfl, hq⟩ : ∃ p q, ps = p :: q ∧ 11 ≤ q.length := by
    cases ps with
    | nil => simp at hlen
    | cons p q => exact ⟨p, q, rfl, by simp only [List.length_cons] at hlen; omega⟩
  have hsplit : q = q.take 10 ++ q.drop 10 := (List.take_append_drop 10 q).symm
  obtain ⟨x, xs, hx⟩ : ∃ x xs, q.drop 10 = x :: xs := by
    cases hd : q.drop 10 with
    | nil =>
      have := congrArg List.length hd
      simp at this
      omega
    | cons x xs => exact ⟨x, xs, rfl⟩
  rw [hx] at hsplit
  have hcs : ∀ y ∈ (o' ++ (o ++ p)) :: q.take 10, ∀ a ∈ y, trC a = true ∨ a = '(' := by
    intro y hy a ha
    rcases List.mem_cons.1 hy with rfl | hy
    · simp only [List.mem_append] at ha
      rcases ha with ha | ha | ha
      · rcases ho' with rfl | rfl
        · cases ha
        · exact .inr (List.mem_singleton.1 ha)
      · rcases ho with rfl | rfl
        · cases ha
        · exact .inr (List.mem_singleton.1 ha)
      · exact .inl (hch p (by simp) a ha)
    · exact .inl (hch y (List.mem_cons_of_mem _ (List.mem_of_mem_take hy)) a ha)
  have hns : ∀ y ∈ (o' ++ (o ++ p)) :: q.take 10, NoSpace y := by
    intro y hy a ha
    rcases hcs y hy a ha with h | rfl
    · exact (trC_facts h).1
    · decide
  obtain ⟨r, hr, hws⟩ := enc_starts ((o' ++ (o ++ p)) :: q.take 10) (w :: rest) (x ++ enc xs ++ c ++ v) hw hns (by
    rw [enc_cons w, e, join_enc, enc_cons]
    conv => lhs; rw [hsplit]
    simp [enc_append, enc_cons])
  have hlen2 : ((o' ++ (o ++ p)) :: q.take 10).length = 11 := by simp; omega
  rcases hl with hl | ⟨y, hy, a, ha, h1, h2⟩
  · rw [hws, List.length_append, hlen2] at hl
    exact hr (List.eq_nil_of_length_eq_zero (by omega))
  · rw [hws, List.take_append_of_le_length (by omega), List.take_of_length_le (by omega)] at hy
    rcases hcs y hy a ha with h | h
    · rw [h] at h1; cases h1
    · exact h2 h

theorem barred_run {α : Type} (g : Nat) {rest : List Str} (hw : Words rest) (hl : Barred rest) (prev : Str) (caps) (K : St → Option α) :
    run (putRe g) ⟨prev, enc rest, caps⟩ K = K ⟨prev, enc rest, caps⟩ := by
  unfold putRe
  rw [run_opt_greedy]
  have : ∀ K' : St → Option α, run (.grp g (.alt (.seq (litRe c!" ") (transRe 0 (g + 1)))
      (.seq (litRe c!" ") (.seq (.cls (CC.set false [.ch '(']).test) (.seq (transRe 0 (g + 14)) (.cls (CC.set false [.ch ')']).test))))))
      ⟨prev, enc rest, caps⟩ K' = none := by
    intro K'
    rw [run_grp, run_alt]
    cases rest with
    | nil =>
      rw [enc_nil]
      rfl
    | cons w rest =>
      have h1 : ∀ x ∈ w :: rest, NoSpace x := fun x hx => (hw x hx).1
      rw [enc_cons, blank_run, blank_run, run_none, run_none]
      · rfl
      · intro st' hst
        exfalso
        obtain ⟨t, e, m1, m2, -, -⟩ := hst.mt (by rfl)
        obtain ⟨a, t, _, _, n1, n2, rfl, -⟩ := mt_seq.1 m1
        obtain ⟨t, b, _, _, n3, n4, rfl, -⟩ := mt_seq.1 n2
        obtain ⟨c, hc, rfl, -⟩ := mt_cls.1 n1
        have hc' := test_sign (c := '(') (by decide) hc
        subst hc'
        obtain ⟨ps, h4, -⟩ := (trans_mt 0 _ _ _).1 n3
        have m2 : w ++ enc rest = ['('] ++ (t ++ b) ++ st'.rest := m2
        exact barred_trans h1 (o' := ['(']) (.inr rfl) hl (v := b ++ st'.rest) h4 (by rw [m2]; simp)
      · intro st' hst
        exfalso
        obtain ⟨t, e, m1, m2, -, -⟩ := hst.mt (transRe_free _ _)
        obtain ⟨ps, h4, -⟩ := (trans_mt 0 _ _ _).1 m1
        have m2 : w ++ enc rest = t ++ st'.rest := m2
        exact barred_trans h1 (o' := []) (.inl rfl) hl (v := st'.rest) h4 (by rw [m2]; simp)
  rw [this]
  rfl

/-- Words that are fewer than eleven, before a word that is no entry of a transformation. -/
theorem short_barred {ws rest : List Str} (h : ws.length ≤ 10) (hl : Lone rest) : Barred (ws ++ rest) := by
  cases rest with
  | nil => exact .inl (by simp; omega)
  | cons w rest =>
    refine .inr ⟨w, ?_, hl w rfl⟩
    have e : ws ++ w :: rest = (ws ++ [w]) ++ rest := by simp
    rw [e, List.take_append]
    refine List.mem_append_left _ ?_
    rw [List.take_of_length_le (by simp; omega)]
    simp

theorem found_short (like : Bool) {star : Bool} {hd u : Str} {rest : List Str} (hh : FillWord star hd) (hs : ∀ w ∈ hd :: u :: rest, Stable w)
    (hu : unitOk (.ty (.base .int)) u = true) (hb : Barred rest) :
    Found (optionsOf like) (hd, [u]) rest false (readFill (fillOf like) star u []) := by
  have hwords : Words (hd :: u :: rest) := stable_words hs
  refine ⟨fun prev => ?_, (fun h => by cases h), ?_⟩
  · have := find_fill like rest [] (enc rest) hwords hh hu rfl (by
      intro n prev caps K _
      refine ⟨caps, ?_⟩
      simpa using barred_run n (fun w hw => hwords w (by simp [hw])) hb prev caps K) prev
    have e1 : hd ++ ' ' :: u ++ [] = hd ++ enc [u] ++ swal false := by simp [enc_cons, enc, swal]
    rw [e1] at this
    exact this
  · obtain ⟨h1, h2⟩ := spaced_single hd [u] [] (hs hd (by simp)).entry (fun w hw => hs w (by simp at hw; simp [hw])) .nil
    have := spaced_prep h1
    rw [single_body, h2] at this
    obtain ⟨-, h3, h4⟩ := this
    rw [List.nil_append, List.append_nil] at h3
    obtain ⟨m, m1, m2⟩ := fill_first like (ps := []) h4 hh (int_full hu) (.inl ⟨rfl, rfl⟩)
    unfold unionParse
    simp only [swal, Bool.false_eq_true, if_false, List.append_nil]
    rw [h3, m1]
    exact m2

/-! ## Lattices -/

/-- A pattern that can take only one text before what comes next. -/
theorem run_only {α : Type} {r : Re} (hfree : r.free = true) {w rest prev : Str} {caps} {K : St → Option α} (hf : Full r w)
    (hs : ∀ e, (K ⟨w.reverse ++ prev, rest, e⟩).isSome = true)
    (hu : ∀ w' s', w ++ rest = w' ++ s' → Full r w' → (∃ e, K ⟨w'.reverse ++ prev, s', e⟩ ≠ none) → w' = w) :
    ∃ e, run r ⟨prev, w ++ rest, caps⟩ K = K ⟨w.reverse ++ prev, rest, e⟩ := by
  cases hr : run r ⟨prev, w ++ rest, caps⟩ K with
  | none =>
    obtain ⟨e, he⟩ := hf
    have := (run_spec r ⟨prev, w ++ rest, caps⟩ K).1.1 hr _ (he.step prev rest caps)
    have h2 := hs (e ++ caps)
    rw [this] at h2
    cases h2
  | some x =>
    obtain ⟨st', h1, h2⟩ := (run_spec r ⟨prev, w ++ rest, caps⟩ K).2 x hr
    obtain ⟨w', e', m1, m2, m3, m4⟩ := h1.mt hfree
    obtain ⟨p, s', c⟩ := st'
    simp only at m2 m3 m4
    subst m3 m4
    have := hu w' s' m2 ⟨_, m1⟩ ⟨_, by rw [h2]; simp⟩
    subst this
    have := List.append_cancel_left m2
    subst this
    exact ⟨_, h2.symm⟩

/-- The keyword and the ranges. -/
def spansRe (n : Nat) : Re :=
  .seq (.opt true (.grp n (.cls (CC.set false [.ch '*']).test))) (.seq (litRe c!"fill ") (.seq (.grp (n + 1) spanRe) (.seq (litRe c!" ")
      (.seq (.grp (n + 2) spanRe) (.seq (litRe c!" ") (.grp (n + 3) spanRe))))))

theorem spans_full (n : Nat) {w : Str} : Full (spansRe n) w ↔
    ∃ star hd i j k, FillWord star hd ∧ (SpanWord i ∧ NoSpace i) ∧ (SpanWord j ∧ NoSpace j) ∧ (SpanWord k ∧ NoSpace k) ∧ w = hd ++ enc [i, j, k] := by
  unfold spansRe
  constructor
  · rintro ⟨e, h⟩
    obtain ⟨a, w, x0, y, h1, h2, rfl, rfl⟩ := mt_seq.1 h
    obtain ⟨b, w, x1, y, h3, h4, rfl, rfl⟩ := mt_seq.1 h2
    obtain ⟨i, w, x2, y, h5, h6, rfl, rfl⟩ := mt_seq.1 h4
    obtain ⟨c1, w, x3, y, h7, h8, rfl, rfl⟩ := mt_seq.1 h6
    obtain ⟨j, w, x4, y, h9, h10, rfl, rfl⟩ := mt_seq.1 h8
    obtain ⟨c2, k, x5, y, h11, h13, rfl, rfl⟩ := mt_seq.1 h10
    obtain ⟨l1, rfl⟩ := mt_lit.1 h3
    obtain ⟨kw, l2, rfl⟩ := fill_blank.1 l1
    obtain ⟨rfl, rfl⟩ := (blank_lit.mt _ _).1 h7
    obtain ⟨rfl, rfl⟩ := (blank_lit.mt _ _).1 h11
    obtain ⟨z, g1, rfl⟩ := mt_grp.1 h5
    obtain ⟨s1, s2, rfl⟩ := mt_span.1 g1
    obtain ⟨z, g2, rfl⟩ := mt_grp.1 h9
    obtain ⟨s3, s4, rfl⟩ := mt_span.1 g2
    obtain ⟨z, g3, rfl⟩ := mt_grp.1 h13
    obtain ⟨s5, s6, rfl⟩ := mt_span.1 g3
    rcases mt_opt.1 h1 with ⟨rfl, rfl⟩ | h1
    · exact ⟨false, kw, i, j, k, ⟨kw, l2, rfl⟩, ⟨s1, s2⟩, ⟨s3, s4⟩, ⟨s5, s6⟩, by simp [enc_cons, enc]⟩
    · obtain ⟨_, n1, rfl⟩ := mt_grp.1 h1
      obtain ⟨c, hc, rfl, rfl⟩ := mt_cls.1 n1
      obtain rfl := test_sign (c := '*') (by decide) hc
      exact ⟨true, '*' :: kw, i, j, k, ⟨kw, l2, rfl⟩, ⟨s1, s2⟩, ⟨s3, s4⟩, ⟨s5, s6⟩, by simp [enc_cons, enc]⟩
  · rintro ⟨star, hd, i, j, k, ⟨kw, l2, rfl⟩, ⟨s1, s2⟩, ⟨s3, s4⟩, ⟨s5, s6⟩, rfl⟩
    have g0 : Mt (.opt true (.grp n (.cls (CC.set false [.ch '*']).test))) (if star then ['*'] else []) (if star then [(n, ['*'])] else []) := by
      cases star with
      | true => exact .optSome (.grp (.cls (by decide)))
      | false => exact .optNone
    have e1 : (if star then ['*'] else []) ++ kw ++ enc [i, j, k] =
        (if star then ['*'] else []) ++ ((kw ++ [' ']) ++ (i ++ ([' '] ++ (j ++ ([' '] ++ k))))) := by
      simp [enc_cons, enc]
    rw [e1]
    have blk : Mt (litRe c!" ") [' '] [] := (blank_lit.mt _ _).2 ⟨rfl, rfl⟩
    exact ⟨_, Mt.seq g0 (Mt.seq (mt_lit.2 ⟨fill_blank.2 ⟨kw, l2, rfl⟩, rfl⟩ : Mt (litRe c!"fill ") (kw ++ [' ']) [])
      (Mt.seq (Mt.grp (mt_span.2 ⟨s1, s2, rfl⟩)) (Mt.seq blk (Mt.seq (Mt.grp (mt_span.2 ⟨s3, s4, rfl⟩)) (Mt.seq blk
        (Mt.grp (mt_span.2 ⟨s5, s6, rfl⟩)))))))⟩

theorem fillWord_sp {star : Bool} {hd : Str} (h : FillWord star hd) : NoSpace hd := by
  obtain ⟨kw, l, rfl⟩ := h
  intro c hc
  rcases List.mem_append.1 hc with hc | hc
  · cases star
    · cases hc
    · simp only [if_true, List.mem_singleton] at hc; subst hc; decide
  · refine isSpace_of_lower (a := c) (b := lowerC c) (lowerC_idem c).symm ?_
    have : lowerC c ∈ lower kw := List.mem_map.2 ⟨c, hc, rfl⟩
    rw [l] at this
    revert this
    generalize lowerC c = z
    revert z
    decide

theorem blank_first {α : Type} (r : Re) (x : Char) (s prev : Str) (caps) (k : St → Option α) (h : run (.seq (litRe c!" ") r) ⟨prev, x :: s, caps⟩ k ≠ none) : x = ' ' := by
  apply Classical.byContradiction
  intro hx
  apply h
  apply run_none
  intro st' hst
  cases hst
  rename_i s2 h1 h2
  obtain ⟨u, e, m1, m2, -, -⟩ := h1.mt (by rfl)
  obtain ⟨rfl, rfl⟩ := (blank_lit.mt _ _).1 m1
  simp only [List.cons_append, List.nil_append, List.cons.injEq] at m2
  exact absurd m2.1 hx

theorem num_close {i : Str} (h : Full numRe i) : ')' ∉ i := by
  have h := full_num.1 h
  have low : ∀ {w s : Str}, lower w = lower s → ')' ∉ lower s → ')' ∉ w := by
    intro w s hl hs hc
    refine hs ?_
    rw [← hl]
    exact List.mem_map.2 ⟨')', hc, rfl⟩
  have tail : ∀ {c : Char}, numTail c = true → c ≠ ')' := by
    rintro c hc rfl
    exact absurd hc (by decide)
  cases h with
  | lit x w hx hl =>
    simp only [List.mem_cons, List.not_mem_nil, or_false] at hx
    rcases hx with rfl | rfl | rfl <;> exact low hl (by decide)
  | log w hl => exact low hl (by decide)
  | ilog w hl => exact low hl (by decide)
  | mul ds l hd hl =>
    intro hc
    rcases List.mem_append.1 hc with hc | hc
    · exact absurd (hd _ hc) (by decide)
    · exact low hl (by decide) hc
  | num c t hc ht =>
    intro hx
    rcases List.mem_cons.1 hx with hx | hx
    · exact tail (numHead_tail hc) hx.symm
    · exact tail (ht _ hx) rfl

/-- The origin is taken if it is there. -/
theorem origin_run {α : Type} (n : Nat) {m : Option Str} {rest : List Str} (hm : ∀ x ∈ m, Full numRe x)
    (hr : m = none → ∀ w, rest.head? = some w → w.head? ≠ some '(') (hw : Words rest) (prev : Str) (caps) (K : St → Option α)
    (hs : ∀ e, (K ⟨(enc (originWords m)).reverse ++ prev, enc rest, e⟩).isSome = true) :
    ∃ e, run (originRe n) ⟨prev, enc (originWords m) ++ enc rest, caps⟩ K = K ⟨(enc (originWords m)).reverse ++ prev, enc rest, e⟩ := by
  unfold originRe
  rw [run_opt_greedy]
  cases m with
  | none =>
    refine ⟨caps, ?_⟩
    simp only [originWords, enc_nil, List.nil_append, List.reverse_nil]
    suffices h : run (.seq (litRe c!" ") (.seq (.cls (CC.set false [.ch '(']).test) (.seq (.grp n numRe) (.cls (CC.set false [.ch ')']).test))))
        ⟨prev, enc rest, caps⟩ K = none by rw [h]; rfl
    cases rest with
    | nil => rfl
    | cons w rest =>
      obtain ⟨c, w, rfl⟩ := List.exists_cons_of_ne_nil (hw w (by simp)).2
      rw [enc_cons, blank_run, run_none]
      intro st' hst
      exfalso
      obtain ⟨t, e, m1, m2, -, -⟩ := hst.mt (by rfl)
      obtain ⟨a, t, _, _, n1, n2, rfl, -⟩ := mt_seq.1 m1
      obtain ⟨d, hc, rfl, -⟩ := mt_cls.1 n1
      have hc' := test_sign (c := '(') (by decide) hc
      subst hc'
      simp only [List.cons_append, List.cons.injEq] at m2
      exact hr rfl (c :: w) rfl (by rw [m2.1]; rfl)
  | some x =>
    have hfull : Full (.seq (litRe c!" ") (.seq (.cls (CC.set false [.ch '(']).test) (.seq (.grp n numRe) (.cls (CC.set false [.ch ')']).test))))
        (enc (originWords (some x))) := by
      obtain ⟨e, he⟩ := hm x rfl
      have e1 : enc (originWords (some x)) = [' '] ++ (['('] ++ (x ++ [')'])) := by simp [originWords, enc_cons, enc]
      rw [e1]
      exact ⟨_, mt_seq.2 ⟨_, _, [], _, (blank_lit.mt _ _).2 ⟨rfl, rfl⟩, mt_seq.2 ⟨_, _, [], _, .cls (by decide),
        mt_seq.2 ⟨_, _, _, [], .grp he, .cls (by decide), rfl, rfl⟩, rfl, rfl⟩, rfl, rfl⟩⟩
    obtain ⟨e, he⟩ := run_only (caps := caps) (by rfl) hfull hs (by
      rintro w' s' e1 ⟨e2, m1⟩ -
      obtain ⟨b, t, _, _, n0, n6, rfl, -⟩ := mt_seq.1 m1
      obtain ⟨rfl, rfl⟩ := (blank_lit.mt _ _).1 n0
      obtain ⟨a, t, _, _, n1, n2, rfl, -⟩ := mt_seq.1 n6
      obtain ⟨d, hc, rfl, -⟩ := mt_cls.1 n1
      have hc' := test_sign (c := '(') (by decide) hc
      subst hc'
      obtain ⟨y, cl, _, _, n3, n4, rfl, -⟩ := mt_seq.1 n2
      obtain ⟨d, hd, rfl, -⟩ := mt_cls.1 n4
      obtain rfl := test_close hd
      obtain ⟨_, n5, -⟩ := mt_grp.1 n3
      have hx := num_close (hm x rfl)
      have hy := num_close ⟨_, n5⟩
      simp only [originWords, enc_cons, enc_nil, List.append_nil, List.cons_append, List.nil_append, List.append_assoc, List.cons.injEq, true_and] at e1 ⊢
      have hxy : x = y := by
        have := congrArg (List.takeWhile (fun c => c != ')')) e1
        rw [List.takeWhile_append_of_pos (by intro c hc; simp; rintro rfl; exact hx hc),
          List.takeWhile_append_of_pos (by intro c hc; simp; rintro rfl; exact hy hc)] at this
        simpa using this
      rw [hxy])
    refine ⟨e, ?_⟩
    rw [he]
    exact or_taken rfl (hs e)

theorem lattice_run {α : Type} (like : Bool) (n : Nat) (st : St) (K : St → Option α) : run ((latticeCls like).pat.re n) st K =
    run (spansRe n) st (fun st' => run (.grp (n + 4) (Re.plus false (.seq (litRe c!" ") numRe))) st' (fun st' => run (originRe (n + 5)) st' K)) := by
  rw [lattice_re]
  rfl

/-- The pattern of a lattice takes the ranges, one universe, and the origin if it follows. -/
theorem lattice_takes (like : Bool) (n : Nat) {star : Bool} {hd i j k u : Str} {m : Option Str} {rest : List Str}
    (hw : Words (hd :: i :: j :: k :: u :: (originWords m ++ rest)))
    (hh : FillWord star hd) (hi : SpanWord i) (hj : SpanWord j) (hk : SpanWord k) (hu : Full numRe u) (hm : ∀ x ∈ m, Full numRe x)
    (hr : m = none → ∀ w, rest.head? = some w → w.head? ≠ some '(') (prev : Str) (caps) (K : St → Option St)
    (hs : ∀ e, (K ⟨(hd ++ enc (i :: j :: k :: u :: originWords m)).reverse ++ prev, enc rest, e⟩).isSome = true) :
    ∃ e, run ((latticeCls like).pat.re n) ⟨prev, hd ++ enc (i :: j :: k :: u :: (originWords m ++ rest)), caps⟩ K =
      K ⟨(hd ++ enc (i :: j :: k :: u :: originWords m)).reverse ++ prev, enc rest, e⟩ := by
  have hsp : ∀ w ∈ hd :: i :: j :: k :: u :: (originWords m ++ rest), NoSpace w := fun w h => (hw w h).1
  have e1 : hd ++ enc (i :: j :: k :: u :: (originWords m ++ rest)) = (hd ++ enc [i, j, k]) ++ ' ' :: (u ++ (enc (originWords m) ++ enc rest)) := by
    simp [enc_cons, enc_append, enc]
  have e2 : ∀ p : Str, (hd ++ enc (i :: j :: k :: u :: originWords m)).reverse ++ p =
      (enc (originWords m)).reverse ++ (u.reverse ++ (' ' :: ((hd ++ enc [i, j, k]).reverse ++ p))) := by
    intro p
    simp [enc_cons, enc]
  rw [e2] at hs ⊢
  rw [lattice_run, e1]
  have hbnd : Bnd (enc (originWords m) ++ enc rest) := by
    rw [← enc_append]; exact enc_bnd _
  have orig := fun caps => origin_run (n + 5) hm hr (fun w h => hw w (by simp [h])) (u.reverse ++ (' ' :: ((hd ++ enc [i, j, k]).reverse ++ prev))) caps K hs
  -- one universe
  have uni : ∀ caps, ∃ e, run (.grp (n + 4) (Re.plus false (.seq (litRe c!" ") numRe)))
      ⟨(hd ++ enc [i, j, k]).reverse ++ prev, ' ' :: (u ++ (enc (originWords m) ++ enc rest)), caps⟩ (fun st' => run (originRe (n + 5)) st' K) =
      K ⟨(enc (originWords m)).reverse ++ (u.reverse ++ (' ' :: ((hd ++ enc [i, j, k]).reverse ++ prev))), enc rest, e⟩ := by
    intro caps
    have key : ∀ e, ∃ e', run (.star false (.seq (litRe c!" ") numRe)) ⟨u.reverse ++ (' ' :: ((hd ++ enc [i, j, k]).reverse ++ prev)), enc (originWords m) ++ enc rest, e⟩
        (fun st' => run (originRe (n + 5)) { st' with caps := (n + 4, (' ' :: (u ++ (enc (originWords m) ++ enc rest))).take
          ((' ' :: (u ++ (enc (originWords m) ++ enc rest))).length - st'.rest.length)) :: st'.caps } K) =
        K ⟨(enc (originWords m)).reverse ++ (u.reverse ++ (' ' :: ((hd ++ enc [i, j, k]).reverse ++ prev))), enc rest, e'⟩ := by
      intro e
      obtain ⟨e', he'⟩ := orig ((n + 4, (' ' :: (u ++ (enc (originWords m) ++ enc rest))).take
          ((' ' :: (u ++ (enc (originWords m) ++ enc rest))).length - (enc (originWords m) ++ enc rest).length)) :: e)
      refine ⟨e', ?_⟩
      rw [run_star_unfold]
      exact or_taken he' (hs e')
    rw [run_grp]
    unfold Re.plus
    rw [run_seq, blank_run]
    obtain ⟨e, he⟩ := tok_num u hu _ hbnd (' ' :: ((hd ++ enc [i, j, k]).reverse ++ prev)) caps
      (fun st' => run (.star false (.seq (litRe c!" ") numRe)) st'
        (fun st' => run (originRe (n + 5)) { st' with caps := (n + 4, (' ' :: (u ++ (enc (originWords m) ++ enc rest))).take
          ((' ' :: (u ++ (enc (originWords m) ++ enc rest))).length - st'.rest.length)) :: st'.caps } K)) (by
      intro e
      obtain ⟨e', he'⟩ := key e
      rw [he']
      exact hs e')
    obtain ⟨e', he'⟩ := key e
    exact ⟨e', he.trans he'⟩
  obtain ⟨e, he⟩ := run_only (r := spansRe n) (w := hd ++ enc [i, j, k]) (rest := ' ' :: (u ++ (enc (originWords m) ++ enc rest))) (prev := prev) (caps := caps)
    (K := fun st' => run (.grp (n + 4) (Re.plus false (.seq (litRe c!" ") numRe))) st' (fun st' => run (originRe (n + 5)) st' K)) (by rfl)
    ((spans_full n).2 ⟨star, hd, i, j, k, hh, ⟨hi, hsp i (by simp)⟩, ⟨hj, hsp j (by simp)⟩, ⟨hk, hsp k (by simp)⟩, rfl⟩)
    (by
      intro e
      obtain ⟨e', he'⟩ := uni e
      rw [he']
      exact hs e')
    (by
      rintro w' s' e3 hf ⟨e4, hK⟩
      obtain ⟨star', hd', i', j', k', a1, a2, a3, a4, rfl⟩ := (spans_full n).1 hf
      obtain ⟨x, s'', rfl⟩ : ∃ x s'', s' = x :: s'' := by
        cases s' with
        | nil =>
          exfalso
          apply hK
          rfl
        | cons x s'' => exact ⟨x, s'', rfl⟩
      have hx : x = ' ' := by
        simp only [run_grp] at hK
        unfold Re.plus at hK
        rw [run_seq] at hK
        exact blank_first _ _ _ _ _ _ hK
      subst hx
      obtain ⟨r, -, h6⟩ := enc_starts [hd', i', j', k'] (hd :: i :: j :: k :: u :: (originWords m ++ rest)) s'' hsp (by
        intro q hq
        simp only [List.mem_cons, List.not_mem_nil, or_false] at hq
        rcases hq with rfl | rfl | rfl | rfl
        · exact fillWord_sp a1
        · exact a2.2
        · exact a3.2
        · exact a4.2) (by
        rw [enc_cons hd, e1, e3, enc_cons hd']
        simp)
      simp only [List.cons_append, List.nil_append, List.cons.injEq] at h6
      obtain ⟨rfl, rfl, rfl, rfl, -⟩ := h6
      rfl)
  obtain ⟨e', he'⟩ := uni e
  exact ⟨e', he.trans he'⟩

theorem found_lattice (like : Bool) {star : Bool} {hd i j k u : Str} {m : Option Str} {rest : List Str}
    (hs : ∀ w ∈ hd :: i :: j :: k :: u :: (originWords m ++ rest), Stable w)
    (hh : FillWord star hd) (hi : SpanWord i) (hj : SpanWord j) (hk : SpanWord k) (hu : unitOk (.ty (.base .int)) u = true)
    (hm : ∀ x ∈ m, unitOk (.ty (.base .int)) x = true)
    (hr : m = none → ∀ w, rest.head? = some w → w.head? ≠ some '(') :
    Found (optionsOf like) (hd, i :: j :: k :: u :: originWords m) rest false (readLattice like star i j k [u] m) := by
  have hw := stable_words hs
  refine ⟨fun prev => ?_, (fun h => by cases h), ?_⟩
  · obtain ⟨as, bs, hsplit, has⟩ := sorted_fill like
    have e0 : (i :: j :: k :: u :: originWords m) ++ rest = i :: j :: k :: u :: (originWords m ++ rest) := rfl
    simp only [swal, Bool.false_eq_true, if_false, List.append_nil, List.length_nil, List.drop_zero]
    rw [e0]
    generalize hT : hd ++ enc (i :: j :: k :: u :: (originWords m ++ rest)) = T
    have hlen : (enc rest).length < T.length := by
      rw [← hT]
      simp only [enc_cons, enc_append, List.length_append, List.length_cons]
      omega
    obtain ⟨st', ⟨e, rfl⟩, h2⟩ := alts_option as (fillOf like :: bs) (latticeOf like) ⟨prev, T, []⟩ (findK T.length)
      (fun st => ∃ e, st = ⟨(hd ++ enc (i :: j :: k :: u :: originWords m)).reverse ++ prev, enc rest, e⟩)
      (by
        intro d hd' n
        obtain ⟨hg, hb⟩ := before_begins like hh (i :: j :: k :: u :: (originWords m ++ rest)) d (has d hd')
        rw [hT] at hb
        exact begins_none hg hb n _ _ _)
      (by
        intro n
        obtain ⟨e, he⟩ := lattice_takes like n hw hh hi hj hk (int_full hu) (fun x hx => int_full (hm x hx)) hr prev [] (findK T.length) (by
          intro e
          rw [findK_ok (by exact hlen)]
          rfl)
        rw [hT, findK_ok (by exact hlen)] at he
        rw [latticeOf_eq]
        exact ⟨_, ⟨e, rfl⟩, he⟩) 1
    rw [hsplit]
    exact ⟨e, h2⟩
  · obtain ⟨h1, h2⟩ := spaced_single hd (i :: j :: k :: u :: originWords m) [] (hs hd (by simp)).entry (fun w hw => hs w (by
      simp only [List.mem_cons, List.mem_append] at hw ⊢
      rcases hw with hw | hw | hw | hw | hw <;> simp [hw])) .nil
    have := spaced_prep h1
    rw [single_body, h2] at this
    obtain ⟨-, h3, h4⟩ := this
    rw [List.nil_append, List.append_nil] at h3
    obtain ⟨M, m1, m2⟩ := lattice_first like (us := [u]) h4 hh hi hj hk (by simp) (by intro x hx; simp at hx; subst hx; exact int_full hu)
      (fun x hx => int_full (hm x hx))
    unfold unionParse
    simp only [swal, Bool.false_eq_true, if_false, List.append_nil]
    rw [h3]
    simp only [List.cons_append, List.nil_append] at m1
    rw [m1]
    exact m2

end Inp
