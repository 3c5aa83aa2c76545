import Verif.Inp.SswSpec
import Verif.Inp.OptionRound
import Verif.Inp.TokLemmas
/-!
# Reading surface source cards
-/
set_option maxRecDepth 100000
namespace Inp
open Py Types

/-- A lazy repeat that is followed by something that fails before further entries goes on to the last of them. -/
theorem ssw_star {α : Type} (f : Field) (hw : f.unit.word = true) (n : Nat) (K : St → Option α) (tws : List Str)
    (hb : ∀ st : St, (∀ c ∈ st.rest.head?, c ≠ ' ') → st.rest ≠ [] → K st = none)
    (hend : ∀ prev caps, (K ⟨prev, enc tws, caps⟩).isSome = true) :
    ∀ (ws : List Str), Words (ws ++ tws) → (∀ w ∈ ws, unitOk f.unit w = true) →
      (∀ w ws' prev caps, w ∈ ws → K ⟨prev, enc (w :: ws'), caps⟩ = none) → ∀ prev caps,
      ∃ e, (∀ x ∈ e, n ≤ x.1 ∧ x.1 < n + f.unit.ng) ∧
        run (.star false (unitRe f n)) ⟨prev, enc (ws ++ tws), caps⟩ K = K ⟨(enc ws).reverse ++ prev, enc tws, e ++ caps⟩ := by
  intro ws
  induction ws with
  | nil =>
    intro _ _ _ prev caps
    refine ⟨[], by simp, ?_⟩
    rw [run_star_unfold]
    simp only [List.nil_append, enc_nil, List.reverse_nil]
    have := hend prev caps
    cases h : K ⟨prev, enc tws, caps⟩ with
    | none => rw [h] at this; cases this
    | some x => rfl
  | cons w ws ih =>
    intro hws hok hmid prev caps
    rw [run_star_unfold]
    simp only [List.cons_append]
    rw [hmid w (ws ++ tws) prev caps (by simp)]
    obtain ⟨e, he, hr⟩ := (unit_words f hw n w (ws ++ tws) hws prev caps
      (fun st' => if st'.rest.length < (enc (w :: (ws ++ tws))).length then run (.star false (unitRe f n)) st' K else none) (by
        intro st h1 h2
        split
        · rw [run_star_unfold]
          simp only
          rw [unitRe_blocked _ _ _ _ h1, hb st h1 h2]; rfl
        · rfl)).1 (hok w (by simp))
    have hlt : (enc (ws ++ tws)).length < (enc (w :: (ws ++ tws))).length := by rw [enc_length_cons]; omega
    simp only [if_pos hlt] at hr
    obtain ⟨e', he', hr'⟩ := ih (fun x hx => hws x (List.mem_cons_of_mem _ hx)) (fun x hx => hok x (by simp [hx]))
      (fun x ws' p c hx => hmid x ws' p c (by simp [hx])) ((enc [w]).reverse ++ prev) (e ++ caps)
    refine ⟨e' ++ e, ?_, ?_⟩
    · intro x hx
      rcases List.mem_append.1 hx with h | h
      · exact he' x h
      · exact he x h
    · simp only [Option.none_or, Bool.false_eq_true, if_false]
      rw [hr, hr']
      simp

/-- The first letters of options. -/
def optLetter (w : Str) : Prop := ∃ c t, w = c :: t ∧ lowerC c ∈ ['s', 'p', 'c']

theorem ssw_good : ∀ d ∈ sswOptions, d.pat.Good := fun d hd => by
  have all : ∀ d ∈ sswOptions, d.pat.base = true := by decide +kernel
  exact Pat.base_good (all d hd)

/-- Options begin with one of these letters. -/
theorem ssw_letter {d : Cls} (hd : d ∈ sswOptions) {n w} (h : Full (d.pat.re n) w) : optLetter w := by
  obtain ⟨e, he⟩ := h
  simp only [sswOptions, List.mem_cons, List.not_mem_nil, or_false] at hd
  have key : ∀ (c : Char) (k : Str) (fs : List Field), (⟨.no, c :: k, .no, .no⟩ : Head).ok = true → lowerC c ∈ ['s', 'p', 'c'] →
      ∀ {w e}, Mt ((Shape.flat ⟨.no, c :: k, .no, .no⟩ fs).pat.re n) w e → optLetter w := by
    intro c k fs hok hc w e he
    simp only [Shape.pat] at he
    rw [mt_cat_append] at he
    obtain ⟨u, v, x, y, h1, -, rfl, -⟩ := he
    obtain ⟨vs, -, -, h2⟩ := head_mt hok h1
    have h3 : lower (u.take (k.length + 1)) = lower (c :: k) := by
      simp only [readHead, readPre, readKw, if_true, List.length_cons] at h2
      by_cases h : lower (u.take (k.length + 1)) = lower (c :: k)
      · exact h
      · rw [if_neg h] at h2; cases h2
    cases u with
    | nil => cases h3
    | cons a t =>
      simp only [lower, List.take_succ_cons, List.map_cons, List.cons.injEq] at h3
      exact ⟨a, t ++ v, rfl, by rw [h3.1]; exact hc⟩
  rcases hd with rfl | rfl | rfl
  · exact key 's' c!"ym" _ (by decide +kernel) (by decide) he
  · exact key 'p' c!"ty" _ (by decide +kernel) (by decide) he
  · exact key 'c' c!"el" _ (by decide +kernel) (by decide) he

/-- Numbers do not. -/
theorem num_letter {w : Str} (h : unitOk (.ty (.base .int)) w = true) (t : Str) : ¬ optLetter (w ++ t) := by
  rw [unitOk_iff _ (by decide +kernel) 1] at h
  have hn : NumWord w := full_num.1 h
  clear h
  rintro ⟨c, u, hc, hl⟩
  have first : ∀ (a : Char) (v : Str), w = a :: v → lowerC a ∉ ['s', 'p', 'c'] → False := by
    intro a v hw ha
    rw [hw] at hc
    simp only [List.cons_append, List.cons.injEq] at hc
    rw [hc.1] at ha
    exact ha hl
  have dig : ∀ a : Char, isDigit a = true → lowerC a ∉ ['s', 'p', 'c'] := by
    intro a ha
    rw [lower_digit ha]
    intro h
    simp only [List.mem_cons, List.not_mem_nil, or_false] at h
    rcases h with rfl | rfl | rfl <;> revert ha <;> decide
  cases hn with
  | lit x w hx h =>
    cases w with
    | nil => cases h
    | cons a v =>
      simp only [lower, List.map_cons, List.cons.injEq] at h
      refine first a v rfl ?_
      rw [h.1]
      have all : ∀ x ∈ c!"jir", lowerC x ∉ ['s', 'p', 'c'] := by decide
      exact all x hx
  | log w h =>
    cases w with
    | nil => cases h
    | cons a v =>
      simp only [lower, List.map_cons, List.cons.injEq] at h
      refine first a v rfl ?_
      rw [h.1]; decide
  | ilog w h =>
    cases w with
    | nil => cases h
    | cons a v =>
      simp only [lower, List.map_cons, List.cons.injEq] at h
      refine first a v rfl ?_
      rw [h.1]; decide
  | mul ds l hd hm =>
    cases ds with
    | cons a v => exact first a (v ++ l) rfl (dig a (hd a (by simp)))
    | nil =>
      cases l with
      | nil => exact absurd hm (by decide)
      | cons a v =>
        simp only [lower, List.map_cons, List.cons.injEq] at hm
        refine first a v rfl ?_
        rw [hm.1]; decide
  | num a v ha _ =>
    refine first a v rfl ?_
    simp only [numHead, Bool.or_eq_true, beq_iff_eq] at ha
    rcases ha with ((((rfl | rfl) | h) | rfl) | rfl) | rfl
    · decide
    · decide
    · exact dig a h
    · decide
    · decide
    · decide

/-- The field of the options. -/
def sswLast : Field := ⟨.ngrp (.ty (unionTy "ssw.SswOption" sswOptions)), .manyOpt⟩
/-- The field of the surfaces. -/
def sswFirst : Field := ⟨.ty (.base .int), .many⟩
/-- The field of the cells. -/
def sswNext : Field := ⟨.ty (.base .int), .manyOpt⟩

/-- No option begins at a number. -/
theorem last_number {α : Type} (n : Nat) (w : Str) (ws : List Str) (h : unitOk (.ty (.base .int)) w = true) (prev caps) (k : St → Option α)
    (hk : ∀ st, st.rest ≠ [] → k st = none) : run (fieldsRe [sswLast] n) ⟨prev, enc (w :: ws), caps⟩ k = none := by
  rw [fieldsRe_cons, run_seq, Field.re_eq]
  show run (.opt true (.grp n (.seq (unitRe sswLast (n + 1)) (.star false (unitRe sswLast (n + 1)))))) _ k = none
  rw [run_opt_greedy, run_grp, run_seq, hk _ (by simp), Option.or_none]
  apply run_none
  intro st' hs
  exfalso
  unfold unitRe at hs
  obtain ⟨m, h1, h2⟩ := step_seq.1 hs
  obtain ⟨m', h3, h4⟩ := step_seq.1 h1
  rw [step_eps] at h4
  subst h4
  obtain ⟨c, cs, -, h5, rfl⟩ := step_cls.1 h3
  simp only [enc_cons, List.cons.injEq] at h5
  have hg : sswLast.unit.Good := unionTy_good "ssw.SswOption" sswOptions ssw_good
  obtain ⟨u, e, m1, m2, -, -⟩ := h2.mt (hg.any (n + 1)).1
  obtain ⟨d, hd1, hd2⟩ := (alts_full (sortLen sswOptions) (fun x hx => ssw_good x ((mem_sortLen _).1 hx)) (n + 1) u).1 ⟨e, m1⟩
  obtain ⟨a, t, rfl, ha⟩ := ssw_letter ((mem_sortLen _).1 hd1) hd2
  simp only at m2
  exact num_letter h (enc ws) ⟨a, t ++ st'.rest, by rw [h5.2, m2]; rfl, ha⟩


/-- The options at the end. -/
theorem last_opts {α : Type} (n : Nat) (l : List Opt) (hf : ∀ i ∈ l, ∃ d ∈ sswOptions, Full (d.pat.re 1) (i.1 ++ enc i.2)) (prev caps)
    (k : St → Option α) (hk : ∀ st, st.rest ≠ [] → k st = none) (hs : ∀ st, st.rest = [] → (k st).isSome = true) :
    ∃ e, Good n [sswLast] [listed? (optWords l)] e ∧
      ∃ p, run (fieldsRe [sswLast] n) ⟨prev, enc (optWords l), caps⟩ k = k ⟨p, [], e ++ caps⟩ := by
  cases l with
  | nil => exact ⟨[], .none .nil, prev, last_none sswLast rfl n prev caps k⟩
  | cons i l =>
    have hg : sswLast.unit.Good := unionTy_good "ssw.SswOption" sswOptions ssw_good
    obtain ⟨e, h1, h2⟩ := last_options sswLast (.inl rfl) hg n (i :: l) (by simp) (by
      intro i hi
      obtain ⟨d, hd1, hd2⟩ := hf i hi
      exact (alts_full (sortLen sswOptions) (fun x hx => ssw_good x ((mem_sortLen _).1 hx)) _ _).2 ⟨d, (mem_sortLen _).2 hd1, hd2⟩)
      prev caps k hk hs
    have hl : listed? (optWords (i :: l)) = some (optWords (i :: l)) := if_neg (by rw [show optWords (i :: l) = i.1 :: (i.2 ++ optWords l) from rfl]; simp)
    rw [hl]
    exact ⟨e, h1, _, h2⟩

/-- The cells and the options. -/
theorem next_fields {α : Type} (n : Nat) (ys : List Str) (l : List Opt) (hw : Words (ys ++ optWords l))
    (hy : ∀ w ∈ ys, unitOk (.ty (.base .int)) w = true)
    (hf : ∀ i ∈ l, ∃ d ∈ sswOptions, Full (d.pat.re 1) (i.1 ++ enc i.2)) (prev caps)
    (k : St → Option α) (hk : ∀ st, st.rest ≠ [] → k st = none) (hs : ∀ st, st.rest = [] → (k st).isSome = true) :
    ∃ e, Good n [sswNext, sswLast] [listed? ys, listed? (optWords l)] e ∧
      ∃ p, run (fieldsRe [sswNext, sswLast] n) ⟨prev, enc (ys ++ optWords l), caps⟩ k = k ⟨p, [], e ++ caps⟩ := by
  have hword : sswNext.unit.word = true := by decide +kernel
  have hng : sswNext.pat.ng = 1 := by decide +kernel
  have hu : sswNext.unit.ng = 0 := by decide +kernel
  have hrun : run (fieldsRe [sswNext, sswLast] n) ⟨prev, enc (ys ++ optWords l), caps⟩ k =
      (run (unitRe sswNext (n + 1)) ⟨prev, enc (ys ++ optWords l), caps⟩ (fun st => run (.star false (unitRe sswNext (n + 1))) st
        (close n (enc (ys ++ optWords l)) (fun st => run (fieldsRe [sswLast] (n + 1)) st k)))).or
        (run (fieldsRe [sswLast] (n + 1)) ⟨prev, enc (ys ++ optWords l), caps⟩ k) := by
    rw [fieldsRe_cons, run_seq, Field.re_eq, hng]
    rfl
  have hblock : ∀ st : St, (∀ c ∈ st.rest.head?, c ≠ ' ') → st.rest ≠ [] →
      close n (enc (ys ++ optWords l)) (fun st => run (fieldsRe [sswLast] (n + 1)) st k) st = none := by
    intro st h1 h2
    unfold close
    exact fieldsRe_blocked _ _ _ _ h1 h2 hk
  have hstar : ∀ st : St, (∀ c ∈ st.rest.head?, c ≠ ' ') → st.rest ≠ [] →
      run (.star false (unitRe sswNext (n + 1))) st (close n (enc (ys ++ optWords l)) (fun st => run (fieldsRe [sswLast] (n + 1)) st k)) = none := by
    intro st h1 h2
    rw [run_star_unfold]
    simp only
    rw [unitRe_blocked _ _ _ _ h1, hblock st h1 h2]; rfl
  cases ys with
  | nil =>
    rw [hrun]
    simp only [List.nil_append] at hstar hw ⊢
    have hno : run (unitRe sswNext (n + 1)) ⟨prev, enc (optWords l), caps⟩ (fun st => run (.star false (unitRe sswNext (n + 1))) st
        (close n (enc (optWords l)) (fun st => run (fieldsRe [sswLast] (n + 1)) st k))) = none := by
      cases l with
      | nil => exact unitRe_blocked _ _ _ _ (by simp [optWords])
      | cons i l =>
        obtain ⟨hd, ws⟩ := i
        refine (unit_words sswNext hword (n + 1) hd (ws ++ optWords l) hw prev caps _ hstar).2 ?_
        cases ho : unitOk sswNext.unit hd with
        | false => rfl
        | true =>
          obtain ⟨d, hd1, hd2⟩ := hf (hd, ws) (by simp)
          exact absurd (ssw_letter hd1 hd2) (num_letter ho (enc ws))
    rw [hno, Option.none_or]
    obtain ⟨e, h1, p, h2⟩ := last_opts (n + 1) l hf prev caps k hk hs
    exact ⟨e, .none (by rw [hng]; exact h1), p, h2⟩
  | cons w ys =>
    obtain ⟨e, he, hr⟩ := (unit_words sswNext hword (n + 1) w (ys ++ optWords l) hw prev caps _ hstar).1 (hy w (by simp))
    obtain ⟨e', he', hr'⟩ := ssw_star sswNext hword (n + 1) (close n (enc ((w :: ys) ++ optWords l)) (fun st => run (fieldsRe [sswLast] (n + 1)) st k))
      (optWords l) hblock (by
        intro prev caps
        unfold close
        obtain ⟨e, -, p, h2⟩ := last_opts (n + 1) l hf prev
          ((n, (enc ((w :: ys) ++ optWords l)).take ((enc ((w :: ys) ++ optWords l)).length - (enc (optWords l)).length)) :: caps) k hk hs
        simp only
        rw [h2]
        exact hs _ rfl)
      ys (fun x hx => hw x (List.mem_cons_of_mem _ hx)) (fun x hx => hy x (by simp [hx]))
      (by
        intro x ws' prev caps hx
        unfold close
        exact last_number (n + 1) x ws' (hy x (by simp [hx])) _ _ k hk)
      ((enc [w]).reverse ++ prev) (e ++ caps)
    obtain ⟨e3, h1, p, h2⟩ := last_opts (n + 1) l hf ((enc ys).reverse ++ ((enc [w]).reverse ++ prev)) ((n, enc (w :: ys)) :: (e' ++ (e ++ caps))) k hk hs
    have hall : run (unitRe sswNext (n + 1)) ⟨prev, enc ((w :: ys) ++ optWords l), caps⟩ (fun st => run (.star false (unitRe sswNext (n + 1))) st
        (close n (enc ((w :: ys) ++ optWords l)) (fun st => run (fieldsRe [sswLast] (n + 1)) st k))) =
        k ⟨p, [], e3 ++ (n, enc (w :: ys)) :: (e' ++ e) ++ caps⟩ := by
      rw [List.cons_append] at hr hr' ⊢
      rw [hr, hr']
      unfold close
      simp only
      rw [show w :: (ys ++ optWords l) = (w :: ys) ++ optWords l from rfl, take_enc]
      have hc : (n, enc (w :: ys)) :: e' ++ (e ++ caps) = (n, enc (w :: ys)) :: (e' ++ (e ++ caps)) := rfl
      rw [h2]
      simp
    rw [hrun, hall]
    refine ⟨e3 ++ (n, enc (w :: ys)) :: (e' ++ e), ?_, p, ?_⟩
    · rw [show listed? (w :: ys) = some (w :: ys) from if_neg (by simp)]
      refine .some ?_ (by rw [hng]; exact h1)
      intro x hx
      rcases List.mem_append.1 hx with h | h
      · have := he' x h; rw [hu] at this; omega
      · have := he x h; rw [hu] at this; omega
    · have := hs ⟨p, [], e3 ++ (n, enc (w :: ys)) :: (e' ++ e) ++ caps⟩ rfl
      cases hx : k ⟨p, [], e3 ++ (n, enc (w :: ys)) :: (e' ++ e) ++ caps⟩ with
      | none => rw [hx] at this; cases this
      | some y => rfl

/-- The surface, the cells and the options. -/
theorem ssw_fields {α : Type} (n : Nat) (a : Str) (ys : List Str) (l : List Opt) (hw : Words (a :: (ys ++ optWords l)))
    (ha : unitOk (.ty (.base .int)) a = true) (hy : ∀ w ∈ ys, unitOk (.ty (.base .int)) w = true)
    (hf : ∀ i ∈ l, ∃ d ∈ sswOptions, Full (d.pat.re 1) (i.1 ++ enc i.2)) (prev caps)
    (k : St → Option α) (hk : ∀ st, st.rest ≠ [] → k st = none) (hs : ∀ st, st.rest = [] → (k st).isSome = true) :
    ∃ e, Good n [sswFirst, sswNext, sswLast] [some [a], listed? ys, listed? (optWords l)] e ∧
      ∃ p, run (fieldsRe [sswFirst, sswNext, sswLast] n) ⟨prev, enc (a :: (ys ++ optWords l)), caps⟩ k = k ⟨p, [], e ++ caps⟩ := by
  have hword : sswFirst.unit.word = true := by decide +kernel
  have hng : sswFirst.pat.ng = 1 := by decide +kernel
  have hu : sswFirst.unit.ng = 0 := by decide +kernel
  have hrun : run (fieldsRe [sswFirst, sswNext, sswLast] n) ⟨prev, enc (a :: (ys ++ optWords l)), caps⟩ k =
      run (unitRe sswFirst (n + 1)) ⟨prev, enc (a :: (ys ++ optWords l)), caps⟩ (fun st => run (.star false (unitRe sswFirst (n + 1))) st
        (close n (enc (a :: (ys ++ optWords l))) (fun st => run (fieldsRe [sswNext, sswLast] (n + 1)) st k))) := by
    rw [fieldsRe_cons, run_seq, Field.re_eq, hng]
    rfl
  have hblock : ∀ st : St, (∀ c ∈ st.rest.head?, c ≠ ' ') → st.rest ≠ [] →
      close n (enc (a :: (ys ++ optWords l))) (fun st => run (fieldsRe [sswNext, sswLast] (n + 1)) st k) st = none := by
    intro st h1 h2
    unfold close
    exact fieldsRe_blocked _ _ _ _ h1 h2 hk
  have hstar : ∀ st : St, (∀ c ∈ st.rest.head?, c ≠ ' ') → st.rest ≠ [] →
      run (.star false (unitRe sswFirst (n + 1))) st (close n (enc (a :: (ys ++ optWords l))) (fun st => run (fieldsRe [sswNext, sswLast] (n + 1)) st k)) = none := by
    intro st h1 h2
    rw [run_star_unfold]
    simp only
    rw [unitRe_blocked _ _ _ _ h1, hblock st h1 h2]; rfl
  obtain ⟨e, he, hr⟩ := (unit_words sswFirst hword (n + 1) a (ys ++ optWords l) hw prev caps _ hstar).1 ha
  obtain ⟨e', he', hr'⟩ := ssw_star sswFirst hword (n + 1) _ (ys ++ optWords l) hblock (by
      intro prev caps
      unfold close
      obtain ⟨e, -, p, h2⟩ := next_fields (n + 1) ys l hw.tail hy hf prev
        ((n, (enc (a :: (ys ++ optWords l))).take ((enc (a :: (ys ++ optWords l))).length - (enc (ys ++ optWords l)).length)) :: caps) k hk hs
      simp only
      rw [h2]
      exact hs _ rfl) [] hw.tail (by simp) (by simp) ((enc [a]).reverse ++ prev) (e ++ caps)
  obtain ⟨e3, h1, p, h2⟩ := next_fields (n + 1) ys l hw.tail hy hf ((enc [a]).reverse ++ prev) ((n, enc [a]) :: (e' ++ (e ++ caps))) k hk hs
  refine ⟨e3 ++ (n, enc [a]) :: (e' ++ e), .some ?_ (by rw [hng]; exact h1), p, ?_⟩
  · intro x hx
    rcases List.mem_append.1 hx with h | h
    · have := he' x h; rw [hu] at this; omega
    · have := he x h; rw [hu] at this; omega
  · rw [hrun, hr]
    simp only [List.nil_append, enc_nil, List.reverse_nil] at hr'
    rw [hr']
    unfold close
    simp only
    rw [show a :: (ys ++ optWords l) = [a] ++ (ys ++ optWords l) from rfl, take_enc, h2]
    simp

/-- The first word of the card. -/
def sswHead : Head := ⟨.no, c!"ssw", .no, .no⟩

/-- Matching the whole card. -/
theorem ssw_match (a : Str) (ys : List Str) (l : List Opt) (hw : Words (a :: (ys ++ optWords l)))
    (ha : unitOk (.ty (.base .int)) a = true) (hy : ∀ w ∈ ys, unitOk (.ty (.base .int)) w = true)
    (hf : ∀ i ∈ l, ∃ d ∈ sswOptions, Full (d.pat.re 1) (i.1 ++ enc i.2)) :
    ∃ m, reMatch Tab.Ssw.re (c!"ssw" ++ enc (a :: (ys ++ optWords l))) = some m ∧
      ∀ i v, ([some [a], listed? ys, listed? (optWords l)] : Assign)[i]? = some v → cap m (1 + i) = v.map enc := by
  have hre : Tab.Ssw.re = anchored ((Shape.flat sswHead [sswFirst, sswNext, sswLast]).pat.re 1) := rfl
  rw [hre]
  let k : St → Option (List (Nat × Str)) := finish (c!"ssw" ++ enc (a :: (ys ++ optWords l)))
  have hk : ∀ st, st.rest ≠ [] → k st = none := fun st h => finish_none _ st h
  have hs : ∀ st, st.rest = [] → (k st).isSome = true := by
    rintro ⟨p, r, cp⟩ hs
    simp only at hs; subst hs
    show (finish _ _).isSome = true
    rw [finish_end]; rfl
  have hrun : reMatch (anchored ((Shape.flat sswHead [sswFirst, sswNext, sswLast]).pat.re 1)) (c!"ssw" ++ enc (a :: (ys ++ optWords l))) =
      run (headRe sswHead 1) ⟨[], c!"ssw" ++ enc (a :: (ys ++ optWords l)), []⟩ (fun st => run (fieldsRe [sswFirst, sswNext, sswLast] (1 + sswHead.ng)) st k) := by
    unfold reMatch anchored
    rw [run_seq, run_bos, if_pos rfl, run_seq]
    simp only [Shape.pat]
    rw [run_cat_append]
    rfl
  rw [hrun]
  have hok : sswHead.ok = true := by decide +kernel
  have hhw := (Pat.cat sswHead.pats).facts (sswHead.word hok) 1
  have hwd : Words [c!"ssw"] := by
    intro w h
    simp only [List.mem_singleton] at h
    subst h
    decide +kernel
  have key := run_word (headRe sswHead 1) hhw.1 (noSp_mt hhw.2.1) c!"ssw" (enc (a :: (ys ++ optWords l))) [] [] (enc_bnd _)
    (fun st => run (fieldsRe [sswFirst, sswNext, sswLast] (1 + sswHead.ng)) st k) (by
      intro u v e huv hv
      apply fieldsRe_blocked _ _ _ _ _ _ hk
      · intro c hc hcs
        subst hcs
        cases v with
        | nil => exact hv rfl
        | cons d ds =>
          simp at hc; subst hc
          have := (hwd c!"ssw" (by simp)).1 ' ' (by rw [huv]; simp)
          exact absurd this (by decide)
      · simp [hv])
  have h1 : readHead sswHead c!"ssw" = some [] := by decide +kernel
  obtain ⟨e, he, hr⟩ := key.1 (head_full h1 (hwd c!"ssw" (by simp)).1 1)
  obtain ⟨hv', hc, hl, -⟩ := head_mt hok he
  obtain ⟨e2, hg2, p, hr2⟩ := ssw_fields (1 + sswHead.ng) a ys l hw ha hy hf (c!"ssw".reverse ++ []) (e ++ []) k hk hs
  obtain ⟨g1, g2⟩ := good_get hg2 (by decide +kernel)
  refine ⟨(0, c!"ssw" ++ enc (a :: (ys ++ optWords l))) :: (e2 ++ e), ?_, ?_⟩
  · rw [hr, hr2]
    show finish _ _ = _
    rw [finish_end]
    simp
  · intro i v hi
    unfold cap
    have : (1 + i == 0) = false := by simp
    have hn : sswHead.ng = 0 := rfl
    have hx := g1 i v hi
    rw [hn, Nat.add_zero] at hx
    rw [List.lookup, this, lookup_append, hx, lookup_none (e := e) (by
      intro x hx; have := hc.keys x hx; rw [hl, hn] at this; omega), Option.or_none]

/-- Reading the whole card. -/
theorem ssw_read (a : Str) (ys : List Str) (os : List (Cls × Opt)) (hw : Words (a :: (ys ++ optWords (os.map (·.2)))))
    (ha : unitOk (.ty (.base .int)) a = true) (hy : ∀ w ∈ ys, unitOk (.ty (.base .int)) w = true)
    (ho : Owned sswOptions os) (hst : ∀ i ∈ os.map (·.2), Entry i.1 ∧ ∀ w ∈ i.2, Stable w) :
    (match reMatch Tab.Ssw.re (c!"ssw" ++ enc (a :: (ys ++ optWords (os.map (·.2))))) with | none => .error .inp | some m => Tab.Ssw.build m) =
      readSsw [a] ys os := by
  have hwo : Words (optWords (os.map (·.2))) := fun w h => hw w (by simp [h])
  obtain ⟨hs, hro⟩ := owned_splits ssw_good (by decide) (by decide +kernel) os ho hwo
  have hsplit : ∀ l : List Opt, splits sswOptions l = true → (∀ i ∈ l, Words (i.1 :: i.2)) → ∀ i ∈ l, ∃ d ∈ sswOptions, Full (d.pat.re 1) (i.1 ++ enc i.2) := by
    intro l
    induction l with
    | nil => intro _ _ i hi; cases hi
    | cons i l ih =>
      intro hs hwl j hj
      obtain ⟨hd, ws⟩ := i
      simp only [splits, Bool.and_eq_true] at hs
      obtain ⟨⟨hs1, -⟩, hs2⟩ := hs
      rcases List.mem_cons.1 hj with rfl | hj
      · split at hs1
        · rename_i d hd'
          have hm := (firstOf_split hd').1
          exact ⟨d, hm, takes_full hs1 (ssw_good d hm) (hwl (hd, ws) (by simp))⟩
        · cases hs1
      · exact ih hs2 (fun i hi => hwl i (by simp [hi])) j hj
  have hf := hsplit (os.map (·.2)) hs (by
    intro i hi w hwi
    exact hwo w (List.mem_flatMap.2 ⟨i, hi, hwi⟩))
  obtain ⟨m, hm, hcap⟩ := ssw_match a ys (os.map (·.2)) hw ha hy hf
  rw [hm]
  show Tab.Ssw.build m = _
  have ha1 : ∀ w ∈ [a], unitOk (.ty (.base .int)) w = true := by simpa using ha
  have ft : Fits ([sswFirst, sswNext].map Field.spec) [some [a], listed? ys] := by
    cases ys with
    | nil => exact ⟨by simp, ha1, fun _ => rfl, by decide +kernel, trivial⟩
    | cons y ys => exact ⟨by simp, ha1, fun _ => rfl, by simp, hy, fun h => absurd h (by decide +kernel), trivial⟩
  have hat := attrs_fields Tab.Ssw.pat.ng m [sswFirst, sswNext] (Tab.Ssw.attrs.take 2) [some [a], listed? ys] 0
    (by decide +kernel) (by decide +kernel) ft (by
      intro w h
      refine hw w ?_
      cases ys with
      | nil => simpa [Assign.flat, listed?] using Or.inl h
      | cons y ys => 
        simp only [Assign.flat, listed?, List.flatMap_cons, List.flatMap_nil, Option.getD_some, reduceCtorEq, if_false, List.append_nil] at h
        simp only [List.mem_append, List.mem_cons, List.mem_singleton, List.not_mem_nil, or_false] at h ⊢
        rcases h with h | h | h
        · exact .inl h
        · exact .inr (.inl (.inl h))
        · exact .inr (.inl (.inr h))) (by
      intro j v hj
      have := hcap j v (by
        have hlt := (List.getElem?_eq_some_iff.1 hj).1
        rw [show ([some [a], listed? ys, listed? (optWords (os.map (·.2)))] : Assign) = [some [a], listed? ys] ++ [listed? (optWords (os.map (·.2)))] from rfl,
          List.getElem?_append_left hlt]
        exact hj)
      rw [← this]) (by decide +kernel)
  unfold Cls.build readSsw
  rw [show Tab.Ssw.attrs = Tab.Ssw.attrs.take 2 ++ Tab.Ssw.attrs.drop 2 from rfl, attrVals_append, hat]
  rw [show Tab.Ssw.attrs.take 2 ++ Tab.Ssw.attrs.drop 2 = Tab.Ssw.attrs from rfl, show listed? [a] = some [a] from if_neg (by simp)]
  cases readVals (Tab.Ssw.attrs.take 2) [some [a], listed? ys] with
  | error e => rfl
  | ok xs =>
    have h3 := hcap 2 (listed? (optWords (os.map (·.2)))) rfl
    have hlast : attrVals Tab.Ssw.pat.ng m (0 + (Tab.Ssw.attrs.take 2).length) (Tab.Ssw.attrs.drop 2) = (optionsVal os).map ([·]) := by
      rw [show Tab.Ssw.attrs.drop 2 = [⟨"options", unionTy "ssw.SswOption" sswOptions, true, none⟩] from rfl,
        show 0 + (Tab.Ssw.attrs.take 2).length = 2 from rfl]
      simp only [attrVals]
      unfold attrVal
      rw [if_neg (by decide +kernel), h3]
      cases os with
      | nil => rfl
      | cons o os =>
        obtain ⟨c, hd', ws'⟩ := o
        simp only [List.map_cons] at hst hs hro hwo ⊢
        have hwo' : Words (hd' :: (ws' ++ optWords (os.map (·.2)))) := hwo
        have hstrip : strip (enc (hd' :: (ws' ++ optWords (os.map (·.2))))) = hd' ++ enc (ws' ++ optWords (os.map (·.2))) := strip_enc _ _ hwo'
        rw [optWords_cons, show listed? (hd' :: (ws' ++ optWords (os.map (·.2)))) = some (hd' :: (ws' ++ optWords (os.map (·.2)))) from if_neg (by simp)]
        simp only [Option.map_some]
        rw [enc_cons] at hstrip ⊢
        simp only [hstrip, Attr.parse, if_true]
        rw [options_read "ssw.SswOption" sswOptions ssw_good (by decide +kernel) hd' ws' _ hs hst, hro]
        rw [show optionsVal ((c, hd', ws') :: os) = (readOwned ((c, hd', ws') :: os)).map .tuple from rfl]
        cases readOwned ((c, hd', ws') :: os) <;> rfl
    rw [hlast]
    cases optionsVal os <;> rfl

end Inp
