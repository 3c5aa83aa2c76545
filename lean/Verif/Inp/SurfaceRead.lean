import Verif.Inp.AltLemmas
import Verif.Inp.SurfaceSpec
/-!
# Surface cards are read entry by entry
-/
namespace Inp
open Py Types

theorem shorthand_stable : ∀ w ∈ shorthand, Stable w := by
  have h : ∀ w ∈ shorthand, Entry w ∧ LowerShort w ∧ countedEntry w = none := by decide +kernel
  intro w hw
  obtain ⟨a, b, c⟩ := h w hw
  exact ⟨a, b, c⟩

theorem entries_stable {g0 w0 : Str} {l : List (Gap × Str)} {g1 : Str} (h : Spaced g0 w0 l g1) : ∀ w ∈ entries l, Stable w := by
  intro w hw
  obtain ⟨u, hu, hwu⟩ := List.mem_flatMap.1 hw
  obtain ⟨x, hx, rfl⟩ := List.mem_map.1 hu
  unfold expandOne at hwu
  split at hwu
  · rename_i n k hc
    have : w = k := List.eq_of_mem_replicate hwu
    subst this
    exact shorthand_stable w (counted_letter hc)
  · rename_i hc
    simp only [List.mem_singleton] at hwu
    subst hwu
    exact ⟨(h.words x hx).2, h.low x hx, hc⟩

theorem stable_words {ws : List Str} (h : ∀ w ∈ ws, Stable w) : Words ws :=
  fun w hw => ⟨(h w hw).entry.sp, (h w hw).entry.ne⟩

theorem firstMatch_words (cs : List Cls) (hp : ∀ c ∈ cs, c.isPlain = true) (hd : Str) (ws : List Str) (hw : Words (hd :: ws)) :
    (match firstMatch (hd ++ enc ws) cs with | none => .error .inp | some (c, m) => c.build m) = unionW cs hd ws := by
  induction cs with
  | nil => rfl
  | cons c cs ih =>
    obtain ⟨e1, e2, e3⟩ := plain_match c (hp c (by simp)) hd ws hw
    unfold firstMatch unionW
    cases hm : reMatch c.re (hd ++ enc ws) with
    | none =>
      rw [hm] at e3
      rw [List.find?_cons_of_neg (by rw [← e3]; simp)]
      exact ih (fun d hd => hp d (by simp [hd]))
    | some m =>
      rw [hm] at e1 e3
      rw [List.find?_cons_of_pos (by rw [← e3]; rfl)]
      simp only [e2 m hm, if_true]
      exact e1

theorem union_words (cs : List Cls) (hp : ∀ c ∈ cs, c.isPlain = true) (hd : Str) (ws : List Str) (he : Entry hd)
    (hs : ∀ w ∈ ws, Stable w) : unionParse cs (hd ++ enc ws) = unionW cs hd ws := by
  obtain ⟨h1, h2⟩ := spaced_single hd ws [] he hs .nil
  have := spaced_prep h1
  rw [single_body, h2] at this
  obtain ⟨-, h3, h4⟩ := this
  rw [List.nil_append, List.append_nil] at h3
  unfold unionParse
  rw [h3]
  exact firstMatch_words cs hp hd ws h4

/-! ## The pattern -/

theorem surfaceOptions_plain : ∀ c ∈ surfaceOptions, c.isPlain = true := by
  have : surfaceOptions.all (·.isPlain) = true := by decide +kernel
  simpa using this

theorem surfaceOptions_good : ∀ c ∈ surfaceOptions, c.pat.Good := by
  have : surfaceOptions.all (·.pat.base) = true := by decide +kernel
  intro c hc
  exact Pat.base_good (List.all_eq_true.1 this c hc)

theorem surface_ty : Tab.T_surface_SurfaceOption = unionTy "surface.SurfaceOption" surfaceOptions := rfl

/-- The union of the equations, groups numbered from 6. -/
def equationRe : Re := altsRe (sortLen surfaceOptions) 6

/-- `( (…))` at the end of the pattern. -/
def lastRe : Re := .grp 4 (.seq (.seq (.chrI ' ') .eps) (.grp 5 equationRe))

/-- `\S+` -/
def wordRe : Re := .plus true (.cls (CC.test (.one .S)))

theorem surface_re : Tab.Surface.re = anchored (.seq (.opt true (.grp 1 (.alt (litRe c!"+") (litRe c!"*"))))
    (.seq (.grp 2 wordRe) (.seq (.opt true (.grp 3 (.seq (.seq (.chrI ' ') .eps) wordRe))) lastRe))) := rfl

/-- The end of a match of `s`. -/
def finish (s : Str) : St → Option (List (Nat × Str)) := fun st => run .eos st (fun st =>
  some ((0, s.take (s.length - st.rest.length)) :: st.caps))

theorem finish_end (s prev caps) : finish s ⟨prev, [], caps⟩ = some ((0, s) :: caps) := by
  unfold finish; rw [run_eos, if_pos rfl]; simp

theorem finish_none (s) (st : St) (h : st.rest ≠ []) : finish s st = none := by
  unfold finish; rw [run_eos, if_neg h]

theorem eq_full (k : Str) (es : List Str) (hw : Words (k :: es)) : Full equationRe (k ++ enc es) ↔ isEquation (k :: es) = true := by
  unfold equationRe
  rw [alts_full _ (fun c hc => surfaceOptions_good c ((mem_sortLen _).1 hc))]
  unfold isEquation
  rw [List.any_eq_true]
  constructor
  · rintro ⟨c, hc, hf⟩
    have hc' := (mem_sortLen _).1 hc
    exact ⟨c, hc', (plain_full (surfaceOptions_plain c hc') (surfaceOptions_good c hc') k es hw).1 hf⟩
  · rintro ⟨c, hc, hf⟩
    exact ⟨c, (mem_sortLen _).2 hc, (plain_full (surfaceOptions_plain c hc) (surfaceOptions_good c hc) k es hw).2 hf⟩

theorem eq_any : equationRe.free = true ∧ ∃ hi, equationRe.groupsIn 6 hi := by
  obtain ⟨h1, h2⟩ := alts_any (sortLen surfaceOptions) (fun c hc => surfaceOptions_good c ((mem_sortLen _).1 hc)) 6
  exact ⟨h1, _, h2⟩

/-- The end of the pattern on the remaining entries. -/
theorem last_run (s : Str) (ws : List Str) (hw : Words ws) (prev caps) :
    (isEquation ws = false → run lastRe ⟨prev, enc ws, caps⟩ (finish s) = none) ∧
    (isEquation ws = true → ∃ e, (∀ x ∈ e, 5 ≤ x.1) ∧
      run lastRe ⟨prev, enc ws, caps⟩ (finish s) = some ((0, s) :: (4, enc ws) :: (e ++ caps))) := by
  cases ws with
  | nil => exact ⟨fun _ => rfl, fun h => by cases h⟩
  | cons k es =>
    obtain ⟨hfree, hi, hgrp⟩ := eq_any
    have hrun : run lastRe ⟨prev, enc (k :: es), caps⟩ (finish s) =
        run equationRe ⟨' ' :: prev, k ++ enc es, caps⟩ (fun st => finish s ⟨st.prev, st.rest,
          (4, (enc (k :: es)).take ((enc (k :: es)).length - st.rest.length)) ::
          (5, (k ++ enc es).take ((k ++ enc es).length - st.rest.length)) :: st.caps⟩) := by
      unfold lastRe
      rw [run_grp, run_seq, run_seq]
      simp only [enc_cons, Re.chrI, run_cls_cons, beq_self_eq_true, if_true, run_eps, run_grp]
    rw [hrun]
    constructor
    · intro h
      apply run_none
      intro st' hst
      obtain ⟨u, e, h1, h2, -, h4⟩ := hst.mt hfree
      by_cases hr : st'.rest = []
      · exfalso
        rw [hr, List.append_nil] at h2
        have := (eq_full k es hw).1 ⟨e, by simp only at h2; rw [h2]; exact h1⟩
        rw [this] at h; cases h
      · exact finish_none s _ hr
    · intro h
      obtain ⟨e0, he0⟩ := (eq_full k es hw).2 h
      cases hr : run equationRe ⟨' ' :: prev, k ++ enc es, caps⟩ (fun st => finish s ⟨st.prev, st.rest,
          (4, (enc (k :: es)).take ((enc (k :: es)).length - st.rest.length)) ::
          (5, (k ++ enc es).take ((k ++ enc es).length - st.rest.length)) :: st.caps⟩) with
      | none =>
        exfalso
        have hst := he0.step (' ' :: prev) [] caps
        rw [List.append_nil] at hst
        have := (run_spec equationRe _ _).1.1 hr _ hst
        simp only [finish_end] at this
        cases this
      | some m =>
        obtain ⟨st', hst, hm⟩ := (run_spec equationRe _ _).2 m hr
        obtain ⟨u, e, h1, h2, h3, h4⟩ := hst.mt hfree
        by_cases hrest : st'.rest = []
        · refine ⟨(5, k ++ enc es) :: e, ?_, ?_⟩
          · intro x hx
            rcases List.mem_cons.1 hx with rfl | hx
            · exact Nat.le_refl _
            · have := h1.groups hgrp x hx; omega
          · rw [← hm]
            simp only [hrest, List.length_nil, Nat.sub_zero, List.take_length, finish_end, h4, List.cons_append]
        · have := finish_none s ⟨st'.prev, st'.rest, (4, (enc (k :: es)).take ((enc (k :: es)).length - st'.rest.length)) ::
            (5, (k ++ enc es).take ((k ++ enc es).length - st'.rest.length)) :: st'.caps⟩ hrest
          rw [this] at hm; cases hm

theorem last_blocked (s : Str) (st : St) (h : ∀ c ∈ st.rest.head?, c ≠ ' ') : run lastRe st (finish s) = none := by
  unfold lastRe
  obtain ⟨prev, rest, caps⟩ := st
  rw [run_grp, run_seq, run_seq]
  cases rest with
  | nil => rfl
  | cons c cs =>
    have : c ≠ ' ' := h c (by simp)
    simp only [Re.chrI, run_cls_cons, beq_iff_eq, lower_space, this, if_false]

theorem word_full (w : Str) : Full wordRe w ↔ w ≠ [] ∧ NoSpace w := by
  unfold Full wordRe
  constructor
  · rintro ⟨e, he⟩
    obtain ⟨h1, h2, -⟩ := mt_plus_cls.1 he
    exact ⟨h1, fun c hc => by have := h2 c hc; simpa [one_S] using this⟩
  · rintro ⟨h1, h2⟩
    exact ⟨[], mt_plus_cls.2 ⟨h1, fun c hc => by simp [one_S, h2 c hc], rfl⟩⟩

theorem word_nosp : NoSp wordRe := by
  intro w e h
  obtain ⟨-, h2, -⟩ := mt_plus_cls.1 h
  intro c hc
  have := h2 c hc
  simpa [one_S] using this

theorem mt_word {w : Str} {e} (h : Mt wordRe w e) : e = [] := (mt_plus_cls.1 h).2.2

/-- `( \S+)?( (…))` on the remaining entries. -/
def tailRe : Re := .seq (.opt true (.grp 3 (.seq (.seq (.chrI ' ') .eps) wordRe))) lastRe

theorem tail_blocked (s : Str) (st : St) (h : ∀ c ∈ st.rest.head?, c ≠ ' ') : run tailRe st (finish s) = none := by
  unfold tailRe
  rw [run_seq, run_opt_greedy, last_blocked s st h, run_grp, run_seq, run_seq]
  obtain ⟨prev, rest, caps⟩ := st
  cases rest with
  | nil => rfl
  | cons c cs =>
    have : c ≠ ' ' := h c (by simp)
    simp only [Re.chrI, run_cls_cons, beq_iff_eq, lower_space, this, if_false, Option.none_or]

theorem blocked_of_word {w u v : Str} (hw : NoSpace w) (h : w = u ++ v) (hv : v ≠ []) (t : Str) :
    ∀ c ∈ (v ++ t).head?, c ≠ ' ' := by
  intro c hc hcs
  subst hcs
  cases v with
  | nil => exact hv rfl
  | cons d ds =>
    simp at hc; subst hc
    have := hw ' ' (by rw [h]; simp)
    exact absurd this (by decide)

theorem tail_run (s : Str) (ws : List Str) (hw : Words ws) (prev caps) :
    (isEquation ws.tail = false → isEquation ws = false → run tailRe ⟨prev, enc ws, caps⟩ (finish s) = none) ∧
    (isEquation ws.tail = true → ∃ e t, ws.head? = some t ∧ (∀ x ∈ e, 5 ≤ x.1) ∧
      run tailRe ⟨prev, enc ws, caps⟩ (finish s) = some ((0, s) :: (4, enc ws.tail) :: (e ++ (3, enc [t]) :: caps))) ∧
    (isEquation ws.tail = false → isEquation ws = true → ∃ e, (∀ x ∈ e, 5 ≤ x.1) ∧
      run tailRe ⟨prev, enc ws, caps⟩ (finish s) = some ((0, s) :: (4, enc ws) :: (e ++ caps))) := by
  cases ws with
  | nil =>
    refine ⟨fun _ _ => rfl, ?_, ?_⟩
    · intro h; cases h
    · intro _ h; cases h
  | cons t ws =>
    have ht := hw t (by simp)
    have hfirst : run (.grp 3 (.seq (.seq (.chrI ' ') .eps) wordRe)) ⟨prev, enc (t :: ws), caps⟩ (fun st => run lastRe st (finish s))
        = run lastRe ⟨t.reverse ++ ' ' :: prev, enc ws, (3, enc [t]) :: caps⟩ (finish s) := by
      have key := (run_word wordRe rfl word_nosp t (enc ws) (' ' :: prev) caps (enc_bnd ws)
        (fun st' => run lastRe ⟨st'.prev, st'.rest, (3, (enc (t :: ws)).take ((enc (t :: ws)).length - st'.rest.length)) :: st'.caps⟩ (finish s)) (by
          intro u v e huv hv
          exact last_blocked s _ (blocked_of_word ht.1 huv hv _))).1 ((word_full t).2 ⟨ht.2, ht.1⟩)
      obtain ⟨e, he, hr⟩ := key
      rw [mt_word he] at hr
      have htake := take_enc [t] ws
      rw [List.singleton_append] at htake
      simp only [htake, List.nil_append] at hr
      rw [← hr, run_grp, run_seq, run_seq]
      simp only [enc_cons, Re.chrI, run_cls_cons, beq_self_eq_true, if_true, run_eps]
    have hrun : run tailRe ⟨prev, enc (t :: ws), caps⟩ (finish s) =
        (run lastRe ⟨t.reverse ++ ' ' :: prev, enc ws, (3, enc [t]) :: caps⟩ (finish s)).or
          (run lastRe ⟨prev, enc (t :: ws), caps⟩ (finish s)) := by
      rw [← hfirst]
      unfold tailRe
      rw [run_seq, run_opt_greedy]
    obtain ⟨a1, a2⟩ := last_run s ws hw.tail (t.reverse ++ ' ' :: prev) ((3, enc [t]) :: caps)
    obtain ⟨b1, b2⟩ := last_run s (t :: ws) hw prev caps
    rw [hrun]
    simp only [List.tail_cons, List.head?_cons]
    refine ⟨fun h1 h2 => by rw [a1 h1, b1 h2]; rfl, fun h => ?_, fun h1 h2 => ?_⟩
    · obtain ⟨e, he, hr⟩ := a2 h
      exact ⟨e, t, rfl, he, by rw [hr]; rfl⟩
    · obtain ⟨e, he, hr⟩ := b2 h2
      exact ⟨e, he, by rw [a1 h1, hr]; rfl⟩

/-- The first word: everything up to the blank is the number. -/
theorem number_run (s n : Str) (hn : NoSpace n) (hne : n ≠ []) (ws : List Str) (prev caps) :
    run (.seq (.grp 2 wordRe) tailRe) ⟨prev, n ++ enc ws, caps⟩ (finish s) =
      run tailRe ⟨n.reverse ++ prev, enc ws, (2, n) :: caps⟩ (finish s) := by
  have key := (run_word wordRe rfl word_nosp n (enc ws) prev caps (enc_bnd ws)
    (fun st' => run tailRe ⟨st'.prev, st'.rest, (2, (n ++ enc ws).take ((n ++ enc ws).length - st'.rest.length)) :: st'.caps⟩ (finish s)) (by
      intro u v e huv hv
      exact tail_blocked s _ (blocked_of_word hn huv hv _))).1 ((word_full n).2 ⟨hne, hn⟩)
  obtain ⟨e, he, hr⟩ := key
  rw [mt_word he] at hr
  simp only [take_consumed, List.nil_append] at hr
  rw [run_seq, run_grp, hr]

theorem number_none (s : Str) (ws : List Str) (prev caps) :
    run (.seq (.grp 2 wordRe) tailRe) ⟨prev, enc ws, caps⟩ (finish s) = none := by
  apply run_none
  intro st' hst
  exfalso
  obtain ⟨m, h1, -⟩ := step_seq.1 hst
  obtain ⟨m', h2, -⟩ := step_grp_adv.1 h1
  obtain ⟨u, e, h3, h4, -⟩ := h2.mt rfl
  obtain ⟨h5, h6⟩ := (word_full u).1 ⟨e, h3⟩
  cases u with
  | nil => exact h5 rfl
  | cons c u =>
    have := enc_bnd ws c (by rw [show enc ws = _ from h4]; simp)
    rw [h6 c (by simp)] at this; cases this

/-- The captures of a successful match. -/
structure SurfCaps (m : List (Nat × Str)) (p : Option Str) (n : Str) (t : Option Str) (eq : List Str) : Prop where
  p : cap m 1 = p
  n : cap m 2 = some n
  t : cap m 3 = t.map (fun t => enc [t])
  eq : cap m 4 = some (enc eq)

theorem cap_skip {e : List (Nat × Str)} {i : Nat} (h : ∀ x ∈ e, 5 ≤ x.1) (hi : i < 5) (l : List (Nat × Str)) :
    (e ++ l).lookup i = l.lookup i := by
  rw [lookup_append, lookup_none (fun x hx => by have := h x hx; omega), Option.none_or]

theorem sign_run {α : Type} (c : Char) (t : Str) (prev caps) (k : St → Option α) :
    run (.grp 1 (.alt (litRe c!"+") (litRe c!"*"))) ⟨prev, c :: t, caps⟩ k =
      if c = '+' ∨ c = '*' then k ⟨c :: prev, t, (1, [c]) :: caps⟩ else none := by
  have h1 : ∀ x : Char, x ∈ ['*', '+', ':'] → (lowerC c == lowerC x) = decide (c = x) := by
    intro x hx
    cases hd : decide (c = x) with
    | true => have := of_decide_eq_true hd; subst this; simp
    | false =>
      have := of_decide_eq_false hd
      rw [beq_eq_false_iff_ne]; intro h; exact this ((lower_eq_char hx).1 h)
  rw [run_grp, run_alt]
  simp only [litRe, run_seq, Re.chrI, run_cls_cons, run_eps, h1 '+' (by decide), h1 '*' (by decide), decide_eq_true_eq]
  have htake : (c :: t).take ((c :: t).length - t.length) = [c] := take_consumed [c] t
  rw [htake]
  by_cases hp : c = '+'
  · subst hp
    simp only [if_true, true_or]
    cases k ⟨'+' :: prev, t, (1, ['+']) :: caps⟩ with
    | some x => rfl
    | none => simp
  · simp only [hp, if_false, false_or, Option.none_or]

/-- The whole pattern. -/
theorem surface_match (w : Str) (ws : List Str) (hw : Words (w :: ws)) :
    (isEquation ws.tail = false → isEquation ws = false → reMatch Tab.Surface.re (w ++ enc ws) = none) ∧
    (∀ t eq, (isEquation ws.tail = true ∧ ws.head? = some t ∧ eq = ws.tail →
      ∃ m, reMatch Tab.Surface.re (w ++ enc ws) = some m ∧ SurfCaps m (surfaceHead w).1 (surfaceHead w).2 (some t) eq)) ∧
    (isEquation ws.tail = false → isEquation ws = true →
      ∃ m, reMatch Tab.Surface.re (w ++ enc ws) = some m ∧ SurfCaps m (surfaceHead w).1 (surfaceHead w).2 none ws) := by
  have hne := (hw w (by simp)).2
  have hsp := (hw w (by simp)).1
  -- with the sign and the number known
  have hrun : ∃ prev, reMatch Tab.Surface.re (w ++ enc ws) =
      (match (surfaceHead w).1 with
        | some p => (run tailRe ⟨prev, enc ws, (2, (surfaceHead w).2) :: (1, p) :: []⟩ (finish (w ++ enc ws))).or
            (run tailRe ⟨w.reverse ++ [], enc ws, (2, w) :: []⟩ (finish (w ++ enc ws)))
        | none => run tailRe ⟨prev, enc ws, (2, (surfaceHead w).2) :: []⟩ (finish (w ++ enc ws))) := by
    have h0 : reMatch Tab.Surface.re (w ++ enc ws) =
        (run (.grp 1 (.alt (litRe c!"+") (litRe c!"*"))) ⟨[], w ++ enc ws, []⟩ (fun st => run (.seq (.grp 2 wordRe) tailRe) st (finish (w ++ enc ws)))).or
          (run (.seq (.grp 2 wordRe) tailRe) ⟨[], w ++ enc ws, []⟩ (finish (w ++ enc ws))) := by
      unfold reMatch
      rw [surface_re]
      unfold anchored
      rw [run_seq, run_bos, if_pos rfl, run_seq, run_seq, run_opt_greedy]
      rfl
    rw [h0, number_run _ w hsp hne]
    match w, hne, hsp with
    | [c], _, hsp =>
      simp only [surfaceHead, List.cons_append, List.nil_append]
      refine ⟨[c].reverse ++ [], ?_⟩
      rw [sign_run, number_none]
      split <;> rfl
    | c :: d :: t, _, hsp =>
      simp only [surfaceHead, List.cons_append]
      by_cases hc : c = '+' ∨ c = '*'
      · simp only [if_pos hc]
        refine ⟨(d :: t).reverse ++ [c], ?_⟩
        rw [sign_run, if_pos hc]
        have := number_run (c :: d :: (t ++ enc ws)) (d :: t) (fun x hx => hsp x (by simp only [List.mem_cons] at hx ⊢; exact .inr hx)) (by simp) ws [c] [(1, [c])]
        simp only [List.cons_append] at this
        rw [this]
      · simp only [if_neg hc]
        refine ⟨(c :: d :: t).reverse ++ [], ?_⟩
        rw [sign_run, if_neg hc, Option.none_or]
  obtain ⟨prev, hrun⟩ := hrun
  rw [hrun]
  cases hp : (surfaceHead w).1 with
  | none =>
    obtain ⟨t1, t2, t3⟩ := tail_run (w ++ enc ws) ws hw.tail prev ((2, (surfaceHead w).2) :: [])
    refine ⟨t1, ?_, fun h1 h2 => ?_⟩
    · rintro t eq ⟨h1, h2, rfl⟩
      obtain ⟨e, t', ht', he, hr⟩ := t2 h1
      rw [h2] at ht'; cases ht'
      refine ⟨_, hr, ⟨?_, ?_, ?_, ?_⟩⟩ <;> simp [cap, List.lookup, cap_skip he]
    · obtain ⟨e, he, hr⟩ := t3 h1 h2
      refine ⟨_, hr, ⟨?_, ?_, ?_, ?_⟩⟩ <;> simp [cap, List.lookup, cap_skip he]
  | some p =>
    obtain ⟨t1, t2, t3⟩ := tail_run (w ++ enc ws) ws hw.tail prev ((2, (surfaceHead w).2) :: (1, p) :: [])
    obtain ⟨u1, -, -⟩ := tail_run (w ++ enc ws) ws hw.tail (w.reverse ++ []) ((2, w) :: [])
    refine ⟨fun h1 h2 => by simp only; rw [t1 h1 h2, u1 h1 h2]; rfl, ?_, fun h1 h2 => ?_⟩
    · rintro t eq ⟨h1, h2, rfl⟩
      obtain ⟨e, t', ht', he, hr⟩ := t2 h1
      rw [h2] at ht'; cases ht'
      refine ⟨_, by simp only; rw [hr]; rfl, ⟨?_, ?_, ?_, ?_⟩⟩ <;> simp [cap, List.lookup, cap_skip he]
    · obtain ⟨e, he, hr⟩ := t3 h1 h2
      refine ⟨_, by simp only; rw [hr]; rfl, ⟨?_, ?_, ?_, ?_⟩⟩ <;> simp [cap, List.lookup, cap_skip he]

/-! ## The attributes -/

theorem surface_ng : 4 ≤ Tab.Surface.pat.ng := by decide +kernel

/-- An attribute read from a group of several words. -/
theorem attr_text (ng : Nat) (m : List (Nat × Str)) (i : Nat) (a : Attr) (hi : i + 1 ≤ ng) (k : Str) (es : List Str)
    (hc : cap m (i + 1) = some (enc (k :: es))) (hw : Words (k :: es)) : attrVal ng m i a = a.parse (k ++ enc es) := by
  unfold attrVal
  rw [if_neg (by omega), hc]
  have hst : strip (enc (k :: es)) = k ++ enc es := strip_enc k es hw
  simp only [enc_cons] at hst ⊢
  rw [hst]

theorem surface_option (s : Str) : Tab.Surface.attrs[3].parse s = unionParse surfaceOptions s := by
  have h : Tab.Surface.attrs[3] = ⟨"option", Tab.T_surface_SurfaceOption, false, some .isNone⟩ := rfl
  rw [h, surface_ty]
  simp only [Attr.parse, Bool.false_eq_true, if_false, unionTy, Ty.parse]

theorem surface_build (m : List (Nat × Str)) (p : Option Str) (n : Str) (t : Option Str) (k : Str) (es : List Str)
    (hc : SurfCaps m p n t (k :: es)) (hp : ∀ w ∈ p, NoSpace w ∧ w ≠ []) (hn : NoSpace n ∧ n ≠ [])
    (ht : ∀ w ∈ t, NoSpace w ∧ w ≠ []) (hs : ∀ w ∈ k :: es, Stable w) :
    Tab.Surface.build m = surfaceOf p n t (k :: es) := by
  have hng := surface_ng
  have a0 : attrVal Tab.Surface.pat.ng m 0 Tab.Surface.attrs[0] = readVal ⟨"prefix", .base .str, false, none⟩ (p.map ([·])) :=
    attr_word _ m 0 Tab.Surface.attrs[0] (by omega) rfl p hc.p hp
  have a1 : attrVal Tab.Surface.pat.ng m 1 Tab.Surface.attrs[1] = (intParse n).map (fun v => .sc (.int v)) :=
    attr_word _ m 1 Tab.Surface.attrs[1] (by omega) rfl (some n) hc.n (by simpa using hn)
  have a2 : attrVal Tab.Surface.pat.ng m 2 Tab.Surface.attrs[2] = readVal ⟨"transform", .base .int, false, none⟩ (t.map ([·])) := by
    unfold attrVal
    rw [if_neg (by omega), hc.t]
    cases t with
    | none => rfl
    | some t =>
      obtain ⟨h1, h2⟩ := ht t rfl
      have : strip (enc [t]) = t := by rw [strip_enc t [] (by simpa using ⟨h1, h2⟩)]; simp
      simp only [Option.map_some, enc_cons] at this ⊢
      rw [this]; rfl
  have a3 : attrVal Tab.Surface.pat.ng m 3 Tab.Surface.attrs[3] = unionW surfaceOptions k es := by
    rw [attr_text _ m 3 _ (by omega) k es hc.eq (fun x hx => ⟨(hs x hx).entry.sp, (hs x hx).entry.ne⟩), surface_option]
    exact union_words surfaceOptions surfaceOptions_plain k es (hs k (by simp)).entry (fun w hw => hs w (by simp [hw]))
  have hat : Tab.Surface.attrs = [Tab.Surface.attrs[0], Tab.Surface.attrs[1], Tab.Surface.attrs[2], Tab.Surface.attrs[3]] := rfl
  unfold Cls.build surfaceOf
  rw [hat]
  simp only [attrVals, a0, a1, a2, a3, List.headD_cons, List.tail_cons]
  cases readVal ⟨"prefix", .base .str, false, none⟩ (p.map ([·])) with
  | error e => rfl
  | ok pv =>
    cases intParse n with
    | error e => rfl
    | ok nv =>
      simp only [Except.map]
      cases readVal ⟨"transform", .base .int, false, none⟩ (t.map ([·])) with
      | error e => rfl
      | ok tv =>
        cases unionW surfaceOptions k es with
        | error e => rfl
        | ok o => rfl

theorem surfaceHead_words {w : Str} (h1 : NoSpace w) (h2 : w ≠ []) :
    (∀ x ∈ (surfaceHead w).1, NoSpace x ∧ x ≠ []) ∧ NoSpace (surfaceHead w).2 ∧ (surfaceHead w).2 ≠ [] := by
  match w, h2 with
  | [c], _ => exact ⟨fun x hx => (by cases hx), h1, (by simp [surfaceHead])⟩
  | c :: d :: t, _ =>
    simp only [surfaceHead]
    split
    · refine ⟨?_, fun x hx => h1 x (by simp only [List.mem_cons] at hx ⊢; exact .inr hx), by simp⟩
      intro x hx
      simp only [Option.mem_def, Option.some.injEq] at hx
      subst hx
      exact ⟨fun y hy => h1 y (by simp only [List.mem_singleton] at hy; subst hy; simp), by simp⟩
    · refine ⟨?_, h1, by simp⟩
      intro x hx; cases hx

/-- The words of a surface card determine how it is read. -/
theorem surface_read (w : Str) (ws : List Str) (hw : Entry w) (hs : ∀ x ∈ ws, Stable x) :
    (match reMatch Tab.Surface.re (w ++ enc ws) with | none => .error .inp | some m => Tab.Surface.build m) = readSurface w ws := by
  have hW : Words (w :: ws) := by
    intro x hx
    rcases List.mem_cons.1 hx with rfl | hx
    · exact ⟨hw.sp, hw.ne⟩
    · exact ⟨(hs x hx).entry.sp, (hs x hx).entry.ne⟩
  obtain ⟨m1, m2, m3⟩ := surface_match w ws hW
  obtain ⟨s1, s2⟩ := surfaceHead_words hw.sp hw.ne
  unfold readSurface
  simp only
  cases ht : isEquation ws.tail with
  | true =>
    cases ws with
    | nil => cases ht
    | cons t eq =>
      obtain ⟨m, hm, hc⟩ := m2 t eq ⟨ht, rfl, rfl⟩
      rw [hm, if_pos rfl]
      cases eq with
      | nil => cases ht
      | cons k es =>
        have := surface_build m _ _ (some t) k es hc s1 s2 (by
          intro x hx; simp only [Option.mem_def, Option.some.injEq] at hx; subst hx
          exact ⟨(hs t (by simp)).entry.sp, (hs t (by simp)).entry.ne⟩) (fun x hx => hs x (by simp only [List.mem_cons] at hx ⊢; exact .inr hx))
        exact this
  | false =>
    rw [if_neg (by simp)]
    cases he : isEquation ws with
    | false => rw [m1 ht he, if_neg (by simp)]
    | true =>
      obtain ⟨m, hm, hc⟩ := m3 ht he
      rw [hm, if_pos rfl]
      cases ws with
      | nil => cases he
      | cons k es => exact surface_build m _ _ none k es hc s1 s2 (by intro x hx; cases hx) hs

end Inp
