import Verif.Inp.LatticeSpec
import Verif.Inp.FillRead
/-!
# Reading `fill` options of lattices
-/
set_option maxRecDepth 100000
namespace Inp
open Py Types

theorem latticeOf_eq (like : Bool) : latticeOf like = latticeCls like := by cases like <;> rfl

/-- `\S+:\S+` -/
def spanRe : Re := .seq (Re.plus true (.cls (CC.one .S).test)) (.seq (litRe c!":") (Re.plus true (.cls (CC.one .S).test)))

/-- The origin. -/
def originRe (n : Nat) : Re :=
  .opt true (.seq (litRe c!" ") (.seq (.cls (CC.set false [.ch '(']).test) (.seq (.grp n numRe) (.cls (CC.set false [.ch ')']).test))))

theorem lattice_re (like : Bool) (n : Nat) : (latticeCls like).pat.re n =
    .seq (.opt true (.grp n (.cls (CC.set false [.ch '*']).test))) (.seq (litRe c!"fill ") (.seq (.grp (n + 1) spanRe) (.seq (litRe c!" ")
      (.seq (.grp (n + 2) spanRe) (.seq (litRe c!" ") (.seq (.grp (n + 3) spanRe)
        (.seq (.grp (n + 4) (Re.plus false (.seq (litRe c!" ") numRe))) (originRe (n + 5))))))))) := by
  cases like <;> rfl

theorem lattice_good (like : Bool) : (latticeCls like).pat.Good := by
  have : latticeOf like ∈ optionsOf like := by rw [fill_split]; simp
  rw [← latticeOf_eq]
  cases like
  · exact cellOptions_good _ this
  · exact likeOptions_good _ this

theorem test_close {x : Char} (h : (CC.set false [.ch ')']).test x = true) : x = ')' := by
  have h0 : lowerC x = lowerC ')' := by simpa [CC.test, CI.test] using h
  have h1 : lowerC ')' = ')' ∧ ')' ∉ lowers := by decide
  rw [h1.1] at h0
  rcases lowerC_split x with ⟨hx, -⟩ | ⟨y, hy, -, hl⟩
  · rw [← h0, hx]
  · rw [hl] at h0; subst h0; exact absurd hy h1.2

theorem mt_span {w : Str} {e} : Mt spanRe w e ↔ SpanWord w ∧ NoSpace w ∧ e = [] := by
  have hS : ∀ c, (CC.one .S).test c = true ↔ isSpace c = false := by
    intro c
    simp [CC.test, CI.test]
  unfold spanRe
  constructor
  · intro h
    obtain ⟨p, c, x, y, p1, p2, rfl, rfl⟩ := mt_seq.1 h
    obtain ⟨q, t, x', y', p3, p4, rfl, rfl⟩ := mt_seq.1 p2
    obtain ⟨a1, a2, rfl⟩ := mt_plus_cls.1 p1
    obtain ⟨b1, b2, rfl⟩ := mt_plus_cls.1 p4
    obtain ⟨l1, rfl⟩ := mt_lit.1 p3
    have hq : q = [':'] := by
      obtain ⟨x, rfl, hx⟩ := lower_single l1
      rw [(lower_eq_char (by simp)).1 hx]
    subst hq
    refine ⟨⟨p, t, a1, b1, rfl⟩, ?_, rfl⟩
    intro c hc
    rcases List.mem_append.1 hc with hc | hc
    · exact (hS c).1 (a2 c hc)
    · rcases List.mem_cons.1 hc with rfl | hc
      · decide
      · exact (hS c).1 (b2 c hc)
  · rintro ⟨⟨p, q, hp, hq, rfl⟩, hn, rfl⟩
    exact mt_seq.2 ⟨p, ':' :: q, [], [], mt_plus_cls.2 ⟨hp, fun c hc => (hS c).2 (hn c (by simp [hc])), rfl⟩,
      mt_seq.2 ⟨[':'], q, [], [], mt_lit.2 ⟨rfl, rfl⟩, mt_plus_cls.2 ⟨hq, fun c hc => (hS c).2 (hn c (by simp [hc])), rfl⟩, rfl, rfl⟩, rfl, rfl⟩

theorem mt_star_nums {g : Bool} {w : Str} {e} (h : Mt (.star g (.seq (litRe c!" ") numRe)) w e) :
    ∃ us : List Str, (∀ u ∈ us, Full numRe u) ∧ w = enc us ∧ e = [] := by
  generalize hq : Re.star g (.seq (litRe c!" ") numRe) = q at h
  induction h with
  | starNil => exact ⟨[], by simp, rfl, rfl⟩
  | @starCons g' a' u v x y hu h1 h2 _ ih2 =>
    simp only [Re.star.injEq] at hq
    obtain ⟨rfl, rfl⟩ := hq
    obtain ⟨b, t, x', y', h3, h4, rfl, rfl⟩ := mt_seq.1 h1
    obtain ⟨rfl, rfl⟩ := (blank_lit.mt _ _).1 h3
    obtain rfl := mt_num h4
    obtain ⟨us, hus, rfl, rfl⟩ := ih2 rfl
    refine ⟨t :: us, ?_, by simp [enc_cons], rfl⟩
    intro z hz
    rcases List.mem_cons.1 hz with rfl | hz
    · exact ⟨_, h4⟩
    · exact hus z hz
  | _ => cases hq

theorem mt_plus_nums {g : Bool} {w : Str} {e} (h : Mt (Re.plus g (.seq (litRe c!" ") numRe)) w e) :
    ∃ us : List Str, us ≠ [] ∧ (∀ u ∈ us, Full numRe u) ∧ w = enc us ∧ e = [] := by
  unfold Re.plus at h
  obtain ⟨u, v, x, y, h1, h2, rfl, rfl⟩ := mt_seq.1 h
  obtain ⟨b, t, x', y', h3, h4, rfl, rfl⟩ := mt_seq.1 h1
  obtain ⟨rfl, rfl⟩ := (blank_lit.mt _ _).1 h3
  obtain rfl := mt_num h4
  obtain ⟨us, hus, rfl, rfl⟩ := mt_star_nums h2
  refine ⟨t :: us, by simp, ?_, by simp [enc_cons], rfl⟩
  intro z hz
  rcases List.mem_cons.1 hz with rfl | hz
  · exact ⟨_, h4⟩
  · exact hus z hz

theorem full_plus_nums (g : Bool) : ∀ {us : List Str}, us ≠ [] → (∀ u ∈ us, Full numRe u) → Mt (Re.plus g (.seq (litRe c!" ") numRe)) (enc us) [] := by
  have star : ∀ us : List Str, (∀ u ∈ us, Full numRe u) → Mt (.star g (.seq (litRe c!" ") numRe)) (enc us) [] := by
    intro us
    induction us with
    | nil => intro _; exact .starNil
    | cons u us ih =>
      intro h
      obtain ⟨e, he⟩ := h u (by simp)
      obtain rfl := mt_num he
      have h1 : Mt (.seq (litRe c!" ") numRe) (' ' :: u) [] := mt_seq.2 ⟨[' '], u, [], [], (blank_lit.mt _ _).2 ⟨rfl, rfl⟩, he, rfl, rfl⟩
      have := Mt.starCons (g := g) (by simp) h1 (ih (fun x hx => h x (by simp [hx])))
      rw [enc_cons]
      exact this
  intro us hne h
  cases us with
  | nil => exact absurd rfl hne
  | cons u us =>
    obtain ⟨e, he⟩ := h u (by simp)
    obtain rfl := mt_num he
    have h1 : Mt (.seq (litRe c!" ") numRe) (' ' :: u) [] := mt_seq.2 ⟨[' '], u, [], [], (blank_lit.mt _ _).2 ⟨rfl, rfl⟩, he, rfl, rfl⟩
    have := Mt.seq h1 (star us (fun x hx => h x (by simp [hx])))
    rw [enc_cons]
    exact this

theorem mt_origin {n : Nat} {w : Str} {e} : Mt (originRe n) w e ↔
    ∃ m : Option Str, (∀ x ∈ m, Full numRe x) ∧ w = enc (originWords m) ∧ e = m.elim [] (fun x => [(n, x)]) := by
  unfold originRe
  constructor
  · intro h
    rcases mt_opt.1 h with ⟨rfl, rfl⟩ | h
    · exact ⟨none, by simp, rfl, rfl⟩
    · obtain ⟨b, t, x, y, h1, h2, rfl, rfl⟩ := mt_seq.1 h
      obtain ⟨rfl, rfl⟩ := (blank_lit.mt _ _).1 h1
      obtain ⟨a, t, x, y, h3, h4, rfl, rfl⟩ := mt_seq.1 h2
      obtain ⟨ch, h7, rfl, rfl⟩ := mt_cls.1 h3
      obtain rfl := test_sign (c := '(') (by decide) h7
      obtain ⟨t, c, x, y, h5, h6, rfl, rfl⟩ := mt_seq.1 h4
      obtain ⟨ch, h8, rfl, rfl⟩ := mt_cls.1 h6
      obtain rfl := test_close h8
      obtain ⟨z, h9, rfl⟩ := mt_grp.1 h5
      obtain rfl := mt_num h9
      exact ⟨some t, by intro x hx; cases hx; exact ⟨_, h9⟩, by simp [originWords, enc_cons, enc], rfl⟩
  · rintro ⟨m, hm, rfl, rfl⟩
    cases m with
    | none => exact .optNone
    | some x =>
      obtain ⟨e, he⟩ := hm x rfl
      obtain rfl := mt_num he
      refine .optSome ?_
      have e1 : enc (originWords (some x)) = [' '] ++ (['('] ++ (x ++ [')'])) := by simp [originWords, enc_cons, enc]
      rw [e1]
      exact mt_seq.2 ⟨_, _, [], [(n, x)], (blank_lit.mt _ _).2 ⟨rfl, rfl⟩, mt_seq.2 ⟨_, _, [], [(n, x)], .cls (by decide),
        mt_seq.2 ⟨_, _, [(n, x)], [], .grp he, .cls (by decide), rfl, rfl⟩, rfl, rfl⟩, rfl, rfl⟩

theorem fill_blank {b : Str} : lower b = lower c!"fill " ↔ ∃ kw, lower kw = c!"fill" ∧ b = kw ++ [' '] := by
  constructor
  · intro hl
    have hlen : b.length = 5 := by
      have := congrArg List.length hl
      simpa [lower] using this
    match b, hlen with
    | [b1, b2, b3, b4, b5], _ =>
      simp only [lower, List.map_cons, List.map_nil, List.cons.injEq, and_true] at hl
      obtain ⟨h1, h2, h3, h4, h5⟩ := hl
      have h5' : [b5] = [' '] := lower_blank (by simp [lower, h5])
      refine ⟨[b1, b2, b3, b4], ?_, by cases h5'; rfl⟩
      simp only [lower, List.map_cons, List.map_nil, h1, h2, h3, h4]
      decide
  · rintro ⟨kw, h, rfl⟩
    simp only [lower, List.map_append] at h ⊢
    rw [h]
    decide

/-- The matches of the pattern. -/
theorem mt_lattice (like : Bool) {w : Str} {e} : Mt ((latticeCls like).pat.re 1) w e ↔
    ∃ star hd i j k us m, FillWord star hd ∧ (SpanWord i ∧ NoSpace i) ∧ (SpanWord j ∧ NoSpace j) ∧ (SpanWord k ∧ NoSpace k) ∧ us ≠ [] ∧
      (∀ u ∈ us, Full numRe u) ∧ (∀ x ∈ m, Full numRe x) ∧ w = hd ++ enc (i :: j :: k :: (us ++ originWords m)) ∧
      e = m.elim [] (fun x => [(6, x)]) ++ [(5, enc us), (4, k), (3, j), (2, i)] ++ if star then [(1, ['*'])] else [] := by
  rw [lattice_re]
  constructor
  · intro h
    obtain ⟨a, w, x0, y, h1, h2, rfl, rfl⟩ := mt_seq.1 h
    obtain ⟨b, w, x1, y, h3, h4, rfl, rfl⟩ := mt_seq.1 h2
    obtain ⟨i, w, x2, y, h5, h6, rfl, rfl⟩ := mt_seq.1 h4
    obtain ⟨c1, w, x3, y, h7, h8, rfl, rfl⟩ := mt_seq.1 h6
    obtain ⟨j, w, x4, y, h9, h10, rfl, rfl⟩ := mt_seq.1 h8
    obtain ⟨c2, w, x5, y, h11, h12, rfl, rfl⟩ := mt_seq.1 h10
    obtain ⟨k, w, x6, y, h13, h14, rfl, rfl⟩ := mt_seq.1 h12
    obtain ⟨t, o, x7, x8, h15, h16, rfl, rfl⟩ := mt_seq.1 h14
    obtain ⟨l1, rfl⟩ := mt_lit.1 h3
    obtain ⟨kw, l2, rfl⟩ := fill_blank.1 l1
    obtain ⟨rfl, rfl⟩ := (blank_lit.mt _ _).1 h7
    obtain ⟨rfl, rfl⟩ := (blank_lit.mt _ _).1 h11
    obtain ⟨z, g1, rfl⟩ := mt_grp.1 h5
    obtain ⟨s1, s2, rfl⟩ := mt_span.1 g1
    obtain ⟨z, g2, rfl⟩ := mt_grp.1 h9
    obtain ⟨s3, s4, rfl⟩ := mt_span.1 g2
    obtain ⟨z, g3, rfl⟩ := mt_grp.1 h13
    obtain ⟨s5, s6, rfl⟩ := mt_span.1 g3
    obtain ⟨z, g4, rfl⟩ := mt_grp.1 h15
    obtain ⟨us, u1, u2, rfl, rfl⟩ := mt_plus_nums g4
    obtain ⟨m, m1, rfl, rfl⟩ := mt_origin.1 h16
    rcases mt_opt.1 h1 with ⟨rfl, rfl⟩ | h1
    · exact ⟨false, kw, i, j, k, us, m, ⟨kw, l2, rfl⟩, ⟨s1, s2⟩, ⟨s3, s4⟩, ⟨s5, s6⟩, u1, u2, m1, by simp [enc_cons, enc_append], by simp⟩
    · obtain ⟨_, n1, rfl⟩ := mt_grp.1 h1
      obtain ⟨c, hc, rfl, rfl⟩ := mt_cls.1 n1
      obtain rfl := test_sign (c := '*') (by decide) hc
      exact ⟨true, '*' :: kw, i, j, k, us, m, ⟨kw, l2, rfl⟩, ⟨s1, s2⟩, ⟨s3, s4⟩, ⟨s5, s6⟩, u1, u2, m1, by simp [enc_cons, enc_append], by simp⟩
  · rintro ⟨star, hd, i, j, k, us, m, ⟨kw, l2, rfl⟩, ⟨s1, s2⟩, ⟨s3, s4⟩, ⟨s5, s6⟩, u1, u2, m1, rfl, rfl⟩
    have g0 : Mt (.opt true (.grp 1 (.cls (CC.set false [.ch '*']).test))) (if star then ['*'] else []) (if star then [(1, ['*'])] else []) := by
      cases star with
      | true => exact .optSome (.grp (.cls (by decide)))
      | false => exact .optNone
    have e1 : (if star then ['*'] else []) ++ kw ++ enc (i :: j :: k :: (us ++ originWords m)) =
        (if star then ['*'] else []) ++ ((kw ++ [' ']) ++ (i ++ ([' '] ++ (j ++ ([' '] ++ (k ++ (enc us ++ enc (originWords m)))))))) := by
      simp [enc_cons, enc_append]
    rw [e1]
    have blk : Mt (litRe c!" ") [' '] [] := (blank_lit.mt _ _).2 ⟨rfl, rfl⟩
    have := Mt.seq g0 (Mt.seq (mt_lit.2 ⟨fill_blank.2 ⟨kw, l2, rfl⟩, rfl⟩ : Mt (litRe c!"fill ") (kw ++ [' ']) [])
      (Mt.seq (Mt.grp (n := 2) (mt_span.2 ⟨s1, s2, rfl⟩)) (Mt.seq blk (Mt.seq (Mt.grp (n := 3) (mt_span.2 ⟨s3, s4, rfl⟩)) (Mt.seq blk
        (Mt.seq (Mt.grp (n := 4) (mt_span.2 ⟨s5, s6, rfl⟩)) (Mt.seq (Mt.grp (n := 5) (full_plus_nums false u1 u2))
          (mt_origin (n := 6).2 ⟨m, m1, rfl, rfl⟩))))))))
    simpa using this

theorem origin_split {us us' : List Str} {m m' : Option Str} (h1 : ∀ u ∈ us, Full numRe u) (h2 : ∀ u ∈ us', Full numRe u)
    (h : us ++ originWords m = us' ++ originWords m') : us = us' ∧ m = m' := by
  have hp : ∀ x : Str, ¬ Full numRe (['('] ++ x ++ [')']) := by
    intro x hx
    have := full_num.1 hx
    generalize hn : ['('] ++ x ++ [')'] = s at this
    have hh : s.head? = some '(' := by rw [← hn]; rfl
    have low : ∀ {w t : Str}, w.head? = some '(' → lower w = lower t → (lower t).head? = some '(' := by
      intro w t hw hl
      rw [← hl]
      cases w with
      | nil => cases hw
      | cons c w => cases hw; rfl
    cases this with
    | lit x w hx hl =>
      simp only [List.mem_cons, List.not_mem_nil, or_false] at hx
      rcases hx with rfl | rfl | rfl <;> exact absurd (low hh hl) (by decide)
    | log w hl => exact absurd (low hh hl) (by decide)
    | ilog w hl => exact absurd (low hh hl) (by decide)
    | mul ds l hd hl =>
      cases ds with
      | nil => exact absurd (low (by simpa using hh) hl) (by decide)
      | cons d ds =>
        simp only [List.cons_append, List.head?_cons, Option.some.injEq] at hh
        subst hh
        exact absurd (hd '(' (by simp)) (by decide)
    | num c t hc ht =>
      simp only [List.head?_cons, Option.some.injEq] at hh
      subst hh
      exact absurd hc (by decide)
  cases m with
  | none =>
    cases m' with
    | none => simpa [originWords] using h
    | some x =>
      simp only [originWords, List.append_nil] at h
      exact absurd (h1 _ (by rw [h]; simp)) (hp x)
  | some x =>
    cases m' with
    | none =>
      simp only [originWords, List.append_nil] at h
      exact absurd (h2 _ (by rw [← h]; simp)) (hp x)
    | some y =>
      simp only [originWords] at h
      obtain ⟨rfl, h'⟩ := List.append_inj' h rfl
      have h5 : ['('] ++ x ++ [')'] = ['('] ++ y ++ [')'] := (List.cons.inj h').1
      have h6 := (List.cons.inj (List.append_cancel_right h5)).2
      exact ⟨rfl, congrArg some h6⟩

/-- How the text of the option is taken apart. -/
theorem lattice_match (like : Bool) {star : Bool} {hd i j k : Str} {us : List Str} {m : Option Str} (hw : Words (hd :: i :: j :: k :: (us ++ originWords m)))
    (hh : FillWord star hd) (hi : SpanWord i) (hj : SpanWord j) (hk : SpanWord k) (hne : us ≠ []) (hu : ∀ u ∈ us, Full numRe u)
    (hm : ∀ x ∈ m, Full numRe x) :
    reMatch (latticeCls like).re (hd ++ enc (i :: j :: k :: (us ++ originWords m))) =
      some ((0, hd ++ enc (i :: j :: k :: (us ++ originWords m))) ::
        (m.elim [] (fun x => [(6, x)]) ++ [(5, enc us), (4, k), (3, j), (2, i)] ++ if star then [(1, ['*'])] else [])) := by
  have hfree := ((lattice_good like).any 1).1
  have hs : ∀ w ∈ hd :: i :: j :: k :: (us ++ originWords m), NoSpace w := fun w h => (hw w h).1
  have full : Full ((latticeCls like).pat.re 1) (hd ++ enc (i :: j :: k :: (us ++ originWords m))) :=
    ⟨_, (mt_lattice like).2 ⟨star, hd, i, j, k, us, m, hh, ⟨hi, hs _ (by simp)⟩, ⟨hj, hs _ (by simp)⟩, ⟨hk, hs _ (by simp)⟩, hne, hu, hm, rfl, rfl⟩⟩
  obtain ⟨M, hM⟩ := Option.isSome_iff_exists.1 ((full_iff _ hfree _).2 full)
  obtain ⟨e, he, rfl⟩ := full_match hfree hM
  obtain ⟨star', hd', i', j', k', us', m', hh', hi', hj', hk', -, hu', hm', h1, h2⟩ := (mt_lattice like).1 he
  have hsp' : ∀ w ∈ hd' :: i' :: j' :: k' :: (us' ++ originWords m'), NoSpace w := by
    intro w hw'
    simp only [List.mem_cons, List.mem_append] at hw'
    rcases hw' with rfl | rfl | rfl | rfl | hw' | hw'
    · obtain ⟨kw, l, rfl⟩ := hh'
      intro c hc
      rcases List.mem_append.1 hc with hc | hc
      · cases star'
        · cases hc
        · simp only [if_true, List.mem_singleton] at hc; subst hc; decide
      · refine isSpace_of_lower (a := c) (b := lowerC c) (lowerC_idem c).symm ?_
        have : lowerC c ∈ lower kw := List.mem_map.2 ⟨c, hc, rfl⟩
        rw [l] at this
        revert this
        generalize lowerC c = z
        revert z
        decide
    · exact hi'.2
    · exact hj'.2
    · exact hk'.2
    · exact (num_words (hu' w hw')).1
    · cases m' with
      | none => cases hw'
      | some x =>
        simp only [originWords, List.mem_singleton] at hw'
        subst hw'
        have := (num_words (hm' x rfl)).1
        intro c hc
        simp only [List.mem_append, List.mem_singleton] at hc
        rcases hc with (rfl | hc) | rfl
        · decide
        · exact this c hc
        · decide
  have h3 : enc (hd :: i :: j :: k :: (us ++ originWords m)) = enc (hd' :: i' :: j' :: k' :: (us' ++ originWords m')) := by
    rw [enc_cons, enc_cons hd', h1]
  have h4 := enc_inj hs hsp' h3
  simp only [List.cons.injEq] at h4
  obtain ⟨rfl, rfl, rfl, rfl, h4⟩ := h4
  obtain ⟨rfl, rfl⟩ := origin_split hu hu' h4
  have h5 : star = star' := by
    have a1 := fill_head hh
    rw [fill_head hh'] at a1
    cases star <;> cases star' <;> first | rfl | (simp at a1)
  subst h5
  have hM' : reMatch (latticeCls like).re (hd ++ enc (i :: j :: k :: (us ++ originWords m))) =
      some ((0, hd ++ enc (i :: j :: k :: (us ++ originWords m))) :: e) := hM
  rw [hM', h2]

theorem readUnis_mapM (us : List Str) : (us.mapM (Ty.base Kind.int).parse).map Val.tuple = (readUnis us).map (fun ns => .tuple (ns.map (fun n => .sc (.int n)))) := by
  have : us.mapM (Ty.base Kind.int).parse = (readUnis us).map (fun ns => ns.map (fun n => .sc (.int n))) := by
    induction us with
    | nil => rfl
    | cons u us ih =>
      rw [List.mapM_cons, ih]
      have e : (Ty.base Kind.int).parse u = (intParse u).map (fun n => .sc (.int n)) := rfl
      rw [e, show readUnis (u :: us) = match intParse u with
        | .error e => .error e
        | .ok n => match readUnis us with | .error e => .error e | .ok ns => .ok (n :: ns) from rfl]
      cases intParse u with
      | error e => rfl
      | ok n =>
        cases readUnis us with
        | error e => rfl
        | ok ns => rfl
  rw [this]
  cases readUnis us <;> rfl

/-- Building the option from the groups. -/
theorem lattice_build (like : Bool) {star : Bool} {i j k : Str} {us : List Str} {m : Option Str} (s : Str)
    (hi : NoSpace i ∧ i ≠ []) (hj : NoSpace j ∧ j ≠ []) (hk : NoSpace k ∧ k ≠ []) (hne : us ≠ []) (hu : ∀ u ∈ us, Full numRe u)
    (hm : ∀ x ∈ m, Full numRe x) :
    (latticeCls like).build ((0, s) ::
        (m.elim [] (fun x => [(6, x)]) ++ [(5, enc us), (4, k), (3, j), (2, i)] ++ if star then [(1, ['*'])] else [])) =
      readLattice like star i j k us m := by
  have hat : (latticeCls like).attrs = Tab.cell_Fill_0.attrs := by cases like <;> rfl
  have hng : (latticeCls like).pat.ng = 6 := by cases like <;> rfl
  generalize hM : (0, s) :: (m.elim [] (fun x => [(6, x)]) ++ [(5, enc us), (4, k), (3, j), (2, i)] ++ if star then [(1, ['*'])] else []) = M
  have cp : ∀ g, g ≠ 0 → cap M g = (m.elim [] (fun x => [(6, x)]) ++ [(5, enc us), (4, k), (3, j), (2, i)] ++ if star then [(1, ['*'])] else []).lookup g := by
    intro g hg
    rw [← hM, cap, List.lookup_cons, show (g == 0) = false by simp [hg]]
  have c1 : cap M 1 = if star then some ['*'] else none := by rw [cp 1 (by decide)]; cases m <;> cases star <;> rfl
  have c2 : cap M 2 = some i := by rw [cp 2 (by decide)]; cases m <;> rfl
  have c3 : cap M 3 = some j := by rw [cp 3 (by decide)]; cases m <;> rfl
  have c4 : cap M 4 = some k := by rw [cp 4 (by decide)]; cases m <;> rfl
  have c5 : cap M 5 = (some us).map enc := by rw [cp 5 (by decide)]; cases m <;> rfl
  have c6 : cap M 6 = m := by rw [cp 6 (by decide)]; cases m <;> cases star <;> rfl
  have a1 := attr_word 6 M 0 Tab.cell_Fill_0.attrs[0] (by decide) rfl _ c1 (by
    intro w hw
    cases star
    · cases hw
    · cases hw; decide)
  have a2 := attr_word 6 M 1 Tab.cell_Fill_0.attrs[1] (by decide) rfl _ c2 (by intro w hw; cases hw; exact hi)
  have a3 := attr_word 6 M 2 Tab.cell_Fill_0.attrs[2] (by decide) rfl _ c3 (by intro w hw; cases hw; exact hj)
  have a4 := attr_word 6 M 3 Tab.cell_Fill_0.attrs[3] (by decide) rfl _ c4 (by intro w hw; cases hw; exact hk)
  have a5 := attr_field 6 M 4 Tab.cell_Fill_0.attrs[4] ⟨.ty (.base .int), .many⟩ (by decide) rfl rfl _ c5 (by
    intro ws hws
    cases hws
    exact ⟨hne, fun u h => (unitOk_iff (.ty (.base .int)) (by decide) 1 u).2 (hu u h), by rintro (h | h) <;> simp at h,
      fun u h => ⟨(num_words (hu u h)).1, (num_words (hu u h)).2.1⟩⟩)
  have a6 := attr_word 6 M 5 Tab.cell_Fill_0.attrs[5] (by decide) rfl _ c6 (by
    intro w hw; exact ⟨(num_words (hm w hw)).1, (num_words (hm w hw)).2.1⟩)
  have b2 : attrVal 6 M 1 Tab.cell_Fill_0.attrs[1] = (indexParse i).map (fun x => .sc (.index x)) := a2
  have b3 : attrVal 6 M 2 Tab.cell_Fill_0.attrs[2] = (indexParse j).map (fun x => .sc (.index x)) := a3
  have b4 : attrVal 6 M 3 Tab.cell_Fill_0.attrs[3] = (indexParse k).map (fun x => .sc (.index x)) := a4
  have b5 : attrVal 6 M 4 Tab.cell_Fill_0.attrs[4] = (readUnis us).map (fun ns => .tuple (ns.map (fun n => .sc (.int n)))) := by
    rw [a5, ← readUnis_mapM]; rfl
  have b1 : attrVal 6 M 0 Tab.cell_Fill_0.attrs[0] = .ok (if star then .sc (.str ['*']) else .none) := by rw [a1]; cases star <;> rfl
  have b6 : attrVal 6 M 5 Tab.cell_Fill_0.attrs[5] = match m with | none => .ok .none | some x => (intParse x).map (fun n => .sc (.int n)) := by
    rw [a6]; cases m <;> rfl
  have hl : Tab.cell_Fill_0.attrs = [Tab.cell_Fill_0.attrs[0], Tab.cell_Fill_0.attrs[1], Tab.cell_Fill_0.attrs[2], Tab.cell_Fill_0.attrs[3],
    Tab.cell_Fill_0.attrs[4], Tab.cell_Fill_0.attrs[5]] := rfl
  unfold Cls.build readLattice
  rw [hat, hng, hl]
  simp only [attrVals, b1, b2, b3, b4, b5, b6]
  cases indexParse i with
  | error e => rfl
  | ok iv =>
    cases indexParse j with
    | error e => rfl
    | ok jv =>
      cases indexParse k with
      | error e => rfl
      | ok kv =>
        cases readUnis us with
        | error e => rfl
        | ok ns =>
          cases m with
          | none => cases like <;> cases star <;> rfl
          | some x =>
            simp only [Except.map]
            cases intParse x with
            | error e => rfl
            | ok n => cases like <;> cases star <;> rfl

/-- Among the options of a cell. -/
theorem lattice_first (like : Bool) {star : Bool} {hd i j k : Str} {us : List Str} {m : Option Str} (hw : Words (hd :: i :: j :: k :: (us ++ originWords m)))
    (hh : FillWord star hd) (hi : SpanWord i) (hj : SpanWord j) (hk : SpanWord k) (hne : us ≠ []) (hu : ∀ u ∈ us, Full numRe u)
    (hm : ∀ x ∈ m, Full numRe x) :
    ∃ M, firstMatch (hd ++ enc (i :: j :: k :: (us ++ originWords m))) (optionsOf like) = some (latticeCls like, M) ∧
      (latticeCls like).build M = readLattice like star i j k us m := by
  refine ⟨_, ?_, lattice_build like (hd ++ enc (i :: j :: k :: (us ++ originWords m))) (hw i (by simp)) (hw j (by simp)) (hw k (by simp)) hne hu hm⟩
  rw [fill_split, firstMatch_skip (fun d hd' => by
    obtain ⟨hg, hb⟩ := before_begins like hh (i :: j :: k :: (us ++ originWords m)) d hd'
    exact begins_match hg hb), latticeOf_eq]
  exact firstMatch_hit (lattice_match like hw hh hi hj hk hne hu hm) rfl _

end Inp
