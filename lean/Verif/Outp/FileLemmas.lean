import Verif.Outp.File
import Verif.Outp.TallyLemmas
/-! Lemmas on output files. -/
namespace Outp
open Py Ptrac

/-! ## Cutting -/

/-- No `\n` followed by such a character. -/
def NoAfter (p : Char → Bool) (s : Str) : Prop := ∀ u c v, s = u ++ '\n' :: c :: v → p c = false

theorem noAfter_tail {p : Char → Bool} {c : Char} {s : Str} (h : NoAfter p (c :: s)) : NoAfter p s :=
  fun u d v e => h (c :: u) d v (by rw [e]; rfl)

theorem noAfter_cons {p : Char → Bool} {c : Char} {s : Str} (h : NoAfter p s) (hc : c = '\n' → ∀ d t, s = d :: t → p d = false) :
    NoAfter p (c :: s) := by
  intro u d v e
  cases u with
  | nil =>
    simp only [List.nil_append, List.cons.injEq] at e
    exact hc e.1 d v e.2
  | cons x u =>
    simp only [List.cons_append, List.cons.injEq] at e
    exact h u d v e.2

theorem noAfter_left {p : Char → Bool} {a b : Str} (h : NoAfter p (a ++ b)) : NoAfter p a :=
  fun u d v e => h u d (v ++ b) (by rw [e]; simp)

theorem noAfter_right {p : Char → Bool} {a b : Str} (h : NoAfter p (a ++ b)) : NoAfter p b :=
  fun u d v e => h (a ++ u) d v (by rw [e]; simp)

theorem cutDigit_none : ∀ {s : Str}, NoAfter isDigit s → cutDigit s = none
  | [], _ => rfl
  | [c], _ => by unfold cutDigit; simp [cutDigit]
  | c :: d :: s, h => by
    have ih := cutDigit_none (noAfter_tail h)
    unfold cutDigit
    split
    · rename_i e1
      have : isDigit d = false := h [] d s rfl
      simp only [List.cons.injEq] at e1
      obtain ⟨rfl, rfl⟩ := e1
      rw [if_neg (by simp [this]), ih]; rfl
    · rw [ih]; rfl

theorem cutDigit_some : ∀ {a : Str} {d : Char} {t : Str}, NoAfter isDigit (a ++ ['\n']) → isDigit d = true →
    cutDigit (a ++ '\n' :: d :: t) = some (a, '\n' :: d :: t)
  | [], d, t, _, hd => by
    show cutDigit ('\n' :: d :: t) = _
    unfold cutDigit
    simp [hd]
  | [c], d, t, h, hd => by
    have ih := cutDigit_some (a := []) (d := d) (t := t) (noAfter_tail h) hd
    show cutDigit (c :: '\n' :: d :: t) = _
    unfold cutDigit
    split
    · rename_i e1
      simp only [List.cons.injEq] at e1
      obtain ⟨rfl, rfl⟩ := e1
      rw [if_neg (by decide)]
      show Option.map _ (cutDigit ([] ++ '\n' :: d :: t)) = _
      rw [ih]; rfl
    · show Option.map _ (cutDigit ([] ++ '\n' :: d :: t)) = _
      rw [ih]; rfl
  | c :: e :: a, d, t, h, hd => by
    have ih := cutDigit_some (a := e :: a) (d := d) (t := t) (noAfter_tail h) hd
    show cutDigit (c :: e :: (a ++ '\n' :: d :: t)) = _
    unfold cutDigit
    split
    · rename_i e1
      have : isDigit e = false := h [] e (a ++ ['\n']) (by simp_all)
      simp only [List.cons.injEq] at e1
      obtain ⟨rfl, rfl⟩ := e1
      rw [if_neg (by simp [this])]
      show Option.map _ (cutDigit (e :: a ++ '\n' :: d :: t)) = _
      rw [ih]; rfl
    · show Option.map _ (cutDigit (e :: a ++ '\n' :: d :: t)) = _
      rw [ih]; rfl

/-- What the cut is. -/
theorem cutDigit_spec : ∀ {s a t : Str}, cutDigit s = some (a, t) → s = a ++ t ∧ NoAfter isDigit (a ++ ['\n']) ∧
    ∃ d r, t = '\n' :: d :: r ∧ isDigit d = true
  | [], a, t, h => by cases h
  | c :: s, a, t, h => by
    have step : ∀ {x : Char}, (cutDigit s).map (fun p => (x :: p.1, p.2)) = some (a, t) → (x = '\n' → ∀ d r, s = d :: r → isDigit d = false) →
        x :: s = a ++ t ∧ NoAfter isDigit (a ++ ['\n']) ∧ ∃ d r, t = '\n' :: d :: r ∧ isDigit d = true := by
      intro x hx hd
      obtain ⟨⟨a', t'⟩, e1, e2⟩ := Option.map_eq_some_iff.1 hx
      cases e2
      obtain ⟨rfl, h2, h3⟩ := cutDigit_spec e1
      refine ⟨rfl, ?_, h3⟩
      apply noAfter_cons h2
      intro hn d r e
      cases a' with
      | nil =>
        simp only [List.nil_append, List.cons.injEq] at e
        rw [← e.1]; decide
      | cons y a' =>
        simp only [List.cons_append, List.cons.injEq] at e
        obtain ⟨rfl, _⟩ := e
        exact hd hn y _ rfl
    unfold cutDigit at h
    split at h
    · rename_i d r
      by_cases hd : isDigit d = true
      · rw [if_pos hd] at h
        cases h
        exact ⟨rfl, by intro u c v e; cases u with | nil => simp at e | cons x u => cases u <;> simp at e, d, r, rfl, hd⟩
      · rw [if_neg hd] at h
        exact step h (by intro _ d' r' e; cases e; simpa using hd)
    · rename_i hno
      exact step h (by intro hc d r e; subst hc; subst e; exact absurd rfl (hno d r rfl))

theorem splitOne_ne (s : Str) : splitOne s ≠ [] := by
  unfold splitOne
  split
  · simp
  · simp
  · split <;> simp

/-- `1` -/
def isOne (c : Char) : Bool := c == '1'

theorem splitOne_cons {c : Char} {s : Str} (h : ¬ (c = '\n' ∧ ∃ t, s = '1' :: t)) :
    ∃ p ps, splitOne s = p :: ps ∧ splitOne (c :: s) = (c :: p) :: ps := by
  cases hs : splitOne s with
  | nil => exact absurd hs (splitOne_ne s)
  | cons p ps =>
    refine ⟨p, ps, rfl, ?_⟩
    rw [splitOne]
    · rw [hs]
    · intro t hc ht; exact h ⟨hc, t, ht⟩

/-- A piece followed by the next one. -/
theorem splitOne_piece {s : Str} : ∀ {p : Str}, NoAfter isOne p → splitOne (p ++ '\n' :: '1' :: s) = p :: splitOne s
  | [], _ => by show splitOne ('\n' :: '1' :: s) = _; rw [splitOne]
  | c :: p, h => by
    have ih := splitOne_piece (s := s) (noAfter_tail h)
    have hno : ¬ (c = '\n' ∧ ∃ t, p ++ '\n' :: '1' :: s = '1' :: t) := by
      rintro ⟨rfl, t, e⟩
      cases p with
      | nil => simp at e
      | cons d p =>
        simp only [List.cons_append, List.cons.injEq] at e
        have := h [] d p rfl
        rw [e.1] at this
        simp [isOne] at this
    obtain ⟨q, qs, h1, h2⟩ := splitOne_cons hno
    rw [ih] at h1
    cases h1
    exact h2

theorem splitOne_last : ∀ {p : Str}, NoAfter isOne p → splitOne p = [p]
  | [], _ => rfl
  | c :: p, h => by
    have ih := splitOne_last (noAfter_tail h)
    have hno : ¬ (c = '\n' ∧ ∃ t, p = '1' :: t) := by
      rintro ⟨rfl, t, rfl⟩
      have := h [] '1' t rfl
      simp [isOne] at this
    obtain ⟨q, qs, h1, h2⟩ := splitOne_cons hno
    rw [ih] at h1
    cases h1
    exact h2

/-- Pieces each of which begins a line with `1`. -/
theorem splitOne_pieces : ∀ {ps : List Str}, (∀ p ∈ ps, NoAfter isOne p) →
    splitOne (ps.flatMap fun p => '\n' :: '1' :: p) = [] :: ps
  | [], _ => rfl
  | [p], h => by
    have := splitOne_last (h p (by simp))
    simp [splitOne, this]
  | p :: q :: ps, h => by
    have ih := splitOne_pieces (ps := q :: ps) (fun x hx => h x (by simp [hx]))
    have h1 := splitOne_piece (p := p) (s := q ++ ps.flatMap fun p => '\n' :: '1' :: p) (h p (by simp))
    simp only [List.flatMap_cons, List.cons_append, splitOne, List.cons.injEq, true_and] at ih ⊢
    rw [h1, ih]

/-- Every piece is free of `\n1`, and the pieces make up the text. -/
theorem splitOne_spec : ∀ (s : Str), (∀ p ∈ splitOne s, NoAfter isOne p) ∧
    ∃ p ps, splitOne s = p :: ps ∧ s = p ++ ps.flatMap fun p => '\n' :: '1' :: p
  | [] => ⟨by simp [splitOne, NoAfter], [], [], rfl, rfl⟩
  | c :: s => by
    by_cases hc : c = '\n' ∧ ∃ t, s = '1' :: t
    · obtain ⟨rfl, t, rfl⟩ := hc
      obtain ⟨h1, p, ps, h2, h3⟩ := splitOne_spec t
      rw [splitOne]
      refine ⟨?_, [], splitOne t, rfl, ?_⟩
      · intro q hq
        rcases List.mem_cons.1 hq with rfl | hq
        · intro u d v e; cases u <;> simp at e
        · exact h1 q hq
      · rw [h2]; conv => lhs; rw [h3]
        simp
    · obtain ⟨h1, p, ps, h2, h3⟩ := splitOne_spec s
      obtain ⟨q, qs, h4, h5⟩ := splitOne_cons hc
      rw [h2] at h4
      cases h4
      rw [h5]
      refine ⟨?_, c :: p, ps, rfl, by rw [h3]; rfl⟩
      intro x hx
      rcases List.mem_cons.1 hx with rfl | hx
      · apply noAfter_cons (h1 p (by rw [h2]; simp))
        intro hc' d t e
        by_cases hd : d = '1'
        · subst hd; exact absurd ⟨hc', t ++ ps.flatMap fun p => '\n' :: '1' :: p, by rw [h3, e]; rfl⟩ hc
        · simpa [isOne] using hd
      · exact h1 x (by rw [h2]; simp [hx])
termination_by s => s.length

/-! ## Headers -/

theorem mt_cat_cons {r : Re} {rs : List Re} {w e} (h : Mt (cat (r :: rs)) w e) :
    ∃ u v e1 e2, w = u ++ v ∧ e = e2 ++ e1 ∧ Mt r u e1 ∧ Mt (cat rs) v e2 := by
  cases h with
  | seq h1 h2 => exact ⟨_, _, _, _, rfl, rfl, h1, h2⟩

theorem mt_cat_nil {w e} (h : Mt (cat []) w e) : w = [] ∧ e = [] := by cases h; exact ⟨rfl, rfl⟩

theorem mt_ws {g : Bool} {w e} (h : Mt (Re.plus g Re.space) w e) : e = [] ∧ w ≠ [] ∧ ∀ c ∈ w, isSpace c = true := by
  obtain ⟨rfl, ws, h1, h2, rfl⟩ := mt_plus (by trivial) h
  refine ⟨rfl, ?_, ?_⟩
  · cases ws with
    | nil => exact absurd rfl h1
    | cons x ws =>
      have := h2 x (by simp)
      cases this
      simp
  · intro c hc
    obtain ⟨x, hx, hc⟩ := List.mem_flatten.1 hc
    have := h2 x hx
    cases this with
    | cls hp =>
      simp only [List.mem_singleton] at hc
      subst hc
      exact hp

/-- A pattern that cannot read the character. -/
def avoids (x : Char) : Re → Bool
  | .eps => true
  | .cls f => !f x
  | .seq a b => avoids x a && avoids x b
  | .alt a b => avoids x a && avoids x b
  | .opt _ a => avoids x a
  | .star _ a => avoids x a
  | .grp _ a => avoids x a
  | _ => false

theorem mt_avoids {x : Char} {r : Re} {w e} (h : Mt r w e) : avoids x r = true → x ∉ w := by
  induction h with
  | eps => intro _; simp
  | @cls p c hp =>
    intro ho hc
    simp only [List.mem_singleton] at hc
    subst hc
    simp [avoids, hp] at ho
  | seq h1 h2 ih1 ih2 =>
    intro ho
    simp only [avoids, Bool.and_eq_true] at ho
    simp [ih1 ho.1, ih2 ho.2]
  | altL h ih => intro ho; simp only [avoids, Bool.and_eq_true] at ho; exact ih ho.1
  | altR h ih => intro ho; simp only [avoids, Bool.and_eq_true] at ho; exact ih ho.2
  | optNone => intro _; simp
  | optSome h ih => intro ho; exact ih ho
  | starNil => intro _; simp
  | starCons hu h1 h2 ih1 ih2 =>
    intro ho
    simp [ih1 ho, ih2 ho]
  | grp h ih => intro ho; exact ih ho

theorem logo_noPlus {w e} (h : Mt logoRe w e) : '+' ∉ w := mt_avoids h (by decide +kernel)

theorem box_start {w e} (h : Mt boxRe w e) : ∃ r, w = ' ' :: ' ' :: '+' :: r := by
  obtain ⟨u, v, e1, e2, rfl, rfl, h1, h2⟩ := mt_cat_cons h
  obtain ⟨u', v', e3, e4, rfl, rfl, h3, h4⟩ := mt_cat_cons h1
  obtain ⟨rfl, _⟩ := mt_litC h3
  exact ⟨_, rfl⟩

theorem header_free : headerRe.free = true := by decide +kernel
theorem logo_plain : logoRe.groupsIn 0 0 := (plainB_spec (by decide +kernel : plainB logoRe = true)).2
theorem box_plain : boxRe.groupsIn 0 0 := (plainB_spec (by decide +kernel : plainB boxRe = true)).2

/-- What a header can be. -/
structure HeaderOk (h : Header) : Prop where
  name : NeLine h.name
  logo : Mt logoRe h.logo []
  box : Mt boxRe h.box []

/-- The text of a header after the blanks before `Code`. -/
def Header.body (h : Header) : Str := c!"Code Name & Version = " ++ h.name ++ c!"\n  \n" ++ h.logo ++ c!"  \n" ++ h.box ++ c!"  \n"

theorem header_inv {w e} (h : Mt headerRe w e) : ∃ (b : Str) (x : Header), b ≠ [] ∧ (∀ c ∈ b, isSpace c = true) ∧ HeaderOk x ∧
    w = b ++ x.body ∧ e = [(3, x.box), (2, x.logo), (1, x.name)] := by
  obtain ⟨b, w, e1, f, rfl, rfl, h1, h⟩ := mt_cat_cons h
  obtain ⟨_, w, e2, f, rfl, rfl, h2, h⟩ := mt_cat_cons h
  obtain ⟨n, w, e3, f, rfl, rfl, h3, h⟩ := mt_cat_cons h
  obtain ⟨_, w, e4, f, rfl, rfl, h4, h⟩ := mt_cat_cons h
  obtain ⟨l, w, e5, f, rfl, rfl, h5, h⟩ := mt_cat_cons h
  obtain ⟨_, w, e6, f, rfl, rfl, h6, h⟩ := mt_cat_cons h
  obtain ⟨x, w, e7, f, rfl, rfl, h7, h⟩ := mt_cat_cons h
  obtain ⟨_, w, e8, f, rfl, rfl, h8, h⟩ := mt_cat_cons h
  obtain ⟨rfl, rfl⟩ := mt_cat_nil h
  obtain ⟨rfl, a1, a2⟩ := mt_ws h1
  obtain ⟨rfl, rfl⟩ := mt_litC h2
  obtain ⟨rfl, rfl⟩ := mt_litC h4
  obtain ⟨rfl, rfl⟩ := mt_litC h6
  obtain ⟨rfl, rfl⟩ := mt_litC h8
  cases h3 with | grp h3 =>
  cases h5 with | grp h5 =>
  cases h7 with | grp h7 =>
  obtain ⟨rfl, b1, b2⟩ := mt_dot_plus h3
  have := h5.nil_caps logo_plain
  subst this
  have := h7.nil_caps box_plain
  subst this
  exact ⟨b, ⟨n, l, x⟩, a1, a2, ⟨⟨b1, b2⟩, h5, h7⟩, by simp [Header.body], by simp⟩

theorem header_self {b : Str} (h0 : b ≠ []) (hb : ∀ c ∈ b, isSpace c = true) {x : Header} (hx : HeaderOk x) :
    Mt headerRe (b ++ x.body) [(3, x.box), (2, x.logo), (1, x.name)] := by
  have hst : ∀ w : Str, (∀ c ∈ w, isSpace c = true) → Mt (.star true Re.space) w [] := by
    intro w
    induction w with
    | nil => intro _; exact .starNil
    | cons c w ih =>
      intro h
      exact .starCons (u := [c]) (e := []) (f := []) (by simp) (.cls (h c (by simp))) (ih fun d hd => h d (by simp [hd]))
  have hw : Mt ws b [] := by
    cases b with
    | nil => exact absurd rfl h0
    | cons c b => exact .seq (u := [c]) (e := []) (f := []) (.cls (hb c (by simp))) (hst b fun d hd => hb d (by simp [hd]))
  have := Mt.seq hw (.seq (mt_litC_self c!"Code Name & Version = ") (.seq (.grp (n := 1) (mt_dot_self (g := true) hx.name))
    (.seq (mt_litC_self c!"\n  \n") (.seq (.grp (n := 2) hx.logo) (.seq (mt_litC_self c!"  \n") (.seq (.grp (n := 3) hx.box)
      (.seq (mt_litC_self c!"  \n") .eps)))))))
  simpa [Header.body, headerRe, cat] using this

theorem span_unique {p : Char → Bool} : ∀ {a b : Str} {c d : Char} {r s : Str}, (∀ x ∈ a, p x = true) → (∀ x ∈ b, p x = true) →
    p c = false → p d = false → a ++ c :: r = b ++ d :: s → a = b ∧ c :: r = d :: s
  | [], [], _, _, _, _, _, _, _, _, h => ⟨rfl, h⟩
  | [], y :: b, c, d, r, s, _, hb, hc, _, h => by
    simp only [List.nil_append, List.cons_append, List.cons.injEq] at h
    have := hb y (by simp)
    rw [← h.1, hc] at this; cases this
  | x :: a, [], c, d, r, s, ha, _, _, hd, h => by
    simp only [List.nil_append, List.cons_append, List.cons.injEq] at h
    have := ha x (by simp)
    rw [h.1, hd] at this; cases this
  | x :: a, y :: b, c, d, r, s, ha, hb, hc, hd, h => by
    simp only [List.cons_append, List.cons.injEq] at h
    obtain ⟨rfl, h2⟩ := span_unique (fun z hz => ha z (by simp [hz])) (fun z hz => hb z (by simp [hz])) hc hd h.2
    exact ⟨by rw [h.1], h2⟩

theorem header_unique {b b' : Str} (hb : ∀ c ∈ b, isSpace c = true) (hb' : ∀ c ∈ b', isSpace c = true) {x x' : Header}
    (hx : HeaderOk x) (hx' : HeaderOk x') (e : b ++ x.body = b' ++ x'.body) : b = b' ∧ x = x' := by
  obtain ⟨n, l, y⟩ := x
  obtain ⟨n', l', y'⟩ := x'
  obtain ⟨rfl, e1⟩ := span_unique (p := isSpace) (c := 'C') (d := 'C')
    (r := c!"ode Name & Version = " ++ n ++ c!"\n  \n" ++ l ++ c!"  \n" ++ y ++ c!"  \n")
    (s := c!"ode Name & Version = " ++ n' ++ c!"\n  \n" ++ l' ++ c!"  \n" ++ y' ++ c!"  \n") hb hb' (by decide) (by decide)
    (by simpa [Header.body] using e)
  refine ⟨rfl, ?_⟩
  have e2 : n ++ '\n' :: (c!"  \n" ++ l ++ c!"  \n" ++ y ++ c!"  \n") = n' ++ '\n' :: (c!"  \n" ++ l' ++ c!"  \n" ++ y' ++ c!"  \n") := by
    simpa using e1
  obtain ⟨rfl, e3⟩ := split_first hx.name.2 hx'.name.2 e2
  obtain ⟨r, hr⟩ := box_start hx.box
  obtain ⟨r', hr'⟩ := box_start hx'.box
  simp only at hr hr'
  subst hr hr'
  have e4 : (l ++ c!"  \n  ") ++ '+' :: (r ++ c!"  \n") = (l' ++ c!"  \n  ") ++ '+' :: (r' ++ c!"  \n") := by simpa using e3
  have p1 := logo_noPlus hx.logo
  have p2 := logo_noPlus hx'.logo
  simp only at p1 p2
  obtain ⟨e5, e6⟩ := split_first (by simp [p1]) (by simp [p2]) e4
  have := List.append_cancel_right e5
  subst this
  have := List.append_cancel_right e6
  subst this
  rfl

/-- A match of the whole text, when there is one only. -/
theorem whole_unique {r : Re} (hf : r.free = true) {s : Str} {c} (hm : Mt r s c) (hu : ∀ e, Mt r s e → e = c) :
    reMatch (whole r) s = some ((0, s) :: c) := by
  have h1 := (full_iff r hf s).2 ⟨c, hm⟩
  obtain ⟨m, hm'⟩ := Option.isSome_iff_exists.1 h1
  obtain ⟨e, h2, rfl⟩ := full_match hf hm'
  rw [whole, hm', hu e h2]

theorem headerParse_body {b : Str} (h0 : b ≠ []) (hb : ∀ c ∈ b, isSpace c = true) {x : Header} (hx : HeaderOk x) :
    headerParse (b ++ x.body) = .ok x := by
  unfold headerParse
  rw [whole_unique header_free (header_self h0 hb hx)]
  · rfl
  · intro e he
    obtain ⟨b', x', _, h2, h3, h4, rfl⟩ := header_inv he
    obtain ⟨_, rfl⟩ := header_unique hb h2 hx h3 h4
    rfl

theorem headerParse_inv {s : Str} {x : Header} (h : headerParse s = .ok x) :
    ∃ b : Str, b ≠ [] ∧ (∀ c ∈ b, isSpace c = true) ∧ HeaderOk x ∧ s = b ++ x.body := by
  unfold headerParse at h
  cases hm : reMatch (whole headerRe) s with
  | none => rw [hm] at h; cases h
  | some m =>
    rw [hm] at h
    obtain ⟨e, h2, rfl⟩ := full_match header_free hm
    obtain ⟨b, y, h3, h4, h5, h6, rfl⟩ := header_inv h2
    have := Except.ok.inj h
    have e : x = y := by rw [← this]; rfl
    subst e
    exact ⟨b, h3, h4, h5, h6⟩

theorem header_str (x : Header) : x.str = c!"          " ++ x.body := by simp [Header.str, Header.body]

theorem header_reread {s : Str} {x : Header} (h : headerParse s = .ok x) : headerParse x.str = .ok x := by
  obtain ⟨_, _, _, hx, _⟩ := headerParse_inv h
  rw [header_str]
  exact headerParse_body (by simp) (by decide) hx

theorem noAfter_append_space {p : Char → Bool} {a b : Str} (ha : '\n' ∉ a) (hb : NoAfter p b) : NoAfter p (a ++ b) := by
  induction a with
  | nil => exact hb
  | cons c a ih =>
    simp only [List.mem_cons, not_or] at ha
    exact noAfter_cons (ih ha.2) (fun e => absurd e.symm ha.1)

/-- The header of a file is printed without a line that begins with a digit. -/
theorem header_noDigit {s : Str} {x : Header} (h : headerParse s = .ok x) (hs : NoAfter isDigit s) : NoAfter isDigit x.str := by
  obtain ⟨b, _, _, _, rfl⟩ := headerParse_inv h
  rw [header_str]
  exact noAfter_append_space (by decide) (noAfter_right hs)

end Outp
