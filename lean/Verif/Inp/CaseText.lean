import Verif.Inp.CaseLemmas
/-! Helper lemmas: the steps before a pattern is matched do not look at the case of letters. -/
namespace Inp
open Py Types Ptrac

variable {β : Bool}

theorem rec_append : ∀ {a a' b b' : Str}, RecasedIf β a a' → RecasedIf β b b' → expStart b = false → RecasedIf β (a ++ b) (a' ++ b')
  | [], [], _, _, _, h, _ => h
  | c :: a, d :: a', b, b', h, h', hb => by
    refine ⟨h.1, fun x y k => ?_, rec_append h.2.2 h' hb⟩
    have := h.2.1 x y k
    cases a with
    | nil => exact hb
    | cons e a => exact this
  | [], _ :: _, _, _, h, _, _ => h.elim
  | _ :: _, [], _, _, h, _, _ => h.elim

theorem rec_same : ∀ (w : Str) {b b' : Str}, RecasedIf β b b' → RecasedIf β (w ++ b) (w ++ b')
  | [], _, _, h => h
  | _ :: w, _, _, h => ⟨rfl, fun h => absurd rfl h, rec_same w h⟩

/-- A replacement that does not depend on the case of letters and starts no exponent. -/
structure PlainSub (r : Re) (repl : Str → List (Nat × Str) → Str) : Prop where
  same : ∀ β p s st p' s' st', Step r ⟨p, s, []⟩ st → Step r ⟨p', s', []⟩ st' → RecCaps β st.caps st'.caps →
    ∀ u u', repl u st.caps = repl u' st'.caps
  start : ∀ p s st, Step r ⟨p, s, []⟩ st → ∀ u, expStart (repl u st.caps) = true → expStart s = true
  none : ∀ p s st, Step r ⟨p, s, []⟩ st → ∀ u, repl u st.caps = [] → st.rest = []

theorem finditerAux_nil (r : Re) (n : Nat) (p : Str) : finditerAux r n p [] = [] := by cases n <;> rfl

theorem subAux_rec {r : Re} (hr : caseless r = true) {repl} (hp : PlainSub r repl) : ∀ n p q s t, lower p = lower q → RecasedIf β s t →
    RecasedIf β ((finditerAux r n p s).flatMap (fun | .inl t => t | .inr (t, c) => repl t c))
      ((finditerAux r n q t).flatMap (fun | .inl t => t | .inr (t, c) => repl t c)) ∧
    (expStart ((finditerAux r n p s).flatMap (fun | .inl t => t | .inr (t, c) => repl t c)) = true → expStart s = true)
  | 0, _, _, _, _, _, _ => ⟨trivial, fun h => by cases h⟩
  | _ + 1, _, _, [], [], _, _ => ⟨trivial, fun h => by cases h⟩
  | n + 1, p, q, c :: s, d :: t, hpq, h => by
    have key := run_rec (Q := fun a b => RecSt β a b) hr ⟨p, c :: s, []⟩ ⟨q, d :: t, []⟩ ⟨hpq, h, trivial⟩
      (fun st => if st.rest.length < (c :: s).length then some st else none)
      (fun st => if st.rest.length < (d :: t).length then some st else none) (by
        intro a b hab
        rw [rec_len hab.rest, rec_len h]
        split
        · exact hab
        · trivial)
    unfold finditerAux
    revert key
    have stepOf : ∀ (p : Str) (s : Str) (x : St), run r ⟨p, s, []⟩ (fun st => if st.rest.length < s.length then some st else none) = some x →
        Step r ⟨p, s, []⟩ x := by
      intro p s x hx
      obtain ⟨st', a, b⟩ := (run_spec (α := St) r ⟨p, s, []⟩ _).2 x hx
      split at b
      · cases b; exact a
      · cases b
    cases hx : run r ⟨p, c :: s, []⟩ (fun st => if st.rest.length < (c :: s).length then some st else none) with
    | none =>
      cases hy : run r ⟨q, d :: t, []⟩ (fun st => if st.rest.length < (d :: t).length then some st else none) with
      | none =>
        intro _
        obtain ⟨i1, i2⟩ := subAux_rec hr hp n (c :: p) (d :: q) s t (by
          unfold lower at *
          rw [List.map_cons, List.map_cons, h.1, hpq]) h.2.2
        simp only [List.flatMap_cons]
        refine ⟨⟨h.1, fun a b k => ?_, i1⟩, fun hh => hh⟩
        have := h.2.1 a b k
        cases he : expStart (List.flatMap (fun | .inl t => t | .inr (t, c) => repl t c) (finditerAux r n (c :: p) s)) with
        | false => simpa using he
        | true => rw [i2 he] at this; cases this
      | some y => intro h; exact h.elim
    | some x =>
      cases hy : run r ⟨q, d :: t, []⟩ (fun st => if st.rest.length < (d :: t).length then some st else none) with
      | none => intro h; exact h.elim
      | some y =>
        intro hxy
        replace hxy : RecSt β x y := hxy
        obtain ⟨i1, i2⟩ := subAux_rec hr hp n x.prev y.prev x.rest y.rest hxy.prev hxy.rest
        have sx := stepOf _ _ _ hx
        have sy := stepOf _ _ _ hy
        have e := hp.same β _ _ _ _ _ _ sx sy hxy.caps ((c :: s).take ((c :: s).length - x.rest.length))
          ((d :: t).take ((d :: t).length - y.rest.length))
        simp only [List.flatMap_cons]
        rw [← e]
        refine ⟨rec_same _ i1, fun hh => ?_⟩
        have h3 := hp.start _ _ _ sx ((c :: s).take ((c :: s).length - x.rest.length))
        have h4 := hp.none _ _ _ sx ((c :: s).take ((c :: s).length - x.rest.length))
        revert hh h3 h4
        generalize repl ((c :: s).take ((c :: s).length - x.rest.length)) x.caps = w
        intro hh h3 h4
        cases w with
        | nil =>
          rw [h4 rfl, finditerAux_nil] at hh
          cases hh
        | cons a w => exact h3 hh
  | _ + 1, _, _, [], _ :: _, _, h => h.elim
  | _ + 1, _, _, _ :: _, [], _, h => h.elim

theorem reSub_rec {r : Re} (hr : caseless r = true) {repl} (hp : PlainSub r repl) {s t : Str} (h : RecasedIf β s t) :
    RecasedIf β (reSub r repl s) (reSub r repl t) ∧ (expStart (reSub r repl s) = true → expStart s = true) := by
  unfold reSub
  rw [rec_len h]
  exact subAux_rec hr hp t.length [] [] s t rfl h

/-- Replacing keeps two texts alike in their first character, up to the case of letters that begin no exponent. -/
theorem reSub_head {r : Re} (hr : caseless r = true) {repl} (hp : PlainSub r repl) {s t : Str} (h : RecasedIf β s t) (h1 : FirstAlike s t) :
    FirstAlike (reSub r repl s) (reSub r repl t) := by
  cases s with
  | nil => cases t with
    | nil => trivial
    | cons d t => exact h.elim
  | cons c s => cases t with
    | nil => exact h.elim
    | cons d t =>
      have key := run_rec (Q := fun a b => RecSt β a b) hr ⟨[], c :: s, []⟩ ⟨[], d :: t, []⟩ ⟨rfl, h, trivial⟩
        (fun st => if st.rest.length < (c :: s).length then some st else none)
        (fun st => if st.rest.length < (d :: t).length then some st else none) (by
          intro a b hab
          rw [rec_len hab.rest, rec_len h]
          split
          · exact hab
          · trivial)
      have stepOf : ∀ (p : Str) (s : Str) (x : St), run r ⟨p, s, []⟩ (fun st => if st.rest.length < s.length then some st else none) = some x →
          Step r ⟨p, s, []⟩ x := by
        intro p s x hx
        obtain ⟨st', a, b⟩ := (run_spec (α := St) r ⟨p, s, []⟩ _).2 x hx
        split at b
        · cases b; exact a
        · cases b
      unfold reSub
      simp only [List.length_cons]
      unfold finditerAux
      revert key
      cases hx : run r ⟨[], c :: s, []⟩ (fun st => if st.rest.length < (c :: s).length then some st else none) with
      | none =>
        cases hy : run r ⟨[], d :: t, []⟩ (fun st => if st.rest.length < (d :: t).length then some st else none) with
        | none =>
          intro _
          have i2 := (subAux_rec hr hp s.length [c] [d] s t (by unfold lower; rw [List.map_cons, List.map_cons, h.1]) h.2.2).2
          simp only [List.flatMap_cons]
          intro a b
          have := h1 a b
          cases he : expStart (List.flatMap (fun | .inl t => t | .inr (t, c) => repl t c) (finditerAux r s.length [c] s)) with
          | false => exact he
          | true => rw [i2 he] at this; cases this
        | some y => intro h; exact h.elim
      | some x =>
        cases hy : run r ⟨[], d :: t, []⟩ (fun st => if st.rest.length < (d :: t).length then some st else none) with
        | none => intro h; exact h.elim
        | some y =>
          intro hxy
          replace hxy : RecSt β x y := hxy
          have sx := stepOf _ _ _ hx
          have sy := stepOf _ _ _ hy
          have e := hp.same β _ _ _ _ _ _ sx sy hxy.caps ((c :: s).take ((c :: s).length - x.rest.length))
            ((d :: t).take ((d :: t).length - y.rest.length))
          have h4 := hp.none _ _ _ sx ((c :: s).take ((c :: s).length - x.rest.length))
          have h5 := hp.none _ _ _ sy ((d :: t).take ((d :: t).length - y.rest.length))
          simp only [List.flatMap_cons]
          rw [← e] at h5 ⊢
          revert h4 h5
          generalize repl ((c :: s).take ((c :: s).length - x.rest.length)) x.caps = w
          intro h4 h5
          cases w with
          | nil => rw [h4 rfl, h5 rfl, finditerAux_nil, finditerAux_nil]; trivial
          | cons a w => exact fun e => absurd rfl e

theorem rec_head {s t : Str} (h : Recased s t) : FirstAlike s t := by
  cases s with
  | nil => trivial
  | cons c s => cases t with
    | nil => trivial
    | cons d t => exact fun a b => h.2.1 a b rfl

/-- A fixed replacement. -/
theorem plain_const (r : Re) {w : Str} (hw : expStart w = false) (hn : w ≠ []) : PlainSub r (fun _ _ => w) :=
  ⟨fun _ _ _ _ _ _ _ _ _ _ _ _ => rfl, fun _ _ _ _ _ h => (by rw [hw] at h; cases h), fun _ _ _ _ _ h => absurd h hn⟩

/-- The texts of groups without letters. -/
theorem caps_step {r : Re} {p s : Str} {st : St} (h : Step r ⟨p, s, []⟩ st) {q} (hq : r.groupsAll q = true) {n u}
    (hu : cap st.caps n = some u) : ∃ b, q n b = true ∧ Wrote b u := by
  obtain ⟨e, a1, a3⟩ := step_wrote h
  have := cap_mem hu
  rw [a1, List.append_nil] at this
  exact a3 q hq _ this

/-! ### Blanks -/

theorem space_rec {c d : Char} (h : lowerC c = lowerC d) : isSpace c = isSpace d := caseP_eq (by decide +kernel) h

theorem lstrip_rec : ∀ {s t : Str}, RecasedIf β s t → RecasedIf β (lstrip s) (lstrip t)
  | [], [], _ => trivial
  | c :: s, d :: t, h => by
    have ih := lstrip_rec h.2.2
    unfold lstrip at *
    rw [List.dropWhile_cons, List.dropWhile_cons, space_rec h.1]
    split
    · exact ih
    · exact h
  | [], _ :: _, h => h.elim
  | _ :: _, [], h => h.elim

theorem rstrip_take (s : Str) : rstrip s = s.take (s.length - ((s.map isSpace).reverse.takeWhile id).length) := by
  have h := List.takeWhile_append_dropWhile (p := isSpace) (l := s.reverse)
  have hl : ((s.map isSpace).reverse.takeWhile id).length = (s.reverse.takeWhile isSpace).length := by
    rw [← List.map_reverse, List.takeWhile_map, List.length_map]
    rfl
  have h' := congrArg List.reverse h
  rw [List.reverse_append, List.reverse_reverse] at h'
  rw [hl]
  unfold rstrip
  generalize hd : (s.reverse.dropWhile isSpace) = dd at *
  generalize ht : (s.reverse.takeWhile isSpace) = tt at *
  subst h'
  rw [List.length_append, List.length_reverse (as := tt), Nat.add_sub_cancel, List.take_left']
  rfl

theorem spaces_rec : ∀ {s t : Str}, RecasedIf β s t → s.map isSpace = t.map isSpace
  | [], [], _ => rfl
  | c :: s, d :: t, h => by rw [List.map_cons, List.map_cons, space_rec h.1, spaces_rec h.2.2]
  | [], _ :: _, h => h.elim
  | _ :: _, [], h => h.elim

theorem strip_rec {s t : Str} (h : RecasedIf β s t) : RecasedIf β (strip s) (strip t) := by
  unfold strip
  have := lstrip_rec h
  rw [rstrip_take, rstrip_take, rec_len this, spaces_rec this]
  exact rec_take _ this

theorem splitWs_rec : ∀ {s t : Str}, RecasedIf β s t → (splitWs s).length = (splitWs t).length
  | [], [], _ => rfl
  | [c], [d], h => by
    unfold splitWs
    rw [space_rec h.1]
    split <;> rfl
  | c :: c' :: s, d :: d' :: t, h => by
    have ih := splitWs_rec h.2.2
    have e1 : splitWs (c :: c' :: s) = if isSpace c then splitWs (c' :: s) else if isSpace c' then [c] :: splitWs (c' :: s)
      else match splitWs (c' :: s) with
          | [] => [[c]]
          | w :: ws => (c :: w) :: ws := by rw [splitWs]; rfl
    have e2 : splitWs (d :: d' :: t) = if isSpace d then splitWs (d' :: t) else if isSpace d' then [d] :: splitWs (d' :: t)
      else match splitWs (d' :: t) with
          | [] => [[d]]
          | w :: ws => (d :: w) :: ws := by rw [splitWs]; rfl
    rw [e1, e2, space_rec h.1, space_rec h.2.2.1]
    split
    · exact ih
    · split
      · rw [List.length_cons, List.length_cons, ih]
      · revert ih
        cases splitWs (c' :: s) <;> cases splitWs (d' :: t) <;> intro ih <;> simp_all
  | [], _ :: _, h => h.elim
  | _ :: _, [], h => h.elim
  | [_], _ :: _ :: _, h => h.2.2.elim
  | _ :: _ :: _, [_], h => h.2.2.elim

/-! ### The substitutions -/

theorem kwRe_caseless {kw : Str} (h : ∀ c ∈ kw, c ∈ lowers) : caseless (kwRe kw) = true := by
  induction kw with
  | nil => rfl
  | cons c kw ih =>
    simp only [kwRe, caseless, Bool.and_eq_true]
    refine ⟨?_, ih (fun x hx => h x (List.mem_cons_of_mem _ hx))⟩
    exact (by decide +kernel : ∀ c ∈ lowers, caseP (fun x => x == c || x == upperC c) = true) c (h c List.mem_cons_self)

/-- The keywords of shorthand. -/
def shortKws : List Str := [kwJ, kwR, kwI, kwLog, kwIlog]

theorem bnd_groups (r : Re) (hr : r.groupsAll (fun k b => k != 2 || avoids letters b) = true) {p s p' s' : Str} {st st' : St}
    (h : Step r ⟨p, s, []⟩ st) (_ : Step r ⟨p', s', []⟩ st') (hc : RecCaps β st.caps st'.caps) : (cap st.caps 2).getD [] = (cap st'.caps 2).getD [] := by
  have key := cap_rec 2 hc
  cases ha : cap st.caps 2 with
  | none =>
    rw [ha] at key
    cases hb : cap st'.caps 2 with
    | none => rfl
    | some y => rw [hb] at key; exact key.elim
  | some x =>
    rw [ha] at key
    cases hb : cap st'.caps 2 with
    | none => rw [hb] at key; exact key.elim
    | some y =>
      rw [hb] at key
      obtain ⟨b, hb, -, hw⟩ := caps_step h hr ha
      exact rec_eq key (hw letters (by simpa using hb))

theorem collapse_plain {kw : Str} (hk : kw ∈ shortKws) : PlainSub (collapseRe kw) (fun _ m => collapseRepl kw m) := by
  refine ⟨?_, fun _ _ _ _ _ h => (by cases h), fun _ _ _ _ _ h => (by cases h)⟩
  intro β p s st p' s' st' h h' hc u u'
  have h2 := bnd_groups (collapseRe kw) ((by decide +kernel : ∀ kw ∈ shortKws,
    (collapseRe kw).groupsAll (fun k b => k != 2 || avoids letters b) = true) kw hk) h h' hc
  have h1 := cap_rec 1 hc
  unfold collapseRepl
  rw [h2]
  have : (splitWs (strip ((cap st.caps 1).getD []))).length = (splitWs (strip ((cap st'.caps 1).getD []))).length := by
    apply splitWs_rec (β := β)
    apply strip_rec
    revert h1
    cases cap st.caps 1 <;> cases cap st'.caps 1 <;> intro h1
    · trivial
    · exact h1.elim
    · exact h1.elim
    · exact h1
  rw [this]

theorem collapse_rec {kw : Str} (hk : kw ∈ shortKws) {s t : Str} (h : RecasedIf β s t) : RecasedIf β (collapse kw s) (collapse kw t) :=
  (reSub_rec ((by decide +kernel : ∀ kw ∈ shortKws, caseless (collapseRe kw) = true) kw hk) (collapse_plain hk) h).1

/-- What the last group of the expanding patterns holds. -/
theorem bnd_step {st st' : St} (h : Step bndRe st st') : st'.rest = [] ∨ ∃ c, cap st'.caps 2 = some [c] ∧ isSpace c = true := by
  unfold bndRe at h
  cases h with
  | grp _ _ _ s2 h =>
    cases h with
    | altL _ _ _ _ h =>
      cases h with
      | cls p c cs prev caps h => right; exact ⟨c, by simp [cap, List.length_cons], h⟩
    | altR _ _ _ _ h =>
      cases h with
      | altL _ _ _ _ h => cases h with
        | eos _ h => left; exact h
      | altR _ _ _ _ h =>
        unfold Re.chr at h
        cases h with
        | cls p c cs prev caps h =>
          right
          refine ⟨c, by simp [cap, List.length_cons], ?_⟩
          simp only [beq_iff_eq] at h
          rw [h]; decide

theorem space_not_exp {c : Char} {s : Str} (h : isSpace c = true) : expStart (c :: s) = false := by
  have := blankChars_mem h
  exact (by decide +kernel : ∀ c ∈ blankChars, expStart [c] = false) c this

theorem expand_plain {kw : Str} (hk : kw ∈ shortKws) : PlainSub (expandRe kw) (fun _ m => expandRepl kw m) := by
  have hb : ∀ p s st, Step (expandRe kw) ⟨p, s, []⟩ st → st.rest = [] ∨ ∃ c, cap st.caps 2 = some [c] ∧ isSpace c = true := by
    intro p s st h
    unfold expandRe at h
    cases h with
    | seq _ _ _ _ _ _ h =>
      cases h with
      | seq _ _ _ _ _ _ h =>
        cases h with
        | seq _ _ _ _ _ _ h => exact bnd_step h
  have hcl : ∀ p s st, Step (expandRe kw) ⟨p, s, []⟩ st → expStart ((cap st.caps 2).getD []) = false := by
    intro p s st h
    cases hc : cap st.caps 2 with
    | none => rfl
    | some u =>
      obtain ⟨b, hb, -, hw⟩ := caps_step h (q := fun k b => k != 2 || avoids (c!"0123456789+-_") b) ((by decide +kernel : ∀ kw ∈ shortKws,
        (expandRe kw).groupsAll (fun k b => k != 2 || avoids (c!"0123456789+-_") b) = true) kw hk) hc
      have := hw _ (by simpa using hb)
      cases u with
      | nil => rfl
      | cons c u =>
        have hc := this c List.mem_cons_self
        cases he : expStart (c :: u) with
        | false => simpa using he
        | true =>
          exfalso
          apply hc
          simp only [expStart, Bool.or_eq_true, beq_iff_eq] at he
          rcases he with ((he | rfl) | rfl) | rfl
          · unfold isDigit at he
            simp only [Bool.and_eq_true, decide_eq_true_eq] at he
            have h1 : 48 ≤ c.toNat := he.1
            have h2 : c.toNat ≤ 57 := he.2
            have key : ∀ n : Fin 58, 48 ≤ n.1 → Char.ofNat n.1 ∈ c!"0123456789+-_" := by decide +kernel
            have := key ⟨c.toNat, by omega⟩ h1
            rwa [Char.ofNat_toNat] at this
          · decide
          · decide
          · decide
  refine ⟨?_, ?_, ?_⟩
  · intro β p s st p' s' st' h h' hc u u'
    have h2 := bnd_groups (expandRe kw) ((by decide +kernel : ∀ kw ∈ shortKws,
      (expandRe kw).groupsAll (fun k b => k != 2 || avoids letters b) = true) kw hk) h h' hc
    have h1 : (cap st.caps 1).getD [] = (cap st'.caps 1).getD [] := by
      have key := cap_rec 1 hc
      cases ha : cap st.caps 1 with
      | none =>
        rw [ha] at key
        cases hb : cap st'.caps 1 with
        | none => rfl
        | some y => rw [hb] at key; exact key.elim
      | some x =>
        rw [ha] at key
        cases hb : cap st'.caps 1 with
        | none => rw [hb] at key; exact key.elim
        | some y =>
          rw [hb] at key
          obtain ⟨b, hb, -, hw⟩ := caps_step h (q := fun k b => k != 1 || avoids letters b) ((by decide +kernel : ∀ kw ∈ shortKws,
            (expandRe kw).groupsAll (fun k b => k != 1 || avoids letters b) = true) kw hk) ha
          exact rec_eq key (hw letters (by simpa using hb))
    unfold expandRepl
    rw [h1, h2]
  · intro p s st h u hu
    have h0 := hcl p s st h
    unfold expandRepl at hu
    cases hn : strNat ((cap st.caps 1).getD []) with
    | zero => rw [hn] at hu; simp only [List.replicate_zero, List.flatten_nil, List.nil_append] at hu; rw [h0] at hu; cases hu
    | succ n => rw [hn, List.replicate_succ] at hu; cases hu
  · intro p s st h u hu
    rcases hb p s st h with h | ⟨c, h, -⟩
    · exact h
    · unfold expandRepl at hu
      rw [h] at hu
      have := congrArg List.length hu
      simp at this

theorem expand_rec {kw : Str} (hk : kw ∈ shortKws) {s t : Str} (h : RecasedIf β s t) : RecasedIf β (expand kw s) (expand kw t) :=
  (reSub_rec ((by decide +kernel : ∀ kw ∈ shortKws, caseless (expandRe kw) = true) kw hk) (expand_plain hk) h).1

/-! ### Lines and comments -/

theorem splitC_rec {x : Char} (hx : x ∉ letters) : ∀ {s t : Str}, RecasedIf β s t → RecList β (splitC x s) (splitC x t)
  | [], [], _ => ⟨trivial, trivial⟩
  | c :: s, d :: t, h => by
    have ih := splitC_rec hx h.2.2
    have e : (c = x) ↔ (d = x) := by
      constructor
      · intro e; rw [← nonletter h.1 (by rw [e]; exact hx), e]
      · intro e; rw [← nonletter h.1.symm (by rw [e]; exact hx), e]
    unfold splitC
    simp only [e]
    split
    · exact ⟨trivial, ih⟩
    · have hpre : ∀ s : Str, ∃ w ws, splitC x s = w :: ws ∧ (expStart w = true → expStart s = true) := by
        intro s
        cases s with
        | nil => exact ⟨[], [], rfl, fun h => h⟩
        | cons a s =>
          unfold splitC
          split
          · exact ⟨[], _, rfl, fun h => by cases h⟩
          · split
            · exact ⟨_, _, rfl, fun h => h⟩
            · exact ⟨_, _, rfl, fun h => h⟩
      obtain ⟨w, ws, hw, hs⟩ := hpre s
      obtain ⟨v, vs, hv, -⟩ := hpre t
      rw [hw, hv] at ih ⊢
      refine ⟨⟨h.1, fun a b k => ?_, ih.1⟩, ih.2⟩
      have := h.2.1 a b k
      cases he : expStart w with
      | false => rfl
      | true => rw [hs he] at this; cases this
  | [], _ :: _, h => h.elim
  | _ :: _, [], h => h.elim

theorem splitComment_rec : ∀ {s t : Str}, RecasedIf β s t → RecasedIf β (splitComment s).1 (splitComment t).1 ∧
    OptRel (RecasedIf β) (splitComment s).2 (splitComment t).2 ∧ (expStart (splitComment s).1 = true → expStart s = true)
  | [], [], _ => ⟨trivial, trivial, fun h => h⟩
  | c :: s, d :: t, h => by
    obtain ⟨i1, i2, i3⟩ := splitComment_rec h.2.2
    have e : (c = '$') ↔ (d = '$') := by
      constructor
      · intro e; rw [← nonletter h.1 (by rw [e]; decide +kernel), e]
      · intro e; rw [← nonletter h.1.symm (by rw [e]; decide +kernel), e]
    unfold splitComment
    simp only [e]
    split
    · exact ⟨trivial, h.2.2, fun h => by cases h⟩
    · refine ⟨⟨h.1, fun a b k => ?_, i1⟩, i2, fun h => h⟩
      have := h.2.1 a b k
      cases he : expStart (splitComment s).1 with
      | false => rfl
      | true => rw [i3 he] at this; cases this
  | [], _ :: _, h => h.elim
  | _ :: _, [], h => h.elim

theorem join_rec {x : Char} (hx : expStart [x] = false) : ∀ {l m : List Str}, RecList β l m → RecasedIf β (join [x] l) (join [x] m)
  | [], [], _ => trivial
  | [_], [_], h => h.1
  | u :: a :: l, v :: b :: m, h => by
    have ih := join_rec hx h.2
    show RecasedIf β (u ++ [x] ++ join [x] (a :: l)) (v ++ [x] ++ join [x] (b :: m))
    rw [List.append_assoc, List.append_assoc]
    exact rec_append h.1 (rec_same [x] ih) hx
  | [], _ :: _, h => h.elim
  | _ :: _, [], h => h.elim
  | [_], _ :: _ :: _, h => h.2.elim
  | _ :: _ :: _, [_], h => h.2.elim

theorem comments_rec {a b : List Str} (hl : RecList β a b) : RecList β ((a.map splitComment).map (·.1)) ((b.map splitComment).map (·.1)) ∧
    ((a.map splitComment).filterMap (·.2)).map lower = ((b.map splitComment).filterMap (·.2)).map lower := by
  induction a generalizing b with
  | nil => cases b with
    | nil => exact ⟨trivial, rfl⟩
    | cons y b => exact hl.elim
  | cons x a ih => cases b with
    | nil => exact hl.elim
    | cons y b =>
      obtain ⟨i1, i2⟩ := ih hl.2
      obtain ⟨j1, j2, -⟩ := splitComment_rec hl.1
      refine ⟨⟨j1, i1⟩, ?_⟩
      simp only [List.map_cons, List.filterMap_cons]
      revert j2
      cases (splitComment x).2 <;> cases (splitComment y).2 <;> intro j2
      · exact i2
      · exact j2.elim
      · exact j2.elim
      · simp only [List.map_cons]; rw [i2, rec_lower j2]

section
attribute [local irreducible] RecasedIf

theorem const_rec {r : Re} {w s t : Str} (hr : caseless r = true) (hw : expStart w = false) (hn : w ≠ []) (h : RecasedIf β s t) :
    RecasedIf β (reSub r (fun _ _ => w) s) (reSub r (fun _ _ => w) t) := (reSub_rec hr (plain_const r hw hn) h).1

theorem respace_rec {s t : Str} (h : RecasedIf β s t) : RecasedIf β (respace s) (respace t) := by
  unfold respace
  simp only
  apply strip_rec
  have h := const_rec (r := contRe) (w := [' ']) (by decide +kernel) (by decide +kernel) (by decide) h
  have h := const_rec (r := .plus true (.chr ' ')) (w := [' ']) (by decide +kernel) (by decide +kernel) (by decide) h
  have h := const_rec (r := .seq (.chr '(') (.chr ' ')) (w := ['(']) (by decide +kernel) (by decide +kernel) (by decide) h
  have h := const_rec (r := .seq (.chr ' ') (.chr ')')) (w := [')']) (by decide +kernel) (by decide +kernel) (by decide) h
  have h := const_rec (r := .seq (.chr '\n') (.seq (.chr ' ') (.chr '\n'))) (w := ['\n', '\n']) (by decide +kernel) (by decide +kernel) (by decide) h
  have h := const_rec (r := eqRe) (w := [' ']) (by decide +kernel) (by decide +kernel) (by decide) h
  exact const_rec (r := .chr '\t') (w := [' ', ' ', ' ', ' ']) (by decide +kernel) (by decide +kernel) (by decide) h

theorem preprocess_rec {s t : Str} (h : RecasedIf β s t) : RecasedIf β (preprocess s) (preprocess t) := by
  unfold preprocess expandAll collapseAll
  have hj : kwJ ∈ shortKws := by decide
  have hr : kwR ∈ shortKws := by decide
  have hi : kwI ∈ shortKws := by decide
  have hl : kwLog ∈ shortKws := by decide
  have hg : kwIlog ∈ shortKws := by decide
  exact expand_rec hg (expand_rec hl (expand_rec hj (expand_rec hi (expand_rec hr (expand_rec hj
    (collapse_rec hg (collapse_rec hl (collapse_rec hi (collapse_rec hr (collapse_rec hj (respace_rec h)))))))))))

theorem cardPreprocess_rec {s t : Str} (h : RecasedIf β s t) : RecasedIf β (cardPreprocess s).1 (cardPreprocess t).1 ∧
    (cardPreprocess s).2.map lower = (cardPreprocess t).2.map lower := by
  have key := comments_rec (splitC_rec (x := '\n') (by decide +kernel) h)
  have hj := preprocess_rec (join_rec (x := '\n') (by decide +kernel) key.1)
  unfold cardPreprocess
  simp only
  exact ⟨hj, key.2⟩

end

end Inp
