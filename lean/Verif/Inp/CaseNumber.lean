import Verif.Inp.CaseText
/-! Helper lemmas: numbers do not depend on the case of letters. -/
namespace Inp

variable {β : Bool}
open Py Types Ptrac

/-! ### Decimal texts -/

theorem low_cons {c d : Char} {s t : Str} : lower (c :: s) = lower (d :: t) ↔ lowerC c = lowerC d ∧ lower s = lower t := by
  unfold lower
  rw [List.map_cons, List.map_cons, List.cons.injEq]

theorem digit_rec {c d : Char} (h : lowerC c = lowerC d) : isDigit c = isDigit d := caseP_eq (by decide +kernel) h

theorem digit_letters {c : Char} (h : isDigit c = true) : c ∉ letters := by
  intro hc
  have := (by decide +kernel : ∀ c ∈ letters, isDigit c = false) c hc
  rw [this] at h; cases h

/-- Case analysis of two texts with the same lower case. -/
theorem low_cases {P : Str → Str → Prop} (h0 : P [] []) (h1 : ∀ c d s t, lowerC c = lowerC d → lower s = lower t → P (c :: s) (d :: t)) :
    ∀ s t, lower s = lower t → P s t
  | [], [], _ => h0
  | c :: s, d :: t, h => by rw [low_cons] at h; exact h1 c d s t h.1 h.2
  | [], _ :: _, h => by unfold lower at h; simp at h
  | _ :: _, [], h => by unfold lower at h; simp at h

theorem span_low : ∀ {s t : Str}, lower s = lower t → s.takeWhile isDigit = t.takeWhile isDigit ∧
    lower (s.dropWhile isDigit) = lower (t.dropWhile isDigit)
  | [], [], _ => ⟨rfl, rfl⟩
  | c :: s, d :: t, h => by
    rw [low_cons] at h
    have ih := span_low h.2
    rw [List.takeWhile_cons, List.takeWhile_cons, List.dropWhile_cons, List.dropWhile_cons, digit_rec h.1]
    split
    · rename_i hd
      refine ⟨?_, ih.2⟩
      rw [nonletter h.1.symm (digit_letters hd), ih.1]
    · exact ⟨rfl, low_cons.2 h⟩
  | [], _ :: _, h => by unfold lower at h; simp at h
  | _ :: _, [], h => by unfold lower at h; simp at h

theorem char_low {x c d : Char} (hx : x ∉ letters) (h : lowerC c = lowerC d) : c = x ↔ d = x := by
  constructor
  · intro e; rw [← nonletter h (by rw [e]; exact hx), e]
  · intro e; rw [← nonletter h.symm (by rw [e]; exact hx), e]

theorem takeSign_eq (s : Str) : takeSign s = match s with
    | [] => (false, [])
    | c :: t => if c = '-' then (true, t) else if c = '+' then (false, t) else (false, c :: t) := by
  unfold takeSign
  split
  · rfl
  · rfl
  · rename_i h1 h2
    cases s with
    | nil => rfl
    | cons c t =>
      simp only
      rw [if_neg (fun e => h1 t (by rw [e])), if_neg (fun e => h2 t (by rw [e]))]

theorem takeSign_low {s t : Str} (h : lower s = lower t) : (takeSign s).1 = (takeSign t).1 ∧ lower (takeSign s).2 = lower (takeSign t).2 := by
  revert s t
  apply low_cases
  · exact ⟨rfl, rfl⟩
  · intro c d s t h h'
    rw [takeSign_eq, takeSign_eq]
    simp only [char_low (x := '-') (by decide +kernel) h, char_low (x := '+') (by decide +kernel) h]
    split
    · exact ⟨rfl, h'⟩
    · split
      · exact ⟨rfl, h'⟩
      · exact ⟨rfl, low_cons.2 ⟨h, h'⟩⟩

theorem fracSplit_eq (s : Str) : fracSplit s = match s with
    | [] => ([], [])
    | c :: t => if c = '.' then (t.takeWhile isDigit, t.dropWhile isDigit) else ([], c :: t) := by
  unfold fracSplit
  split
  · rfl
  · rename_i h1
    cases s with
    | nil => rfl
    | cons c t =>
      simp only
      rw [if_neg (fun e => h1 t (by rw [e]))]

theorem fracSplit_low {s t : Str} (h : lower s = lower t) : (fracSplit s).1 = (fracSplit t).1 ∧ lower (fracSplit s).2 = lower (fracSplit t).2 := by
  revert s t
  apply low_cases
  · exact ⟨rfl, rfl⟩
  · intro c d s t h h'
    rw [fracSplit_eq, fracSplit_eq]
    simp only [char_low (x := '.') (by decide +kernel) h]
    split
    · exact span_low h'
    · exact ⟨rfl, low_cons.2 ⟨h, h'⟩⟩

theorem digits_low : ∀ {s t : Str}, lower s = lower t → s.all isDigit = true → s = t
  | [], [], _, _ => rfl
  | c :: s, d :: t, h, ha => by
    rw [low_cons] at h
    simp only [List.all_cons, Bool.and_eq_true] at ha
    rw [nonletter h.1 (digit_letters ha.1), digits_low h.2 ha.2]
  | [], _ :: _, h, _ => by unfold lower at h; simp at h
  | _ :: _, [], h, _ => by unfold lower at h; simp at h

theorem all_low : ∀ {s t : Str}, lower s = lower t → s.all isDigit = t.all isDigit
  | [], [], _ => rfl
  | c :: s, d :: t, h => by
    rw [low_cons] at h
    rw [List.all_cons, List.all_cons, digit_rec h.1, all_low h.2]
  | [], _ :: _, h => by unfold lower at h; simp at h
  | _ :: _, [], h => by unfold lower at h; simp at h

theorem e_low {c : Char} : (c = 'e' ∨ c = 'E') ↔ lowerC c = 'e' := by
  constructor
  · rintro (rfl | rfl) <;> decide
  · intro h
    rcases lower_pair (c := c) (d := 'e') (by rw [h]; decide) with rfl | ⟨x, hx, ⟨rfl, h2⟩ | ⟨rfl, h2⟩⟩
    · exact .inl rfl
    · exact absurd h2.symm ((by decide +kernel : ∀ x ∈ lowers, upperC x ≠ 'e') c hx)
    · right; rw [← h2]; decide

theorem expParse_low {s t : Str} (h : lower s = lower t) : expParse s = expParse t := by
  revert s t
  apply low_cases
  · rfl
  · intro c d s t h h'
    unfold expParse
    simp only [e_low, h]
    obtain ⟨h1, h2⟩ := takeSign_low h'
    split
    · rw [h1]
      by_cases ha : (takeSign s).2.all isDigit = true
      · rw [digits_low h2 ha]
      · have hb : ¬ (takeSign t).2.all isDigit = true := by rw [← all_low h2]; exact ha
        rw [if_neg (fun e => ha e.2), if_neg (fun e => hb e.2)]
    · rfl

theorem numParse_low (n : Bool) {s t : Str} (h : lower s = lower t) : numParse n s = numParse n t := by
  obtain ⟨h1, h2⟩ := span_low h
  obtain ⟨h3, h4⟩ := fracSplit_low h2
  unfold numParse numBuild
  rw [h1, h3, expParse_low h4]

theorem specialParse_low (n : Bool) {s t : Str} (h : lower s = lower t) : specialParse n s = specialParse n t := by
  unfold specialParse
  rw [h]

theorem filter_low : ∀ {s t : Str}, lower s = lower t → lower (s.filter (· ≠ '_')) = lower (t.filter (· ≠ '_'))
  | [], [], _ => rfl
  | c :: s, d :: t, h => by
    rw [low_cons] at h
    have ih := filter_low h.2
    have e := char_low (x := '_') (by decide +kernel) h.1
    rw [List.filter_cons, List.filter_cons]
    by_cases hd : d = '_'
    · rw [if_neg (by simp [e.2 hd]), if_neg (by simp [hd])]
      exact ih
    · rw [if_pos (by simpa using fun h => hd (e.1 h)), if_pos (by simpa using hd)]
      exact low_cons.2 ⟨h.1, ih⟩
  | [], _ :: _, h => by unfold lower at h; simp at h
  | _ :: _, [], h => by unfold lower at h; simp at h

theorem decParse_rec {s t : Str} (h : RecasedIf β s t) : decParse s = decParse t := by
  have h1 := filter_low (rec_lower (strip_rec h))
  obtain ⟨h2, h3⟩ := takeSign_low h1
  unfold decParse
  simp only
  rw [h2, numParse_low _ h3, specialParse_low _ h3]

/-! ### Texts that begin with the letter of an exponent -/

theorem rstrip_cons {c : Char} (hc : isSpace c = false) (s : Str) : rstrip (c :: s) = c :: rstrip s := by
  unfold rstrip
  rw [List.reverse_cons, List.dropWhile_append]
  split
  · rename_i h
    rw [List.isEmpty_iff] at h
    rw [h, List.dropWhile_cons, hc]
    rfl
  · rw [List.reverse_append]; rfl

theorem strip_cons {c : Char} (hc : isSpace c = false) (s : Str) : strip (c :: s) = c :: rstrip s := by
  unfold strip lstrip
  rw [List.dropWhile_cons, hc]
  exact rstrip_cons hc s

theorem special_head {n : Bool} {c : Char} {s : Str} (h : lowerC c ≠ 'i' ∧ lowerC c ≠ 'n' ∧ lowerC c ≠ 's') :
    specialParse n (c :: s) = none := by
  unfold specialParse
  simp only
  have e : lower (c :: s) = lowerC c :: lower s := rfl
  rw [e]
  rw [if_neg, if_neg, if_neg]
  · rintro ⟨a, -⟩
    have := congrArg List.head? a
    simp at this
    exact h.2.2 this
  · rintro ⟨a, -⟩
    have := congrArg List.head? a
    simp at this
    exact h.2.1 this
  · rintro (a | a)
    · have := congrArg List.head? a
      simp at this
      exact h.1 this
    · have := congrArg List.head? a
      simp at this
      exact h.1 this

theorem dec_E (s : Str) : decParse ('E' :: s) = none := by
  unfold decParse
  rw [strip_cons (by decide)]
  simp only
  rw [List.filter_cons, if_pos (by decide), takeSign_eq]
  simp only
  rw [if_neg (by decide), if_neg (by decide)]
  simp only
  rw [special_head (by decide)]
  generalize (rstrip s).filter (· ≠ '_') = x
  have h1 : ('E' :: x).takeWhile isDigit = [] := rfl
  have h2 : ('E' :: x).dropWhile isDigit = 'E' :: x := rfl
  have h3 : fracSplit ('E' :: x) = ([], 'E' :: x) := rfl
  unfold numParse numBuild
  rw [h1, h2, h3]
  rfl

theorem dec_1e {s : Str} (h : expStart s = false) : decParse ('1' :: 'e' :: s) = none := by
  unfold decParse
  rw [strip_cons (by decide), rstrip_cons (by decide)]
  have h1 : expStart (rstrip s) = false := by rw [rstrip_take]; exact expStart_take h
  have h2 : expStart ((rstrip s).filter (· ≠ '_')) = false := by
    cases hs : rstrip s with
    | nil => rfl
    | cons c r =>
      rw [hs] at h1
      have : c ≠ '_' := by rintro rfl; simp [expStart] at h1
      rw [List.filter_cons, if_pos (by simpa using this)]
      exact h1
  simp only
  rw [List.filter_cons, if_pos (by decide), List.filter_cons, if_pos (by decide), takeSign_eq]
  simp only
  rw [if_neg (by decide), if_neg (by decide)]
  simp only
  rw [special_head (by decide)]
  revert h2
  generalize (rstrip s).filter (· ≠ '_') = x
  intro h2
  have e1 : ('1' :: 'e' :: x).takeWhile isDigit = ['1'] := rfl
  have e2 : ('1' :: 'e' :: x).dropWhile isDigit = 'e' :: x := rfl
  have e3 : fracSplit ('e' :: x) = ([], 'e' :: x) := rfl
  unfold numParse numBuild
  rw [e1, e2, e3]
  have : expParse ('e' :: x) = none := by
    unfold expParse
    simp only [true_or, if_true]
    have : takeSign x = (false, x) := by
      rw [takeSign_eq]
      cases x with
      | nil => rfl
      | cons c x =>
        simp only [expStart, Bool.or_eq_false_iff, beq_eq_false_iff_ne] at h2
        simp only
        rw [if_neg h2.1.2, if_neg h2.1.1.2]
    rw [this]
    simp only
    rw [if_neg]
    rintro ⟨a, b⟩
    cases x with
    | nil => exact a rfl
    | cons c x =>
      simp only [expStart, Bool.or_eq_false_iff] at h2
      simp only [List.all_cons, Bool.and_eq_true] at b
      rw [h2.1.1.1] at b
      cases b.1
  simp only
  rw [this]
  rfl

/-! ### Numbers -/

theorem free_caps {r : Re} (hr : r.groupsAll (fun _ _ => false) = true) {a b : St} (h : Step r a b) : b.caps = a.caps := by
  obtain ⟨e, he, h0⟩ := step_wrote h
  have : e = [] := by
    cases e with
    | nil => rfl
    | cons x e =>
      obtain ⟨b, hb, -⟩ := h0 (fun _ _ => false) hr x List.mem_cons_self
      cases hb
  rw [he, this]; rfl

theorem bare_plain : PlainSub bareExpRe bareExpRepl := by
  have hg : bareExpRe.groupsAll (fun _ b => avoids letters b) = true := by decide +kernel
  have hsame : ∀ β n {p s p' s' : Str} {st st' : St}, Step bareExpRe ⟨p, s, []⟩ st → Step bareExpRe ⟨p', s', []⟩ st' →
      RecCaps β st.caps st'.caps → (cap st.caps n).getD [] = (cap st'.caps n).getD [] := by
    intro β n p s p' s' st st' h _ hc
    have key := cap_rec n hc
    cases ha : cap st.caps n with
    | none =>
      rw [ha] at key
      cases hb : cap st'.caps n with
      | none => rfl
      | some y => rw [hb] at key; exact key.elim
    | some x =>
      rw [ha] at key
      cases hb : cap st'.caps n with
      | none => rw [hb] at key; exact key.elim
      | some y =>
        rw [hb] at key
        obtain ⟨b, hb, -, hw⟩ := caps_step h hg ha
        exact rec_eq key (hw letters hb)
  refine ⟨?_, ?_, ?_⟩
  · intro β p s st p' s' st' h h' hc u u'
    unfold bareExpRepl
    rw [hsame β 1 h h' hc, hsame β 2 h h' hc, hsame β 3 h h' hc]
  · intro p s st h u hu
    unfold bareExpRe at h
    cases h with
    | seq _ _ _ s2 _ h1 h2 =>
      cases h1 with
      | grp _ _ _ s3 h1 =>
        obtain ⟨e, he, -⟩ := step_wrote h2
        cases h1 with
        | seq _ _ _ s4 _ h3 h4 =>
          cases h3 with
          | cls q c cs _ _ hq =>
            obtain ⟨w, hw, -⟩ := step_text h4
            simp only at hw
            have hcap : cap st.caps 1 = some (c :: w) := by
              cases h2 with
              | seq _ _ _ s5 _ h5 h6 =>
                cases h5 with
                | grp _ _ _ s6 h5 =>
                  cases h6 with
                  | grp _ _ _ s7 h7 =>
                    have a1 := free_caps (by decide +kernel) h4
                    have a2 := free_caps (by decide +kernel) h5
                    have a3 := free_caps (by decide +kernel) h7
                    simp only at a1 a2 a3
                    simp only [cap]
                    rw [a3]
                    simp only [List.lookup_cons]
                    rw [a2]
                    simp [hw]
                    rw [show List.length w + List.length s3.rest + 1 - List.length s3.rest = w.length + 1 from by omega, List.take_succ_cons,
                      List.take_left']
                    rfl
            unfold bareExpRepl at hu
            rw [hcap] at hu
            exact hu
  · intro p s st h u hu
    unfold bareExpRepl at hu
    simp at hu

theorem dSub_rec {s t : Str} (h : RecasedIf β s t) :
    RecasedIf β (reSub (.cls (fun c => c == 'd' || c == 'D')) (fun _ _ => ['e']) s) (reSub (.cls (fun c => c == 'd' || c == 'D')) (fun _ _ => ['e']) t) :=
  (reSub_rec (by decide +kernel) (plain_const _ (by decide +kernel) (by decide)) h).1

theorem numText_rec {s t : Str} (h : RecasedIf β s t) (hh : FirstAlike s t) : (numText s).map decParse = (numText t).map decParse := by
  have h1 := (reSub_rec (by decide +kernel) bare_plain h).1
  have h2 := dSub_rec h1
  have h3 := reSub_head (by decide +kernel) (plain_const (.cls (fun c => c == 'd' || c == 'D')) (w := ['e'])
    (by decide +kernel) (by decide)) h1 (reSub_head (by decide +kernel) bare_plain h hh)
  unfold numText
  simp only
  revert h2 h3
  generalize reSub (.cls (fun c => c == 'd' || c == 'D')) (fun _ _ => ['e']) (reSub bareExpRe bareExpRepl s) = x
  generalize reSub (.cls (fun c => c == 'd' || c == 'D')) (fun _ _ => ['e']) (reSub bareExpRe bareExpRepl t) = y
  intro h2 h3
  cases x with
  | nil => cases y with
    | nil => rfl
    | cons d y => exact h2.elim
  | cons c x => cases y with
    | nil => exact h2.elim
    | cons d y =>
      simp only [Except.map]
      congr 1
      by_cases hcd : c = d
      · subst hcd
        split
        · exact decParse_rec (rec_same ['1'] h2)
        · exact decParse_rec h2
      · by_cases hl : lowerC c = 'e'
        · have he := h3 hcd hl
          rcases e_low.2 hl with rfl | rfl
          · rcases e_low.2 (h2.1.symm.trans hl) with rfl | rfl
            · exact absurd rfl hcd
            · rw [if_pos rfl, if_neg (by decide), dec_E, dec_1e he]
          · rcases e_low.2 (h2.1.symm.trans hl) with rfl | rfl
            · have he' : expStart y = false := by
                cases x <;> cases y
                · rfl
                · exact h2.2.2.elim
                · rfl
                · rename_i a x b y
                  have := h2.2.2.1
                  have hp : caseP (fun c => expStart [c]) = true := by decide +kernel
                  have := caseP_eq hp this
                  exact this.symm.trans he
              rw [if_neg (by decide), if_pos rfl, dec_E, dec_1e he']
            · exact absurd rfl hcd
        · rw [if_neg, if_neg]
          · exact decParse_rec h2
          · rintro rfl; exact hl (h2.1.trans (by decide))
          · rintro rfl; exact hl (by decide)

/-- The text of a group without letters. -/
theorem cap_same {r : Re} {s : Str} {m m'} (hs : reMatch r s = some m) (hc : RecCaps β m m') {n : Nat} (hn : n ≠ 0)
    (hg : r.groupsAll (fun k b => k != n || avoids letters b) = true) : cap m n = cap m' n := by
  have key := cap_rec n hc
  cases ha : cap m n with
  | none =>
    rw [ha] at key
    cases hb : cap m' n with
    | none => rfl
    | some y => rw [hb] at key; exact key.elim
  | some x =>
    rw [ha] at key
    cases hb : cap m' n with
    | none => rw [hb] at key; exact key.elim
    | some y =>
      rw [hb] at key
      obtain ⟨b, hb, -, hw⟩ := cap_wrote hs hg hn ha
      rw [rec_eq key (hw letters (by simpa using hb))]

/-- Matching recased texts: both fail or both match. -/
theorem match_cases {r : Re} (hr : caseless r = true) {s t : Str} (h : RecasedIf β s t) :
    (reMatch r s = none ∧ reMatch r t = none) ∨ ∃ m m', reMatch r s = some m ∧ reMatch r t = some m' ∧ RecCaps β m m' := by
  have key := reMatch_rec hr h
  cases ha : reMatch r s with
  | none =>
    rw [ha] at key
    cases hb : reMatch r t with
    | none => exact .inl ⟨rfl, rfl⟩
    | some m' => rw [hb] at key; exact key.elim
  | some m =>
    rw [ha] at key
    cases hb : reMatch r t with
    | none => rw [hb] at key; exact key.elim
    | some m' => rw [hb] at key; exact .inr ⟨m, m', rfl, rfl, key⟩

theorem horizParse_rec {s t : Str} (h : RecasedIf β s t) : horizParse s = horizParse t := by
  have h1 : repParse s = repParse t := by
    unfold repParse
    rcases match_cases (r := countRe (.chrI 'r')) (by decide +kernel) h with ⟨a, b⟩ | ⟨m, m', a, b, hc⟩
    · rw [a, b]
    · rw [a, b]
      simp only [countOf]
      rw [cap_same a hc (by decide) (by decide +kernel)]
  have h2 : insParse s = insParse t := by
    unfold insParse
    rcases match_cases (r := countRe (.chrI 'i')) (by decide +kernel) h with ⟨a, b⟩ | ⟨m, m', a, b, hc⟩
    · rw [a, b]
    · rw [a, b]
      simp only [countOf]
      rw [cap_same a hc (by decide) (by decide +kernel)]
  have h3 : mulParse s = mulParse t := by
    unfold mulParse
    rcases match_cases (r := mulRe) (by decide +kernel) h with ⟨a, b⟩ | ⟨m, m', a, b, hc⟩
    · rw [a, b]
    · rw [a, b]
      simp only
      rw [cap_same a hc (by decide) (by decide +kernel)]
  have h4 : jumpParse s = jumpParse t := by
    unfold jumpParse
    rcases match_cases (r := countRe (.chrI 'j')) (by decide +kernel) h with ⟨a, b⟩ | ⟨m, m', a, b, hc⟩
    · rw [a, b]
    · rw [a, b]
      simp only [countOf]
      rw [cap_same a hc (by decide) (by decide +kernel)]
  have h5 : logParse s = logParse t := by
    unfold logParse
    rcases match_cases (r := logRe) (by decide +kernel) h with ⟨a, b⟩ | ⟨m, m', a, b, hc⟩
    · rw [a, b]
    · rw [a, b]
      simp only [countOf]
      rw [cap_same a hc (by decide) (by decide +kernel)]
  unfold horizParse
  rw [h1, h2, h3, h4, h5]

theorem intParse_rec {s t : Str} (h : RecasedIf β s t) (hh : FirstAlike s t) : intParse s = intParse t := by
  have key := numText_rec h hh
  unfold intParse
  rw [horizParse_rec h]
  split
  · rfl
  · revert key
    cases numText s <;> cases numText t <;> intro key <;> simp only [Except.map] at key
    · cases key; rfl
    · cases key
    · cases key
    · rename_i a b
      simp only
      rw [Except.ok.inj key]
  · rfl

theorem realParse_rec {s t : Str} (h : RecasedIf β s t) (hh : FirstAlike s t) : realParse s = realParse t := by
  have key := numText_rec h hh
  unfold realParse
  rw [horizParse_rec h]
  split
  · rfl
  · revert key
    cases numText s <;> cases numText t <;> intro key <;> simp only [Except.map] at key
    · cases key; rfl
    · cases key
    · cases key
    · rename_i a b
      simp only
      rw [Except.ok.inj key]
  · rfl

end Inp
