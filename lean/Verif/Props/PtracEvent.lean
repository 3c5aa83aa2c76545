import Verif.Props.PtracLine
import Verif.Ptrac.HistoryLemmas
/-!
# Properties of PTRAC events and histories (C38, C41, C56, C57)

The specification of C41 numbers the events of a history and says which line announces each of them.
-/
namespace Props
open Py Types Ptrac

/-! ## C38 and C56: events and histories -/

/-- A coordinate as a file holds it: zero with five decimals, or five significant digits and an exponent of at
most two digits. -/
def Exact5 (d : Dec) : Prop :=
  (d.coeff = 0 ∧ d.exp = -5) ∨ (10 ^ 4 ≤ d.coeff ∧ d.coeff < 10 ^ 5 ∧ -100 < d.adjusted + 1 ∧ d.adjusted + 1 < 100)

theorem Exact5.fits {d : Dec} (h : Exact5 d) : FitsE 5 1 d := by
  rcases h with h | ⟨h1, h2, h3, h4⟩
  · exact .inl h.1
  · exact .inr ⟨h1, h3, h4⟩

theorem Exact5.printed {d : Dec} (h : Exact5 d) : printed 5 1 d = d := by
  rcases h with ⟨h, h'⟩ | ⟨h1, h2, h3, h4⟩
  · unfold Ptrac.printed
    rw [if_pos h]
    cases d
    simp_all
  · exact (kept_printed 5 1 d).exact (by omega) h2 (by decide)

/-- The lines of an event: a J line of layout `k` and a P line of layout `l` whose values fit. -/
structure EventOk (e : Event) : Prop where
  j : FitsJ (jColumns e.j.layout) e.j.nums
  p : ∃ ds : List Dec, e.p.nums = ds.map (fun d => .num (.fin d)) ∧ ds.length = pCount e.p.layout ∧ ∀ d ∈ ds, Exact5 d

/-- The texts of the two lines. -/
theorem EventOk.lines {e : Event} (h : EventOk e) : ∃ t, EvShape (e.j.str, t) ∧ e.str = .ok (evText (e.j.str, t)) ∧
    firstOk [pParse 0, pParse 1] t = .ok (some e.p) ∧ t.length = [40, 118][e.p.layout] := by
  obtain ⟨hj, ds, h1, h2, h3⟩ := h
  rw [jColumns_eq] at hj
  rw [pCount_eq] at h2
  obtain ⟨⟨jk, jn, jv⟩, ⟨pk, pv⟩⟩ := e
  simp only at hj h1 h2
  subst h1
  obtain ⟨t, a, b, c⟩ := pline_shape pk ds h2 (fun d hd => FitsE.col (p := 1) (h3 d hd).fits)
  obtain ⟨t', a', b'⟩ := pline_round pk ds h2 (fun d hd => FitsE.col (p := 1) (h3 d hd).fits)
  rw [a] at a'; cases a'
  have : ds.map (printed 5 1) = ds := by
    conv => rhs; rw [← List.map_id ds]
    exact List.map_congr_left (fun d hd => (h3 d hd).printed)
  rw [this] at b'
  refine ⟨t, ⟨(jline_shape ⟨jk, jn, jv⟩ hj.ok).1, b⟩, ?_, firstOk_p t pk _ c b', c⟩
  show (PLine.str _).bind _ = _
  rw [a]; rfl

/-- The layout whose lines an event of layout `k` is read with: the first of the same width. -/
def seenAs : Fin 8 → Fin 8
  | 2 => 1
  | 4 => 1
  | 5 => 3
  | 6 => 3
  | k => k

/-- C38 for events, C56. An event whose layout is the first of its width is read back unchanged.  Missing: the
layouts shadowed by another of the same width (`C38_shadowed`, `C38_event_violated`). -/
theorem C38_event_partial (e : Event) (h : EventOk e) (hk : seenAs e.j.layout = e.j.layout) :
    ∃ s, e.str = .ok s ∧ evParse s = .ok e := by
  obtain ⟨t, h1, h2, h3, -⟩ := h.lines
  refine ⟨_, h2, ?_⟩
  have h0 : NumsOk (jTys e.j.layout) e.j.nums := jColumns_eq e.j.layout ▸ h.j.ok
  have hj := firstOk_j e.j.str e.j.layout e.j
    ((by decide : ∀ k : Fin 8, seenAs k = k → readLayout k = k) _ hk) (jline_shape e.j h0).2 (jline_round e.j h0)
  rw [evText, evParse_lines h1.1 h1.2]
  show (firstOk _ e.j.str).bind _ = _
  rw [hj]
  show (firstOk _ t).bind _ = _
  rw [h3]; rfl

/-- A collision with a P line of three numbers. -/
def exampleEvent : Event :=
  ⟨⟨3, ⟨64, by decide⟩, [.int (.num 1), .int (.num 92235), .int (.num (-99)), .int (.num 0), .int (.num 0), .int (.num 7)]⟩,
   ⟨0, [.num (.fin ⟨true, 12345, -2⟩), .num (.fin ⟨false, 0, -5⟩), .num (.fin ⟨false, 10000, -50⟩)]⟩⟩

example : EventOk exampleEvent :=
  ⟨.int (by decide) (.int (by decide) (.int (by decide) (.int (by decide) (.int (by decide) (.int (by decide) .nil))))),
   ⟨[⟨true, 12345, -2⟩, ⟨false, 0, -5⟩, ⟨false, 10000, -50⟩], rfl, rfl, by unfold Exact5; decide⟩⟩

/-- C38: an event of layout 2, 4 or 5 is read with another layout, its values unchanged. -/
theorem C38_shadowed (e : Event) (h : EventOk e) (hk : e.j.layout = 2 ∨ e.j.layout = 4 ∨ e.j.layout = 5) :
    ∃ s, e.str = .ok s ∧ evParse s = .ok ⟨⟨seenAs e.j.layout, e.j.next, e.j.nums⟩, e.p⟩ := by
  obtain ⟨t, h1, h2, h3, -⟩ := h.lines
  refine ⟨_, h2, ?_⟩
  have htys : jTys (seenAs e.j.layout) = jTys e.j.layout := by
    rcases hk with h | h | h <;> rw [h] <;> rfl
  have hs : e.j.str = (⟨seenAs e.j.layout, e.j.next, e.j.nums⟩ : JLine).str := rfl
  have hok : NumsOk (jTys (seenAs e.j.layout)) e.j.nums := by rw [htys]; exact jColumns_eq e.j.layout ▸ h.j.ok
  have hj := firstOk_j e.j.str (seenAs e.j.layout) ⟨seenAs e.j.layout, e.j.next, e.j.nums⟩
    ((by decide : ∀ k : Fin 8, readLayout (seenAs k) = seenAs k) _)
    (by rw [hs]; exact (jline_shape ⟨seenAs e.j.layout, e.j.next, e.j.nums⟩ hok).2)
    (by rw [hs]; exact jline_round ⟨seenAs e.j.layout, e.j.next, e.j.nums⟩ hok)
  rw [evText, evParse_lines h1.1 h1.2]
  show (firstOk _ e.j.str).bind _ = _
  rw [hj]
  show (firstOk _ t).bind _ = _
  rw [h3]; rfl

/-- C38 fails for events of layout 6: the third value 1.5 is read back as the integer 1. -/
theorem C38_event_violated : ∃ s j, jParse 6 s = .ok j ∧ j.str = s ∧
    j.nums = [.int (.num 1), .real (.num (.fin ⟨false, 15, -1⟩)), .int (.num 2), .int (.num 3), .int (.num 4), .int (.num 5)] ∧
    ∃ e, evParse (s ++ c!"\n   0.00000E+00  0.00000E+00  0.00000E+00\n") = .ok e ∧ e.j ≠ j ∧
      e.j.nums = [.int (.num 1), .int (.num 1), .int (.num 2), .int (.num 3), .int (.num 4), .int (.num 5)] := by
  refine ⟨c!"       4000         1       1.5         2         3         4         5",
    ⟨6, ⟨64, by decide⟩, [.int (.num 1), .real (.num (.fin ⟨false, 15, -1⟩)), .int (.num 2), .int (.num 3), .int (.num 4), .int (.num 5)]⟩,
    by decide +kernel, by decide +kernel, rfl,
    ⟨⟨3, ⟨64, by decide⟩, [.int (.num 1), .int (.num 1), .int (.num 2), .int (.num 3), .int (.num 4), .int (.num 5)]⟩,
      ⟨0, [.num (.fin ⟨false, 0, -5⟩), .num (.fin ⟨false, 0, -5⟩), .num (.fin ⟨false, 0, -5⟩)]⟩⟩, ?_, ?_, rfl⟩
  · decide +kernel
  · decide +kernel

/-- An I line whose values fit and are not zero. -/
structure HeaderOk (i : ILine) : Prop where
  nps : ∃ n, i.nps = .num n ∧ (intStr n).length ≤ 10
  number : ∃ n : Option Int, i.number = n.map .num ∧ ∀ x ∈ n, x ≠ 0 ∧ (intStr x).length ≤ 10
  tfc : ∃ d : Option Dec, i.tfc = d.map (fun d => .num (.fin d)) ∧ ∀ x ∈ d, x.coeff ≠ 0 ∧ FitsE 6 0 x ∧ x.coeff < 10 ^ 6

/-- Every line of a history fits, there is at least one event and no event has a shadowed layout. -/
structure HistoryOk (h : History) : Prop where
  i : HeaderOk h.i
  some : h.events ≠ []
  events : ∀ e ∈ h.events, EventOk e ∧ seenAs e.j.layout = e.j.layout

/-- The lines of a history. -/
theorem historyOk_lines {h : History} (ok : HistoryOk h) : ∃ (ti : Str) (xs : List (Str × Str)),
    h.str = .ok (ti ++ '\n' :: (xs.map evText).flatten) ∧ histParse (ti ++ '\n' :: (xs.map evText).flatten) = .ok h ∧
    iParse ti = .ok h.i ∧ '\n' ∉ ti ∧ xs ≠ [] ∧ (∀ x ∈ xs, EvShape x) ∧
    ((∀ e ∈ h.events, e.p.layout = 0) → ∀ x ∈ xs, x.2.length = 40) := by
  obtain ⟨⟨nps, n1, n2⟩, ⟨num, m1, m2⟩, ⟨tfc, t1, t2⟩⟩ := ok.i
  obtain ⟨ti, ctf, c1, c2, -, -, c3⟩ := C37_i_line_partial nps h.i.event num tfc n2 m2 (fun d hd => ⟨(t2 d hd).1, (t2 d hd).2.1⟩)
  rw [c3 (fun d hd => (t2 d hd).2.2)] at c2
  have hi : h.i = ⟨.num nps, h.i.event, num.map .num, tfc.map (fun d => .num (.fin d))⟩ := by
    cases hh : h.i
    rw [hh] at n1 m1 t1
    simp only at n1 m1 t1
    rw [n1, m1, t1]
  rw [← hi] at c1 c2
  have hnl : '\n' ∉ ti ∧ ti ≠ [] := by
    have e1 := codes_ok h.i.event
    rw [hi] at c1
    unfold ILine.str at c1
    constructor
    · intro hc
      cases hx : tfcText (tfc.map (fun d => RealVal.num (.fin d))) with
      | error x => rw [hx] at c1; cases c1
      | ok a =>
        cases hy : numberText (num.map IntVal.num) with
        | error x => rw [hx, hy] at c1; cases c1
        | ok b =>
          rw [hx, hy] at c1
          have := Except.ok.inj c1
          rw [← this] at hc
          rcases List.mem_cons.1 hc with hc | hc
          · exact absurd hc (by decide)
          rcases List.mem_append.1 hc with g | g
          · rcases List.mem_append.1 g with g | k
            · rcases List.mem_append.1 g with k | k
              · exact rjust_nl (plain_int nps).nl k
              · exact rjust_nl e1.2.2.1 k
            · clear hc g
              cases num with
              | none => cases hy; cases k
              | some n =>
                have hn := (m2 n rfl).1
                have : numberText (some (IntVal.num n)) = .ok (rjust 10 (intStr n)) := by
                  rw [numberText, show intTrue (.num n) = .ok true by simp [intTrue, hn]]; rfl
                rw [Option.map_some, this] at hy
                cases hy
                exact rjust_nl (plain_int n).nl k
          · clear hc
            cases tfc with
            | none => cases hx; cases g
            | some d =>
              have hd := (t2 d rfl).1
              obtain ⟨t, ht, hnl, -⟩ := realFmt_read 5 0 0 d
              have : tfcText (some (RealVal.num (.fin d))) = .ok (' ' :: t) := by
                rw [tfcText, show realTrue (.num (.fin d)) = .ok true by simp [realTrue, hd]]
                show (realFmt 5 0 (.num (.fin d))).bind _ = _
                rw [ht]; rfl
              rw [Option.map_some, this] at hx
              cases hx
              rcases List.mem_cons.1 g with g | g
              · exact absurd g (by decide)
              · exact hnl g
    · rintro rfl
      rw [iParse] at c2
      have : reMatch iRe [] = none := by decide +kernel
      rw [this] at c2
      cases c2
  have hall : ∀ es : List Event, (∀ e ∈ es, EventOk e ∧ seenAs e.j.layout = e.j.layout) →
      ∃ xs : List (Str × Str), xs.length = es.length ∧ (∀ x ∈ xs, EvShape x) ∧
        each Event.str es = .ok (xs.map evText) ∧ each evChecked (xs.map evText) = .ok es ∧
        ((∀ e ∈ es, e.p.layout = 0) → ∀ x ∈ xs, x.2.length = 40) := by
    intro es hes
    induction es with
    | nil => exact ⟨[], rfl, by simp, rfl, rfl, by simp⟩
    | cons e es ih =>
      obtain ⟨xs, a1, a2, a3, a4, a5⟩ := ih (fun x hx => hes x (List.mem_cons_of_mem _ hx))
      obtain ⟨he, hk⟩ := hes e (by simp)
      obtain ⟨t, b1, b2, b3, b4⟩ := he.lines
      obtain ⟨s, d1, d2⟩ := C38_event_partial e he hk
      rw [b2] at d1
      have d1 := Except.ok.inj d1
      subst d1
      refine ⟨(e.j.str, t) :: xs, by simp [a1], ?_, ?_, ?_, ?_⟩
      · intro x hx
        rcases List.mem_cons.1 hx with rfl | hx
        · exact b1
        · exact a2 x hx
      · rw [each, b2]
        show (each Event.str es).bind _ = _
        rw [a3]; rfl
      · rw [List.map_cons, each]
        have : evChecked (evText (e.j.str, t)) = .ok e := by
          rw [evChecked, d2]
          show (e.str).bind _ = _
          rw [b2]; rfl
        rw [this]
        show (each evChecked (xs.map evText)).bind _ = _
        rw [a4]; rfl
      · intro hp x hx
        rcases List.mem_cons.1 hx with rfl | hx
        · have := hp e (by simp)
          rw [this] at b4
          exact b4
        · exact a5 (fun e he => hp e (by simp [he])) x hx
  obtain ⟨xs, a1, a2, a3, a4, a5⟩ := hall h.events ok.events
  have hne : xs ≠ [] := by
    rintro rfl
    exact ok.some (List.length_eq_zero_iff.1 a1.symm)
  refine ⟨ti, xs, ?_, ?_, c2, hnl.1, hne, a2, a5⟩
  · rw [History.str, c1]
    show (each Event.str h.events).bind _ = _
    rw [a3]; rfl
  · obtain ⟨m, e1, e2, e3⟩ := history_match ti xs hnl.2 hnl.1 hne a2
    rw [histParse, e1]
    simp only [tok_of_cap e2, tok_of_cap e3, c2, events_lex 1 xs a2]
    show (each evChecked (xs.map evText)).bind _ = _
    rw [a4]; rfl

/-- C56. A history of any number of events is printed and read back as the same history: no event is lost,
merged or reordered.  Missing: zero values of the I line (C37), shadowed layouts (C38), histories without
events. -/
theorem C56_history_partial (h : History) (ok : HistoryOk h) : ∃ s, h.str = .ok s ∧ histParse s = .ok h := by
  obtain ⟨ti, xs, h1, h2, -⟩ := historyOk_lines ok
  exact ⟨_, h1, h2⟩

example : HistoryOk ⟨⟨.num 17, ⟨64, by decide⟩, some (.num 3), none⟩, [exampleEvent, exampleEvent]⟩ := by
  refine ⟨⟨⟨17, rfl, by decide⟩, ⟨some 3, rfl, by decide⟩, ⟨none, rfl, by simp⟩⟩, by simp, ?_⟩
  have h : EventOk exampleEvent := ⟨.int (by decide) (.int (by decide) (.int (by decide) (.int (by decide) (.int (by decide) (.int (by decide) .nil))))),
    ⟨[⟨true, 12345, -2⟩, ⟨false, 0, -5⟩, ⟨false, 10000, -50⟩], rfl, rfl, by unfold Exact5; decide⟩⟩
  intro e he
  simp only [List.mem_cons, List.not_mem_nil, or_false, or_self] at he
  subst he
  exact ⟨h, rfl⟩

/-- C56 fails for a history without events: what it prints is not a history. -/
theorem C56_empty_violated : ∃ s, History.str ⟨⟨.num 17, ⟨0, by decide⟩, none, none⟩, []⟩ = .ok s ∧ histParse s = .error .ptrac :=
  ⟨c!"         17      1000\n", by decide +kernel⟩

/-! ## C57: rejected events -/

/-- C57 fails: a complete event with an unknown event type raises an `UnboundLocalError`. -/
theorem C57_unknown_code_violated :
    evParse c!"       1234         1         2         3         4\n   0.00000E+00  0.00000E+00  0.00000E+00\n" = .error .name ∧
    ¬ Err.name.isLibrary = true := by decide +kernel

/-- C57, in general: two lines of the right widths whose event type is unknown and whose P line can be read raise
an `UnboundLocalError`. -/
theorem C57_unknown_code (code nums p : Str) (l : PLine) (hc : code.length = 10 ∧ '\n' ∉ code)
    (hn : nums.length ∈ [40, 50, 60, 70] ∧ '\n' ∉ nums) (hu : ∀ e : EventType, strip code ≠ e.code)
    (hp : Shape pWidths p) (hl : firstOk [pParse 0, pParse 1] p = .ok (some l)) :
    evParse ((' ' :: (code ++ nums)) ++ '\n' :: (p ++ ['\n'])) = .error .name := by
  have hshape : Shape jWidths (' ' :: (code ++ nums)) := by
    refine ⟨' ', _, rfl, by decide, ?_, ?_⟩
    · intro h
      rcases List.mem_append.1 h with h | h
      · exact hc.2 h
      · exact hn.2 h
    · rw [List.length_append, hc.1]
      have := hn.1
      simp only [List.mem_cons, List.not_mem_nil, or_false, jWidths] at this ⊢
      omega
  have hfail : ∀ k, jParse k (' ' :: (code ++ nums)) = .error .ptrac := by
    intro k
    cases hm : reMatch (jRe k) (' ' :: (code ++ nums)) with
    | none => rw [jParse, hm]
    | some m =>
      rw [jParse, hm]
      have h1 : tok m 1 = code := by
        obtain ⟨st, s1, s2⟩ := reMatch_some hm
        unfold jRe lineRe at s1
        obtain ⟨a, ha, s1⟩ := step_seq.1 s1
        obtain ⟨rfl, -⟩ := step_bos.1 ha
        obtain ⟨b, hb, s1⟩ := step_seq.1 s1
        rw [Re.space, step_cls] at hb
        obtain ⟨x, y, -, hxy, rfl⟩ := hb
        cases hxy
        obtain ⟨d, hd, s1⟩ := step_seq.1 s1
        obtain ⟨rfl, -⟩ := step_eos.1 s1
        obtain ⟨w, e, g1, g2, -, g4⟩ := hd.mt (free_fields _ _)
        rw [fieldsRe] at g1
        cases g1 with
        | seq k1 k2 =>
          cases k1 with
          | grp k3 =>
            obtain ⟨q1, q2, rfl⟩ := mt_rep k3
            have hg := k2.groups (groups_fields _ _)
            simp only [List.append_assoc] at g2
            have := List.append_inj_left g2 (by rw [hc.1, q1])
            apply tok_of_cap
            rw [s2, cap_skip (by decide), g4, List.append_assoc, cap_app _ _ _ (fun x hx => by have := hg x hx; omega),
              List.cons_append, cap_hd, this]
      show (eventType (strip (tok m 1))).bind _ = _
      rw [h1, C50_event_codes_refuse _ hu]; rfl
  rw [evParse_lines hshape hp]
  have : firstOk [jParse 0, jParse 1, jParse 2, jParse 3, jParse 4, jParse 5, jParse 6, jParse 7] (' ' :: (code ++ nums)) = .ok none := by
    simp only [firstOk, hfail]
  rw [this]
  show (firstOk _ p).bind _ = _
  rw [hl]; rfl

/-! ## C41: event types -/

/-- The event type announced for event `k` of a history: by the I line for the first, by the event before for
the others. -/
def announced (h : History) : Nat → Option EventType
  | 0 => some h.i.event
  | k + 1 => (h.events[k]?).map (·.j.next)

/-- The class of an event type. -/
def classOf (e : EventType) : Kind :=
  if e.code = c!"1000" then .source
  else if e.code = c!"3000" then .surface
  else if e.code = c!"4000" then .collision
  else if e.code = c!"5000" then .terminal
  else .bank

/-- Events `0`, `1`, … of a history with their classes. -/
def classified (h : History) : List (Kind × Event) :=
  (List.range h.events.length).filterMap fun k =>
    match announced h k, h.events[k]? with
    | some t, some e => some (classOf t, e)
    | _, _ => none

theorem classified_cons (i : ILine) (e : Event) (es : List Event) :
    classified ⟨i, e :: es⟩ = (classOf i.event, e) :: classified ⟨{ i with event := e.j.next }, es⟩ := by
  unfold classified
  rw [List.length_cons, List.range_succ_eq_map, List.filterMap_cons]
  have : (match announced ⟨i, e :: es⟩ 0, (e :: es)[0]? with
    | some t, some e => some (classOf t, e)
    | _, _ => none) = some (classOf i.event, e) := rfl
  simp only
  rw [this]
  simp only
  rw [List.filterMap_map]
  congr 1
  congr 1
  funext k
  cases k <;> rfl

/-- C41, filters: the events kept are those whose check, chosen by the announced type, accepts them, in order. -/
theorem C41_filter (check : Kind → Event → Bool) (hs : List History) :
    filterFile check hs = hs.flatMap fun h => ((classified h).filter fun x => check x.1 x.2).map (·.2) := by
  have key : ∀ (es : List Event) (i : ILine), filterEvents check i.event es =
      ((classified ⟨i, es⟩).filter fun x => check x.1 x.2).map (·.2) := by
    intro es
    induction es with
    | nil => intro i; rfl
    | cons e es ih =>
      intro i
      rw [filterEvents, classified_cons, List.filter_cons]
      have := ih { i with event := e.j.next }
      simp only at this
      rw [this]
      show (if check (classOf i.event) e then _ else _) = _
      simp only
      split <;> rfl
  unfold filterFile
  induction hs with
  | nil => rfl
  | cons h hs ih => rw [List.flatMap_cons, List.flatMap_cons, ih, key h.events h.i]

/-- C41, processors: one call per event, in order, chosen by the announced type, between the two hooks. -/
theorem C41_processor (hs : List History) :
    processFile hs = .prehook :: (hs.flatMap (fun h => (classified h).map fun x => .process x.1 x.2) ++ [.posthook]) := by
  have key : ∀ (es : List Event) (i : ILine), processEvents i.event es =
      (classified ⟨i, es⟩).map fun x => .process x.1 x.2 := by
    intro es
    induction es with
    | nil => intro i; rfl
    | cons e es ih =>
      intro i
      rw [processEvents, classified_cons, List.map_cons]
      have := ih { i with event := e.j.next }
      simp only at this
      rw [this]; rfl
  unfold processFile
  congr 2
  induction hs with
  | nil => rfl
  | cons h hs ih => rw [List.flatMap_cons, List.flatMap_cons, ih, key h.events h.i]

/-- Two collisions after a source event: the second event is classified by the first. -/
example : (classified ⟨⟨.num 17, ⟨0, by decide⟩, none, none⟩, [exampleEvent, exampleEvent]⟩).map (·.1) = [.source, .collision] := by
  decide +kernel

/-- Every event is classified. -/
theorem C41_all (h : History) : (classified h).map (·.2) = h.events := by
  obtain ⟨i, es⟩ := h
  induction es generalizing i with
  | nil => rfl
  | cons e es ih => rw [classified_cons, List.map_cons, ih]

end Props
