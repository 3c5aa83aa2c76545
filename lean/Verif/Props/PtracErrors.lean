import Verif.Ptrac.ErrLemmas
import Verif.Py.TmplLemmas
/-!
# Which exceptions reading PTRAC text raises (C57)

The full statement of C57 is that only library errors are raised.  It fails in three ways, each of which has a witness below; the
partial theorems say that there is no other way, for every text.
-/
namespace Props
open Py Types Ptrac

/-- The text holds a field of width `w` that reads as infinity or as not-a-number. -/
def HasSpecial (w : Nat) (s : Str) : Prop :=
  ∃ t, t <:+: s ∧ t.length = w ∧ ∃ d, realParse t = .ok (.num d) ∧ ∀ f, d ≠ .fin f

/-- The text holds a field of width `w` that reads as a shorthand (`2r`, `3i`, …). -/
def HasShorthand (w : Nat) (s : Str) : Prop :=
  ∃ t, t <:+: s ∧ t.length = w ∧ ∃ h, realParse t = .ok (.hor h)

/-- The text holds a field of width 10 that is not the code of an event type. -/
def HasUnknownCode (s : Str) : Prop := ∃ t, t <:+: s ∧ t.length = 10 ∧ ∀ c ∈ codes, strip t ≠ c

theorem HasSpecial.mono {w : Nat} {s s' : Str} (h : HasSpecial w s) (hs : s <:+: s') : HasSpecial w s' := by
  obtain ⟨t, h1, h2⟩ := h; exact ⟨t, h1.trans hs, h2⟩

theorem HasShorthand.mono {w : Nat} {s s' : Str} (h : HasShorthand w s) (hs : s <:+: s') : HasShorthand w s' := by
  obtain ⟨t, h1, h2⟩ := h; exact ⟨t, h1.trans hs, h2⟩

theorem HasUnknownCode.mono {s s' : Str} (h : HasUnknownCode s) (hs : s <:+: s') : HasUnknownCode s' := by
  obtain ⟨t, h1, h2⟩ := h; exact ⟨t, h1.trans hs, h2⟩

/-- The exceptions of a line with integers. -/
def LineErr (s : Str) (e : Err) : Prop :=
  (e = .ptrac ∨ e = .types) ∨ (e = .overflow ∨ e = .value) ∧ HasSpecial 10 s

theorem LineErr.mono {s s' : Str} {e : Err} (h : LineErr s e) (hs : s <:+: s') : LineErr s' e := by
  rcases h with h | ⟨h1, h2⟩
  · exact .inl h
  · exact .inr ⟨h1, h2.mono hs⟩

/-- Reading any text as a J line gives an object, a library error or, if a field of the text reads as infinity or not-a-number,
an `OverflowError` or `ValueError`. Missing: that these exceptions do not occur, which is false (`C57_special_violated`). -/
theorem C57_j_partial (k : Fin 8) (s : Str) (e : Err) (h : jParse k s = .error e) : LineErr s e := by
  revert e
  show Out (LineErr s) _
  unfold jParse
  split
  · exact .err (.inl (.inl rfl))
  · rename_i m hm
    refine .bind (x := eventType (strip (tok m 1))) ((out_eventType _).mono fun e h => .inl (.inl h.1)) fun ev _ =>
      .bind (x := readNums m 2 (jTys k)) ((out_nums (by decide) _ 2 (s := s) (w := 10) ?_).mono ?_) fun _ _ => .ok _
    · intro n h1 h2
      exact line_field hm (by intro x hx; simp only [List.mem_cons, List.mem_map] at hx; rcases hx with rfl | ⟨_, _, rfl⟩ <;> rfl) n (by omega)
        (by simp; omega)
    · rintro e (h | ⟨h, t, ht, hs⟩)
      · exact .inl (.inr h)
      · exact .inr ⟨h, t, ht.part, ht.width, hs⟩

/-- Reading any text as a P line gives an object or a library error. -/
theorem C57_p (k : Fin 2) (s : Str) (e : Err) (h : pParse k s = .error e) : e = .ptrac ∨ e = .types := by
  revert e
  show Out (fun e => e = .ptrac ∨ e = .types) _
  unfold pParse
  split
  · exact .err (.inl rfl)
  · rename_i m hm
    refine .bind (x := readReals m 1 (pSize k)) ((out_reals (by decide) _ 1 (s := s) (w := 13) ?_).mono fun e h => .inr h) fun _ _ => .ok _
    intro n h1 h2
    exact line_field hm (by intro x hx; exact List.eq_of_mem_replicate hx) n (by omega) (by simp; omega)

theorem iRe_must : iRe.must 1 = true ∧ iRe.must 2 = true := by decide

/-- Reading any text as an I line: as for J lines. Missing: as for J lines. -/
theorem C57_i_partial (s : Str) (e : Err) (h : iParse s = .error e) : LineErr s e := by
  revert e
  show Out (LineErr s) _
  unfold iParse
  split
  · exact .err (.inl (.inl rfl))
  · rename_i m hm
    have h1 := tok_field hm 1 10 (by decide) (by decide) (by decide)
    have hint : ∀ {t}, Field s 10 t → Out (LineErr s) (intParse t) := by
      intro t ht
      refine (out_int (ht.ne (by decide))).mono ?_
      rintro e (h | ⟨h, hs⟩)
      · exact .inl (.inr h)
      · exact .inr ⟨h, t, ht.part, ht.width, hs⟩
    refine .bind (x := intParse (tok m 1)) (hint h1) fun nps _ =>
      .bind (x := eventType (strip (tok m 2))) ((out_eventType _).mono fun e h => .inl (.inl h.1)) fun ev _ =>
      .bind (x := optParse intParse (cap m 3)) ?_ fun number _ =>
      .bind (x := optParse realParse (cap m 4)) ?_ fun tfc _ => .ok _
    · unfold optParse
      split
      · exact .ok _
      · rename_i u hu
        split
        · exact .ok _
        · exact .map (hint (cap_field hm 3 10 (by decide) (by decide) hu))
    · unfold optParse
      split
      · exact .ok _
      · rename_i u hu
        split
        · exact .ok _
        · rename_i hne
          exact .map ((out_real hne).mono fun e h => .inl (.inr h))

/-- The exceptions of an event. -/
def EventErr (s : Str) (e : Err) : Prop := LineErr s e ∨ e = .name ∧ HasUnknownCode s

theorem EventErr.mono {s s' : Str} {e : Err} (h : EventErr s e) (hs : s <:+: s') : EventErr s' e := by
  rcases h with h | ⟨h1, h2⟩
  · exact .inl (h.mono hs)
  · exact .inr ⟨h1, h2.mono hs⟩

/-- The two lines of a text that is matched by the pattern of an event. -/
theorem event_lines {s : Str} {m} (h : reMatch eventRe s = some m) : ∃ j p, s = j ++ '\n' :: (p ++ ['\n']) ∧ Shape jWidths j ∧
    Shape pWidths p := by
  obtain ⟨e, he, -⟩ := full_match (free_event 1) h
  obtain ⟨j, p, -, -, h1, h2, h3, -⟩ := mt_event he
  exact ⟨j, p, h1, h2, h3⟩

theorem j_unknown {j : Str} (hj : Shape jWidths j) (h : ∀ k, jParse k j = .error .ptrac) : HasUnknownCode j := by
  have : ∃ k : Fin 8, Shape [(10 :: (jTys k).map (fun _ => 10)).sum] j := by
    obtain ⟨c, u, h1, h2, h3, h4⟩ := hj
    simp only [jWidths, List.mem_cons, List.not_mem_nil, or_false] at h4
    rcases h4 with h4 | h4 | h4 | h4
    · exact ⟨0, c, u, h1, h2, h3, by rw [h4]; decide⟩
    · exact ⟨1, c, u, h1, h2, h3, by rw [h4]; decide⟩
    · exact ⟨3, c, u, h1, h2, h3, by rw [h4]; decide⟩
    · exact ⟨7, c, u, h1, h2, h3, by rw [h4]; decide⟩
  obtain ⟨k, hk⟩ := this
  obtain ⟨m, hm⟩ := line_some _ hk
  have hp := h k
  unfold jParse at hp
  rw [show jRe k = lineRe (10 :: (jTys k).map (fun _ => 10)) from rfl, hm] at hp
  change (eventType (strip (tok m 1))).bind _ = _ at hp
  have hfield : ∀ n, 1 ≤ n → n ≤ (10 :: (jTys k).map (fun _ => 10)).length → Field j 10 (tok m n) := fun n h1 h2 =>
    line_field hm (by intro x hx; simp only [List.mem_cons, List.mem_map] at hx; rcases hx with rfl | ⟨_, _, rfl⟩ <;> rfl) n h1 h2
  cases hev : eventType (strip (tok m 1)) with
  | error e =>
    obtain ⟨-, hu⟩ := out_eventType _ e hev
    have hf := hfield 1 (by omega) (by simp)
    refine ⟨_, hf.part, hf.width, fun c hc => ?_⟩
    obtain ⟨i, hi, rfl⟩ := List.mem_iff_getElem.1 hc
    exact hu ⟨i, hi⟩
  | ok ev =>
    rw [hev] at hp
    change (readNums m 2 (jTys k)).bind _ = _ at hp
    cases hn : readNums m 2 (jTys k) with
    | ok vs => rw [hn] at hp; cases hp
    | error e =>
      rw [hn] at hp
      cases hp
      have := out_nums (m := m) (s := j) (w := 10) (by decide) (jTys k) 2 (fun n h1 h2 => hfield n (by omega) (by simp; omega)) _ hn
      rcases this with h | ⟨h | h, -⟩ <;> cases h

theorem p_some {p : Str} (hp : Shape pWidths p) : firstOk [pParse 0, pParse 1] p ≠ .ok none := by
  intro h
  have h := firstOk_none h
  have : ∃ k : Fin 2, Shape [(List.replicate (pSize k) 13).sum] p := by
    obtain ⟨c, u, h1, h2, h3, h4⟩ := hp
    simp only [pWidths, List.mem_cons, List.not_mem_nil, or_false] at h4
    rcases h4 with h4 | h4
    · exact ⟨0, c, u, h1, h2, h3, by rw [h4]; decide⟩
    · exact ⟨1, c, u, h1, h2, h3, by rw [h4]; decide⟩
  obtain ⟨k, hk⟩ := this
  obtain ⟨m, hm⟩ := line_some _ hk
  have hpk : pParse k p = .error .ptrac := by
    match k with
    | 0 => exact h _ (by simp)
    | 1 => exact h _ (by simp)
  unfold pParse at hpk
  rw [show pRe k = lineRe (List.replicate (pSize k) 13) from rfl, hm] at hpk
  change (readReals m 1 (pSize k)).bind _ = _ at hpk
  cases hn : readReals m 1 (pSize k) with
  | ok vs => rw [hn] at hpk; cases hpk
  | error e =>
    rw [hn] at hpk
    cases hpk
    have := out_reals (m := m) (s := p) (w := 13) (by decide) (pSize k) 1
      (fun n h1 h2 => line_field hm (by intro x hx; exact List.eq_of_mem_replicate hx) n (by omega) (by simp; omega)) _ hn
    cases this

/-- Reading any text as an event gives an object, a library error, an `OverflowError` or `ValueError` if a field of the text
reads as infinity or not-a-number, or an `UnboundLocalError` if the code of an event is unknown. Missing: that these
exceptions do not occur, which is false (`C57_special_violated`, `C57_unknown_code_violated`). -/
theorem C57_event_partial (s : Str) (e : Err) (h : evParse s = .error e) : EventErr s e := by
  cases hm : reMatch eventRe s with
  | none =>
    unfold evParse at h
    rw [hm] at h
    cases h
    exact .inl (.inl (.inl rfl))
  | some m =>
    obtain ⟨j, p, rfl, hj, hp⟩ := event_lines hm
    have ij : j <:+: j ++ '\n' :: (p ++ ['\n']) := (List.prefix_append _ _).isInfix
    rw [evParse_lines hj hp] at h
    cases hx : firstOk [jParse 0, jParse 1, jParse 2, jParse 3, jParse 4, jParse 5, jParse 6, jParse 7] j with
    | error e' =>
      rw [hx] at h
      cases h
      obtain ⟨f, hf, he⟩ := firstOk_err hx
      simp only [List.mem_cons, List.not_mem_nil, or_false] at hf
      rcases hf with rfl | rfl | rfl | rfl | rfl | rfl | rfl | rfl <;> exact .inl ((C57_j_partial _ _ _ he).mono ij)
    | ok x =>
      rw [hx] at h
      change (firstOk [pParse 0, pParse 1] p).bind _ = _ at h
      cases hy : firstOk [pParse 0, pParse 1] p with
      | error e' =>
        rw [hy] at h
        cases h
        obtain ⟨f, hf, he⟩ := firstOk_err hy
        simp only [List.mem_cons, List.not_mem_nil, or_false] at hf
        rcases hf with rfl | rfl <;> exact .inl (.inl (C57_p _ _ _ he))
      | ok y =>
        rw [hy] at h
        change mkEvent x y = _ at h
        match x, y with
        | some _, some _ => cases h
        | _, none => exact absurd hy (p_some hp)
        | none, some _ =>
          cases h
          refine .inr ⟨rfl, (j_unknown hj fun k => ?_).mono ij⟩
          have := firstOk_none hx
          match k with
          | 0 | 1 | 2 | 3 | 4 | 5 | 6 | 7 => exact this _ (by simp)

/-- The hypotheses of `C57_event_partial` can be met in each way. -/
example :
    evParse c!"x" = .error .ptrac ∧
    evParse c!"       4000         x         2         3         4\n   0.00000E+00  0.00000E+00  0.00000E+00\n" = .error .types ∧
    evParse c!"       4000       inf         2         3         4\n   0.00000E+00  0.00000E+00  0.00000E+00\n" = .error .overflow ∧
    evParse c!"       4000       nan         2         3         4\n   0.00000E+00  0.00000E+00  0.00000E+00\n" = .error .value := by
  decide +kernel

/-! ### Histories -/

/-- The exceptions of a history. -/
def HistoryErr (s : Str) (e : Err) : Prop := EventErr s e ∨ e = .attribute ∧ HasShorthand 13 s

theorem HistoryErr.mono {s s' : Str} {e : Err} (h : HistoryErr s e) (hs : s <:+: s') : HistoryErr s' e := by
  rcases h with h | ⟨h1, h2⟩
  · exact .inl (h.mono hs)
  · exact .inr ⟨h1, h2.mono hs⟩

theorem p_from {k : Fin 2} {p : Str} {l : PLine} (h : pParse k p = .ok l) : ∀ v ∈ l.nums, ∃ t, Field p 13 t ∧ realParse t = .ok v := by
  unfold pParse at h
  split at h
  · cases h
  · rename_i m hm
    change (readReals m 1 (pSize k)).bind _ = _ at h
    cases hn : readReals m 1 (pSize k) with
    | error e => rw [hn] at h; cases h
    | ok vs =>
      rw [hn] at h
      cases h
      exact reals_from _ 1 vs
        (fun n h1 h2 => line_field hm (by intro x hx; exact List.eq_of_mem_replicate hx) n (by omega) (by simp; omega)) hn

theorem out_fmt (w p : Nat) (vs : List RealVal) : Out (fun e => e = .attribute ∧ ∃ h, RealVal.hor h ∈ vs) (fmtAll w p vs) := by
  induction vs with
  | nil => exact .ok _
  | cons v vs ih =>
    refine .bind (x := realFmt w p v) ?_ fun _ _ => .bind (x := fmtAll w p vs) (ih.mono ?_) fun _ _ => .ok _
    · match v with
      | .hor h => exact .err ⟨rfl, h, by simp⟩
      | .num d =>
        simp only [realFmt]
        intro e he
        split at he <;> cases he
    · rintro e ⟨h, x, hx⟩
      exact ⟨h, x, by simp [hx]⟩

/-- The coordinates of an event that was read come from fields of the text. -/
theorem ev_from {s : Str} {ev : Event} (h : evParse s = .ok ev) : ∀ v ∈ ev.p.nums, ∃ t, Field s 13 t ∧ realParse t = .ok v := by
  cases hm : reMatch eventRe s with
  | none => unfold evParse at h; rw [hm] at h; cases h
  | some m =>
    obtain ⟨j, p, rfl, hj, hp⟩ := event_lines hm
    have ip : p <:+: j ++ '\n' :: (p ++ ['\n']) := ⟨j ++ ['\n'], ['\n'], by simp⟩
    rw [evParse_lines hj hp] at h
    cases hx : firstOk [jParse 0, jParse 1, jParse 2, jParse 3, jParse 4, jParse 5, jParse 6, jParse 7] j with
    | error e' => rw [hx] at h; cases h
    | ok x =>
      rw [hx] at h
      change (firstOk [pParse 0, pParse 1] p).bind _ = _ at h
      cases hy : firstOk [pParse 0, pParse 1] p with
      | error e' => rw [hy] at h; cases h
      | ok y =>
        rw [hy] at h
        change mkEvent x y = _ at h
        match x, y with
        | some a, some b =>
          cases h
          obtain ⟨f, hf, he⟩ := firstOk_some hy
          intro v hv
          simp only [List.mem_cons, List.not_mem_nil, or_false] at hf
          rcases hf with rfl | rfl <;>
          · obtain ⟨t, ht, h⟩ := p_from he v hv
            exact ⟨t, ⟨ht.part.trans ip, ht.width⟩, h⟩
        | some _, none => cases h
        | none, some _ => cases h
        | none, none => cases h

theorem out_evstr {s : Str} {ev : Event} (h : evParse s = .ok ev) : Out (fun e => e = .attribute ∧ HasShorthand 13 s) ev.str := by
  refine .bind (x := ev.p.str) (.bind (x := fmtAll 5 1 ev.p.nums) ((out_fmt _ _ _).mono ?_) fun _ _ => .ok _) fun _ _ => .ok _
  rintro e ⟨he, x, hx⟩
  obtain ⟨t, ht, hr⟩ := ev_from h _ hx
  exact ⟨he, t, ht.part, ht.width, x, hr⟩

/-- Reading any text as a history: as for events, and an `AttributeError` if a coordinate reads as a shorthand. Missing: as
for events. -/
theorem C57_history_partial (s : Str) (e : Err) (h : histParse s = .error e) : HistoryErr s e := by
  revert e
  show Out (HistoryErr s) _
  unfold histParse
  split
  · exact .err (.inl (.inl (.inl (.inl rfl))))
  · rename_i m hm
    refine .bind (x := iParse (tok m 1)) (fun e he => .inl (.inl ((C57_i_partial _ _ he).mono (tok_infix hm 1)))) fun i _ =>
      .bind (x := each evChecked _) (out_each _ fun t ht => ?_) fun _ _ => .ok _
    have hi := (finditer_infix ht).1.trans (tok_infix hm 2)
    refine .bind (x := evParse t) (fun e he => .inl ((C57_event_partial _ _ he).mono hi)) fun ev hev =>
      .bind (x := ev.str) ((out_evstr hev).mono fun e h => .inr ⟨h.1, h.2.mono hi⟩) fun _ _ => .ok _

/-- C57 fails: a history with a shorthand coordinate raises an `AttributeError`. -/
theorem C57_shorthand_violated :
    histParse c!"         17      1000\n       4000         1         2         3         4\n 000000000002r  0.00000E+00  0.00000E+00\n" =
      .error .attribute ∧ ¬ Err.attribute.isLibrary = true := by decide +kernel

/-- C57 fails: infinities and not-a-numbers in integer fields raise `OverflowError` and `ValueError`. -/
theorem C57_special_violated :
    jParse 0 c!"       4000       inf         2         3         4" = .error .overflow ∧
    jParse 0 c!"       4000       nan         2         3         4" = .error .value ∧
    iParse c!"        inf      1000" = .error .overflow ∧
    ¬ Err.overflow.isLibrary = true ∧ ¬ Err.value.isLibrary = true := by decide +kernel

/-! ### Headers and files -/

/-- The exceptions of a header. -/
def HeaderErr (s : Str) (e : Err) : Prop := (e = .ptrac ∨ e = .types) ∨ (e = .overflow ∨ e = .value) ∧ HasSpecial 5 s

theorem HeaderErr.mono {s s' : Str} {e : Err} (h : HeaderErr s e) (hs : s <:+: s') : HeaderErr s' e := by
  rcases h with h | ⟨h1, h2⟩
  · exact .inl h
  · exact .inr ⟨h1, h2.mono hs⟩

/-- Reading any text as a V block gives numbers or a library error. -/
theorem C57_v (s : Str) (e : Err) (h : vParse s = .error e) : e = .ptrac ∨ e = .types := by
  revert e
  show Out (fun e => e = .ptrac ∨ e = .types) _
  unfold vParse
  split
  · exact .err (.inl rfl)
  · exact out_each _ fun t ht => (out_real (finditer_infix ht).2).mono fun e h => .inr h

/-- Reading any text as an N block gives numbers, a library error or, if a field of the text reads as infinity or not-a-number,
an `OverflowError` or `ValueError`. Missing: as for J lines. -/
theorem C57_n_partial (s : Str) (e : Err) (h : nParse s = .error e) : HeaderErr s e := by
  revert e
  show Out (HeaderErr s) _
  unfold nParse
  split
  · exact .err (.inl (.inl rfl))
  · rename_i m hm
    refine (out_ints (s := s) (w := 5) (by decide) 20 1 ?_).mono ?_
    · intro k h1 h2
      apply tok_field hm k 5 (by omega)
      · have := fields_must k 1 (List.replicate 20 5) h1 (by simpa using h2)
        simp [nRe, Re.must] at this ⊢
        exact .inr (.inl this)
      · have := fields_width k 5 1 (List.replicate 20 5) (fun x hx => List.eq_of_mem_replicate hx)
        simp [nRe, Re.groupsAll, Re.space, Re.chr] at this ⊢
        exact this
    · rintro e (h | ⟨h, t, ht, hs⟩)
      · exact .inl (.inr h)
      · exact .inr ⟨h, t, ht.part, ht.width, hs⟩

/-- Reading any text as an L block gives numbers or a library error: a number between blanks is never infinite. -/
theorem C57_l (s : Str) (e : Err) (h : lParse s = .error e) : e = .ptrac ∨ e = .types := by
  revert e
  show Out (fun e => e = .ptrac ∨ e = .types) _
  unfold lParse
  split
  · exact .err (.inl rfl)
  · rename_i m hm
    refine out_each _ fun t ht => (out_int (finditer_infix ht).2).mono ?_
    rintro e (h | ⟨-, hs⟩)
    · exact .inr h
    · exact absurd hs (num_not_special ht)

/-- Reading any text as a header. Missing: as for J lines. -/
theorem C57_header_partial (s : Str) (e : Err) (h : headerParse s = .error e) : HeaderErr s e := by
  revert e
  show Out (HeaderErr s) _
  unfold headerParse
  split
  · exact .err (.inl (.inl rfl))
  · rename_i m hm
    refine .bind (x := vParse (tok m 6)) (fun e he => .inl (C57_v _ _ he)) fun v _ =>
      .bind (x := nParse (tok m 7)) (fun e he => (C57_n_partial _ _ he).mono (tok_infix hm 7)) fun n _ =>
      .bind (x := lParse (tok m 8)) (fun e he => .inl (C57_l _ _ he)) fun l _ => .ok _

/-- The exceptions of a file. -/
def FileErr (s : Str) (e : Err) : Prop :=
  HeaderErr s e ∨ EventErr s e ∨ e = .attribute ∧ (HasShorthand 10 s ∨ HasShorthand 13 s)

theorem hor_real {t : Str} {h} (hi : intParse t = .ok (.hor h)) : realParse t = .ok (.hor h) := by
  unfold intParse at hi
  unfold realParse
  split at hi
  · cases hi; rfl
  · split at hi
    · cases hi
    · split at hi <;> cases hi
  · cases hi

theorem out_istr {s : Str} {i : ILine} (h : iParse s = .ok i) :
    Out (fun e => e = .attribute ∧ (HasShorthand 10 s ∨ HasShorthand 13 s)) i.str := by
  unfold iParse at h
  split at h
  · cases h
  · rename_i m hm
    change (intParse (tok m 1)).bind _ = _ at h
    cases h1 : intParse (tok m 1) with
    | error e => rw [h1] at h; cases h
    | ok nps =>
      rw [h1] at h
      change (eventType (strip (tok m 2))).bind _ = _ at h
      cases h2 : eventType (strip (tok m 2)) with
      | error e => rw [h2] at h; cases h
      | ok ev =>
        rw [h2] at h
        change (optParse intParse (cap m 3)).bind _ = _ at h
        cases h3 : optParse intParse (cap m 3) with
        | error e => rw [h3] at h; cases h
        | ok number =>
          rw [h3] at h
          change (optParse realParse (cap m 4)).bind _ = _ at h
          cases h4 : optParse realParse (cap m 4) with
          | error e => rw [h4] at h; cases h
          | ok tfc =>
            rw [h4] at h
            cases h
            have from4 : ∀ x, tfc = some (.hor x) → HasShorthand 13 s := by
              rintro x rfl
              cases hc : cap m 4 with
              | none => rw [hc] at h4; cases h4
              | some u =>
                have hf := cap_field hm 4 13 (by decide) (by decide) hc
                rw [hc, optParse, if_neg (hf.ne (by decide))] at h4
                cases hr : realParse u with
                | error e => rw [hr] at h4; cases h4
                | ok v => rw [hr] at h4; cases h4; exact ⟨u, hf.part, hf.width, x, hr⟩
            have from3 : ∀ x, number = some (.hor x) → HasShorthand 10 s := by
              rintro x rfl
              cases hc : cap m 3 with
              | none => rw [hc] at h3; cases h3
              | some u =>
                have hf := cap_field hm 3 10 (by decide) (by decide) hc
                rw [hc, optParse, if_neg (hf.ne (by decide))] at h3
                cases hr : intParse u with
                | error e => rw [hr] at h3; cases h3
                | ok v => rw [hr] at h3; cases h3; exact ⟨u, hf.part, hf.width, x, hor_real hr⟩
            refine .bind (x := tfcText tfc) ?_ fun _ _ => .bind (x := numberText number) ?_ fun _ _ => .ok _
            · match tfc, from4 with
              | none, _ => exact .ok _
              | some (.hor x), h => exact .err ⟨rfl, .inr (h x rfl)⟩
              | some (.num d), _ =>
                refine .bind (x := realTrue (.num d)) ?_ fun b _ => ?_
                · cases d <;> exact .ok _
                · cases b
                  · exact .ok _
                  · refine .bind (x := realFmt 5 0 (.num d)) ?_ fun _ _ => .ok _
                    simp only [realFmt]
                    intro e he
                    split at he <;> cases he
            · match number, from3 with
              | none, _ => exact .ok _
              | some (.hor x), h => exact .err ⟨rfl, .inl (h x rfl)⟩
              | some (.num d), _ => exact .bind (x := intTrue (.num d)) (.ok _) fun _ _ => .ok _

theorem out_histstr {s : Str} {h : History} (hp : histParse s = .ok h) :
    Out (fun e => e = .attribute ∧ (HasShorthand 10 s ∨ HasShorthand 13 s)) h.str := by
  unfold histParse at hp
  split at hp
  · cases hp
  · rename_i m hm
    change (iParse (tok m 1)).bind _ = _ at hp
    cases h1 : iParse (tok m 1) with
    | error e => rw [h1] at hp; cases hp
    | ok i =>
      rw [h1] at hp
      change (each evChecked (finditer (eventBody 1) (tok m 2))).bind _ = _ at hp
      cases h2 : each evChecked (finditer (eventBody 1) (tok m 2)) with
      | error e => rw [h2] at hp; cases hp
      | ok es =>
        rw [h2] at hp
        cases hp
        refine .bind (x := i.str) ((out_istr h1).mono ?_) fun _ _ => .bind (x := each Event.str es) (out_each _ fun ev hev => ?_) fun _ _ => .ok _
        · rintro e ⟨h, h' | h'⟩
          · exact ⟨h, .inl (h'.mono (tok_infix hm 1))⟩
          · exact ⟨h, .inr (h'.mono (tok_infix hm 1))⟩
        · obtain ⟨t, ht, he⟩ := each_from _ _ h2 ev hev
          change (evParse t).bind _ = _ at he
          cases h3 : evParse t with
          | error e => rw [h3] at he; cases he
          | ok ev' =>
            rw [h3] at he
            change (Event.str ev').bind _ = _ at he
            cases h4 : Event.str ev' with
            | error e => rw [h4] at he; cases he
            | ok x =>
              rw [h4] at he
              cases he
              exact (out_evstr h3).mono fun e h => ⟨h.1, .inr (h.2.mono ((finditer_infix ht).1.trans (tok_infix hm 2)))⟩

/-- Reading any text as a PTRAC file gives an object or a library error, unless a piece of the text reads as infinity,
not-a-number or a shorthand, or an event code is unknown. Missing: that these exceptions do not occur, which is false
(`C57_special_violated`, `C57_shorthand_violated`). -/
theorem C57_file_partial (s : Str) (e : Err) (h : fileParse s = .error e) : FileErr s e := by
  revert e
  show Out (FileErr s) _
  unfold fileParse
  split
  · exact .err (.inl (.inl (.inl rfl)))
  · rename_i m hm
    refine .bind (x := headerParse (tok m 1)) (fun e he => .inl ((C57_header_partial _ _ he).mono (tok_infix hm 1))) fun hd _ =>
      .bind (x := each histParse _) (out_each _ fun t ht e he => ?_) fun hs hhs => .bind (x := each History.str hs) (out_each _ fun x hx => ?_) fun _ _ => .ok _
    · have hi := (finditer_infix ht).1.trans (tok_infix hm 2)
      rcases (C57_history_partial _ _ he).mono hi with h | ⟨h1, h2⟩
      · exact .inr (.inl h)
      · exact .inr (.inr ⟨h1, .inr h2⟩)
    · obtain ⟨t, ht, he⟩ := each_from _ _ hhs x hx
      have hi := (finditer_infix ht).1.trans (tok_infix hm 2)
      refine (out_histstr he).mono ?_
      rintro e ⟨h, h' | h'⟩
      · exact .inr (.inr ⟨h, .inl (h'.mono hi)⟩)
      · exact .inr (.inr ⟨h, .inr (h'.mono hi)⟩)

/-- The hypotheses of `C57_header_partial` and `C57_file_partial` can be met. -/
example : headerParse c!"x" = .error .ptrac ∧ Ptrac.fileParse c!"   -1\n" = .error .ptrac ∧ vParse c!"..  .\n" = .error .types ∧
    lParse c!"   --\n" = .error .types := by decide +kernel

end Props
