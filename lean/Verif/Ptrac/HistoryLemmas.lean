import Verif.Ptrac.EventLemmas
/-! Helper lemmas: histories. -/
namespace Ptrac
open Py Types

theorem cap_app (l r : List (Nat × Str)) (k : Nat) (h : ∀ x ∈ l, x.1 ≠ k) : cap (l ++ r) k = cap r k := by
  induction l with
  | nil => rfl
  | cons x xs ih =>
    obtain ⟨a, b⟩ := x
    rw [List.cons_append, cap_skip (h (a, b) (by simp)), ih (fun x hx => h x (by simp [hx]))]

theorem groups_event (n : Nat) : (eventBody n).groupsIn n (n + 66) :=
  ⟨⟨Nat.le_refl _, by omega, (groups_j _).mono (by omega) (by omega)⟩, trivial,
    ⟨by omega, by omega, (groups_p _).mono (by omega) (by omega)⟩, trivial⟩

theorem mt_star_dot {w : Str} {e} (h : Mt (.star true .dot) w e) : '\n' ∉ w ∧ e = [] := by
  generalize hr : Re.star true Re.dot = r at h
  induction h with
  | starNil => exact ⟨by simp, rfl⟩
  | starCons hu h1 h2 ih1 ih2 =>
    cases hr
    obtain ⟨a, b⟩ := ih2 rfl
    cases h1 with
    | cls hc =>
      refine ⟨?_, by simp [b]⟩
      intro h
      rcases List.mem_append.1 h with h | h
      · rw [List.mem_singleton] at h
        subst h
        exact absurd hc (by decide)
      · exact a h
  | _ => cases hr

theorem mt_plus_dot {w : Str} {e} (h : Mt (Re.plus true .dot) w e) : '\n' ∉ w ∧ e = [] := by
  cases h with
  | seq k1 k2 =>
    cases k1 with
    | cls hc =>
      obtain ⟨k3, rfl⟩ := mt_star_dot k2
      refine ⟨fun h => ?_, rfl⟩
      rcases List.mem_append.1 h with h | h
      · rw [List.mem_singleton] at h
        subst h
        exact absurd hc (by decide)
      · exact k3 h

theorem star_dot_mt (w : Str) (h : '\n' ∉ w) : Mt (.star true .dot) w [] := by
  induction w with
  | nil => exact .starNil
  | cons c cs ih =>
    have hc : (c != '\n') = true := by
      simp only [List.mem_cons, not_or] at h
      simpa using fun e => h.1 e.symm
    exact .starCons (u := [c]) (e := []) (f := []) (by simp) (.cls hc) (ih (fun hc => h (List.mem_cons_of_mem _ hc)))

/-- The texts of two lines. -/
def evText (x : Str × Str) : Str := x.1 ++ '\n' :: (x.2 ++ ['\n'])

def EvShape (x : Str × Str) : Prop := Shape jWidths x.1 ∧ Shape pWidths x.2

theorem evText_ne (x : Str × Str) : evText x ≠ [] := by simp [evText]

theorem star_event_mt (n : Nat) (xs : List (Str × Str)) (h : ∀ x ∈ xs, EvShape x) :
    ∃ e, Mt (.star true (eventBody n)) (xs.map evText).flatten e := by
  induction xs with
  | nil => exact ⟨[], .starNil⟩
  | cons x xs ih =>
    obtain ⟨e, he⟩ := ih (fun x hx => h x (by simp [hx]))
    obtain ⟨f, hf⟩ := event_mt n (h x (by simp)).1 (h x (by simp)).2
    exact ⟨_, .starCons (evText_ne x) hf he⟩

/-- `History._REGEX` on a header line and events. -/
theorem history_match (t : Str) (xs : List (Str × Str)) (ht : t ≠ []) (hn : '\n' ∉ t) (hx : xs ≠ [])
    (h : ∀ x ∈ xs, EvShape x) :
    ∃ m, reMatch historyRe (t ++ '\n' :: (xs.map evText).flatten) = some m ∧ cap m 1 = some t ∧
      cap m 2 = some (xs.map evText).flatten := by
  have hfd : (Re.grp 1 (Re.plus true .dot)).free = true := rfl
  have hfe : (Re.grp 2 (Re.plus true (eventBody 3))).free = true := by
    simp [Re.free, Re.plus, free_event]
  have hsome : ∃ m, reMatch historyRe (t ++ '\n' :: (xs.map evText).flatten) = some m := by
    cases hm : reMatch historyRe (t ++ '\n' :: (xs.map evText).flatten) with
    | some m => exact ⟨m, rfl⟩
    | none =>
      exfalso
      have m1 : ∃ e, Mt (Re.grp 1 (Re.plus true .dot)) t e := by
        cases t with
        | nil => exact absurd rfl ht
        | cons c cs =>
          have hc : (c != '\n') = true := by
            simp only [List.mem_cons, not_or] at hn
            simpa using fun e => hn.1 e.symm
          exact ⟨_, .grp (.seq (u := [c]) (.cls hc) (star_dot_mt cs (fun hc => hn (List.mem_cons_of_mem _ hc))))⟩
      have m2 : ∃ e, Mt (Re.grp 2 (Re.plus true (eventBody 3))) (xs.map evText).flatten e := by
        cases xs with
        | nil => exact absurd rfl hx
        | cons x xs =>
          obtain ⟨e, he⟩ := star_event_mt 3 xs (fun x hx => h x (by simp [hx]))
          obtain ⟨f, hf⟩ := event_mt 3 (h x (by simp)).1 (h x (by simp)).2
          exact ⟨_, .grp (.seq hf he)⟩
      obtain ⟨e1, m1⟩ := m1
      obtain ⟨e2, m2⟩ := m2
      have s1 := m1.step [] ('\n' :: (xs.map evText).flatten) []
      have s2 := m2.step ('\n' :: t.reverse) [] e1
      simp only [List.append_nil] at s1 s2
      have := (run_spec historyRe _ _).1.1 hm _ (step_seq.2 ⟨_, step_bos.2 ⟨rfl, rfl⟩, step_seq.2 ⟨_, s1,
        step_seq.2 ⟨_, step_cls.2 ⟨'\n', _, by decide, rfl, rfl⟩, step_seq.2 ⟨_, s2, step_eos.2 ⟨rfl, rfl⟩⟩⟩⟩⟩)
      cases this
  obtain ⟨m, hm⟩ := hsome
  refine ⟨m, hm, ?_⟩
  obtain ⟨st, h1, h2⟩ := reMatch_some hm
  unfold historyRe at h1
  obtain ⟨a, ha, h1⟩ := step_seq.1 h1
  obtain ⟨rfl, -⟩ := step_bos.1 ha
  obtain ⟨b, hb, h1⟩ := step_seq.1 h1
  obtain ⟨c, hc, h1⟩ := step_seq.1 h1
  obtain ⟨d, hd, h1⟩ := step_seq.1 h1
  obtain ⟨rfl, hend⟩ := step_eos.1 h1
  obtain ⟨u, e, u1, u2, -, u4⟩ := hb.mt hfd
  rw [Re.chr, step_cls] at hc
  obtain ⟨y, ys, hy, y1, rfl⟩ := hc
  have := eq_of_beq hy
  subst this
  obtain ⟨v, f, v1, v2, -, v4⟩ := hd.mt hfe
  rw [hend, List.append_nil] at v2
  simp only at v2 v4 u2 u4
  subst v2
  rw [y1] at u2
  cases u1 with
  | grp u1 =>
    obtain ⟨hnu, rfl⟩ := mt_plus_dot u1
    obtain ⟨rfl, rfl⟩ := nl_split hn hnu u2
    cases v1 with
    | grp v1 =>
      have hg := v1.groups (lo := 3) (hi := 69) ⟨groups_event 3, groups_event 3⟩
      refine ⟨?_, ?_⟩
      · rw [h2, cap_skip (by decide), v4, u4, List.cons_append, cap_skip (by decide),
          cap_app _ _ _ (fun x hx => by have := hg x hx; omega)]
        rw [List.cons_append, cap_hd]
      · rw [h2, cap_skip (by decide), v4, List.cons_append, cap_hd]

/-- `re.finditer` splits the events. -/
theorem events_lex (n : Nat) (xs : List (Str × Str)) (h : ∀ x ∈ xs, EvShape x) :
    finditer (eventBody n) (xs.map evText).flatten = xs.map evText := by
  apply finditer_lexes
  induction xs with
  | nil => trivial
  | cons x xs ih =>
    refine ⟨evText_ne x, ?_, ih (fun x hx => h x (by simp [hx]))⟩
    intro prev k hk
    have hx := h x (by simp)
    obtain ⟨e, he⟩ := event_mt n hx.1 hx.2
    have hs := he.step prev (xs.map evText).flatten []
    cases hr : run (eventBody n) ⟨prev, evText x ++ (xs.map evText).flatten, []⟩ (findK k) with
    | none =>
      have := (run_spec (eventBody n) _ _).1.1 hr _ hs
      rw [findK_ok hk] at this; cases this
    | some y =>
      obtain ⟨st, h1, h2⟩ := (run_spec (eventBody n) _ _).2 y hr
      have hy : y = st := by
        unfold findK at h2
        split at h2
        · exact (Option.some.inj h2).symm
        · cases h2
      subst hy
      obtain ⟨w, f, g1, g2, g3, g4⟩ := h1.mt (free_event n)
      obtain ⟨j', p', eJ, eP, k1, k2, k3, -, -⟩ := mt_event g1
      simp only at g2 g3 g4
      rw [k1] at g2
      obtain ⟨rfl, rfl, hrest⟩ := event_unique hx.1 hx.2 k2 k3 g2
      refine ⟨y.caps, ?_⟩
      cases y with
      | mk a b c =>
        simp only at hrest g3
        subst hrest
        rw [k1] at g3
        rw [g3]; rfl

theorem each_ok {α β : Type} (f : α → Res β) (xs : List α) (ys : List β) (hl : xs.length = ys.length)
    (h : ∀ i (h : i < xs.length) (h' : i < ys.length), f xs[i] = .ok ys[i]) : each f xs = .ok ys := by
  induction xs generalizing ys with
  | nil => cases ys with
    | nil => rfl
    | cons y ys => simp at hl
  | cons x xs ih =>
    cases ys with
    | nil => simp at hl
    | cons y ys =>
      rw [each]
      have a := h 0 (by simp) (by simp)
      simp only [List.getElem_cons_zero] at a
      rw [a]
      have b := ih ys (by simpa using hl) (fun i hi hi' => by
        have := h (i + 1) (by simpa using hi) (by simpa using hi')
        simpa using this)
      show (each f xs).bind _ = _
      rw [b]; rfl

end Ptrac
