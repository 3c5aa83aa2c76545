import Verif.Py.Regex
/-! # Meta-theory of the matcher

`Step r st st'` is the nondeterministic "r can take st to st'" relation; `run`
returns nothing iff the continuation fails on every reachable state, and any
result comes from a reachable state. -/
namespace Py

inductive Step : Re → St → St → Prop where
  | eps (st) : Step .eps st st
  | cls (p c cs prev caps) (h : p c = true) :
      Step (.cls p) ⟨prev, c :: cs, caps⟩ ⟨c :: prev, cs, caps⟩
  | seq (a b s1 s2 s3) (h1 : Step a s1 s2) (h2 : Step b s2 s3) : Step (.seq a b) s1 s3
  | altL (a b s1 s2) (h : Step a s1 s2) : Step (.alt a b) s1 s2
  | altR (a b s1 s2) (h : Step b s1 s2) : Step (.alt a b) s1 s2
  | optNone (g a st) : Step (.opt g a) st st
  | optSome (g a s1 s2) (h : Step a s1 s2) : Step (.opt g a) s1 s2
  | starNil (g a st) : Step (.star g a) st st
  | starCons (g a s1 s2 s3) (h1 : Step a s1 s2) (hl : s2.rest.length < s1.rest.length)
      (h2 : Step (.star g a) s2 s3) : Step (.star g a) s1 s3
  | grp (n a s1 s2) (h : Step a s1 s2) :
      Step (.grp n a) s1
        { s2 with caps := (n, s1.rest.take (s1.rest.length - s2.rest.length)) :: s2.caps }
  | bos (st) (h : st.prev = []) : Step .bos st st
  | eos (st) (h : st.rest = []) : Step .eos st st
  | behind (pos s st) (h : (s.reverse.isPrefixOf st.prev) = pos) : Step (.behind pos s) st st

/-- Specification of one matcher: exactly the reachable states matter. -/
def Spec {α : Type} (f : St → (St → Option α) → Option α) (R : St → St → Prop) : Prop :=
  ∀ st k, (f st k = none ↔ ∀ st', R st st' → k st' = none) ∧
    (∀ x, f st k = some x → ∃ st', R st st' ∧ k st' = some x)

theorem starRun_spec {α : Type} (g : Bool) (a : Re) (f : St → (St → Option α) → Option α)
    (hf : Spec f (Step a)) : ∀ n st k, st.rest.length ≤ n →
      ((starRun g f n st k = none ↔ ∀ st', Step (.star g a) st st' → k st' = none) ∧
      (∀ x, starRun g f n st k = some x → ∃ st', Step (.star g a) st st' ∧ k st' = some x)) := by
  intro n
  induction n with
  | zero =>
    intro st k hn
    have hnil : st.rest.length = 0 := by omega
    constructor
    · constructor
      · intro h st' hs
        cases hs with
        | starNil => exact h
        | starCons _ _ _ s2 _ h1 hl h2 => omega
      · intro h; exact h st (.starNil _ _ _)
    · intro x hx; exact ⟨st, .starNil _ _ _, hx⟩
  | succ n ih =>
    intro st k hn
    have hmore := hf st (fun st' => if st'.rest.length < st.rest.length then starRun g f n st' k else none)
    have key : starRun g f (n+1) st k = none ↔
        (f st (fun st' => if st'.rest.length < st.rest.length then starRun g f n st' k else none) = none
          ∧ k st = none) := by
      cases g <;> simp [starRun, Option.or_eq_none_iff, and_comm]
    constructor
    · rw [key, hmore.1]
      constructor
      · rintro ⟨h1, h2⟩ st' hs
        cases hs with
        | starNil => exact h2
        | starCons _ _ _ s2 _ ha hl hb =>
          have := h1 s2 ha
          simp only [hl, if_true] at this
          exact ((ih s2 k (by omega)).1.1 this) st' hb
      · intro h
        refine ⟨?_, h st (.starNil _ _ _)⟩
        intro s2 ha
        by_cases hl : s2.rest.length < st.rest.length
        · simp only [hl, if_true]
          exact (ih s2 k (by omega)).1.2 (fun s3 hb => h s3 (.starCons _ _ _ s2 _ ha hl hb))
        · simp [hl]
    · intro x hx
      have : f st (fun st' => if st'.rest.length < st.rest.length then starRun g f n st' k else none) = some x
          ∨ k st = some x := by
        cases g with
        | true =>
          simp only [starRun, if_true, Option.or_eq_some_iff] at hx
          rcases hx with h | h
          · exact .inl h
          · exact .inr h.2
        | false =>
          simp only [starRun, Bool.false_eq_true, if_false, Option.or_eq_some_iff] at hx
          rcases hx with h | h
          · exact .inr h
          · exact .inl h.2
      rcases this with h | h
      · obtain ⟨s2, ha, h2⟩ := hmore.2 x h
        by_cases hl : s2.rest.length < st.rest.length
        · simp only [hl, if_true] at h2
          obtain ⟨s3, hb, h3⟩ := (ih s2 k (by omega)).2 x h2
          exact ⟨s3, .starCons _ _ _ s2 _ ha hl hb, h3⟩
        · simp [hl] at h2
      · exact ⟨st, .starNil _ _ _, h⟩

/-- Soundness and completeness of the backtracking matcher. -/
theorem run_spec {α : Type} (r : Re) : Spec (run (α := α) r) (Step r) := by
  induction r with
  | eps =>
    intro st k
    refine ⟨⟨?_, ?_⟩, ?_⟩
    · intro h st' hs; cases hs; exact h
    · intro h; exact h st (.eps _)
    · intro x hx; exact ⟨st, .eps _, hx⟩
  | cls p =>
    rintro ⟨prev, rest, caps⟩ k
    cases rest with
    | nil =>
      refine ⟨⟨?_, ?_⟩, ?_⟩
      · intro h st' hs; cases hs
      · intro h; simp [run]
      · intro x hx; simp [run] at hx
    | cons c cs =>
      simp only [run]
      by_cases hp : p c = true
      · simp only [hp, if_true]
        refine ⟨⟨?_, ?_⟩, ?_⟩
        · intro h st' hs; cases hs; exact h
        · intro h; exact h _ (.cls _ _ _ _ _ hp)
        · intro x hx; exact ⟨_, .cls _ _ _ _ _ hp, hx⟩
      · simp only [hp]
        refine ⟨⟨?_, ?_⟩, ?_⟩
        · intro h st' hs; cases hs; contradiction
        · intro h; simp
        · intro x hx; simp at hx
  | seq a b iha ihb =>
    intro st k
    simp only [run]
    refine ⟨⟨?_, ?_⟩, ?_⟩
    · intro h st' hs
      cases hs with
      | seq _ _ _ s2 _ h1 h2 => exact ((ihb s2 k).1.1 ((iha st _).1.1 h s2 h1)) st' h2
    · intro h
      refine (iha st _).1.2 (fun s2 h1 => (ihb s2 k).1.2 (fun s3 h2 => h s3 (.seq _ _ _ s2 _ h1 h2)))
    · intro x hx
      obtain ⟨s2, h1, hx2⟩ := (iha st _).2 x hx
      obtain ⟨s3, h2, hx3⟩ := (ihb s2 k).2 x hx2
      exact ⟨s3, .seq _ _ _ s2 _ h1 h2, hx3⟩
  | alt a b iha ihb =>
    intro st k
    simp only [run, Option.or_eq_none_iff, Option.or_eq_some_iff]
    refine ⟨⟨?_, ?_⟩, ?_⟩
    · rintro ⟨h1, h2⟩ st' hs
      cases hs with
      | altL _ _ _ _ h => exact (iha st k).1.1 h1 st' h
      | altR _ _ _ _ h => exact (ihb st k).1.1 h2 st' h
    · intro h
      exact ⟨(iha st k).1.2 (fun s2 hs => h s2 (.altL _ _ _ _ hs)),
        (ihb st k).1.2 (fun s2 hs => h s2 (.altR _ _ _ _ hs))⟩
    · rintro x (hx | ⟨_, hx⟩)
      · obtain ⟨s2, h, h2⟩ := (iha st k).2 x hx; exact ⟨s2, .altL _ _ _ _ h, h2⟩
      · obtain ⟨s2, h, h2⟩ := (ihb st k).2 x hx; exact ⟨s2, .altR _ _ _ _ h, h2⟩
  | opt g a iha =>
    intro st k
    have key : run (.opt g a) st k = none ↔ (run a st k = none ∧ k st = none) := by
      cases g <;> simp [run, Option.or_eq_none_iff, and_comm]
    have key2 : ∀ x, run (.opt g a) st k = some x → run a st k = some x ∨ k st = some x := by
      intro x hx
      cases g <;> simp only [run, Option.or_eq_some_iff] at hx
      · rcases hx with h | h
        · exact .inr h
        · exact .inl h.2
      · rcases hx with h | h
        · exact .inl h
        · exact .inr h.2
    refine ⟨⟨?_, ?_⟩, ?_⟩
    · rw [key]; rintro ⟨h1, h2⟩ st' hs
      cases hs with
      | optNone => exact h2
      | optSome _ _ _ _ h => exact (iha st k).1.1 h1 st' h
    · intro h; rw [key]
      exact ⟨(iha st k).1.2 (fun s2 hs => h s2 (.optSome _ _ _ _ hs)), h st (.optNone _ _ _)⟩
    · intro x hx
      rcases key2 x hx with h | h
      · obtain ⟨s2, h, h2⟩ := (iha st k).2 x h; exact ⟨s2, .optSome _ _ _ _ h, h2⟩
      · exact ⟨st, .optNone _ _ _, h⟩
  | star g a iha =>
    intro st k
    exact starRun_spec g a _ iha _ st k (Nat.le_refl _)
  | grp n a iha =>
    intro st k
    simp only [run]
    refine ⟨⟨?_, ?_⟩, ?_⟩
    · intro h st' hs
      cases hs with
      | grp _ _ _ s2 hs => exact (iha st _).1.1 h s2 hs
    · intro h
      exact (iha st _).1.2 (fun s2 hs => h _ (.grp _ _ _ s2 hs))
    · intro x hx
      obtain ⟨s2, hs, h2⟩ := (iha st _).2 x hx
      exact ⟨_, .grp _ _ _ s2 hs, h2⟩
  | bos =>
    intro st k
    simp only [run]
    by_cases h : st.prev = []
    · simp only [h, if_true]
      refine ⟨⟨?_, ?_⟩, ?_⟩
      · intro hk st' hs; cases hs; exact hk
      · intro hk; exact hk st (.bos _ h)
      · intro x hx; exact ⟨st, .bos _ h, hx⟩
    · simp only [h, if_false]
      refine ⟨⟨?_, ?_⟩, ?_⟩
      · intro _ st' hs; cases hs; contradiction
      · intro _; trivial
      · intro x hx; simp at hx
  | eos =>
    intro st k
    simp only [run]
    by_cases h : st.rest = []
    · simp only [h, if_true]
      refine ⟨⟨?_, ?_⟩, ?_⟩
      · intro hk st' hs; cases hs; exact hk
      · intro hk; exact hk st (.eos _ h)
      · intro x hx; exact ⟨st, .eos _ h, hx⟩
    · simp only [h, if_false]
      refine ⟨⟨?_, ?_⟩, ?_⟩
      · intro _ st' hs; cases hs; contradiction
      · intro _; trivial
      · intro x hx; simp at hx
  | behind pos s =>
    intro st k
    simp only [run]
    by_cases h : (s.reverse.isPrefixOf st.prev) = pos
    · simp only [h, if_true]
      refine ⟨⟨?_, ?_⟩, ?_⟩
      · intro hk st' hs; cases hs; exact hk
      · intro hk; exact hk st (.behind _ _ _ h)
      · intro x hx; exact ⟨st, .behind _ _ _ h, hx⟩
    · simp only [h, if_false]
      refine ⟨⟨?_, ?_⟩, ?_⟩
      · intro _ st' hs; cases hs; contradiction
      · intro _; trivial
      · intro x hx; simp at hx

end Py
