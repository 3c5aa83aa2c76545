import Verif.Py.RegexLemmas
/-! Equational characterisations of `Step`, and lemmas that turn them into facts
about `run`, `reMatch`, `reSub`. -/
namespace Py

theorem St.ext' {a b : St} (h1 : a.prev = b.prev) (h2 : a.rest = b.rest) (h3 : a.caps = b.caps) : a = b := by
  cases a; cases b; simp_all

theorem step_eps {s t} : Step .eps s t ↔ t = s :=
  ⟨fun h => by cases h; rfl, fun h => h ▸ .eps _⟩

theorem step_cls {p s t} : Step (.cls p) s t ↔
    ∃ c cs, p c = true ∧ s.rest = c :: cs ∧ t = ⟨c :: s.prev, cs, s.caps⟩ := by
  constructor
  · intro h; cases h with | cls _ c cs prev caps h => exact ⟨c, cs, h, rfl, rfl⟩
  · rintro ⟨c, cs, h, h2, rfl⟩
    obtain ⟨prev, rest, caps⟩ := s
    simp only at h2; subst h2
    exact .cls _ _ _ _ _ h

theorem step_seq {a b s t} : Step (.seq a b) s t ↔ ∃ m, Step a s m ∧ Step b m t :=
  ⟨fun h => by cases h with | seq _ _ _ m _ h1 h2 => exact ⟨m, h1, h2⟩,
   fun ⟨m, h1, h2⟩ => .seq _ _ _ m _ h1 h2⟩

theorem step_alt {a b s t} : Step (.alt a b) s t ↔ Step a s t ∨ Step b s t :=
  ⟨fun h => by cases h with | altL _ _ _ _ h => exact .inl h | altR _ _ _ _ h => exact .inr h,
   fun h => h.elim (.altL _ _ _ _) (.altR _ _ _ _)⟩

theorem step_opt {g a s t} : Step (.opt g a) s t ↔ t = s ∨ Step a s t :=
  ⟨fun h => by cases h with | optNone => exact .inl rfl | optSome _ _ _ _ h => exact .inr h,
   fun h => h.elim (fun h => h ▸ .optNone _ _ _) (.optSome _ _ _ _)⟩

theorem step_grp {n a s t} : Step (.grp n a) s t ↔ ∃ m, Step a s m ∧
    t = { m with caps := (n, s.rest.take (s.rest.length - m.rest.length)) :: m.caps } :=
  ⟨fun h => by cases h with | grp _ _ _ m h => exact ⟨m, h, rfl⟩,
   fun ⟨m, h, e⟩ => e ▸ .grp _ _ _ m h⟩

theorem step_bos {s t} : Step .bos s t ↔ t = s ∧ s.prev = [] :=
  ⟨fun h => by cases h with | bos _ h => exact ⟨rfl, h⟩, by rintro ⟨rfl, h2⟩; exact .bos _ h2⟩

theorem step_eos {s t} : Step .eos s t ↔ t = s ∧ s.rest = [] :=
  ⟨fun h => by cases h with | eos _ h => exact ⟨rfl, h⟩, by rintro ⟨rfl, h2⟩; exact .eos _ h2⟩

/-- State after consuming `w`. -/
def St.adv (s : St) (w : Str) (rest : Str) : St := ⟨w.reverse ++ s.prev, rest, s.caps⟩

@[simp] theorem St.adv_rest (s : St) (w r) : (s.adv w r).rest = r := rfl
@[simp] theorem St.adv_prev (s : St) (w r) : (s.adv w r).prev = w.reverse ++ s.prev := rfl
@[simp] theorem St.adv_caps (s : St) (w r) : (s.adv w r).caps = s.caps := rfl

theorem step_star_cls {g p s t} : Step (.star g (.cls p)) s t ↔
    ∃ w r, (∀ c ∈ w, p c = true) ∧ s.rest = w ++ r ∧ t = s.adv w r := by
  constructor
  · intro h
    generalize hr : Re.star g (.cls p) = r at h
    induction h with
    | starNil g a st => exact ⟨[], st.rest, by simp, by simp, by simp [St.adv]⟩
    | starCons g a s1 s2 s3 h1 hl h2 ih1 ih2 =>
      cases hr
      obtain ⟨w, r, hw, hr, ht⟩ := ih2 rfl
      obtain ⟨c, cs, hc, hcs, e⟩ := step_cls.1 h1
      subst e
      simp only at hr
      refine ⟨c :: w, r, ?_, ?_, ?_⟩
      · intro x hx; rcases List.mem_cons.1 hx with h | h
        · exact h ▸ hc
        · exact hw x h
      · rw [hcs, hr]; rfl
      · rw [ht]; simp [St.adv]
    | _ => cases hr
  · rintro ⟨w, r, hw, hr, rfl⟩
    induction w generalizing s with
    | nil =>
      have : s.adv [] r = s := by
        obtain ⟨a, b, c⟩ := s; simp only [List.nil_append] at hr; simp [St.adv, hr]
      rw [this]; exact .starNil _ _ _
    | cons c cs ih =>
      have h1 : Step (.cls p) s ⟨c :: s.prev, cs ++ r, s.caps⟩ :=
        step_cls.2 ⟨c, cs ++ r, hw c (by simp), by simpa using hr, rfl⟩
      have h2 := ih (s := ⟨c :: s.prev, cs ++ r, s.caps⟩) (fun x hx => hw x (by simp [hx])) rfl
      have e : (⟨c :: s.prev, cs ++ r, s.caps⟩ : St).adv cs r = s.adv (c :: cs) r := by simp [St.adv]
      rw [e] at h2
      refine .starCons _ _ _ _ _ h1 ?_ h2
      rw [hr]; simp

theorem step_plus_cls {g p s t} : Step (Re.plus g (.cls p)) s t ↔
    ∃ w r, w ≠ [] ∧ (∀ c ∈ w, p c = true) ∧ s.rest = w ++ r ∧ t = s.adv w r := by
  unfold Re.plus
  rw [step_seq]
  constructor
  · rintro ⟨m, h1, h2⟩
    obtain ⟨c, cs, hc, hcs, rfl⟩ := step_cls.1 h1
    obtain ⟨w, r, hw, hr, rfl⟩ := step_star_cls.1 h2
    refine ⟨c :: w, r, by simp, ?_, ?_, ?_⟩
    · intro x hx; rcases List.mem_cons.1 hx with h | h
      · exact h ▸ hc
      · exact hw x h
    · rw [hcs]; simp only at hr; rw [hr]; rfl
    · simp [St.adv]
  · rintro ⟨w, r, hne, hw, hr, rfl⟩
    obtain ⟨c, cs, rfl⟩ := List.exists_cons_of_ne_nil hne
    refine ⟨⟨c :: s.prev, cs ++ r, s.caps⟩, step_cls.2 ⟨c, cs ++ r, hw c (by simp), by simpa using hr, rfl⟩, ?_⟩
    exact step_star_cls.2 ⟨cs, r, fun x hx => hw x (by simp [hx]), rfl, by simp [St.adv]⟩

theorem take_consumed (w r : Str) : (w ++ r).take ((w ++ r).length - r.length) = w := by
  have : (w ++ r).length - r.length = w.length := by simp
  rw [this]; simp

/-- Group around something that consumed `w` and left `r`. -/
theorem step_grp_adv {n a s t} : Step (.grp n a) s t ↔ ∃ m, Step a s m ∧
    t = ⟨m.prev, m.rest, (n, s.rest.take (s.rest.length - m.rest.length)) :: m.caps⟩ := step_grp

/-- All outcomes agree and one exists: the matcher returns it. -/
theorem run_unique {α : Type} {r : Re} {st st0 : St} {k : St → Option α} {x : α}
    (h0 : Step r st st0) (hk : k st0 = some x)
    (hu : ∀ st', Step r st st' → k st' = none ∨ k st' = some x) : run r st k = some x := by
  cases h : run r st k with
  | none => rw [(run_spec r st k).1.1 h st0 h0] at hk; cases hk
  | some y =>
    obtain ⟨st', hs, hy⟩ := (run_spec r st k).2 y h
    rcases hu st' hs with h' | h'
    · rw [h'] at hy; cases hy
    · rw [h'] at hy; rw [hy]

theorem run_none {α : Type} {r : Re} {st : St} {k : St → Option α}
    (h : ∀ st', Step r st st' → k st' = none) : run r st k = none := (run_spec r st k).1.2 h

theorem reMatch_none {r : Re} {s : Str} (h : ∀ st', ¬ Step r ⟨[], s, []⟩ st') : reMatch r s = none :=
  run_none (fun st' hs => absurd hs (h st'))

theorem reMatch_some {r : Re} {s : Str} {m} (h : reMatch r s = some m) :
    ∃ st', Step r ⟨[], s, []⟩ st' ∧ m = (0, s.take (s.length - st'.rest.length)) :: st'.caps := by
  obtain ⟨st', h1, h2⟩ := (run_spec r _ _).2 m h
  exact ⟨st', h1, (Option.some.inj h2).symm⟩

/-! ### Unfolding equations of the matcher (all by definition) -/

theorem run_eps {α : Type} (st : St) (k : St → Option α) : run .eps st k = k st := rfl
theorem run_seq {α : Type} (a b) (st : St) (k : St → Option α) :
    run (.seq a b) st k = run a st (fun st' => run b st' k) := rfl
theorem run_alt {α : Type} (a b) (st : St) (k : St → Option α) :
    run (.alt a b) st k = (run a st k).or (run b st k) := rfl
theorem run_opt_greedy {α : Type} (a) (st : St) (k : St → Option α) :
    run (.opt true a) st k = (run a st k).or (k st) := rfl
theorem run_opt_lazy {α : Type} (a) (st : St) (k : St → Option α) :
    run (.opt false a) st k = (k st).or (run a st k) := rfl
theorem run_grp {α : Type} (n a) (st : St) (k : St → Option α) :
    run (.grp n a) st k = run a st (fun st' =>
      k { st' with caps := (n, st.rest.take (st.rest.length - st'.rest.length)) :: st'.caps }) := rfl
theorem run_bos {α : Type} (st : St) (k : St → Option α) :
    run .bos st k = if st.prev = [] then k st else none := rfl
theorem run_eos {α : Type} (st : St) (k : St → Option α) :
    run .eos st k = if st.rest = [] then k st else none := rfl
theorem run_cls_nil {α : Type} (p prev caps) (k : St → Option α) : run (.cls p) ⟨prev, [], caps⟩ k = none := rfl
theorem run_cls_cons {α : Type} (p prev c cs caps) (k : St → Option α) :
    run (.cls p) ⟨prev, c :: cs, caps⟩ k = if p c then k ⟨c :: prev, cs, caps⟩ else none := rfl

/-! ### Priority reasoning for repeats over a character class -/

theorem run_star_cls_nil {α : Type} (g p prev caps) (k : St → Option α) :
    run (.star g (.cls p)) ⟨prev, [], caps⟩ k = k ⟨prev, [], caps⟩ := by
  simp [run, starRun]

theorem run_star_cls_cons {α : Type} (g : Bool) (p : Char → Bool) (prev c cs caps) (k : St → Option α) :
    run (.star g (.cls p)) ⟨prev, c :: cs, caps⟩ k =
      let more := if p c then run (.star g (.cls p)) ⟨c :: prev, cs, caps⟩ k else none
      if g then more.or (k ⟨prev, c :: cs, caps⟩) else (k ⟨prev, c :: cs, caps⟩).or more := by
  simp [run, starRun]

/-- Greedy class repeat: `w1` is the longest part after which the continuation
succeeds. -/
theorem run_star_cls_greedy {α : Type} (p : Char → Bool) (w1 w2 s : Str) (prev caps) (k : St → Option α) (x : α)
    (h1 : ∀ c ∈ w1, p c = true) (h2 : ∀ c ∈ w2, p c = true)
    (hs : ∀ c cs, s = c :: cs → p c = false)
    (hk : k ⟨w1.reverse ++ prev, w2 ++ s, caps⟩ = some x)
    (hn : ∀ a b, a ≠ [] → w2 = a ++ b → k ⟨a.reverse ++ (w1.reverse ++ prev), b ++ s, caps⟩ = none) :
    run (.star true (.cls p)) ⟨prev, w1 ++ (w2 ++ s), caps⟩ k = some x := by
  induction w1 generalizing prev with
  | nil =>
    simp only [List.nil_append, List.reverse_nil] at *
    -- inner: nothing beyond succeeds
    have inner : ∀ (u : Str) (pv : Str), (∀ c ∈ u, p c = true) →
        (∀ a b, a ≠ [] → u = a ++ b → k ⟨a.reverse ++ pv, b ++ s, caps⟩ = none) →
        run (.star true (.cls p)) ⟨pv, u ++ s, caps⟩ k = k ⟨pv, u ++ s, caps⟩ := by
      intro u
      induction u with
      | nil =>
        intro pv _ _
        cases s with
        | nil => exact run_star_cls_nil _ _ _ _ _
        | cons c cs =>
          rw [List.nil_append, run_star_cls_cons]
          simp [hs c cs rfl]
      | cons c cs ih =>
        intro pv hu hn
        rw [List.cons_append, run_star_cls_cons]
        simp only [if_true, hu c (by simp)]
        rw [ih (c :: pv) (fun y hy => hu y (by simp [hy]))]
        · have := hn [c] cs (by simp) rfl
          simp only [List.reverse_singleton, List.singleton_append] at this
          rw [this]; rfl
        · intro a b ha hab
          have := hn (c :: a) b (by simp) (by rw [hab]; rfl)
          simpa using this
    rw [inner w2 prev h2 hn]; exact hk
  | cons c cs ih =>
    rw [List.cons_append, run_star_cls_cons]
    simp only [if_true, h1 c (by simp)]
    rw [ih (c :: prev) (fun y hy => h1 y (by simp [hy])) (by simpa using hk) (by
      intro a b ha hab
      have := hn a b ha hab
      simpa using this)]
    rfl

/-- Greedy class repeat when the continuation accepts the whole run. -/
theorem run_star_cls_full {α : Type} (p : Char → Bool) (w s : Str) (prev caps) (k : St → Option α) (x : α)
    (h1 : ∀ c ∈ w, p c = true) (hs : ∀ c cs, s = c :: cs → p c = false)
    (hk : k ⟨w.reverse ++ prev, s, caps⟩ = some x) :
    run (.star true (.cls p)) ⟨prev, w ++ s, caps⟩ k = some x := by
  have := run_star_cls_greedy p w [] s prev caps k x h1 (by simp) hs (by simpa using hk)
    (by intro a b ha hab; simp at hab; exact absurd hab.1 ha)
  simpa using this

/-! ### substitution -/

/-- If the pattern matches nowhere, `re.sub` is the identity. -/
theorem reSub_id (r : Re) (f) (s : Str)
    (h : ∀ pre c post st', s = pre ++ c :: post → ¬ Step r ⟨pre.reverse, c :: post, []⟩ st') :
    reSub r f s = s := by
  unfold reSub
  have key : ∀ (n : Nat) (prev rest : Str), rest.length ≤ n → prev.reverse ++ rest = s →
      (finditerAux r n prev rest).flatMap (fun | .inl t => t | .inr (t, c) => f t c) = rest := by
    intro n
    induction n with
    | zero =>
      intro prev rest hl hs
      have : rest = [] := List.length_eq_zero_iff.1 (by omega)
      subst this; rfl
    | succ n ih =>
      intro prev rest hl hs
      cases rest with
      | nil => rfl
      | cons c cs =>
        have hno : run r ⟨prev, c :: cs, []⟩ (fun st => if st.rest.length < (c :: cs).length then some st else none) = none := by
          apply run_none
          intro st' hst
          have := h prev.reverse c cs st' hs.symm
          rw [List.reverse_reverse] at this
          exact absurd hst this
        rw [finditerAux, hno]
        simp only [List.flatMap_cons]
        rw [ih (c :: prev) cs (by simpa using hl) (by simpa using hs)]
        rfl
  exact key s.length [] s (Nat.le_refl _) rfl

/-- Substitution of single characters given by a predicate. -/
theorem reSub_cls (p : Char → Bool) (f : Str → List (Nat × Str) → Str) (s : Str) :
    reSub (.cls p) f s = s.flatMap (fun c => if p c then f [c] [] else [c]) := by
  unfold reSub
  have key : ∀ (n : Nat) (prev rest : Str), rest.length ≤ n →
      (finditerAux (.cls p) n prev rest).flatMap (fun | .inl t => t | .inr (t, c) => f t c)
        = rest.flatMap (fun c => if p c then f [c] [] else [c]) := by
    intro n
    induction n with
    | zero =>
      intro prev rest hl
      have : rest = [] := List.length_eq_zero_iff.1 (by omega)
      subst this; rfl
    | succ n ih =>
      intro prev rest hl
      cases rest with
      | nil => rfl
      | cons c cs =>
        rw [finditerAux]
        by_cases hp : p c = true
        · simp only [run, hp, if_true]
          have : cs.length < (c :: cs).length := by simp
          simp only [this, if_true, List.flatMap_cons]
          rw [ih (c :: prev) cs (by simpa using hl)]
          have e : (c :: cs).take ((c :: cs).length - cs.length) = [c] := by
            have : (c :: cs).length - cs.length = 1 := by simp
            rw [this]; rfl
          rw [e]; simp [hp]
        · simp only [run, hp]
          simp only [Bool.false_eq_true, if_false, List.flatMap_cons]
          rw [ih (c :: prev) cs (by simpa using hl)]
          simp [hp]
  exact key s.length [] s (Nat.le_refl _)

/-- When the matcher consumes the whole text at position 0, `re.sub` returns the
replacement of that single match. -/
theorem reSub_full (r : Re) (f : Str → List (Nat × Str) → Str) (s : Str) (pv caps) (hne : s ≠ [])
    (h : run r ⟨[], s, []⟩ (fun st => if st.rest.length < s.length then some st else none)
      = some ⟨pv, [], caps⟩) : reSub r f s = f s caps := by
  cases s with
  | nil => exact absurd rfl hne
  | cons c cs =>
    unfold reSub
    rw [List.length_cons, finditerAux]
    rw [h]
    simp only [List.length_nil, Nat.sub_zero, List.take_length, List.flatMap_cons]
    have : finditerAux r cs.length pv [] = [] := by cases cs.length <;> rfl
    rw [this]; simp

end Py
