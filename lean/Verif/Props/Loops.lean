import Verif.Meshtal.Loops
/-!
# C84: filters and processors of mesh tally files see every tally once, in order, and only when needed
-/
namespace Props
open Py Meshtal

/-- A check that writes down the tallies it is asked about. -/
def noting {τ : Type} (p : List τ → τ → Res Bool) (s : List τ) (t : τ) : List τ × Res Bool := (s ++ [t], p s t)

/-- The answers of a check about the tallies of a list, the ones before them being known. -/
def accepted {τ : Type} (p : List τ → τ → Res Bool) : List τ → List τ → List τ
  | _, [] => []
  | s, t :: l => if p s t = .ok true then t :: accepted p (s ++ [t]) l else accepted p (s ++ [t]) l

/-- The check raises about none of the tallies. -/
def Quiet {τ : Type} (p : List τ → τ → Res Bool) : List τ → List τ → Prop
  | _, [] => True
  | s, t :: l => (∃ b, p s t = .ok b) ∧ Quiet p (s ++ [t]) l

theorem next_spec {τ : Type} (p : List τ → τ → Res Bool) (l : List τ) (s : List τ) (hq : Quiet p s l) :
    (accepted p s l = [] ∧ next (noting p) s l = (s ++ l, .ok none, [])) ∨
      ∃ a t b, l = a ++ t :: b ∧ accepted p s a = [] ∧ accepted p s l = t :: accepted p (s ++ a ++ [t]) b ∧ Quiet p (s ++ a ++ [t]) b ∧
        next (noting p) s l = (s ++ a ++ [t], .ok (some t), b) := by
  induction l generalizing s with
  | nil => exact .inl ⟨rfl, by simp [next]⟩
  | cons t l ih =>
    obtain ⟨⟨b, hb⟩, hq⟩ := hq
    cases b with
    | true => exact .inr ⟨[], t, l, rfl, rfl, by simp [accepted, hb], by simpa using hq, by simp [next, noting, hb]⟩
    | false =>
      rcases ih (s ++ [t]) hq with ⟨h1, h2⟩ | ⟨a, u, b, h1, h2, h3, h4, h5⟩
      · exact .inl ⟨by simp [accepted, hb, h1], by simp [next, noting, hb, h2]⟩
      · refine .inr ⟨t :: a, u, b, by rw [h1]; rfl, by simp [accepted, hb, h2], ?_, by simpa using h4, ?_⟩
        · simp [accepted, hb, h3]
        · simp [next, noting, hb, h5]

/-- **C84, filters:** asked `n` times, a filter whose check does not raise yields the first `n` accepted tallies, in order; it has looked at a
beginning of the file, at each tally once and in order, and at none after the last one yielded unless there are no more to yield.  The check
may depend on what it has seen. -/
theorem C84_filter {τ : Type} (p : List τ → τ → Res Bool) (l : List τ) (hq : Quiet p [] l) (n : Nat) :
    ∃ seen rest, l = seen ++ rest ∧ ask (noting p) n [] l = (seen, (accepted p [] l).take n, .ok ()) ∧
      ((accepted p [] l).length < n → rest = []) ∧ (n ≤ (accepted p [] l).length → seen.getLast? = ((accepted p [] l).take n).getLast?) := by
  have key : ∀ n s l, Quiet p s l → ∃ seen rest, l = seen ++ rest ∧ ask (noting p) n s l = (s ++ seen, (accepted p s l).take n, .ok ()) ∧
      ((accepted p s l).length < n → rest = []) ∧ (n ≤ (accepted p s l).length → seen.getLast? = ((accepted p s l).take n).getLast?) := by
    intro n
    induction n with
    | zero => intro s l _; exact ⟨[], l, rfl, by simp [ask], by simp, by simp⟩
    | succ n ih =>
      intro s l hq
      rcases next_spec p l s hq with ⟨h1, h2⟩ | ⟨a, t, b, h1, h2, h3, h4, h5⟩
      · exact ⟨l, [], by simp, by simp [ask, h2, h1], by simp, by simp [h1]⟩
      · obtain ⟨seen, rest, e1, e2, e3, e4⟩ := ih (s ++ a ++ [t]) b h4
        refine ⟨a ++ t :: seen, rest, by rw [h1, e1]; simp, ?_, ?_, ?_⟩
        · simp only [ask, h5, e2, h3, List.take_succ_cons]
          simp
        · intro h; rw [h3] at h; exact e3 (by simpa using h)
        · intro h
          rw [h3] at h ⊢
          have := e4 (by simpa using h)
          rw [List.take_succ_cons]
          cases hs : seen with
          | nil =>
            rw [hs] at this
            have ht : (accepted p (s ++ a ++ [t]) b).take n = [] := by
              cases hh : (accepted p (s ++ a ++ [t]) b).take n with
              | nil => rfl
              | cons x y => rw [hh] at this; simp [List.getLast?_cons] at this
            rw [ht]; simp
          | cons u seen =>
            rw [hs] at this
            cases hh : (accepted p (s ++ a ++ [t]) b).take n with
            | nil => rw [hh] at this; simp [List.getLast?_cons] at this
            | cons x y =>
              rw [hh] at this
              rw [List.getLast?_append]
              simpa [List.getLast?_cons] using this
  simpa using key n [] l hq

/-- For a check that depends on the tally alone, the accepted ones are those with the property. -/
theorem C84_filter_pure {τ : Type} (q : τ → Bool) (l : List τ) : accepted (fun _ t => .ok (q t)) [] l = l.filter q ∧
    Quiet (fun _ t => .ok (q t)) [] l := by
  have key : ∀ s, accepted (fun _ t => .ok (q t)) s l = l.filter q ∧ Quiet (fun _ t => .ok (q t)) s l := by
    induction l with
    | nil => exact fun s => ⟨rfl, trivial⟩
    | cons t l ih =>
      intro s
      refine ⟨?_, ⟨_, rfl⟩, (ih _).2⟩
      simp only [accepted, List.filter_cons, (ih _).1]
      cases q t <;> simp
  exact key []

/-- **C84, filters that raise:** the tallies accepted before are yielded, then the exception. -/
theorem C84_filter_raises {τ : Type} (p : List τ → τ → Res Bool) (a b : List τ) (t : τ) (e : Err) (hq : Quiet p [] a) (ht : p a t = .error e)
    (n : Nat) (hn : (accepted p [] a).length < n) : ask (noting p) n [] (a ++ t :: b) = (a ++ [t], accepted p [] a, .error e) := by
  have key : ∀ (m : Nat) (s a : List τ) (n : Nat), a.length ≤ m → Quiet p s a → p (s ++ a) t = .error e → (accepted p s a).length < n →
      ask (noting p) n s (a ++ t :: b) = (s ++ a ++ [t], accepted p s a, .error e) := by
    intro m
    induction m with
    | zero =>
      intro s a n hm hq ht hn
      obtain rfl : a = [] := List.eq_nil_of_length_eq_zero (by omega)
      cases n with
      | zero => simp at hn
      | succ n => simp only [List.append_nil] at ht; simp [ask, next, noting, ht, accepted]
    | succ m ih =>
      intro s a n hm hq ht hn
      cases a with
      | nil =>
        cases n with
        | zero => simp at hn
        | succ n => simp only [List.append_nil] at ht; simp [ask, next, noting, ht, accepted]
      | cons u a =>
        obtain ⟨⟨c, hc⟩, hq⟩ := hq
        have hm : a.length ≤ m := by simpa using hm
        have ht' : p (s ++ [u] ++ a) t = .error e := by simpa using ht
        cases n with
        | zero => simp at hn
        | succ n =>
          cases c with
          | true =>
            have hn' : (accepted p (s ++ [u]) a).length < n := by simpa [accepted, hc] using hn
            have := ih (s ++ [u]) a n hm hq ht' hn'
            simp only [List.cons_append, ask, next, noting, hc]
            rw [this]
            simp [accepted, hc]
          | false =>
            have hn' : (accepted p (s ++ [u]) a).length < n + 1 := by simpa [accepted, hc] using hn
            have := ih (s ++ [u]) a (n + 1) hm hq ht' hn'
            simp only [List.cons_append, ask, next, noting, hc] at this ⊢
            rw [this]
            simp [accepted, hc]
  simpa using key a.length [] a n (Nat.le_refl _) hq (by simpa using ht) hn

/-- Every second tally is accepted, until one raises. -/
example : ask (noting fun s (t : Nat) => if t = 7 then .error .key else .ok (s.length % 2 == 0)) 5 [] [1, 2, 3, 7, 4] =
    ([1, 2, 3, 7], [1, 3], .error .key) := by decide

/-- **C84, processors:** the hook before, one call for each tally, in order, and the hook after, when none of them raises; otherwise the
calls up to the one that raises, and its exception. -/
theorem C84_processor {τ : Type} (run : List (Call τ) → Call τ → Res Unit) (l : List τ) :
    let plan := Call.prehook :: (l.map Call.process ++ [Call.posthook])
    ((∀ i (h : i < plan.length), run (plan.take i) plan[i] = .ok ()) ∧ process run l = (plan, .ok ())) ∨
      ∃ i, ∃ h : i < plan.length, ∃ e, (∀ j (h' : j < i), run (plan.take j) plan[j] = .ok ()) ∧ run (plan.take i) plan[i] = .error e ∧
        process run l = (plan.take (i + 1), .error e) := by
  have key : ∀ (l : List τ) (done : List (Call τ)),
      let rest := l.map Call.process ++ [Call.posthook]
      ((∀ i (h : i < rest.length), run (done ++ rest.take i) rest[i] = .ok ()) ∧ processAll run l done = (done ++ rest, .ok ())) ∨
        ∃ i, ∃ h : i < rest.length, ∃ e, (∀ j (h' : j < i), run (done ++ rest.take j) rest[j] = .ok ()) ∧ run (done ++ rest.take i) rest[i] = .error e ∧
          processAll run l done = (done ++ rest.take (i + 1), .error e) := by
    intro l
    induction l with
    | nil =>
      intro done
      cases h : run done .posthook with
      | error e => exact .inr ⟨0, by simp, e, by simp, by simpa using h, by simp [processAll, h]⟩
      | ok u =>
        refine .inl ⟨?_, by simp [processAll, h]⟩
        intro i hi
        obtain rfl : i = 0 := by simpa using hi
        simpa using h
    | cons t l ih =>
      intro done
      cases h : run done (.process t) with
      | error e => exact .inr ⟨0, by simp, e, by simp, by simpa using h, by simp [processAll, h]⟩
      | ok u =>
        rcases ih (done ++ [.process t]) with ⟨h1, h2⟩ | ⟨i, hi, e, h1, h2, h3⟩
        · refine .inl ⟨?_, by simp [processAll, h, h2]⟩
          intro i hi
          cases i with
          | zero => simpa using h
          | succ i => simpa using h1 i (by simpa using hi)
        · refine .inr ⟨i + 1, by simpa using hi, e, ?_, by simpa using h2, by simp [processAll, h, h3]⟩
          intro j hj
          cases j with
          | zero => simpa using h
          | succ j => simpa using h1 j (by omega)
  intro plan
  unfold process
  cases h : run [] .prehook with
  | error e => exact .inr ⟨0, by simp [plan], e, by simp, by simpa [plan] using h, by simp [plan]⟩
  | ok u =>
    rcases key l [.prehook] with ⟨h1, h2⟩ | ⟨i, hi, e, h1, h2, h3⟩
    · refine .inl ⟨?_, by simp [plan, h2]⟩
      intro i hi
      cases i with
      | zero => simpa [plan] using h
      | succ i => simpa [plan] using h1 i (by simpa [plan] using hi)
    · refine .inr ⟨i + 1, by simpa [plan] using hi, e, ?_, by simpa [plan] using h2, by simp [plan, h3]⟩
      intro j hj
      cases j with
      | zero => simpa [plan] using h
      | succ j => simpa [plan] using h1 j (by omega)

example : process (fun _ c => if c = .process 3 then .error .value else .ok ()) [1, 2, 3, 4] =
    ([.prehook, .process 1, .process 2, .process 3], .error .value) := by decide

end Props
