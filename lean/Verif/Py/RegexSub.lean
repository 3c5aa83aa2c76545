import Verif.Py.RegexStep
/-! Helper lemmas: unfolding repeats, stepping through `re.sub`. -/
namespace Py

theorem run_none_of {α : Type} (r : Re) (st : St) (k : St → Option α) (h : ∀ st', k st' = none) : run r st k = none :=
  run_none (fun st' _ => h st')

theorem starRun_fuel {α : Type} (g : Bool) (a : Re) : ∀ (n m : Nat) (st : St) (k : St → Option α),
    st.rest.length ≤ n → st.rest.length ≤ m → starRun g (run a) n st k = starRun g (run a) m st k := by
  have zero : ∀ (m : Nat) (st : St) (k : St → Option α), st.rest.length = 0 → starRun g (run a) m st k = k st := by
    intro m st k h
    cases m with
    | zero => rfl
    | succ m =>
      have : run a st (fun st' => if st'.rest.length < st.rest.length then starRun g (run a) m st' k else none) = none := by
        apply run_none_of; intro st'; rw [if_neg (by omega)]
      unfold starRun
      simp only [this]
      cases g
      · simp only [Bool.false_eq_true, if_false]; cases k st <;> rfl
      · simp
  intro n
  induction n with
  | zero => intro m st k h1 _; rw [zero m st k (by omega)]; rfl
  | succ n ih =>
    intro m st k h1 h2
    cases m with
    | zero => rw [zero (n + 1) st k (by omega)]; rfl
    | succ m =>
      have : (fun st' : St => if st'.rest.length < st.rest.length then starRun g (run a) n st' k else none)
          = (fun st' => if st'.rest.length < st.rest.length then starRun g (run a) m st' k else none) := by
        funext st'
        by_cases hl : st'.rest.length < st.rest.length
        · simp only [hl, if_true]; exact ih m st' k (by omega) (by omega)
        · simp [hl]
      unfold starRun
      simp only [this]

/-- Unfolding of a greedy repeat. -/
theorem run_star_unfold {α : Type} (g : Bool) (a : Re) (st : St) (k : St → Option α) :
    run (.star g a) st k =
      let more := run a st (fun st' => if st'.rest.length < st.rest.length then run (.star g a) st' k else none)
      if g then more.or (k st) else (k st).or more := by
  show starRun g (run a) st.rest.length st k = _
  cases hr : st.rest.length with
  | zero =>
    have : run a st (fun st' => if st'.rest.length < 0 then run (.star g a) st' k else none) = none := by
      apply run_none_of; intro st'; simp
    simp only [this]
    cases g
    · simp only [Bool.false_eq_true, if_false, starRun]; cases k st <;> rfl
    · simp [starRun]
  | succ n =>
    have : (fun st' : St => if st'.rest.length < st.rest.length then starRun g (run a) n st' k else none)
        = (fun st' => if st'.rest.length < n + 1 then run (.star g a) st' k else none) := by
      funext st'
      rw [hr]
      by_cases hl : st'.rest.length < n + 1
      · simp only [hl, if_true]
        exact starRun_fuel g a n st'.rest.length st' k (by omega) (Nat.le_refl _)
      · simp [hl]
    unfold starRun
    simp only [this]

/-- Continuation of one iteration of a greedy repeat. -/
def starNext {α : Type} (a : Re) (n : Nat) (k : St → Option α) : St → Option α :=
  fun st' => if st'.rest.length < n then run (.star true a) st' k else none

theorem run_star_greedy {α : Type} (a : Re) (prev s caps) (k : St → Option α) :
    run (.star true a) ⟨prev, s, caps⟩ k = (run a ⟨prev, s, caps⟩ (starNext a s.length k)).or (k ⟨prev, s, caps⟩) := by
  rw [run_star_unfold]; rfl

theorem finditerAux_fuel (r : Re) : ∀ (n m : Nat) (prev s : Str), s.length ≤ n → s.length ≤ m →
    finditerAux r n prev s = finditerAux r m prev s := by
  intro n
  induction n with
  | zero =>
    intro m prev s h1 h2
    cases s with
    | nil => cases m <;> rfl
    | cons c cs => simp at h1
  | succ n ih =>
    intro m prev s h1 h2
    cases s with
    | nil => cases m <;> rfl
    | cons c cs =>
      cases m with
      | zero => simp at h2
      | succ m =>
        simp only [List.length_cons] at h1 h2
        rw [finditerAux, finditerAux]
        split
        · rename_i st hst
          obtain ⟨st', _, hk⟩ := (run_spec r _ _).2 _ hst
          split at hk
          · rename_i hl
            cases hk
            simp only [List.length_cons] at hl
            rw [ih m _ _ (by omega) (by omega)]
          · cases hk
        · rw [ih m _ _ (by omega) (by omega)]

/-- `re.sub` from a position. -/
def subFrom (r : Re) (f : Str → List (Nat × Str) → Str) (prev s : Str) : Str :=
  (finditerAux r s.length prev s).flatMap (fun | .inl t => t | .inr (t, c) => f t c)

/-- Final continuation of a search at a position with `n` characters left. -/
def findK (n : Nat) : St → Option St := fun st => if st.rest.length < n then some st else none

theorem findK_ok {n : Nat} {st : St} (h : st.rest.length < n) : findK n st = some st := by simp [findK, h]

theorem reSub_eq (r : Re) (f) (s : Str) : reSub r f s = subFrom r f [] s := rfl

theorem subFrom_nil (r : Re) (f) (prev : Str) : subFrom r f prev [] = [] := rfl

theorem subFrom_miss (r : Re) (f) (prev : Str) (c : Char) (cs : Str)
    (h : run r ⟨prev, c :: cs, []⟩ (findK (c :: cs).length) = none) :
    subFrom r f prev (c :: cs) = c :: subFrom r f (c :: prev) cs := by
  unfold subFrom
  rw [List.length_cons, finditerAux]
  show (match run r ⟨prev, c :: cs, []⟩ (findK (c :: cs).length) with
    | some st => _ | none => _ : List _).flatMap _ = _
  rw [h]
  rfl

theorem subFrom_hit (r : Re) (f) (prev w s : Str) (pv : Str) (caps) (hne : w ≠ [])
    (h : run r ⟨prev, w ++ s, []⟩ (findK (w ++ s).length) = some ⟨pv, s, caps⟩) :
    subFrom r f prev (w ++ s) = f w caps ++ subFrom r f pv s := by
  cases w with
  | nil => exact absurd rfl hne
  | cons c cs =>
    unfold subFrom
    simp only [List.cons_append] at h ⊢
    rw [List.length_cons, finditerAux]
    show (match run r ⟨prev, c :: (cs ++ s), []⟩ (findK (c :: (cs ++ s)).length) with
      | some st => _ | none => _ : List _).flatMap _ = _
    rw [h]
    simp only [List.flatMap_cons]
    have e : (c :: (cs ++ s)).take ((c :: (cs ++ s)).length - s.length) = c :: cs := take_consumed (c :: cs) s
    rw [e, finditerAux_fuel r (cs ++ s).length s.length pv s (by simp) (Nat.le_refl _)]

/-- Characters that cannot begin a match are copied. -/
theorem subFrom_skip (r : Re) (f) (w s prev : Str)
    (h : ∀ c ∈ w, ∀ (prev cs : Str) n, run r ⟨prev, c :: cs, []⟩ (findK n) = none) :
    subFrom r f prev (w ++ s) = w ++ subFrom r f (w.reverse ++ prev) s := by
  induction w generalizing prev with
  | nil => simp
  | cons c cs ih =>
    simp only [List.cons_append]
    rw [subFrom_miss _ _ _ _ _ (h c (by simp) _ _ _), ih _ (fun x hx => h x (by simp [hx]))]
    simp

/-- No character of the text can begin a match. -/
theorem subFrom_id (r : Re) (f) (s prev : Str)
    (h : ∀ c ∈ s, ∀ (prev cs : Str) n, run r ⟨prev, c :: cs, []⟩ (findK n) = none) : subFrom r f prev s = s := by
  have := subFrom_skip r f s [] prev h
  simpa [subFrom_nil] using this

end Py
