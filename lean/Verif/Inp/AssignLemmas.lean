import Verif.Inp.WordSpec
/-!
# Facts about `assign`
-/
namespace Inp
open Py

theorem Fits.length {fs vs} (h : Fits fs vs) : vs.length = fs.length := by
  induction fs generalizing vs with
  | nil => cases vs with
    | nil => rfl
    | cons v vs => cases h
  | cons f fs ih => cases vs with
    | nil => cases h
    | cons v vs =>
      cases v with
      | none => simp [ih h.2]
      | some ws => simp [ih h.2.2.2]

theorem flat_cons_none (vs : Assign) : Assign.flat (none :: vs) = Assign.flat vs := rfl
theorem flat_cons_some (ws) (vs : Assign) : Assign.flat (some ws :: vs) = ws ++ Assign.flat vs := rfl

theorem takeMore_sound {ok lazy next taken ws r} (h : takeMore ok lazy next taken ws = some r) :
    ∃ a b vs, ws = a ++ b ∧ (∀ w ∈ a, ok w = true) ∧ next b = some vs ∧ r = some (taken ++ a) :: vs := by
  induction ws generalizing taken with
  | nil =>
    simp only [takeMore, Option.map_eq_some_iff] at h
    obtain ⟨vs, h1, rfl⟩ := h
    exact ⟨[], [], vs, rfl, by simp, h1, by simp⟩
  | cons w ws ih =>
    simp only [takeMore] at h
    have here : (next (w :: ws)).map (some taken :: ·) = some r → ∃ a b vs, w :: ws = a ++ b ∧ (∀ w ∈ a, ok w = true) ∧
        next b = some vs ∧ r = some (taken ++ a) :: vs := by
      intro h
      obtain ⟨vs, h1, rfl⟩ := Option.map_eq_some_iff.1 h
      exact ⟨[], w :: ws, vs, rfl, by simp, h1, by simp⟩
    have more : (if ok w then takeMore ok lazy next (taken ++ [w]) ws else none) = some r →
        ∃ a b vs, w :: ws = a ++ b ∧ (∀ w ∈ a, ok w = true) ∧ next b = some vs ∧ r = some (taken ++ a) :: vs := by
      intro h
      split at h
      · rename_i ho
        obtain ⟨a, b, vs, rfl, h2, h3, rfl⟩ := ih h
        refine ⟨w :: a, b, vs, rfl, ?_, h3, by simp⟩
        intro x hx
        rcases List.mem_cons.1 hx with rfl | hx
        · exact ho
        · exact h2 x hx
      · cases h
    cases lazy with
    | true =>
      rw [if_pos rfl, Option.or_eq_some_iff] at h
      rcases h with h | ⟨_, h⟩
      · exact here h
      · exact more h
    | false =>
      simp only [Bool.false_eq_true, if_false] at h
      rw [Option.or_eq_some_iff] at h
      rcases h with h | ⟨_, h⟩
      · exact more h
      · exact here h

theorem takeMany_sound {ok lazy next ws r} (h : takeMany ok lazy next ws = some r) :
    ∃ a b vs, ws = a ++ b ∧ a ≠ [] ∧ (∀ w ∈ a, ok w = true) ∧ next b = some vs ∧ r = some a :: vs := by
  cases ws with
  | nil => cases h
  | cons w ws =>
    simp only [takeMany] at h
    split at h
    · rename_i ho
      obtain ⟨a, b, vs, rfl, h2, h3, rfl⟩ := takeMore_sound h
      refine ⟨w :: a, b, vs, rfl, by simp, ?_, h3, by simp⟩
      intro x hx
      rcases List.mem_cons.1 hx with rfl | hx
      · exact ho
      · exact h2 x hx
    · cases h

theorem takeOne_sound {ok next ws r} (h : takeOne ok next ws = some r) :
    ∃ w b vs, ws = w :: b ∧ ok w = true ∧ next b = some vs ∧ r = some [w] :: vs := by
  cases ws with
  | nil => cases h
  | cons w ws =>
    simp only [takeOne] at h
    split at h
    · rename_i ho
      obtain ⟨vs, h1, rfl⟩ := Option.map_eq_some_iff.1 h
      exact ⟨w, ws, vs, rfl, ho, h1, rfl⟩
    · cases h

/-- No entry is lost, duplicated, moved or given to a field that does not accept it. -/
theorem assign_sound {fs ws vs} (h : assign fs ws = some vs) : Fits fs vs ∧ Assign.flat vs = ws := by
  induction fs generalizing ws vs with
  | nil =>
    cases ws with
    | nil => simp only [assign, Option.some.injEq] at h; subst h; exact ⟨trivial, rfl⟩
    | cons w ws => cases h
  | cons f fs ih =>
    obtain ⟨ok, m⟩ := f
    have one : takeOne ok (assign fs) ws = some vs → Fits ((ok, m) :: fs) vs ∧ Assign.flat vs = ws := by
      intro h
      obtain ⟨w, b, us, rfl, ho, h1, rfl⟩ := takeOne_sound h
      obtain ⟨f1, f2⟩ := ih h1
      refine ⟨⟨by simp, by simpa using ho, by simp, f1⟩, ?_⟩
      rw [flat_cons_some, f2]; rfl
    have many : ∀ lazy, (m ≠ .req ∧ m ≠ .opt) → takeMany ok lazy (assign fs) ws = some vs →
        Fits ((ok, m) :: fs) vs ∧ Assign.flat vs = ws := by
      intro lazy hm h
      obtain ⟨a, b, us, rfl, hne, ho, h1, rfl⟩ := takeMany_sound h
      obtain ⟨f1, f2⟩ := ih h1
      refine ⟨⟨hne, ho, fun h => absurd h (by rintro (h | h); exact hm.1 h; exact hm.2 h), f1⟩, ?_⟩
      rw [flat_cons_some, f2]
    have skip : (m = .opt ∨ m = .manyOpt) → (assign fs ws).map (none :: ·) = some vs →
        Fits ((ok, m) :: fs) vs ∧ Assign.flat vs = ws := by
      intro hm h
      obtain ⟨us, h1, rfl⟩ := Option.map_eq_some_iff.1 h
      obtain ⟨f1, f2⟩ := ih h1
      exact ⟨⟨hm, f1⟩, f2⟩
    cases m with
    | req => exact one h
    | opt =>
      simp only [assign, Option.or_eq_some_iff] at h
      rcases h with h | ⟨_, h⟩
      · exact one h
      · exact skip (.inl rfl) h
    | many => exact many true (by simp) h
    | greedy => exact many false (by simp) h
    | manyOpt =>
      simp only [assign, Option.or_eq_some_iff] at h
      rcases h with h | ⟨_, h⟩
      · exact many true (by simp) h
      · exact skip (.inr rfl) h

theorem takeMore_complete {ok lazy next} (a b : List Str) (ha : ∀ w ∈ a, ok w = true) (hb : (next b).isSome = true) (taken) :
    (takeMore ok lazy next taken (a ++ b)).isSome = true := by
  induction a generalizing taken with
  | nil =>
    cases b with
    | nil => simpa [takeMore] using hb
    | cons w b =>
      simp only [List.nil_append, takeMore]
      obtain ⟨x, hx⟩ := Option.isSome_iff_exists.1 hb
      rw [hx]
      cases lazy
      · simp
      · simp
  | cons w a ih =>
    simp only [List.cons_append, takeMore, ha w (by simp), if_true]
    obtain ⟨x, hx⟩ := Option.isSome_iff_exists.1 (ih (fun y hy => ha y (by simp [hy])) (taken ++ [w]))
    rw [hx]
    cases lazy <;> simp

/-- Whenever the entries can be distributed over the fields, `assign` finds a distribution. -/
theorem assign_complete {fs vs} (h : Fits fs vs) : (assign fs (Assign.flat vs)).isSome = true := by
  induction fs generalizing vs with
  | nil =>
    cases vs with
    | nil => rfl
    | cons v vs => cases h
  | cons f fs ih =>
    obtain ⟨ok, m⟩ := f
    cases vs with
    | nil => cases h
    | cons v vs =>
      cases v with
      | none =>
        obtain ⟨hm, h1⟩ := h
        have := ih h1
        rw [flat_cons_none]
        rcases hm with rfl | rfl <;> simp [assign, this]
      | some ws =>
        obtain ⟨hne, ho, hl, h1⟩ := h
        have h2 := ih h1
        rw [flat_cons_some]
        cases ws with
        | nil => exact absurd rfl hne
        | cons w ws =>
          have hmany : ∀ lazy, (takeMany ok lazy (assign fs) (w :: ws ++ Assign.flat vs)).isSome = true := by
            intro lazy
            simp only [List.cons_append, takeMany, ho w (by simp), if_true]
            exact takeMore_complete ws _ (fun y hy => ho y (by simp [hy])) h2 _
          have hone : ws = [] → (takeOne ok (assign fs) (w :: ws ++ Assign.flat vs)).isSome = true := by
            rintro rfl
            simp [takeOne, ho w (by simp), h2]
          cases m with
          | req => exact hone (by simpa using hl (.inl rfl))
          | opt =>
            have := hone (by simpa using hl (.inr rfl))
            rw [assign, Option.isSome_or, this]; rfl
          | many => exact hmany true
          | greedy => exact hmany false
          | manyOpt => rw [assign, Option.isSome_or, hmany true]; rfl

end Inp
