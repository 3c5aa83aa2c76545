import Verif.Inp.AssignLemmas
/-!
# Assignments of particular field lists
-/
namespace Inp
open Py

theorem assign_none (fs : List ((Str → Bool) × Mode)) (h : ∀ f ∈ fs, f.2 = .opt) :
    assign fs [] = some (List.replicate fs.length none) := by
  induction fs with
  | nil => rfl
  | cons f fs ih =>
    obtain ⟨ok, m⟩ := f
    have : m = .opt := h (ok, m) (by simp)
    subst this
    simp only [assign, takeOne, Option.none_or, ih (fun f hf => h f (by simp [hf])), Option.map_some, List.length_cons,
      List.replicate_succ]

/-- Optional single entries are filled from the left. -/
theorem assign_opts (fs : List ((Str → Bool) × Mode)) (h : ∀ f ∈ fs, f.2 = .opt) :
    ∀ ws : List Str, ws.length ≤ fs.length → (∀ f ∈ fs, ∀ w ∈ ws, f.1 w = true) →
    assign fs ws = some (ws.map (fun w => some [w]) ++ List.replicate (fs.length - ws.length) none) := by
  induction fs with
  | nil =>
    intro ws hl _
    have : ws = [] := by simpa using hl
    subst this; rfl
  | cons f fs ih =>
    intro ws hl hok
    cases ws with
    | nil => rw [assign_none _ h]; simp
    | cons w ws =>
      obtain ⟨ok, m⟩ := f
      have : m = .opt := h (ok, m) (by simp)
      subst this
      have h1 : ok w = true := hok (ok, .opt) (by simp) w (by simp)
      have h2 := ih (fun f hf => h f (by simp [hf])) ws (by simpa using hl) (fun f hf v hv => hok f (by simp [hf]) v (by simp [hv]))
      simp only [assign, takeOne, h1, if_true, h2, Option.map_some, Option.some_or, List.map_cons, List.cons_append,
        List.length_cons, Nat.add_sub_add_right]

/-- Single entries: the number of entries. -/
theorem fits_length (fs : List ((Str → Bool) × Mode)) (h : ∀ f ∈ fs, f.2 = .req ∨ f.2 = .opt) : ∀ vs, Fits fs vs →
    (fs.filter (fun f => f.2 == .req)).length ≤ (Assign.flat vs).length ∧ (Assign.flat vs).length ≤ fs.length := by
  induction fs with
  | nil =>
    intro vs hf
    cases vs with
    | nil => simp [Assign.flat]
    | cons v vs => exact False.elim hf
  | cons f fs ih =>
    intro vs hf
    obtain ⟨ok, m⟩ := f
    have hm := h (ok, m) (by simp)
    cases vs with
    | nil => exact False.elim hf
    | cons v vs =>
      have hi := ih (fun f hf => h f (by simp [hf])) vs
      cases v with
      | none =>
        obtain ⟨h1, h2⟩ := hf
        obtain ⟨i1, i2⟩ := hi h2
        rw [flat_cons_none]
        have : m = .opt := by
          rcases h1 with h1 | h1
          · exact h1
          · subst h1; rcases hm with hm | hm <;> cases hm
        subst this
        rw [List.filter_cons_of_neg (by simp)]
        simp only [List.length_cons]
        omega
      | some ws =>
        obtain ⟨h1, h2, h3, h4⟩ := hf
        obtain ⟨i1, i2⟩ := hi h4
        rw [flat_cons_some]
        have : ws.length = 1 := h3 hm
        simp only [List.length_append, List.length_cons]
        have : (List.filter (fun f => f.2 == .req) ((ok, m) :: fs)).length ≤ 1 + (List.filter (fun f => f.2 == .req) fs).length := by
          rw [List.filter_cons]; split <;> simp <;> omega
        omega

theorem assign_length (fs : List ((Str → Bool) × Mode)) (h : ∀ f ∈ fs, f.2 = .req ∨ f.2 = .opt) (ws : List Str)
    (hl : ws.length < (fs.filter (fun f => f.2 == .req)).length ∨ fs.length < ws.length) : assign fs ws = none := by
  cases hf : assign fs ws with
  | none => rfl
  | some vs =>
    obtain ⟨ft, fl⟩ := assign_sound hf
    have := fits_length fs h vs ft
    rw [fl] at this
    omega

/-- A list followed by two optional entries that accept anything keeps all but its last two entries. -/
theorem lazy_two (ok o1 o2 : Str → Bool) (a b : Str) (h1 : o1 a = true) (h2 : o2 b = true) :
    ∀ (l : List Str) (t : List Str), (∀ w ∈ l, ok w = true) →
    takeMore ok true (assign [(o1, .opt), (o2, .opt)]) t (l ++ [a, b]) = some [some (t ++ l), some [a], some [b]] := by
  intro l
  induction l with
  | nil =>
    intro t _
    simp [takeMore, assign, takeOne, h1, h2]
  | cons w l ih =>
    intro t ht
    have hn : assign [(o1, .opt), (o2, .opt)] (w :: (l ++ [a, b])) = none := by
      apply assign_length
      · intro f hf; simp only [List.mem_cons, List.not_mem_nil, or_false] at hf; rcases hf with rfl | rfl <;> exact .inr rfl
      · right; simp
    rw [List.cons_append, takeMore]
    simp only [hn, Option.map_none, ht w (by simp), if_true, Option.none_or]
    rw [ih (t ++ [w]) (fun v hv => ht v (by simp [hv]))]
    simp

theorem list_flags (ok o1 o2 : Str → Bool) (w : Str) (l : List Str) (a b : Str) (hw : ∀ v ∈ w :: l, ok v = true)
    (h1 : o1 a = true) (h2 : o2 b = true) :
    assign [(ok, .many), (o1, .opt), (o2, .opt)] (w :: (l ++ [a, b])) = some [some (w :: l), some [a], some [b]] := by
  rw [assign]
  simp only [takeMany, hw w (by simp), if_true]
  rw [lazy_two ok o1 o2 a b h1 h2 l [w] (fun v hv => hw v (by simp [hv]))]
  rfl

/-- An optional entry before an optional list takes the first entry of the list. -/
theorem opt_list (ok : Str → Bool) (w v : Str) (ws : List Str) (h : ∀ u ∈ w :: v :: ws, ok u = true) :
    assign [(ok, .opt), (ok, .manyOpt)] (w :: v :: ws) = some [some [w], some (v :: ws)] := by
  have hm : ∀ (l t : List Str), (∀ u ∈ l, ok u = true) → takeMore ok true (assign []) t l = some [some (t ++ l)] := by
    intro l
    induction l with
    | nil => intro t _; simp [takeMore, assign]
    | cons x l ih =>
      intro t ht
      rw [takeMore]
      simp only [assign, Option.map_none, ht x (by simp), if_true, Option.none_or]
      rw [ih (t ++ [x]) (fun u hu => ht u (by simp [hu]))]
      simp
  simp only [assign, takeOne, takeMany, h w (by simp), h v (by simp), if_true]
  rw [hm ws [v] (fun u hu => h u (by simp [hu]))]
  rfl

theorem opt_list_one (ok : Str → Bool) (w : Str) (h : ok w = true) :
    assign [(ok, .opt), (ok, .manyOpt)] [w] = some [some [w], none] := by
  simp [assign, takeOne, takeMany, h]

end Inp
