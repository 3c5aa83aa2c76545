import Verif.Inp.ApartSpec
import Verif.Inp.AssignLemmas
/-!
# Entries that cannot slide into another field are assigned to their own
-/
namespace Inp
open Py

theorem fits_flat : ∀ (fs : List ((Str → Bool) × Mode)) (vs : Assign), Fits fs vs → ∀ w ∈ Assign.flat vs, ∃ f ∈ fs, f.1 w = true
  | [], [], _, w, hw => by simp [Assign.flat] at hw
  | [], _ :: _, h, _, _ => by cases h
  | _ :: _, [], h, _, _ => by cases h
  | (ok, m) :: fs, none :: vs, h, w, hw => by
    obtain ⟨f, hf, h'⟩ := fits_flat fs vs h.2 w (by simpa [Assign.flat] using hw)
    exact ⟨f, by simp [hf], h'⟩
  | (ok, m) :: fs, some ws :: vs, h, w, hw => by
    simp only [Assign.flat, List.flatMap_cons, Option.getD_some, List.mem_append] at hw
    rcases hw with hw | hw
    · exact ⟨(ok, m), List.mem_cons_self, h.2.1 w hw⟩
    · obtain ⟨f, hf, h'⟩ := fits_flat fs vs h.2.2.2 w hw
      exact ⟨f, by simp [hf], h'⟩

theorem assign_reject {fs : List ((Str → Bool) × Mode)} {ws : List Str} {w : Str} (hw : w ∈ ws) (h : ∀ f ∈ fs, f.1 w = false) :
    assign fs ws = none := by
  cases hv : assign fs ws with
  | none => rfl
  | some vs =>
    obtain ⟨f1, f2⟩ := assign_sound hv
    obtain ⟨f, hf, hx⟩ := fits_flat fs vs f1 w (by rw [f2]; exact hw)
    rw [h f hf] at hx; cases hx

theorem more_lazy {ok : Str → Bool} {fs : List ((Str → Bool) × Mode)} {vs : Assign} {rest : List Str} (hn : assign fs rest = some vs) :
    ∀ (l taken : List Str), (∀ w ∈ l, ok w = true) → (∀ w ∈ l, ∀ f ∈ fs, f.1 w = false) →
      takeMore ok true (assign fs) taken (l ++ rest) = some (some (taken ++ l) :: vs)
  | [], taken, _, _ => by
    cases rest with
    | nil => simp [takeMore, hn]
    | cons w ws => simp [takeMore, hn]
  | w :: l, taken, h1, h2 => by
    have := more_lazy (ok := ok) hn l (taken ++ [w]) (fun x hx => h1 x (by simp [hx])) (fun x hx => h2 x (by simp [hx]))
    have hr : assign fs (w :: (l ++ rest)) = none := assign_reject (w := w) (by simp) (h2 w (by simp))
    simp [takeMore, hr, h1 w (by simp), this]

theorem more_greedy {ok : Str → Bool} {fs : List ((Str → Bool) × Mode)} {vs : Assign} {rest : List Str} (hn : assign fs rest = some vs)
    (hr : ∀ w ∈ rest.head?, ok w = false) : ∀ (l taken : List Str), (∀ w ∈ l, ok w = true) →
      takeMore ok false (assign fs) taken (l ++ rest) = some (some (taken ++ l) :: vs)
  | [], taken, _ => by
    cases rest with
    | nil => simp [takeMore, hn]
    | cons w ws => simp [takeMore, hn, hr w (by simp)]
  | w :: l, taken, h1 => by
    have := more_greedy (ok := ok) hn hr l (taken ++ [w]) (fun x hx => h1 x (by simp [hx]))
    simp [takeMore, h1 w (by simp), this]

theorem one_reject {ok : Str → Bool} {next : List Str → Option Assign} {ws : List Str} (h : ∀ w ∈ ws.head?, ok w = false) :
    takeOne ok next ws = none := by
  cases ws with
  | nil => rfl
  | cons w ws => simp [takeOne, h w (by simp)]

theorem many_reject {ok : Str → Bool} {b : Bool} {next : List Str → Option Assign} {ws : List Str} (h : ∀ w ∈ ws.head?, ok w = false) :
    takeMany ok b next ws = none := by
  cases ws with
  | nil => rfl
  | cons w ws => simp [takeMany, h w (by simp)]

/-- Entries that cannot slide into another field are assigned to their own. -/
theorem assign_apart : ∀ (fs : List ((Str → Bool) × Mode)) (vs : Assign), Fits fs vs → Apart fs vs →
    assign fs (Assign.flat vs) = some vs
  | [], [], _, _ => rfl
  | [], _ :: _, h, _ => by cases h
  | _ :: _, [], h, _ => by cases h
  | (ok, m) :: fs, none :: vs, h, ha => by
    have ih := assign_apart fs vs h.2 ha.2.2
    have e : Assign.flat (none :: vs) = Assign.flat vs := by simp [Assign.flat]
    have hr := ha.2.1 (.inl rfl)
    rw [e]
    rcases h.1 with rfl | rfl
    · simp [assign, one_reject hr, ih]
    · simp [assign, many_reject hr, ih]
  | (ok, m) :: fs, some ws :: vs, h, ha => by
    obtain ⟨n1, n2, n3, n4⟩ := h
    have ih := assign_apart fs vs n4 ha.2.2
    cases ws with
    | nil => exact absurd rfl n1
    | cons w ws =>
      have e : Assign.flat (some (w :: ws) :: vs) = w :: (ws ++ Assign.flat vs) := by simp [Assign.flat]
      have hw := n2 w (by simp)
      have hws : ∀ x ∈ ws, ok x = true := fun x hx => n2 x (by simp [hx])
      rw [e]
      cases m with
      | req =>
        have : ws = [] := by simpa using n3 (.inl rfl)
        subst this
        simp [assign, takeOne, hw, ih]
      | opt =>
        have : ws = [] := by simpa using n3 (.inr rfl)
        subst this
        simp [assign, takeOne, hw, ih]
      | many =>
        simp [assign, takeMany, hw, more_lazy (ok := ok) ih ws [w] hws (fun x hx => ha.1 (.inl rfl) x (by simpa using hx))]
      | greedy =>
        simp [assign, takeMany, hw, more_greedy (ok := ok) ih (ha.2.1 (.inr rfl)) ws [w] hws]
      | manyOpt =>
        simp [assign, takeMany, hw, more_lazy (ok := ok) ih ws [w] hws (fun x hx => ha.1 (.inr rfl) x (by simpa using hx))]

end Inp
