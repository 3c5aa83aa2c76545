import Verif.Py.RegexSub
/-! Helper lemmas: splitting a text into tokens with `re.finditer`. -/
namespace Py

/-- The pattern reads the pieces one after the other. -/
def Lexes (r : Re) : List Str → Prop
  | [] => True
  | w :: ws => w ≠ [] ∧
    (∀ prev n, ws.flatten.length < n → ∃ caps, run r ⟨prev, w ++ ws.flatten, []⟩ (findK n) =
      some ⟨w.reverse ++ prev, ws.flatten, caps⟩) ∧ Lexes r ws

theorem finditerAux_lexes (r : Re) (ws : List Str) (h : Lexes r ws) (n : Nat) (prev : Str)
    (hn : ws.flatten.length ≤ n) :
    (finditerAux r n prev ws.flatten).filterMap (fun | .inl _ => none | .inr (t, _) => some t) = ws := by
  induction ws generalizing n prev with
  | nil => cases n <;> rfl
  | cons w ws ih =>
    obtain ⟨hne, hs, hr⟩ := h
    simp only [List.flatten_cons] at hn ⊢
    cases hx : w ++ ws.flatten with
    | nil => exact absurd (List.append_eq_nil_iff.1 hx).1 hne
    | cons c cs =>
      rw [hx] at hn
      have hlen : ws.flatten.length < (c :: cs).length := by
        rw [← hx, List.length_append]
        have : 0 < w.length := List.length_pos_iff.2 hne
        omega
      cases n with
      | zero => simp at hn
      | succ n =>
        obtain ⟨caps, this⟩ := hs prev (c :: cs).length hlen
        rw [hx] at this
        rw [finditerAux]
        have e : (c :: cs).take ((c :: cs).length - ws.flatten.length) = w := by
          rw [← hx]; exact take_consumed _ _
        show List.filterMap _ (match run r ⟨prev, c :: cs, []⟩ (findK (c :: cs).length) with
          | some st => _
          | none => _) = _
        rw [this]
        simp only [e, List.filterMap_cons]
        rw [ih hr n _ (by omega)]

theorem finditer_lexes (r : Re) (ws : List Str) (h : Lexes r ws) : finditer r ws.flatten = ws :=
  finditerAux_lexes r ws h _ _ (Nat.le_refl _)

/-- The pattern reads the pieces one after the other, with these captures. -/
def LexesC (r : Re) : List (Str × List (Nat × Str)) → Prop
  | [] => True
  | w :: ws => w.1 ≠ [] ∧
    (∀ prev, run r ⟨prev, w.1 ++ (ws.map (·.1)).flatten, []⟩ (findK (w.1 ++ (ws.map (·.1)).flatten).length) =
      some ⟨w.1.reverse ++ prev, (ws.map (·.1)).flatten, w.2⟩) ∧ LexesC r ws

theorem finditerAux_lexesC (r : Re) (ws : List (Str × List (Nat × Str))) (h : LexesC r ws) (n : Nat) (prev : Str)
    (hn : (ws.map (·.1)).flatten.length ≤ n) : finditerAux r n prev (ws.map (·.1)).flatten = ws.map .inr := by
  induction ws generalizing n prev with
  | nil => cases n <;> rfl
  | cons w ws ih =>
    obtain ⟨hne, hs, hr⟩ := h
    simp only [List.map_cons, List.flatten_cons] at hn ⊢
    cases hx : w.1 ++ (ws.map (·.1)).flatten with
    | nil => exact absurd (List.append_eq_nil_iff.1 hx).1 hne
    | cons c cs =>
      rw [hx] at hn
      have hlen : (ws.map (·.1)).flatten.length < (c :: cs).length := by
        rw [← hx, List.length_append]
        have : 0 < w.1.length := List.length_pos_iff.2 hne
        omega
      cases n with
      | zero => simp at hn
      | succ n =>
        have this := hs prev
        rw [hx] at this
        rw [finditerAux]
        have e : (c :: cs).take ((c :: cs).length - (ws.map (·.1)).flatten.length) = w.1 := by
          rw [← hx]; exact take_consumed _ _
        show (match run r ⟨prev, c :: cs, []⟩ (findK (c :: cs).length) with
          | some st => _
          | none => _) = _
        rw [this]
        simp only [e]
        rw [ih hr n _ (by omega)]

theorem finditer_lexesC (r : Re) (ws : List (Str × List (Nat × Str))) (h : LexesC r ws) :
    finditer r (ws.map (·.1)).flatten = ws.map (·.1) := by
  rw [finditer, finditerAux_lexesC r ws h _ _ (Nat.le_refl _)]
  induction ws with
  | nil => rfl
  | cons w ws ih => simp [ih h.2.2]

end Py
