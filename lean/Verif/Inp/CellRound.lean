import Verif.Inp.CellRead
import Verif.Inp.OptionRound
import Verif.Inp.BlankLemmas
import Verif.Props.Surface
/-!
# Printed cell cards
-/
namespace Inp
open Py Types

/-! ## Words of printed geometries -/

/-- Characters of a printed geometry, apart from the blank. -/
def geoChar (c : Char) : Bool := isDigit c || decide (c ∈ c!".+-#:()")

theorem geoChar_facts {c : Char} (h : geoChar c = true) : isSpace c = false ∧ c ≠ '&' ∧ c ≠ '=' ∧ c ≠ '$' ∧
    isLetter c = false ∧ lowerC c ≠ 'j' ∧ lowerC c ≠ 'r' ∧ lowerC c ≠ 'i' ∧ lowerC c ≠ 'l' := by
  simp only [geoChar, Bool.or_eq_true, decide_eq_true_eq, List.mem_cons, List.not_mem_nil, or_false] at h
  rcases h with h | rfl | rfl | rfl | rfl | rfl | rfl | rfl
  · simp only [isDigit, Bool.and_eq_true, decide_eq_true_eq] at h
    have h1 : 48 ≤ c.toNat := h.1
    have h2 : c.toNat ≤ 57 := h.2
    have key : ∀ n : Fin 58, 48 ≤ n.1 → isSpace (Char.ofNat n.1) = false ∧ Char.ofNat n.1 ≠ '&' ∧ Char.ofNat n.1 ≠ '=' ∧ Char.ofNat n.1 ≠ '$' ∧
      isLetter (Char.ofNat n.1) = false ∧ lowerC (Char.ofNat n.1) ≠ 'j' ∧ lowerC (Char.ofNat n.1) ≠ 'r' ∧
      lowerC (Char.ofNat n.1) ≠ 'i' ∧ lowerC (Char.ofNat n.1) ≠ 'l' := by decide +kernel
    have := key ⟨c.toNat, by omega⟩ h1
    simpa only [Char.ofNat_toNat] using this
  all_goals decide

/-- A word of a printed geometry. -/
structure GeoWord (w : Str) : Prop where
  ne : w ≠ []
  chars : ∀ c ∈ w, geoChar c = true
  op : w.getLast? ≠ some '('
  cl : w.head? ≠ some ')'

theorem geo_short {w : Str} (h : ∀ c ∈ w, geoChar c = true) : lower w ∉ shorthand := by
  intro hw
  obtain ⟨c, t, e, hc⟩ := shorthand_head _ hw
  cases w with
  | nil => cases e
  | cons d w =>
    simp only [lower, List.map_cons, List.cons.injEq] at e
    obtain ⟨-, -, -, -, -, h1, h2, h3, h4⟩ := geoChar_facts (h d (by simp))
    rw [e.1] at h1 h2 h3 h4
    rcases hc with hc | hc | hc | hc
    · exact h1 hc
    · exact h2 hc
    · exact h3 hc
    · exact h4 hc

theorem GeoWord.stable {w : Str} (h : GeoWord w) : Stable w ∧ geoWord w = true := by
  refine ⟨⟨⟨h.ne, fun c hc => (geoChar_facts (h.chars c hc)).1, fun hc => (geoChar_facts (h.chars _ hc)).2.1 rfl,
    fun hc => (geoChar_facts (h.chars _ hc)).2.2.1 rfl, fun hc => (geoChar_facts (h.chars _ hc)).2.2.2.1 rfl, h.op, h.cl⟩,
    fun hs => absurd hs (geo_short h.chars), ?_⟩, ?_⟩
  · unfold countedEntry
    rw [if_neg]
    rintro ⟨_, hs⟩
    exact geo_short (fun c hc => h.chars c (List.dropWhile_subset _ hc)) hs
  · unfold geoWord
    rw [List.all_eq_true]
    intro c hc
    rw [(geoChar_facts (h.chars c hc)).2.2.2.2.1]
    rfl

/-- A text of such words. -/
def GeoText (s : Str) : Prop := ∃ w ws, s = w ++ enc ws ∧ ∀ x ∈ w :: ws, GeoWord x

theorem getLast_cons {c : Char} {w : Str} (h : w ≠ []) : (c :: w).getLast? = w.getLast? := by
  cases w with
  | nil => exact absurd rfl h
  | cons d w => rfl

theorem GeoText.prefix {s : Str} (h : GeoText s) {c : Char} (hc : geoChar c = true) (h2 : c ≠ ')') : GeoText (c :: s) := by
  obtain ⟨w, ws, rfl, h⟩ := h
  have hw := h w (by simp)
  refine ⟨c :: w, ws, rfl, ?_⟩
  intro x hx
  rcases List.mem_cons.1 hx with rfl | hx
  · refine ⟨by simp, ?_, ?_, by simpa using h2⟩
    · intro y hy
      rcases List.mem_cons.1 hy with rfl | hy
      · exact hc
      · exact hw.chars y hy
    · rw [getLast_cons hw.ne]; exact hw.op
  · exact h x (by simp [hx])

/-- Words written after each other. -/
theorem GeoText.glue {s : Str} (h : GeoText s) (t : Str) (ts : List Str) (ht : t ≠ []) (hc : ∀ c ∈ t, geoChar c = true)
    (hl : t.getLast? ≠ some '(') (hts : ∀ x ∈ ts, GeoWord x) : GeoText (s ++ (t ++ enc ts)) := by
  obtain ⟨w, ws, rfl, h⟩ := h
  have one : ∀ w, GeoWord w → GeoWord (w ++ t) := by
    intro w hw
    refine ⟨by simp [ht], ?_, ?_, ?_⟩
    · intro y hy
      rcases List.mem_append.1 hy with hy | hy
      · exact hw.chars y hy
      · exact hc y hy
    · rw [getLast_app _ _ ht]; exact hl
    · cases hh : w with
      | nil => exact absurd hh hw.ne
      | cons d w' => have := hw.cl; rw [hh] at this; simpa using this
  have key : ∀ (ws : List Str) (w : Str), (∀ x ∈ w :: ws, GeoWord x) → GeoText ((w ++ enc ws) ++ (t ++ enc ts)) := by
    intro ws
    induction ws with
    | nil =>
      intro w h
      refine ⟨w ++ t, ts, by simp, ?_⟩
      intro x hx
      rcases List.mem_cons.1 hx with rfl | hx
      · exact one w (h w (by simp))
      · exact hts x hx
    | cons v ws ih =>
      intro w h
      obtain ⟨w', ws', e, h'⟩ := ih v (fun x hx => h x (by simp only [List.mem_cons] at hx ⊢; exact .inr hx))
      refine ⟨w, w' :: ws', ?_, ?_⟩
      · rw [enc_cons, enc_cons, ← e]; simp
      · intro x hx
        rcases List.mem_cons.1 hx with rfl | hx
        · exact h x (by simp)
        · exact h' x hx
  exact key ws w h

theorem GeoText.append {s t : Str} (h : GeoText s) (h' : GeoText t) : GeoText (s ++ ' ' :: t) := by
  obtain ⟨w, ws, rfl, h⟩ := h
  obtain ⟨v, vs, rfl, h'⟩ := h'
  refine ⟨w, ws ++ v :: vs, by rw [enc_append, enc_cons]; simp, ?_⟩
  intro x hx
  simp only [List.mem_cons, List.mem_append] at hx
  rcases hx with rfl | hx | rfl | hx
  · exact h _ (by simp)
  · exact h _ (by simp [hx])
  · exact h' _ (by simp)
  · exact h' _ (by simp [hx])

theorem num_geo {s : Str} (h : isNum s) : GeoText s := by
  refine ⟨s, [], by simp, ?_⟩
  intro x hx
  simp only [List.mem_singleton] at hx
  subst hx
  have hc := isNum_chars h
  refine ⟨?_, ?_, ?_, ?_⟩
  · obtain ⟨a, b, hne, _, _, _, e⟩ := isNum_shape h
    rw [e]; simp [hne]
  · intro c hcm
    rcases hc c hcm with h | rfl
    · simp [geoChar, h]
    · decide
  · intro hl
    rcases hc _ (List.mem_of_getLast? hl) with h | h <;> revert h <;> decide
  · intro hl
    rcases hc _ (List.mem_of_mem_head? hl) with h | h <;> revert h <;> decide

theorem paren_geo {s : Str} (h : GeoText s) : GeoText ('(' :: s ++ [')']) := by
  have := GeoText.glue (h.prefix (c := '(') (by decide) (by decide)) [')'] [] (by simp) (by decide) (by decide) (by simp)
  simpa using this

theorem op_geo (o : GOp) {s : Str} (h : GeoText s) : GeoText (o.str ++ s) := by
  cases o <;> exact h.prefix (by decide) (by decide)

/-- A geometry the reader accepts prints as words without letters. -/
theorem wf_geo {k : Nat} {e : Ast} (h : WF k e) : GeoText e.str := by
  induction h with
  | digit h => exact num_geo h
  | paren _ ih => exact paren_geo ih
  | unDigit h => exact op_geo _ (num_geo h)
  | unParen _ ih => exact op_geo _ (paren_geo ih)
  | @union l r _ _ ihl ihr =>
    obtain ⟨t, ts, e, ht⟩ := ihr.prefix (c := ':') (by decide) (by decide)
    have hw := ht t (by simp)
    have := ihl.glue t ts hw.ne hw.chars hw.op (fun x hx => ht x (by simp [hx]))
    rw [← e] at this
    exact this
  | inter _ _ ihl ihr => exact ihl.append ihr
  | up0 _ ih => exact ih
  | up1 _ ih => exact ih

end Inp
