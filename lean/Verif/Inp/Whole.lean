import Verif.Inp.BlankLemmas
import Verif.Inp.FilePrint
import Verif.Inp.SurfaceRound
/-! Helper lemmas: printed cards as the words of a file. -/
namespace Inp
open Py Types

/-- A printed text with empty words among the first entries or at the end is made of words. -/
theorem blank_words (w0 : Str) (pre rest tl : List Str) (h0 : Start w0) (hl : w0.length ≤ 78)
    (hp : ∀ w ∈ pre, w = [] ∨ (Stable w ∧ lower w ∉ shorthand)) (hr : ∀ w ∈ rest, Stable w) (ht : tl = [] ∨ tl = [[]]) :
    ∃ ws, CardWords ws ∧ postprocess (w0 ++ enc (pre ++ (rest ++ tl))) = printWords ws := by
  have hi : ∀ w ∈ pre, Inert w := by
    intro w hw
    rcases hp w hw with rfl | h
    · exact inert_nil
    · exact ⟨h.1.entry.sp, h.2⟩
  have hpr : ∀ w ∈ printedWords rest, Entry w := by
    intro w hw
    rcases printed_cases rest (group_ok rest (fun w hw => ⟨(hr w hw).entry.ne, (hr w hw).entry.sp⟩)
      (fun w hw n l h => by rw [(hr w hw).cnt] at h; cases h)) w hw with h | ⟨kw, hk, n, _, rfl⟩
    · exact (hr w h).entry
    · exact counted_entry kw hk n
  have hall : ∀ w ∈ pre ++ (printedWords rest ++ tl), w = [] ∨ Entry w := by
    intro w hw
    simp only [List.mem_append] at hw
    rcases hw with hw | hw | hw
    · rcases hp w hw with h | h
      · exact .inl h
      · exact .inr h.1.entry
    · exact .inr (hpr w hw)
    · rcases ht with rfl | rfl
      · cases hw
      · simp only [List.mem_singleton] at hw; exact .inl hw
  refine ⟨w0 :: (pre ++ (printedWords rest ++ tl)), ⟨h0, hl, hall⟩, ?_⟩
  rw [postprocess_words w0 _ _ (collapseAll_blank w0 h0.1.sp pre rest tl hi hr ht), printWords]
  intro w hw hc
  have : NoSpace w := by
    rcases List.mem_cons.1 hw with rfl | hw
    · exact h0.1.sp
    · rcases hall w hw with rfl | h
      · exact inert_nil.1
      · exact h.sp
  exact absurd (this _ hc) (by decide)

theorem int_hash (n : Int) : (intStr n).head? ≠ some '#' := by
  intro h
  have := intStr_chars n '#' (List.mem_of_mem_head? h)
  revert this; decide

theorem int_hash' {n : IntVal} (hn : ReadSc .int (.int n)) : n.str.head? ≠ some '#' := by
  intro h
  exact (int_text_begin hn _ h).2.2 rfl

theorem int_short (n : Int) (h : 0 ≤ n ∧ n ≤ 99999999) : (intStr n).length ≤ 78 := by
  obtain ⟨k, rfl⟩ : ∃ k : Nat, n = k := ⟨n.toNat, by omega⟩
  exact natStr_length_le k 78 (by omega) (by omega)

/-- The first word of a printed card: prefix, keyword, number and particle (src/pymcnp/inp/_card.py:57). -/
def Val.headWord : Val → Str
  | .obj i vs => headStr i.kw (i.attrs.zip (Val.parts vs))
  | _ => []

/-- The first word of a card does not begin with `#`. -/
theorem hash_head (h : Head) (hd : Str) (r) (hr : readHead h hd = some r) (hk : h.kw ≠ [] ∧ (lower h.kw).head? ≠ some '#') :
    hd.head? ≠ some '#' := by
  intro hh
  cases hd with
  | nil => cases hh
  | cons c t =>
    simp only [List.head?_cons, Option.some.injEq] at hh
    subst hh
    have hp : (readPre h.pre ('#' :: t)).2 = '#' :: t := by
      unfold readPre
      split
      · rfl
      · show (if '#' ∈ h.pre.chars then _ else _ : List (Option Str) × Str).2 = _
        rw [if_neg]
        intro hc
        have := Pre.chars_mem hc
        revert this; decide
    unfold readHead at hr
    rw [hp] at hr
    cases hkk : readKw h.kw ('#' :: t) with
    | none => rw [hkk] at hr; cases hr
    | some u =>
      unfold readKw at hkk
      split at hkk
      · rename_i e
        cases hkw : h.kw with
        | nil => exact absurd hkw hk.1
        | cons a b =>
          rw [hkw] at e hk
          rw [← e] at hk
          exact hk.2 rfl
      · cases hkk

/-- A printed text of entries is made of words. -/
theorem words_print (hd : Str) (ws : List Str) (h0 : Entry hd) (hh : hd.head? ≠ some '#') (hl : hd.length ≤ 78)
    (hs : ∀ w ∈ ws, Stable w) : ∃ vs, CardWords vs ∧ postprocess (join [' '] (hd :: ws)) = printWords vs := by
  have := blank_words hd [] ws [] ⟨h0, hh⟩ hl (by simp) hs (.inl rfl)
  rw [join_enc]
  simpa using this

end Inp
