import Verif.Inp.DataUnion
import Verif.Inp.Feed
/-!
# The data cards (proofs)
-/
set_option maxRecDepth 100000
namespace Inp
open Py Types

theorem data_begun : dataCards.all (·.begun) = true := by decide +kernel

theorem data_apart : wordsApart dataCards = true := by decide +kernel

theorem firstLetter_prefix {x s : Str} {c : Char} (hp : x <+: s) (h : firstLetter x = some c) : firstLetter s = some c := by
  obtain ⟨t, rfl⟩ := hp
  induction x with
  | nil => cases h
  | cons a x ih =>
    unfold firstLetter at h ⊢
    rw [List.cons_append]
    rw [List.dropWhile_cons] at h ⊢
    split at h
    · rename_i ha; rw [if_pos ha]; exact ih h
    · rename_i ha; rw [if_neg ha]; exact h

theorem begun_letter {c : Cls} (hb : c.begun = true) {s : Str} (hr : (reMatch c.re s).isSome = true) :
    firstLetter (lower s) = some c.initial := by
  obtain ⟨e, h1⟩ := anchored_relax hr
  obtain ⟨x, hx, hx1, -⟩ := Pat.firsts_mt h1
  have := List.all_eq_true.1 hb x hx
  exact firstLetter_prefix hx1 (by simpa using this)

/-- Two classes of a list that is told apart by its keywords find no card in the same text. -/
theorem words_refuse {cs : List Cls} (hb : cs.all (·.begun) = true) (ha : wordsApart cs = true) {c d : Cls} (hc : c ∈ cs) (hd : d ∈ cs)
    (hw : c.word ≠ d.word) {s : Str} (hr : c.recognises s = true) : cardParse d s = .error .inp := by
  have hnone : reMatch d.re (cardPreprocess s).1 = none := by
    have := List.all_eq_true.1 (List.all_eq_true.1 ha c hc) d hd
    simp only [Bool.or_eq_true, bne_iff_ne, ne_eq, beq_iff_eq] at this
    rcases this with ((h | h) | h) | h
    · cases hm : reMatch d.re (cardPreprocess s).1 with
      | none => rfl
      | some m =>
        have h1 := begun_letter (List.all_eq_true.1 hb c hc) hr
        have h2 := begun_letter (List.all_eq_true.1 hb d hd) (s := (cardPreprocess s).1) (by rw [hm]; rfl)
        rw [h1] at h2
        exact absurd (Option.some.inj h2) h
    · exact absurd h hw
    · exact apart_sound h _ hr
    · cases hm : reMatch d.re (cardPreprocess s).1 with
      | none => rfl
      | some m =>
        have := apart_sound h (cardPreprocess s).1 (by
          show (reMatch d.re (cardPreprocess s).1).isSome = true
          rw [hm]; rfl)
        unfold Cls.recognises at hr
        have e : reMatch c.re (cardPreprocess s).1 = none := this
        rw [e] at hr; cases hr
  unfold cardParse
  rw [hnone]

theorem union_filter (p : Cls → Bool) (s : Str) : ∀ cs : List Cls, (∀ d ∈ cs, p d = false → cardParse d s = .error .inp) →
    cardUnion cs s = cardUnion (cs.filter p) s
  | [], _ => rfl
  | d :: cs, h => by
    have ih := union_filter p s cs (fun x hx => h x (by simp [hx]))
    cases hp : p d with
    | true =>
      rw [List.filter_cons_of_pos hp]
      unfold cardUnion
      rw [ih]
    | false =>
      rw [List.filter_cons_of_neg (by simp [hp])]
      conv => lhs; unfold cardUnion
      rw [h d (by simp) hp]
      exact ih

theorem recognises_of_ok {c : Cls} {s r} (h : cardParse c s = .ok r) : c.recognises s = true := by
  unfold cardParse at h
  unfold Cls.recognises
  split at h
  · cases h
  · rename_i m hm; rw [hm]; rfl

end Inp
