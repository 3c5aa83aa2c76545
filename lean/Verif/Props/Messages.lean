import Verif.Run.Messages
import Verif.Py.StrLemmas
/-!
# Error texts: C76
-/
namespace Props
open Py Messages

/-! ## Specification -/

/-- What a reader of the text sees below the first line: up to four lines of the offending text, and dots if there are more. -/
def Quotes (ls shown : List Str) : Prop :=
  if ls.length ≤ 4 then shown = ls else shown.length = 5 ∧ shown.take 4 = ls.take 4 ∧ shown.drop 4 = [c!"..."]

/-! ## Helper lemmas -/

theorem join_gt (h : Str) (ls : List Str) (hne : ls ≠ []) : h ++ c!"\n> " ++ join c!"\n> " ls = join ['\n'] (h :: ls.map (c!"> " ++ ·)) := by
  induction ls generalizing h with
  | nil => exact absurd rfl hne
  | cons l ls ih =>
    cases ls with
    | nil => simp [join]
    | cons m ms =>
      have := ih (c!"> " ++ l) (by simp)
      simp only [List.map_cons, join] at this ⊢
      simp only [List.append_assoc, List.cons_append, List.nil_append] at this ⊢
      rw [← this]

theorem quoted_free (info : Str) : ∀ l ∈ quoted info, '\n' ∉ l := by
  intro l hl
  have hf := splitC_free '\n' info
  unfold quoted at hl
  simp only at hl
  split at hl
  · rcases List.mem_append.1 hl with hl | hl
    · exact hf l (List.mem_of_mem_take hl)
    · simp only [List.mem_singleton] at hl
      subst hl; decide
  · exact hf l hl

theorem quoted_ne (info : Str) : quoted info ≠ [] := by
  unfold quoted
  simp only
  split
  · simp
  · exact splitC_ne_nil _ _

theorem heads_free : ∀ f : Family, f.codes.all (fun x => !x.2.contains '\n') = true := by
  intro f; cases f <;> decide

/-! ## C76 – errors say what they are and quote at most four lines -/

/-- Every error the library raises has a text, whatever it is about.  Its lines are a line that tells the kind of the error, followed by the
quoted lines of the offending text, each after `> `. -/
theorem C76_message (f : Family) (code : Nat) (h : (f, code) ∈ raised) (info : Str) :
    ∃ s first shown, message f code info = .ok s ∧ (code, first) ∈ f.codes ∧ splitC '\n' s = first :: shown.map (c!"> " ++ ·) ∧
      Quotes (splitC '\n' info) shown := by
  have hfind : ∀ x ∈ raised, ((x.1.codes.find? fun y => y.1 == x.2).isSome) = true := by decide
  have hs := hfind _ h
  obtain ⟨⟨c, first⟩, hc⟩ := Option.isSome_iff_exists.1 hs
  have hm := List.mem_of_find?_eq_some hc
  have hcode := List.find?_some hc
  simp only [beq_iff_eq] at hcode
  subst hcode
  refine ⟨_, first, quoted info, by simp only [message, hc]; rfl, hm, ?_, ?_⟩
  · rw [join_gt _ _ (quoted_ne info)]
    apply splitC_join
    · simp
    · intro w hw
      rcases List.mem_cons.1 hw with rfl | hw
      · have := List.all_eq_true.1 (heads_free f) _ hm
        simpa using this
      · obtain ⟨l, hl, rfl⟩ := List.mem_map.1 hw
        have := quoted_free info l hl
        simpa using this
  · have hc4 : cutoff = 4 := rfl
    unfold Quotes
    by_cases hl : (splitC '\n' info).length ≤ 4
    · have hq : quoted info = splitC '\n' info := if_neg (by omega)
      rw [if_pos hl, hq]
    · have hq : quoted info = (splitC '\n' info).take 4 ++ [c!"..."] := if_pos (by omega)
      have ht : ((splitC '\n' info).take 4).length = 4 := by rw [List.length_take]; omega
      rw [if_neg hl, hq]
      refine ⟨by simp only [List.length_append, ht]; rfl, ?_, ?_⟩
      · rw [List.take_append_of_le_length (by omega), List.take_take]; simp
      · rw [List.drop_append_of_le_length (by omega), List.drop_of_length_le (by omega)]; rfl

example : message .inp 11 c!"a\nb\nc\nd\ne\nf" = .ok c!"Invalid INP card.\n> a\n> b\n> c\n> d\n> ..." ∧
    message .types 0 c!"1.x" = .ok c!"MCNP data type not recognized.\n> 1.x" := by decide

/-- Different kinds of errors have different texts, whatever they are about: the text tells the class of the error and its code. -/
theorem C76_distinct (f g : Family) (a b : Nat) (i j s : Str) (h1 : message f a i = .ok s) (h2 : message g b j = .ok s) : f = g ∧ a = b := by
  have key : ∀ f a i, message f a i = .ok s → ∃ h ∈ f.codes, h.1 = a ∧ (splitC '\n' s).head? = some h.2 := by
    intro f a i h
    unfold message at h
    split at h
    · rename_i c hd hc
      cases h
      have hm := List.mem_of_find?_eq_some hc
      refine ⟨(c, hd), hm, by simpa using List.find?_some hc, ?_⟩
      rw [join_gt _ _ (quoted_ne i), splitC_join _ _ (by simp)]
      · rfl
      · intro w hw
        rcases List.mem_cons.1 hw with rfl | hw
        · have := List.all_eq_true.1 (heads_free f) _ hm
          simpa using this
        · obtain ⟨l, hl, rfl⟩ := List.mem_map.1 hw
          have := quoted_free i l hl
          simpa using this
    · cases h
  obtain ⟨x, hx, rfl, ex⟩ := key f a i h1
  obtain ⟨y, hy, rfl, ey⟩ := key g b j h2
  rw [ex] at ey
  have ey := Option.some.inj ey
  have table : ∀ f g : Family, ∀ x ∈ f.codes, ∀ y ∈ g.codes, x.2 = y.2 → f = g ∧ x.1 = y.1 := by
    intro f g
    cases f <;> cases g <;> decide +kernel
  exact table f g x hx y hy ey

end Props
