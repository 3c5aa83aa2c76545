import Verif.Inp.CaseTable
import Verif.Inp.CaseWords
import Verif.Inp.TableAll
import Verif.Props.Card
/-!
# C29 – the case of letters in a card
-/
namespace Props
open Py Types Inp

/-- Writing letters of a card in the other case changes neither whether it is accepted, nor which exception is raised, nor any number
read; texts, particles and libraries come out the same but for their case.  Partial: an `e` before a digit, a sign or an underscore
stays as it is, and the three classes with a test for a lower-case word are left out. -/
theorem C29_case_partial (c : Cls) (hc : c ∈ caseCards) (s t : Str) (h : Recased s t) : outcome c s = outcome c t :=
  card_case (listed_case c hc) h

/-- 149 of the 152 data cards. -/
theorem caseCards_data : dataCards.all (fun c => caseCards.any (fun d => d.info.name == c.info.name) || ["F_1", "F_2", "Totnu"].contains c.info.name) = true := by
  decide +kernel

set_option maxRecDepth 100000 in
example : Recased c!"SDEF erg=d1 Par=N pos=0 0 1.5e1 $ Text" c!"sdef ERG=D1 par=n POS=0 0 1.5e1 $ text" ∧
    ∃ v, outcome Tab.Sdef c!"SDEF erg=d1 Par=N pos=0 0 1.5e1 $ Text" = .ok v ∧ v.2 = [c!" text"] := by
  refine ⟨by decide +kernel, ?_⟩
  cases h : outcome Tab.Sdef c!"SDEF erg=d1 Par=N pos=0 0 1.5e1 $ Text" with
  | ok v => exact ⟨v, rfl, (by
      have : (outcome Tab.Sdef c!"SDEF erg=d1 Par=N pos=0 0 1.5e1 $ Text").map Prod.snd = .ok [c!" text"] := by decide +kernel
      rw [h] at this; exact Except.ok.inj this)⟩
  | error e =>
    have : (outcome Tab.Sdef c!"SDEF erg=d1 Par=N pos=0 0 1.5e1 $ Text").map Prod.snd = .ok [c!" text"] := by decide +kernel
    rw [h] at this; cases this

/-- Word by word, the first word in any case and every entry in any case but for an `e` at its beginning: `1E5` is read like `1e5`, `DE4`
like `de4`.  Partial: for the classes made of a first word and scalar entries. -/
theorem C29_words_partial (c : Cls) (hc : c.wordCase = true) (g0 w0 : Str) (l : List (Gap × Str)) (g1 : Str) (ht : Spaced g0 w0 l g1)
    (g0' w0' : Str) (l' : List (Gap × Str)) (g1' : Str) (ht' : Spaced g0' w0' l' g1') (h0 : lower w0 = lower w0')
    (hw : SameWords (entries l) (entries l')) :
    outcome c (g0 ++ (w0 ++ (body l ++ g1))) = outcome c (g0' ++ (w0' ++ (body l' ++ g1'))) := by
  unfold Cls.wordCase at hc
  cases hs : c.shape with
  | other p => rw [hs] at hc; cases hc
  | flat h fs =>
    rw [hs] at hc
    simp only [Bool.and_eq_true] at hc
    have key := readWords_case hc.2 h0 hw
    unfold outcome
    rw [C25_card_read_partial c h fs hs hc.1 g0 w0 l g1 ht, C25_card_read_partial c h fs hs hc.1 g0' w0' l' g1' ht']
    revert key
    cases readWords c h fs w0 (entries l) <;> cases readWords c h fs w0' (entries l') <;> intro key <;> simp only [Except.map] at key
    · cases key; rfl
    · cases key
    · cases key
    · simp only [Except.map]; rw [Except.ok.inj key]

/-- `E4 1E5 2.5D-3 NT` and `e4 1e5  2.5d-3 nt`. -/
example : Tab.E.wordCase = true ∧ Spaced [] c!"E4" [(.ws c!" ", c!"1E5"), (.ws c!" ", c!"2.5D-3"), (.ws c!" ", c!"NT")] [] ∧
    Spaced [] c!"e4" [(.ws c!" ", c!"1e5"), (.ws c!"  ", c!"2.5d-3"), (.ws c!" ", c!"nt")] [] ∧
    lower c!"E4" = lower c!"e4" ∧ SameWords (entries [(.ws c!" ", c!"1E5"), (.ws c!" ", c!"2.5D-3"), (.ws c!" ", c!"NT")])
      (entries [(.ws c!" ", c!"1e5"), (.ws c!"  ", c!"2.5d-3"), (.ws c!" ", c!"nt")]) ∧
    (outcome Tab.E c!"E4 1E5 2.5D-3 NT").map (fun _ => ()) = .ok () := by
  refine ⟨by decide +kernel, ⟨.nil, by decide, ?_, .nil, by decide, by decide, by decide⟩, ⟨.nil, by decide, ?_, .nil, by decide, by decide, by decide⟩,
    by decide +kernel, by decide +kernel, by decide +kernel⟩
  · intro x hx
    simp only [List.mem_cons, List.not_mem_nil, or_false] at hx
    rcases hx with rfl | rfl | rfl <;> exact ⟨⟨.sp .nil, by decide⟩, by decide⟩
  · intro x hx
    simp only [List.mem_cons, List.not_mem_nil, or_false] at hx
    rcases hx with rfl | rfl | rfl
    · exact ⟨⟨.sp .nil, by decide⟩, by decide⟩
    · exact ⟨⟨.sp (.sp .nil), by decide⟩, by decide⟩
    · exact ⟨⟨.sp .nil, by decide⟩, by decide⟩

set_option maxRecDepth 20000 in
/-- 545 of the 679 classes, and 103 of the 152 data cards. -/
theorem C29_words_classes : (Tab.classes.filter Cls.wordCase).length = 545 ∧ (dataCards.filter Cls.wordCase).length = 103 := by
  constructor <;> decide +kernel

set_option maxRecDepth 100000 in
/-- The case of letters matters for a number that begins with its exponent and for the words `nd` and `no`. -/
theorem C29_violated :
    ((cardParse Tab.Nps c!"nps e5").map Prod.fst = .ok (.obj Tab.Nps.info [.sc (.int (.num 100000)), .none]) ∧
      (cardParse Tab.Nps c!"nps E5").map Prod.fst = .error .types) ∧
    ((cardParse Tab.Totnu c!"totnu no").map Prod.fst = .ok (.obj Tab.Totnu.info [.sc (.str c!"no")]) ∧
      (cardParse Tab.Totnu c!"totnu NO").map Prod.fst = .error .inp) ∧
    ((unionParse [Tab.F_1] c!"f5:n 0 0 0 1 nd").map (fun _ => ()) = .ok () ∧
      (unionParse [Tab.F_1] c!"f5:n 0 0 0 1 ND").map (fun _ => ()) = .error .inp) := by
  refine ⟨⟨?_, ?_⟩, ⟨?_, ?_⟩, ?_, ?_⟩ <;> decide +kernel

end Props
