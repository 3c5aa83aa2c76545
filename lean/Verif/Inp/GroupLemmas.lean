import Verif.Inp.TextSpec
import Verif.Inp.ItemLemmas
import Verif.Inp.SpaceLemmas
/-! Helper lemmas: grouping entries into items; reading and printing texts of entries. -/
namespace Inp
open Py Types

theorem shorthand_eq : shorthand = kws := rfl

theorem lowerC_iff (x c : Char) (hc : c ∈ ['j', 'r', 'i', 'l', 'o', 'g']) :
    (x == c || x == upperC c) = true ↔ lowerC x = c := by
  have key : ∀ c ∈ ['j', 'r', 'i', 'l', 'o', 'g'], 97 ≤ c.toNat ∧ c.toNat ≤ 122 ∧ upperC c = Char.ofNat (c.toNat - 32) ∧
      lowerC c = c ∧ lowerC (upperC c) = c := by decide
  obtain ⟨h1, h2, h3, h4, h5⟩ := key c hc
  simp only [Bool.or_eq_true, beq_iff_eq]
  constructor
  · rintro (rfl | rfl)
    · exact h4
    · exact h5
  · intro h
    unfold lowerC at h
    split at h
    · rename_i hx
      right
      rw [h3]
      subst h
      simp only [Bool.and_eq_true, decide_eq_true_eq] at hx
      have b1 : 65 ≤ x.toNat := hx.1
      have b2 : x.toNat ≤ 90 := hx.2
      have : (Char.ofNat (x.toNat + 32)).toNat = x.toNat + 32 := by
        have hv : (x.toNat + 32).isValidChar := Or.inl (by omega)
        simp only [Char.ofNat, hv, dif_pos]
        rfl
      rw [this, Nat.add_sub_cancel, Char.ofNat_toNat]
    · exact .inl h

theorem isKw_iff {kw w : Str} (hk : kw ∈ kws) : isKw kw w = true ↔ lower w = kw := by
  have : ∀ (kw w : Str), (∀ c ∈ kw, c ∈ ['j', 'r', 'i', 'l', 'o', 'g']) → (stripKw kw w = some [] ↔ lower w = kw) := by
    intro kw
    induction kw with
    | nil => intro w _; simp [stripKw, lower]
    | cons c cs ih =>
      intro w hc
      cases w with
      | nil => simp [stripKw, lower]
      | cons x xs =>
        have e := lowerC_iff x c (hc c (by simp))
        have ih := ih xs (fun y hy => hc y (by simp [hy]))
        simp only [lower] at ih
        simp only [stripKw, lower, List.map_cons, List.cons.injEq]
        split
        · rename_i h
          rw [ih]
          exact ⟨fun h' => ⟨e.1 h, h'⟩, fun h' => h'.2⟩
        · rename_i h
          constructor
          · intro h'; cases h'
          · intro h'; exact absurd (e.2 h'.1) h
  have := this kw w (kws_letters hk)
  rw [← this]
  simp [isKw]

theorem cntOf_iff {kw w : Str} {n : Nat} (hk : kw ∈ kws) : cntOf kw w = some n ↔ countedEntry w = some (n, kw) := by
  unfold cntOf countedEntry
  rw [shorthand_eq]
  constructor
  · intro h
    split at h
    · rename_i hc
      have e := (isKw_iff hk).1 hc.2
      cases h
      rw [if_pos ⟨hc.1, by rw [e]; exact hk⟩, e]
    · cases h
  · intro h
    split at h
    · rename_i hc
      simp only [Option.some.injEq, Prod.mk.injEq] at h
      rw [if_pos ⟨hc.1, (isKw_iff hk).2 h.2⟩, h.1]
    · cases h

theorem counted_letter {w l : Str} {n : Nat} (h : countedEntry w = some (n, l)) : l ∈ kws := by
  unfold countedEntry at h
  split at h
  · rename_i hc
    simp only [Option.some.injEq, Prod.mk.injEq] at h
    rw [← h.2]; exact hc.2
  · cases h

theorem lower_counted {w : Str} (h : lower w ∈ kws) : countedEntry w = none := by
  cases hc : countedEntry w with
  | none => rfl
  | some p =>
    obtain ⟨n, l⟩ := p
    have := (cntOf_iff (counted_letter hc)).2 hc
    rw [isKw_not_cnt h ((isKw_iff h).2 rfl)] at this
    cases this

/-- Adding one run letter in front. -/
def pushRun (kw w : Str) : List Item → List Item
  | .run kw' l :: is => if kw' = kw then .run kw (w :: l) :: is else .run kw [w] :: .run kw' l :: is
  | is => .run kw [w] :: is

def group : List Str → List Item
  | [] => []
  | w :: ws =>
    if lower w ∈ shorthand then pushRun (lower w) w (group ws)
    else match countedEntry w with
      | some (n, l) => .cnt l w n :: group ws
      | none => .word w :: group ws

theorem group_cons (w : Str) (ws : List Str) : group (w :: ws) =
    if lower w ∈ shorthand then pushRun (lower w) w (group ws)
    else match countedEntry w with
      | some (n, l) => .cnt l w n :: group ws
      | none => .word w :: group ws := rfl

theorem pushRun_words (kw w : Str) (is : List Item) : words (pushRun kw w is) = w :: words is := by
  cases is with
  | nil => rfl
  | cons i is =>
    cases i with
    | word => rfl
    | cnt => rfl
    | run kw' l =>
      simp only [pushRun]
      split <;> simp [words, Item.words]

theorem group_words (ws : List Str) : words (group ws) = ws := by
  induction ws with
  | nil => rfl
  | cons w ws ih =>
    rw [group_cons]
    split
    · rw [pushRun_words, ih]
    · split
      · rw [words_cons, ih]; rfl
      · rw [words_cons, ih]; rfl

theorem plain_of {w : Str} (hne : w ≠ []) (hsp : NoSpace w) (h1 : lower w ∉ shorthand) (h2 : countedEntry w = none) :
    PlainWord w := by
  refine ⟨hne, hsp, ?_, ?_⟩
  · intro kw hk
    cases h : isKw kw w with
    | false => rfl
    | true => rw [(isKw_iff hk).1 h] at h1; exact absurd hk h1
  · intro kw hk
    cases h : cntOf kw w with
    | none => rfl
    | some n => rw [(cntOf_iff hk).1 h] at h2; cases h2

theorem group_ok (ws : List Str) (h : ∀ w ∈ ws, w ≠ [] ∧ NoSpace w)
    (hn : ∀ w ∈ ws, ∀ n l, countedEntry w = some (n, l) → 0 < n) : ∀ i ∈ group ws, i.Ok := by
  induction ws with
  | nil => intro i hi; cases hi
  | cons w ws ih =>
    have ih := ih (fun x hx => h x (by simp [hx])) (fun x hx => hn x (by simp [hx]))
    rw [group_cons]
    split
    · rename_i hw
      have hk := (isKw_iff hw).2 rfl
      have hsing : (Item.run (lower w) [w]).Ok := .run hw (by simp) (by simpa using hk)
      have hother : ∀ is : List Item, (∀ i ∈ is, i.Ok) → ∀ i ∈ Item.run (lower w) [w] :: is, i.Ok := by
        intro is his i hi
        rcases List.mem_cons.1 hi with rfl | hi
        · exact hsing
        · exact his i hi
      cases hg : group ws with
      | nil => exact hother [] (by simp)
      | cons i is =>
        rw [hg] at ih
        cases i with
        | word v => exact hother _ ih
        | cnt a b c => exact hother _ ih
        | run kw' l =>
          simp only [pushRun]
          split
          · rename_i e
            subst e
            intro i hi
            rcases List.mem_cons.1 hi with rfl | hi
            · have := ih _ (List.mem_cons_self ..)
              cases this with
              | run a b c =>
                refine .run hw (by simp) ?_
                intro x hx
                rcases List.mem_cons.1 hx with rfl | hx
                · exact hk
                · exact c x hx
            · exact ih i (by simp [hi])
          · exact hother _ ih
    · rename_i hw
      split
      · rename_i n l hc
        intro i hi
        rcases List.mem_cons.1 hi with rfl | hi
        · exact .cnt (counted_letter hc) ((cntOf_iff (counted_letter hc)).2 hc) (hn w (by simp) n l hc)
        · exact ih i hi
      · rename_i hc
        intro i hi
        rcases List.mem_cons.1 hi with rfl | hi
        · exact .word (plain_of (h w (by simp)).1 (h w (by simp)).2 hw hc)
        · exact ih i hi

theorem pushRun_cls (kw w : Str) (is : List Item) : ∃ i t, pushRun kw w is = i :: t ∧ i.cls = some kw := by
  cases is with
  | nil => exact ⟨_, _, rfl, rfl⟩
  | cons i is =>
    cases i with
    | word v => exact ⟨_, _, rfl, rfl⟩
    | cnt a b c => exact ⟨_, _, rfl, rfl⟩
    | run kw' l =>
      simp only [pushRun]
      split
      · exact ⟨_, _, rfl, rfl⟩
      · exact ⟨_, _, rfl, rfl⟩

theorem group_cls (w : Str) (ws : List Str) : ∃ i t, group (w :: ws) = i :: t ∧ i.cls = letter w := by
  rw [group_cons]; unfold letter
  split
  · exact pushRun_cls _ _ _
  · split
    · rename_i n l hc; exact ⟨_, _, rfl, by rw [hc]; rfl⟩
    · rename_i hc; exact ⟨_, _, rfl, by rw [hc]; rfl⟩

theorem pushRun_sep {kw w : Str} {is : List Item} (hs : Sep is)
    (h : ∀ i t, is = i :: t → (∃ l, i = .run kw l) ∨ i.cls ≠ some kw) : Sep (pushRun kw w is) := by
  cases is with
  | nil => trivial
  | cons i is =>
    cases i with
    | word v => exact ⟨by intro k e; simp [Item.cls], hs⟩
    | cnt a b c =>
      refine ⟨?_, hs⟩
      intro k e
      simp only [Item.cls, Option.some.injEq] at e
      subst e
      rcases h _ _ rfl with ⟨l, e⟩ | h
      · cases e
      · exact h
    | run kw' l =>
      simp only [pushRun]
      split
      · rename_i e
        subst e
        cases is with
        | nil => trivial
        | cons b t => exact ⟨hs.1, hs.2⟩
      · rename_i hne
        refine ⟨?_, hs⟩
        intro k e
        simp only [Item.cls, Option.some.injEq] at e ⊢
        subst e; simpa using hne

theorem group_sep (ws : List Str) (h : NoAdj ws) : Sep (group ws) := by
  induction ws with
  | nil => trivial
  | cons w ws ih =>
    have ih := ih (by
      cases ws with
      | nil => trivial
      | cons b l => exact h.2)
    rw [group_cons]
    split
    · rename_i hw
      apply pushRun_sep ih
      intro i t e
      cases ws with
      | nil => cases e
      | cons b l =>
        have hb : letter w ≠ none → letter w = letter b → countedEntry w = none ∧ countedEntry b = none := h.1
        have hlw : letter w = some (lower w) := by unfold letter; rw [if_pos hw]
        rw [hlw] at hb
        obtain ⟨i', t', e', hc⟩ := group_cls b l
        rw [e'] at e
        cases e
        by_cases hlb : letter b = some (lower w)
        · left
          have hcb := (hb (by simp) hlb.symm).2
          have hlb' : lower b ∈ shorthand := by
            unfold letter at hlb
            split at hlb
            · assumption
            · rw [hcb] at hlb; cases hlb
          have hlow : lower b = lower w := by
            unfold letter at hlb
            rw [if_pos hlb'] at hlb
            simpa using hlb
          rw [group_cons] at e'
          rw [if_pos hlb', hlow] at e'
          have : ∀ is, ∃ l t, pushRun (lower w) b is = .run (lower w) l :: t := by
            intro is
            cases is with
            | nil => exact ⟨_, _, rfl⟩
            | cons i is =>
              cases i with
              | word v => exact ⟨_, _, rfl⟩
              | cnt a b c => exact ⟨_, _, rfl⟩
              | run kw' l =>
                simp only [pushRun]
                split
                · exact ⟨_, _, rfl⟩
                · exact ⟨_, _, rfl⟩
          obtain ⟨l', t'', e2⟩ := this (group l)
          rw [e2] at e'
          cases e'
          exact ⟨l', rfl⟩
        · right; rw [hc]; exact hlb
    · rename_i hw
      cases hcw : countedEntry w with
      | none =>
        simp only
        cases hg : group ws with
        | nil => trivial
        | cons i is => rw [hg] at ih; exact ⟨(by intro k e; cases e), ih⟩
      | some p =>
        obtain ⟨n, l⟩ := p
        simp only
        cases ws with
        | nil => trivial
        | cons b t =>
          obtain ⟨i', t', e', hc⟩ := group_cls b t
          rw [e'] at ih ⊢
          refine ⟨?_, ih⟩
          intro k e
          simp only [Item.cls, Option.some.injEq] at e
          subst e
          rw [hc]
          intro hlb
          have hlw : letter w = some l := by unfold letter; rw [if_neg hw, hcw]; rfl
          have := h.1 (by rw [hlw]; simp) (by rw [hlw, hlb])
          rw [hcw] at this
          exact absurd this.1 (by simp)

/-- Reading one item: collapse, then expand. -/
theorem group_long (ws : List Str) (hl : ∀ w ∈ ws, LowerShort w) :
    words ((group ws).map (fun i => i.short.long)) = ws.flatMap expandOne := by
  induction ws with
  | nil => rfl
  | cons w ws ih =>
    have ih := ih (fun x hx => hl x (by simp [hx]))
    rw [List.flatMap_cons, ← ih]
    rw [group_cons]
    split
    · rename_i hw
      have hww : w = lower w := by
        have h1 := hl w (by simp) hw
        have : ∀ v ∈ shorthand, v = lower v := by decide
        exact this w h1
      have hex : expandOne w = [w] := by unfold expandOne; rw [lower_counted hw]
      rw [hex]
      have hsl : ∀ (kw : Str) (l : List Str), (∀ x ∈ l, x = kw) →
          ((Item.run kw l).short.long).words = l := by
        intro kw l h
        simp only [Item.short]
        split
        · show List.replicate l.length kw = l
          exact (List.eq_replicate_iff.2 ⟨rfl, h⟩).symm
        · rfl
      cases hg : group ws with
      | nil =>
        show ((Item.run (lower w) [w]).short.long).words ++ [] = _
        rw [hsl _ _ (by simpa using hww)]; rfl
      | cons i is =>
        have hcons : ∀ t : List Item, words ((Item.run (lower w) [w] :: t).map (fun i => i.short.long)) =
            [w] ++ words (t.map (fun i => i.short.long)) := by
          intro t
          rw [List.map_cons, words_cons, hsl _ _ (by simpa using hww)]
        cases i with
        | word v => exact hcons _
        | cnt a b c => exact hcons _
        | run kw' l =>
          simp only [pushRun]
          split
          · rename_i e
            subst e
            have hlall : ∀ x ∈ l, x = lower w := by
              have hgw := group_words ws
              rw [hg, words_cons] at hgw
              intro x hx
              have hxm : x ∈ ws := by rw [← hgw]; exact List.mem_append_left _ hx
              have hlow : lower x ∈ shorthand ∧ lower x = lower w := by
                have hrun : ∀ (vs : List Str) (l : List Str) (t : List Item) (kw : Str), group vs = .run kw l :: t → ∀ x ∈ l, lower x = kw := by
                  intro vs
                  induction vs with
                  | nil => intro l t kw h; cases h
                  | cons v vs ihv =>
                    intro l t kw h x hx
                    rw [group_cons] at h
                    split at h
                    · cases hgv : group vs with
                      | nil => rw [hgv] at h; cases h; simp at hx; rw [hx]
                      | cons i is =>
                        rw [hgv] at h
                        cases i with
                        | word _ => cases h; simp at hx; rw [hx]
                        | cnt _ _ _ => cases h; simp at hx; rw [hx]
                        | run k2 l2 =>
                          simp only [pushRun] at h
                          split at h
                          · rename_i e2
                            cases h
                            rcases List.mem_cons.1 hx with rfl | hx
                            · rfl
                            · rw [← e2]; exact ihv _ _ _ hgv x hx
                          · cases h; simp at hx; rw [hx]
                    · split at h <;> cases h
                have := hrun ws l is (lower w) hg x hx
                exact ⟨by rw [this]; exact hw, this⟩
              have hx1 := hl x (by simp [hxm]) hlow.1
              have : ∀ v ∈ shorthand, v = lower v := by decide
              rw [this x hx1, hlow.2]
            rw [List.map_cons, words_cons, List.map_cons, words_cons, hsl _ _ (by
              intro x hx
              rcases List.mem_cons.1 hx with rfl | hx
              · exact hww
              · exact hlall x hx), hsl _ _ hlall]
            rfl
          · exact hcons _
    · split
      · rename_i n l hc
        rw [List.map_cons, words_cons]
        congr 1
        unfold expandOne; rw [hc]; rfl
      · rename_i hc
        rw [List.map_cons, words_cons]
        congr 1
        unfold expandOne; rw [hc]; rfl

end Inp
