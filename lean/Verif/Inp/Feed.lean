import Verif.Inp.FeedSpec
import Verif.Inp.CellRead
/-!
# Which classes can read the same text (proofs)
-/
namespace Inp
open Py Types

/-! ## Patterns without look-behinds and anchors -/

/-- The pattern without its conditions on the surroundings; it matches more. -/
def relax : Re → Re
  | .seq a b => .seq (relax a) (relax b)
  | .alt a b => .alt (relax a) (relax b)
  | .opt g a => .opt g (relax a)
  | .star g a => .star g (relax a)
  | .grp n a => .grp n (relax a)
  | .bos | .eos | .behind _ _ => .eps
  | .eps => .eps
  | .cls p => .cls p

theorem relax_free (r : Re) : (relax r).free = true := by
  induction r <;> simp_all [relax, Re.free]

theorem relax_step {r s t} (h : Step r s t) : Step (relax r) s t := by
  induction h with
  | eps => exact .eps _
  | cls _ _ _ _ _ h => exact .cls _ _ _ _ _ h
  | seq _ _ _ _ _ _ _ i1 i2 => exact .seq _ _ _ _ _ i1 i2
  | altL _ _ _ _ _ i => exact .altL _ _ _ _ i
  | altR _ _ _ _ _ i => exact .altR _ _ _ _ i
  | optNone => exact .optNone _ _ _
  | optSome _ _ _ _ _ i => exact .optSome _ _ _ _ i
  | starNil => exact .starNil _ _ _
  | starCons _ _ _ _ _ _ hl _ i1 i2 => exact .starCons _ _ _ _ _ i1 hl i2
  | grp _ _ _ _ _ i => exact .grp _ _ _ _ i
  | bos => exact .eps _
  | eos => exact .eps _
  | behind => exact .eps _

theorem relax_lit (s : Str) : relax (litRe s) = litRe s := by
  induction s with
  | nil => rfl
  | cons c s ih => simp only [litRe, relax, ih]; rfl

/-- A text that an anchored pattern matches is matched by the relaxed pattern. -/
theorem anchored_relax {p : Re} {s : Str} (h : (reMatch (anchored p) s).isSome = true) : Full (relax p) s := by
  obtain ⟨m, hm⟩ := Option.isSome_iff_exists.1 h
  obtain ⟨st, h1, -⟩ := reMatch_some hm
  unfold anchored at h1
  obtain ⟨m1, h2, h3⟩ := step_seq.1 h1
  obtain ⟨m2, h4, h5⟩ := step_seq.1 h3
  obtain ⟨rfl, -⟩ := step_bos.1 h2
  obtain ⟨rfl, h6⟩ := step_eos.1 h5
  obtain ⟨u, e, m1, m2, -, -⟩ := (relax_step h4).mt (relax_free _)
  rw [h6, List.append_nil] at m2
  simp only at m2
  exact ⟨e, m2 ▸ m1⟩

/-! ## Beginnings -/

theorem listed_mem {c : CC} {l} (h : c.listed = some l) {x} (hx : c.test x = true) : lowerC x ∈ l := by
  unfold CC.listed at h
  split at h
  · cases h
    have hd : isDigit x = true := hx
    rw [lower_digit hd]
    unfold isDigit at hd
    simp only [Bool.and_eq_true, decide_eq_true_eq, Char.le_def, UInt32.le_iff_toNat_le] at hd
    have e1 : ('0' : Char).val.toNat = 48 := rfl
    have e2 : ('9' : Char).val.toNat = 57 := rfl
    have hn : x = Char.ofNat x.toNat := (Char.ofNat_toNat x).symm
    have h1 : 48 ≤ x.toNat := by have := hd.1; rw [e1] at this; exact this
    have h2 : x.toNat ≤ 57 := by have := hd.2; rw [e2] at this; exact this
    rw [hn]
    have : x.toNat = 48 ∨ x.toNat = 49 ∨ x.toNat = 50 ∨ x.toNat = 51 ∨ x.toNat = 52 ∨ x.toNat = 53 ∨ x.toNat = 54 ∨
        x.toNat = 55 ∨ x.toNat = 56 ∨ x.toNat = 57 := by omega
    rcases this with h | h | h | h | h | h | h | h | h | h <;> rw [h] <;> decide
  · refine mapM_ch _ l h x ?_
    simpa [CC.test] using hx
  · cases h

theorem Pat.firsts_mt {p : Pat} {n w e} (hm : Mt (relax (p.re n)) w e) :
    ∃ x ∈ p.firsts, x.1 <+: lower w ∧ (x.2 = true → x.1 = lower w) := by
  induction p generalizing n w e with
  | lits s =>
    rw [Pat.re, relax_lit] at hm
    exact ⟨(lower s, true), by simp [Pat.firsts], by rw [(mt_lit.1 hm).1]; exact List.prefix_refl _, fun _ => (mt_lit.1 hm).1.symm⟩
  | cls c =>
    obtain ⟨x, h1, rfl, -⟩ := mt_cls.1 hm
    unfold Pat.firsts
    split
    · rename_i l hl
      exact ⟨([lowerC x], true), List.mem_map.2 ⟨lowerC x, listed_mem hl h1, rfl⟩, by simp [lower], by simp [lower]⟩
    · exact ⟨([], false), by simp, by simp, by simp⟩
  | ty t => exact ⟨([], false), by simp [Pat.firsts], by simp, by simp⟩
  | behind =>
    obtain ⟨rfl, -⟩ := mt_eps.1 hm
    exact ⟨([], true), by simp [Pat.firsts], by simp, by simp [lower]⟩
  | star a iha =>
    unfold Pat.firsts
    generalize hr : relax ((Pat.star a).re n) = r at hm
    cases hm with
    | starNil => exact ⟨([], true), by simp, by simp, by simp [lower]⟩
    | starCons hu h1 h2 =>
      cases hr
      obtain ⟨s, hs, hs1, -⟩ := iha h1
      refine ⟨(s.1, false), List.mem_cons_of_mem _ (List.mem_map.2 ⟨s, hs, rfl⟩), ?_, by simp⟩
      rw [lower_append]; exact hs1.trans (List.prefix_append _ _)
    | _ => cases hr
  | seq a b iha ihb =>
    obtain ⟨u, v, x, y, h1, h2, rfl, -⟩ := mt_seq.1 hm
    obtain ⟨s, hs, hs1, hs2⟩ := iha h1
    obtain ⟨t, ht, ht1, ht2⟩ := ihb h2
    by_cases hb : s.2 = true
    · refine ⟨(s.1 ++ t.1, t.2), ?_, ?_, ?_⟩
      · unfold Pat.firsts
        rw [List.mem_flatMap]
        exact ⟨s, hs, by rw [if_pos hb]; exact List.mem_map.2 ⟨t, ht, rfl⟩⟩
      · rw [lower_append, hs2 hb]
        exact (List.prefix_append_right_inj _).2 ht1
      · intro h; rw [lower_append, hs2 hb]; simp only; rw [ht2 h]
    · refine ⟨s, ?_, ?_, fun h => absurd h hb⟩
      · unfold Pat.firsts
        rw [List.mem_flatMap]
        exact ⟨s, hs, by rw [if_neg hb]; simp⟩
      · rw [lower_append]; exact hs1.trans (List.prefix_append _ _)
  | alt a b iha ihb =>
    unfold Pat.firsts
    rcases mt_alt.1 hm with hm | hm
    · obtain ⟨x, h1, h2⟩ := iha hm; exact ⟨x, by simp [h1], h2⟩
    · obtain ⟨x, h1, h2⟩ := ihb hm; exact ⟨x, by simp [h1], h2⟩
  | opt a iha =>
    unfold Pat.firsts
    rcases mt_opt.1 hm with ⟨rfl, -⟩ | hm
    · exact ⟨([], true), by simp, by simp, by simp [lower]⟩
    · obtain ⟨x, h1, h2⟩ := iha hm; exact ⟨x, by simp [h1], h2⟩
  | plus g a iha =>
    obtain ⟨u, v, x, y, h1, h2, rfl, -⟩ := mt_seq.1 hm
    obtain ⟨s, hs, hs1, -⟩ := iha h1
    refine ⟨(s.1, false), by unfold Pat.firsts; exact List.mem_map.2 ⟨s, hs, rfl⟩, ?_, by simp⟩
    rw [lower_append]; exact hs1.trans (List.prefix_append _ _)
  | grp a iha => obtain ⟨x, h1, -⟩ := mt_grp.1 hm; exact iha h1
  | ngrp a iha => exact iha hm

/-! ## What is left after a match -/

/-- What is left of `s` after a match of the length of `w`. -/
def left (s w : Str) : Option Str := if w.length ≤ s.length then some (s.drop w.length) else none

/-- `s` and the (lower case) match begin a common text. -/
def Compat (s w : Str) : Prop := s <+: lower w ∨ lower w <+: s

theorem lower_len (w : Str) : (lower w).length = w.length := by simp [lower]

theorem Compat.le {s w} (h : Compat s w) (hl : w.length ≤ s.length) : lower w <+: s := by
  rcases h with h | h
  · have := List.IsPrefix.eq_of_length_le h (by rw [lower_len]; exact hl)
    rw [this]; exact List.prefix_refl _
  · exact h

theorem Compat.seq {s u v} (h : Compat s (u ++ v)) : Compat s u ∧ (u.length ≤ s.length → Compat (s.drop u.length) v) := by
  have h1 : Compat s u := by
    rcases h with h | h
    · rw [lower_append] at h
      rcases Nat.le_total s.length (lower u).length with hl | hl
      · exact .inl (List.prefix_of_prefix_length_le h (List.prefix_append _ _) hl)
      · exact .inr (List.prefix_of_prefix_length_le (List.prefix_append _ _) h hl)
    · rw [lower_append] at h
      exact .inr ((List.prefix_append _ _).trans h)
  refine ⟨h1, fun hl => ?_⟩
  obtain ⟨t, rfl⟩ := h1.le hl
  rw [← lower_len u, List.drop_left]
  unfold Compat at h ⊢
  rw [lower_append, List.prefix_append_right_inj, List.prefix_append_right_inj] at h
  exact h

theorem left_seq (s u v : Str) : left s (u ++ v) = match left s u with | none => none | some t => left t v := by
  unfold left
  rw [List.length_append]
  by_cases h : u.length ≤ s.length
  · simp only [h, if_true, List.length_drop, List.drop_drop]
    by_cases h2 : u.length + v.length ≤ s.length
    · rw [if_pos h2, if_pos (by omega)]
    · rw [if_neg h2, if_neg (by omega)]
  · rw [if_neg (by omega), if_neg h]

theorem left_sufs (s w : Str) : left s w ∈ sufs s := by
  induction s generalizing w with
  | nil =>
    cases w with
    | nil => simp [left, sufs]
    | cons a w => simp [left, sufs]
  | cons c s ih =>
    cases w with
    | nil => simp [left, sufs]
    | cons a w =>
      have : left (c :: s) (a :: w) = left s w := by simp [left]
      rw [this]
      exact List.mem_cons_of_mem _ (ih w)

theorem lower_not_space {x : Char} (h : isSpace x = false) : isSpace (lowerC x) = false := by
  unfold lowerC
  split
  · rename_i hu
    simp only [Bool.and_eq_true, decide_eq_true_eq] at hu
    obtain ⟨n, hn, rfl⟩ := upper_cases hu
    have : ∀ n : Fin 26, isSpace (Char.ofNat ((Char.ofNat (65 + n.1)).toNat + 32)) = false := by decide +kernel
    exact this ⟨n, hn⟩
  · exact h

theorem may_test {c : CC} {x : Char} (h : c.test x = true) : c.may (lowerC x) = true := by
  have hi : ∀ i : CI, i.test x = true → i.may (lowerC x) = true := by
    intro i h
    cases i with
    | ch a => simpa [CI.may, CI.test] using h
    | d => simp only [CI.test] at h; simp only [CI.may, lower_digit h, h]
    | S => simp only [CI.test, Bool.not_eq_true'] at h; simp only [CI.may, lower_not_space h, Bool.not_false]
    | s => rfl
    | range => rfl
  unfold CC.may
  split
  · exact hi _ h
  · simp only [CC.test, bne_iff_ne, ne_eq, Bool.not_eq_false, List.any_eq_true] at h ⊢
    obtain ⟨i, h1, h2⟩ := h
    exact ⟨i, h1, hi i h2⟩
  · rfl
  · rfl

theorem left_again {r : Re} {f : Str → List (Option Str)} (hf : ∀ w e s, Mt r w e → Compat s w → left s w ∈ f s) {g w e}
    (hm : Mt (.star g r) w e) : ∀ s n, s.length < n → Compat s w → left s w ∈ again f n s := by
  generalize hr : Re.star g r = R at hm
  induction hm with
  | starNil =>
    intro s n hn _
    cases n with
    | zero => omega
    | succ n => simp [left, again]
  | @starCons g' a u v e1 e2 hu h1 h2 _ ih =>
    cases hr
    intro s n hn hc
    cases n with
    | zero => omega
    | succ n =>
      obtain ⟨c1, c2⟩ := hc.seq
      have h3 := hf u _ s h1 c1
      rw [left_seq]
      unfold again
      refine List.mem_cons_of_mem _ (List.mem_flatMap.2 ⟨_, h3, ?_⟩)
      by_cases hl : u.length ≤ s.length
      · have hleft : left s u = some (s.drop u.length) := by simp [left, hl]
        have hpos : 0 < u.length := List.length_pos_iff.2 hu
        have hlt : (s.drop u.length).length < s.length := by rw [List.length_drop]; omega
        rw [hleft]
        simp only [hlt, if_true]
        exact ih rfl _ n (by omega) (c2 hl)
      · simp [left, hl]
  | _ => cases hr

theorem Pat.feed_mt {p : Pat} {n w e s} (hm : Mt (relax (p.re n)) w e) (hc : Compat s w) : left s w ∈ p.feed s := by
  induction p generalizing n w e s with
  | lits l =>
    rw [Pat.re, relax_lit] at hm
    have hl := (mt_lit.1 hm).1
    have hlen := lower_length hl
    unfold Pat.feed left
    by_cases h : w.length ≤ s.length
    · rw [if_pos h, if_pos (List.isPrefixOf_iff_prefix.2 (hl ▸ hc.le h)), hlen]; simp
    · rw [if_neg h]
      have h1 : ¬ (lower l <+: s) := by
        intro h1; have := h1.length_le; rw [lower_len] at this; omega
      have h2 : s <+: lower l := by
        rcases hc with hc | hc
        · rw [← hl]; exact hc
        · rw [hl] at hc; exact absurd hc h1
      rw [if_neg (by rw [List.isPrefixOf_iff_prefix]; exact h1), if_pos (List.isPrefixOf_iff_prefix.2 h2)]
      simp
  | cls c =>
    obtain ⟨x, h1, rfl, -⟩ := mt_cls.1 hm
    unfold Pat.feed
    cases s with
    | nil => simp [left]
    | cons y s =>
      obtain ⟨t, ht⟩ := hc.le (by simp)
      simp only [lower, List.map_cons, List.map_nil, List.cons_append, List.nil_append, List.cons.injEq] at ht
      obtain ⟨rfl, rfl⟩ := ht
      simp [left, may_test h1]
  | ty t => exact left_sufs s w
  | behind =>
    obtain ⟨rfl, -⟩ := mt_eps.1 hm
    simp [left, Pat.feed]
  | star a iha => exact left_again (fun w e s h1 h2 => iha h1 h2) hm s _ (Nat.lt_succ_self _) hc
  | seq a b iha ihb =>
    obtain ⟨u, v, x, y, h1, h2, rfl, -⟩ := mt_seq.1 hm
    obtain ⟨c1, c2⟩ := hc.seq
    rw [left_seq]
    unfold Pat.feed
    refine List.mem_flatMap.2 ⟨_, iha h1 c1, ?_⟩
    by_cases hl : u.length ≤ s.length
    · have hleft : left s u = some (s.drop u.length) := by simp [left, hl]
      rw [hleft]
      exact ihb h2 (c2 hl)
    · simp [left, hl]
  | alt a b iha ihb =>
    unfold Pat.feed
    rcases mt_alt.1 hm with hm | hm
    · exact List.mem_append_left _ (iha hm hc)
    · exact List.mem_append_right _ (ihb hm hc)
  | opt a iha =>
    unfold Pat.feed
    rcases mt_opt.1 hm with ⟨rfl, -⟩ | hm
    · simp [left]
    · exact List.mem_cons_of_mem _ (iha hm hc)
  | plus g a iha =>
    obtain ⟨u, v, x, y, h1, h2, rfl, -⟩ := mt_seq.1 hm
    obtain ⟨c1, c2⟩ := hc.seq
    rw [left_seq]
    unfold Pat.feed
    refine List.mem_flatMap.2 ⟨_, iha h1 c1, ?_⟩
    by_cases hl : u.length ≤ s.length
    · have hleft : left s u = some (s.drop u.length) := by simp [left, hl]
      rw [hleft]
      exact left_again (fun w e s h1 h2 => iha h1 h2) h2 _ _ (Nat.lt_succ_self _) (c2 hl)
    · simp [left, hl]
  | grp a iha => obtain ⟨x, h1, -⟩ := mt_grp.1 hm; exact iha h1 hc
  | ngrp a iha => exact iha hm hc

/-- No text matches two patterns that are apart. -/
theorem apart_sound {p q : Pat} (h : p.apart q = true) (s : Str) (hp : (reMatch (anchored (p.re 1)) s).isSome = true) :
    reMatch (anchored (q.re 1)) s = none := by
  cases hq : reMatch (anchored (q.re 1)) s with
  | none => rfl
  | some m =>
    exfalso
    obtain ⟨e, h1⟩ := anchored_relax hp
    obtain ⟨e', h2⟩ := anchored_relax (show (reMatch (anchored (q.re 1)) s).isSome = true by rw [hq]; rfl)
    obtain ⟨x, hx, hx1, hx2⟩ := Pat.firsts_mt h1
    have hf := Pat.feed_mt h2 (.inl hx1)
    have := List.all_eq_true.1 h x hx
    simp only [Bool.and_eq_true, Bool.not_eq_true', Bool.or_eq_true, List.contains_eq_mem, decide_eq_false_iff_not] at this
    obtain ⟨g1, g2⟩ := this
    have hlen := hx1.length_le
    rw [lower_len] at hlen
    unfold left at hf
    split at hf
    · rename_i hl
      rw [List.drop_eq_nil_of_le (by omega)] at hf
      exact g1 hf
    · rename_i hl
      rcases g2 with g2 | g2
      · have := congrArg List.length (hx2 g2)
        rw [lower_len] at this
        omega
      · exact g2 hf

end Inp
