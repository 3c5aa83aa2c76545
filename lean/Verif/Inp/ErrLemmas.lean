import Verif.Ptrac.ErrLemmas
import Verif.Inp.Card
import Verif.Props.Geometry
import Verif.Props.Lattice
/-! Helper lemmas: which exceptions reading cards, options and entries can raise. -/
namespace Inp
open Py Types Ptrac

/-! ### What groups capture -/

/-- The blankChars of Python, see `Py.isSpace`. -/
def blankChars : List Char :=
  [9, 10, 11, 12, 13, 28, 29, 30, 31, 32, 0x85, 0xa0, 0x1680, 0x2000, 0x2001, 0x2002, 0x2003, 0x2004, 0x2005, 0x2006,
   0x2007, 0x2008, 0x2009, 0x200a, 0x2028, 0x2029, 0x202f, 0x205f, 0x3000].map Char.ofNat

theorem blankChars_mem {c : Char} (h : isSpace c = true) : c ∈ blankChars := by
  have hc : c = Char.ofNat c.toNat := (Char.ofNat_toNat c).symm
  unfold isSpace at h
  simp only [Bool.or_eq_true, Bool.and_eq_true, decide_eq_true_eq, beq_iff_eq] at h
  rw [hc]
  apply List.mem_map.2
  refine ⟨c.toNat, ?_, rfl⟩
  simp only [List.mem_cons, List.not_mem_nil, or_false]
  omega

/-- Every match has a character that is not a blank. -/
def inked : Re → Bool
  | .cls p => blankChars.all (fun c => !p c)
  | .seq a b => inked a || inked b
  | .alt a b => inked a && inked b
  | .grp _ a => inked a
  | _ => false

/-- No match has one of these characters. -/
def avoids (l : List Char) : Re → Bool
  | .cls p => l.all (fun c => !p c)
  | .seq a b => avoids l a && avoids l b
  | .alt a b => avoids l a && avoids l b
  | .opt _ a => avoids l a
  | .star _ a => avoids l a
  | .grp _ a => avoids l a
  | _ => true

theorem low_n {c : Char} (h : lowerC c = 'n') : c = 'n' ∨ c = 'N' := by
  unfold lowerC at h
  split at h
  · right
    rename_i hc
    simp only [Bool.and_eq_true, decide_eq_true_eq] at hc
    have hle : c.toNat ≤ 90 := hc.2
    have key : ∀ n : Fin 91, Char.ofNat (n.1 + 32) = 'n' → Char.ofNat n.1 = 'N' := by decide
    have := key ⟨c.toNat, by omega⟩ h
    rwa [Char.ofNat_toNat] at this
  · exact .inl h

theorem step_text {r : Re} {st st' : St} (h : Step r st st') : ∃ w, st.rest = w ++ st'.rest ∧
    (inked r = true → ∃ c ∈ w, isSpace c = false) ∧ ∀ l, avoids l r = true → ∀ c ∈ w, c ∉ l := by
  induction h with
  | cls p c cs prev caps h =>
    refine ⟨[c], rfl, ?_, ?_⟩
    · intro hi
      refine ⟨c, List.mem_cons_self, ?_⟩
      cases hs : isSpace c with
      | false => rfl
      | true =>
        have := List.all_eq_true.1 hi c (blankChars_mem hs)
        rw [h] at this; cases this
    · intro l hn x hx hl
      simp only [List.mem_singleton] at hx
      subst hx
      have := List.all_eq_true.1 hn x hl
      rw [h] at this; cases this
  | seq a b _ _ _ _ _ ih1 ih2 =>
    obtain ⟨w, a1, a2, a3⟩ := ih1
    obtain ⟨v, b1, b2, b3⟩ := ih2
    refine ⟨w ++ v, by rw [a1, b1, List.append_assoc], ?_, ?_⟩
    · intro hi
      simp only [inked, Bool.or_eq_true] at hi
      rcases hi with hi | hi
      · obtain ⟨c, hc, h⟩ := a2 hi; exact ⟨c, List.mem_append_left _ hc, h⟩
      · obtain ⟨c, hc, h⟩ := b2 hi; exact ⟨c, List.mem_append_right _ hc, h⟩
    · intro l hn c hc
      simp only [avoids, Bool.and_eq_true] at hn
      rcases List.mem_append.1 hc with hc | hc
      · exact a3 l hn.1 c hc
      · exact b3 l hn.2 c hc
  | altL _ _ _ _ _ ih =>
    obtain ⟨w, a1, a2, a3⟩ := ih
    refine ⟨w, a1, ?_, ?_⟩
    · intro hi; simp only [inked, Bool.and_eq_true] at hi; exact a2 hi.1
    · intro l hi; simp only [avoids, Bool.and_eq_true] at hi; exact a3 l hi.1
  | altR _ _ _ _ _ ih =>
    obtain ⟨w, a1, a2, a3⟩ := ih
    refine ⟨w, a1, ?_, ?_⟩
    · intro hi; simp only [inked, Bool.and_eq_true] at hi; exact a2 hi.2
    · intro l hi; simp only [avoids, Bool.and_eq_true] at hi; exact a3 l hi.2
  | optSome _ _ _ _ _ ih =>
    obtain ⟨w, a1, a2, a3⟩ := ih
    exact ⟨w, a1, fun hi => by simp [inked] at hi, fun l hn => a3 l hn⟩
  | starCons _ _ _ _ _ _ _ _ ih1 ih2 =>
    obtain ⟨w, a1, a2, a3⟩ := ih1
    obtain ⟨v, b1, b2, b3⟩ := ih2
    refine ⟨w ++ v, by rw [a1, b1, List.append_assoc], fun hi => by simp [inked] at hi, ?_⟩
    intro l hn c hc
    rcases List.mem_append.1 hc with hc | hc
    · exact a3 l hn c hc
    · exact b3 l hn c hc
  | grp _ _ _ _ _ ih =>
    obtain ⟨w, a1, a2, a3⟩ := ih
    exact ⟨w, a1, fun hi => a2 hi, fun l hn => a3 l hn⟩
  | _ => exact ⟨[], rfl, fun hi => by simp [inked] at hi, fun _ _ c hc => by cases hc⟩

/-- The text of a group with this body. -/
def Wrote (b : Re) (u : Str) : Prop :=
  (inked b = true → ∃ c ∈ u, isSpace c = false) ∧ ∀ l, avoids l b = true → ∀ c ∈ u, c ∉ l

theorem step_wrote {r : Re} {st st' : St} (h : Step r st st') : ∃ e, st'.caps = e ++ st.caps ∧
    ∀ p, r.groupsAll p = true → ∀ x ∈ e, ∃ b, p x.1 b = true ∧ Wrote b x.2 := by
  induction h with
  | seq a b _ _ _ _ _ ih1 ih2 =>
    obtain ⟨e, a1, a2⟩ := ih1
    obtain ⟨f, b1, b2⟩ := ih2
    refine ⟨f ++ e, by rw [b1, a1, List.append_assoc], ?_⟩
    intro p hs x hx
    simp only [Re.groupsAll, Bool.and_eq_true] at hs
    rcases List.mem_append.1 hx with hx | hx
    · exact b2 p hs.2 x hx
    · exact a2 p hs.1 x hx
  | altL _ _ _ _ _ ih =>
    obtain ⟨e, a1, a2⟩ := ih
    exact ⟨e, a1, fun p hs => by simp only [Re.groupsAll, Bool.and_eq_true] at hs; exact a2 p hs.1⟩
  | altR _ _ _ _ _ ih =>
    obtain ⟨e, a1, a2⟩ := ih
    exact ⟨e, a1, fun p hs => by simp only [Re.groupsAll, Bool.and_eq_true] at hs; exact a2 p hs.2⟩
  | optSome _ _ _ _ _ ih =>
    obtain ⟨e, a1, a2⟩ := ih
    exact ⟨e, a1, fun p hs => a2 p hs⟩
  | starCons _ _ _ _ _ _ _ _ ih1 ih2 =>
    obtain ⟨e, a1, a2⟩ := ih1
    obtain ⟨f, b1, b2⟩ := ih2
    refine ⟨f ++ e, by rw [b1, a1, List.append_assoc], ?_⟩
    intro p hs x hx
    rcases List.mem_append.1 hx with hx | hx
    · exact b2 p hs x hx
    · exact a2 p hs x hx
  | grp k a s1 s2 h ih =>
    obtain ⟨e, a1, a2⟩ := ih
    refine ⟨(k, s1.rest.take (s1.rest.length - s2.rest.length)) :: e, by rw [a1]; rfl, ?_⟩
    intro p hs x hx
    simp only [Re.groupsAll, Bool.and_eq_true] at hs
    rcases List.mem_cons.1 hx with rfl | hx
    · obtain ⟨w, b1, b2, b3⟩ := step_text h
      refine ⟨a, hs.1, ?_⟩
      have : s1.rest.take (s1.rest.length - s2.rest.length) = w := by
        rw [b1, List.length_append, Nat.add_sub_cancel, List.take_left']
        rfl
      simp only [this]
      exact ⟨b2, b3⟩
    · exact a2 p hs.2 x hx
  | _ => exact ⟨[], rfl, by simp⟩

/-- What a group captured was matched by a group of that number. -/
theorem cap_wrote {r : Re} {s : Str} {m} (h : reMatch r s = some m) {p} (hr : r.groupsAll p = true) {n u} (hn : n ≠ 0)
    (hu : cap m n = some u) : ∃ b, p n b = true ∧ Wrote b u := by
  obtain ⟨st, h1, rfl⟩ := reMatch_some h
  obtain ⟨e, a1, a3⟩ := step_wrote h1
  have := cap_mem hu
  rcases List.mem_cons.1 this with h | h
  · cases h; exact absurd rfl hn
  · rw [a1, List.append_nil] at h; exact a3 p hr _ h

theorem strip_ne {u : Str} (h : ∃ c ∈ u, isSpace c = false) : strip u ≠ [] := by
  obtain ⟨c, hc, hs⟩ := h
  have hd : ∀ l : Str, c ∈ l → c ∈ l.dropWhile isSpace := by
    intro l
    induction l with
    | nil => intro h; cases h
    | cons a l ih =>
      intro h
      rw [List.dropWhile_cons]
      split
      · rename_i ha
        rcases List.mem_cons.1 h with rfl | h
        · rw [hs] at ha; cases ha
        · exact ih h
      · exact h
  have : c ∈ strip u := by
    unfold strip rstrip lstrip
    exact List.mem_reverse.2 (hd _ (List.mem_reverse.2 (hd _ hc)))
  intro h0
  rw [h0] at this
  cases this

/-! ### The scalar types -/

/-- The documented exceptions. -/
def Told (e : Err) : Prop := e = .inp ∨ e = .types

theorem out_zaid (s : Str) : Out (· = .types) (zaidParse s) := by
  unfold zaidParse
  split
  · exact .err rfl
  · rename_i m hm
    obtain ⟨z, hz⟩ := cap_must hm (n := 1) (by decide)
    obtain ⟨a, ha⟩ := cap_must hm (n := 2) (by decide)
    rw [hz, ha]
    simp only [mkZaid]
    split
    · exact .err rfl
    · split
      · exact .err rfl
      · exact .ok _

theorem out_subst (s : Str) : Out (· = .types) (substParse s) := by
  unfold substParse
  split
  · exact .err rfl
  · rename_i m hm
    obtain ⟨z, hz⟩ := cap_must hm (n := 1) (by decide)
    obtain ⟨a, ha⟩ := cap_must hm (n := 2) (by decide)
    rw [hz, ha]
    simp only
    split
    · rename_i e he; exact .err (out_zaid z e he)
    · split
      · rename_i e he
        obtain ⟨b, hb, ht⟩ := cap_taken hm (p := fun k b => k != 2 || b.solid) (by decide) (by decide) ha
        exact .err (out_real (ht.1 (by simpa using hb)) e he)
      · exact .ok _

theorem out_desig (s : Str) : Out (· = .types) (desigParse s) := by
  unfold desigParse
  split
  · exact .err rfl
  · rename_i m hm
    obtain ⟨st, -, rfl⟩ := reMatch_some hm
    have : cap ((0, s.take (s.length - st.rest.length)) :: st.caps) 0 = some (s.take (s.length - st.rest.length)) := rfl
    rw [this]
    exact .ok _

/-! ### Letters of shorthands and special numbers -/

/-- The letters of infinities and not-a-numbers. -/
def enN : List Char := ['n', 'N']

/-- The letters shorthands end with. -/
def hEnds : List Char := c!"rRiImMjJgG"

theorem hEnd_mem {c : Char} (h : hEnd c = true) : c ∈ hEnds := by
  have low : ∀ l ∈ c!"rimjg", lowerC c = l → c ∈ hEnds := by
    intro l hl h
    unfold lowerC at h
    split at h
    · rename_i hc
      simp only [Bool.and_eq_true, decide_eq_true_eq] at hc
      have hle : c.toNat ≤ 90 := hc.2
      have key : ∀ l ∈ c!"rimjg", ∀ n : Fin 91, Char.ofNat (n.1 + 32) = l → Char.ofNat n.1 ∈ hEnds := by decide
      have := key l hl ⟨c.toNat, by omega⟩ h
      rwa [Char.ofNat_toNat] at this
    · have : ∀ l ∈ c!"rimjg", l ∈ hEnds := by decide
      rw [h]; exact this l hl
  unfold hEnd at h
  simp only [Bool.or_eq_true, beq_iff_eq] at h
  rcases h with (((h | h) | h) | h) | h <;> exact low _ (by decide) h

theorem not_special {t : Str} (h : ∀ c ∈ t, c ∉ enN) : ¬ Special t := by
  intro hs
  obtain ⟨c, hc, hl⟩ := special_n hs
  rcases low_n hl with rfl | rfl
  · exact h _ hc (by decide)
  · exact h _ hc (by decide)

theorem not_hor {t : Str} (h : ∀ c ∈ t, c ∉ hEnds) : horizParse t = .error .types := by
  apply horizParse_reject
  intro w c hw
  cases he : hEnd c with
  | false => rfl
  | true => exact absurd (hEnd_mem he) (h c (by rw [hw]; simp))

theorem int_num {t : Str} (h : horizParse t = .error .types) {v} (hv : intParse t = .ok v) : ∃ n, v = .num n := by
  unfold intParse at hv
  rw [h] at hv
  simp only at hv
  split at hv
  · cases hv
  · split at hv
    · cases hv
    · cases hv; exact ⟨_, rfl⟩
    · cases hv
    · cases hv

theorem real_num {t : Str} (h : horizParse t = .error .types) {v} (hv : realParse t = .ok v) : ∃ d, v = .num d := by
  unfold realParse at hv
  rw [h] at hv
  simp only at hv
  split at hv
  · cases hv
  · split at hv
    · cases hv
    · cases hv; exact ⟨_, rfl⟩

theorem out_dist (s : Str) : Out (· = .types) (distParse s) := by
  unfold distParse
  split
  · exact .err rfl
  · rename_i m hm
    split
    · rename_i ds hd
      obtain ⟨b, hb, h1, h2⟩ := cap_wrote hm (p := fun _ b => inked b && avoids enN b && avoids hEnds b) (by decide +kernel)
        (by decide) hd
      simp only [Bool.and_eq_true] at hb
      have hne : ds ≠ [] := by
        obtain ⟨c, hc, -⟩ := h1 hb.1.1
        exact List.ne_nil_of_mem hc
      split
      · rename_i n hn
        unfold mkDist
        split
        · exact .ok _
        · exact .err rfl
      · rename_i x hx
        obtain ⟨n, hn⟩ := int_num (not_hor (h2 _ hb.2)) hx
        cases hn
      · rename_i e he
        rcases out_int hne e he with h | ⟨-, h⟩
        · exact .err h
        · exact absurd h (not_special (h2 _ hb.1.2))
    · exact .ok _

theorem out_index (s : Str) : Out (· ∈ [Err.types, .overflow, .value, .unmodelled]) (indexParse s) := by
  unfold indexParse
  split
  · exact .err (by decide)
  · rename_i m hm
    obtain ⟨z, hz⟩ := cap_must hm (n := 1) (by decide)
    obtain ⟨a, ha⟩ := cap_must hm (n := 2) (by decide)
    have hne : ∀ n u, n ≠ 0 → cap m n = some u → u ≠ [] := by
      intro n u hn hu
      obtain ⟨b, hb, ht⟩ := cap_taken hm (p := fun _ b => b.solid) (by decide) hn hu
      exact ht.1 hb
    have hi : ∀ u : Str, u ≠ [] → Out (· ∈ [Err.types, .overflow, .value, .unmodelled]) (intParse u) := by
      intro u hu e he
      rcases out_int hu e he with rfl | ⟨rfl | rfl, -⟩ <;> decide
    rw [hz, ha]
    simp only
    split
    · rename_i e he; exact .err (hi _ (hne 1 z (by decide) hz) e he)
    · split
      · rename_i e he; exact .err (hi _ (hne 2 a (by decide) ha) e he)
      · split
        · exact .ok _
        · exact .err (by decide)

theorem out_geo (s : Str) : Out (· ∈ [Err.types, .assertion, .index]) (geoParse s) := by
  rcases (Props.C15_errors_partial s).1 with ⟨g, h⟩ | h | h | h <;> rw [h]
  · exact .ok _
  all_goals exact .err (by decide)

theorem out_lat (s : Str) : Out (· ∈ [Err.types, .assertion, .index]) (latParse s) := by
  intro e he
  rcases (Props.C53_errors_partial s e he).1 with rfl | rfl | rfl <;> decide

theorem out_trEntries {m : List (Nat × Str)} (n : Nat) :
    ∀ i, i ≠ 0 → (∀ j, i ≤ j → j < i + n → ∃ u, cap m j = some u) → Out (· ∈ [Err.types, .index]) (trEntries m n i) := by
  induction n with
  | zero => intro i _ _; exact .ok _
  | succ n ih =>
    intro i hi h
    obtain ⟨u, hu⟩ := h i (Nat.le_refl _) (by omega)
    unfold trEntries
    rw [hu]
    simp only
    split
    · rename_i e he
      refine .err ?_
      cases u with
      | nil =>
        have : realParse [] = .error .index := by decide +kernel
        rw [this] at he; cases he; decide
      | cons a u => rw [out_real (by simp) e he]; decide
    · split
      · rename_i e he
        exact .err (ih (i + 1) (by omega) (fun j h1 h2 => h j (by omega) (by omega)) e he)
      · exact .ok _

theorem out_trans (k : Nat) (s : Str) : Out (· ∈ [Err.types, .index]) (transParse k s) := by
  have key : ∀ k, k = 0 ∨ k = 1 ∨ k = 2 ∨ k = 3 ∨ ∃ j, k = j + 4 := by
    intro k
    rcases k with _ | _ | _ | _ | j <;> simp
  have hmust : ∀ j, 1 ≤ j → j < 1 + trCount k → (anchored (transRe k 1)).must j = true := by
    have h0 : ∀ j : Fin 13, 1 ≤ j.1 → (anchored (transRe 0 1)).must j.1 = true := by decide +kernel
    have h1 : ∀ j : Fin 10, 1 ≤ j.1 → (anchored (transRe 1 1)).must j.1 = true := by decide +kernel
    have h2 : ∀ j : Fin 9, 1 ≤ j.1 → (anchored (transRe 2 1)).must j.1 = true := by decide +kernel
    have h3 : ∀ j : Fin 7, 1 ≤ j.1 → (anchored (transRe 3 1)).must j.1 = true := by decide +kernel
    have h4 : ∀ j : Fin 4, 1 ≤ j.1 → (anchored (transRe 4 1)).must j.1 = true := by decide +kernel
    intro j hj hlt
    rcases key k with rfl | rfl | rfl | rfl | ⟨i, rfl⟩
    · exact h0 ⟨j, hlt⟩ hj
    · exact h1 ⟨j, hlt⟩ hj
    · exact h2 ⟨j, hlt⟩ hj
    · exact h3 ⟨j, hlt⟩ hj
    · exact h4 ⟨j, hlt⟩ hj
  have hgr : (anchored (transRe k 1)).groupsAll (fun _ b => avoids enN b && avoids hEnds b) = true := by
    rcases key k with rfl | rfl | rfl | rfl | ⟨i, rfl⟩
    · decide +kernel
    · decide +kernel
    · decide +kernel
    · decide +kernel
    · exact (by decide +kernel : (anchored (transRe 4 1)).groupsAll (fun _ b => avoids enN b && avoids hEnds b) = true)
  unfold transParse
  split
  · exact .err (by decide)
  · rename_i m hm
    have hav : ∀ n u, n ≠ 0 → cap m n = some u → (∀ c ∈ u, c ∉ enN) ∧ ∀ c ∈ u, c ∉ hEnds := by
      intro n u hn hu
      obtain ⟨b, hb, -, h2⟩ := cap_wrote hm hgr hn hu
      simp only [Bool.and_eq_true] at hb
      exact ⟨h2 _ hb.1, h2 _ hb.2⟩
    split
    · rename_i e he
      exact .err (out_trEntries _ 1 (by decide)
        (fun j h1 h2 => cap_must hm (hmust j h1 h2)) e he)
    · split
      · exact .ok _
      · exact .ok _
      · rename_i t hne hu
        have h2 := hav _ _ (by omega) hu
        split
        · rename_i e he
          rcases out_int (by intro h0; exact hne (by rw [h0])) e he with h | ⟨-, h⟩
          · subst h; exact .err (by decide)
          · exact absurd h (not_special h2.1)
        · rename_i v hv
          obtain ⟨n, rfl⟩ := int_num (not_hor h2.2) hv
          unfold mkTrans
          split
          · cases ‹some _ = none›
          · split
            · exact .ok _
            · exact .err (by decide)
          · cases ‹some _ = some _›

theorem trans_abs {k : Nat} {s : Str} {v : Val} (h : transParse k s = .ok v) : ∃ rs m, v = .sc (.trans k rs m) := by
  have hm : ∀ rs o, mkTrans k rs o = .ok v → ∃ rs m, v = .sc (.trans k rs m) := by
    intro rs o ho
    unfold mkTrans at ho
    split at ho
    · cases ho; exact ⟨_, _, rfl⟩
    · split at ho
      · cases ho; exact ⟨_, _, rfl⟩
      · cases ho
    · cases ho
  unfold transParse at h
  split at h
  · cases h
  · split at h
    · cases h
    · split at h
      · exact hm _ _ h
      · exact hm _ _ h
      · split at h
        · cases h
        · exact hm _ _ h

/-! ### Kinds of values -/

/-- What matters of a value for the tests of setters. -/
inductive Abs where
  | none | int | intJump | intHor | real | realInf | realNan | realJump | realHor | str | tuple | obj | other
deriving DecidableEq, Repr

/-- The kind of a value. -/
def absOf : Val → Abs
  | .none => .none
  | .sc (.int (.num _)) => .int
  | .sc (.int (.hor (.jump _))) => .intJump
  | .sc (.int (.hor _)) => .intHor
  | .sc (.real (.num (.fin _))) => .real
  | .sc (.real (.num (.inf _))) => .realInf
  | .sc (.real (.num (.nan _ _ _))) => .realNan
  | .sc (.real (.hor (.jump _))) => .realJump
  | .sc (.real (.hor _)) => .realHor
  | .sc (.str _) => .str
  | .sc _ => .other
  | .tuple _ => .tuple
  | .obj _ _ => .obj

/-- Shorthands. -/
def Abs.short : Abs → Bool
  | .intJump | .intHor | .realJump | .realHor => true
  | _ => false

/-- Both truth values. -/
def both : List (Res Bool) := [.ok true, .ok false]

def cmpAbs (o : Cmp) : Abs → List (Res Bool)
  | .int | .real | .realInf => both
  | .intJump | .intHor | .realJump | .realHor =>
    match o with
    | .eq => [.ok false]
    | .ne => [.ok true]
    | _ => [.error .typeErr]
  | _ => [.error .unmodelled]

def inIntsAbs : Abs → List (Res Bool)
  | .int | .real | .realInf => both
  | .intJump | .intHor | .realJump | .realHor => [.error .typeErr]
  | _ => [.error .unmodelled]

def modAbs : Abs → List (Res Bool)
  | .int => both
  | .intJump | .intHor => [.error .attribute]
  | _ => [.error .unmodelled]

def minPosAbs : Abs → List (Res Bool)
  | .tuple => .error .value :: .error .typeErr :: both
  | _ => [.error .unmodelled]

def falsyAbs : Abs → List (Res Bool)
  | .none => [.ok true]
  | .int => both
  | .intJump | .intHor => [.error .attribute]
  | _ => [.error .unmodelled]

def ltAbs : Abs → Abs → List (Res Bool)
  | .real, .real => both
  | .realJump, _ | .realHor, _ | _, .realJump | _, .realHor => [.error .typeErr]
  | _, _ => [.error .unmodelled]

/-- The values have these kinds. -/
inductive Kinds : List Val → List (List Abs) → Prop where
  | nil : Kinds [] []
  | cons {v l vs ls} (h : absOf v ∈ l) (t : Kinds vs ls) : Kinds (v :: vs) (l :: ls)

/-- Numbers and shorthands of the class `Real`. -/
def Abs.isReal : Abs → Bool
  | .real | .realInf | .realNan | .realJump | .realHor => true
  | _ => false

/-- For points with coordinates of these kinds. -/
def flatAbs (ls : List (List Abs)) : List (Res Bool) :=
  .error .arith :: both ++ (if ls.all (fun l => l.all Abs.isReal) then [] else [.error .unmodelled]) ++
    (if ls.all (fun l => l.all (fun x => !x.short)) then [] else [.error .typeErr, .error .attribute])

/-- Kinds of the attributes set so far. -/
abbrev AEnv := List (String × List Abs)

/-- The results a test can have on values of a kind. -/
def chkAbs (env : AEnv) : Abs → Chk → List (Res Bool)
  | x, .isNone => [.ok (x == .none)]
  | x, .notNone => [.ok (x != .none)]
  | x, .cmp o _ _ => cmpAbs o x
  | x, .inInts _ => inIntsAbs x
  | x, .lowIn _ => if x == .str then both else [.error .unmodelled]
  | x, .eqStr _ => if x == .str then both else [.error .unmodelled]
  | x, .lenLe _ => if x == .str then both else [.error .unmodelled]
  | x, .isJump => [.ok (x == .intJump || x == .realJump)]
  | x, .modEq _ _ => modAbs x
  | x, .modIn _ _ => modAbs x
  | x, .minPos => minPosAbs x
  | x, .falsy => falsyAbs x
  | _, .tt => [.ok true]
  | x, .not a => (chkAbs env x a).map (Except.map (!·))
  | x, .and a b => (chkAbs env x a).flatMap (fun r => match r with | .ok true => chkAbs env x b | r => [r])
  | x, .or a b => (chkAbs env x a).flatMap (fun r => match r with | .ok false => chkAbs env x b | r => [r])
  | x, .ite c a b => (chkAbs env x c).flatMap (fun r => match r with
      | .ok true => chkAbs env x a | .ok false => chkAbs env x b | .error e => [.error e])
  | _, .self n a =>
    match env.lookup n with
    | none => [.error .attribute]
    | some l => l.flatMap (fun y => chkAbs env y a)
  | x, .ltSelf n =>
    match env.lookup n with
    | none => [.error .attribute]
    | some l => l.flatMap (fun y => ltAbs y x)
  | x, .flat n =>
    match ["x1", "y1", "z1", "x2", "y2", "z2", "x3", "y3", "z3"].mapM (fun k => if k = n then some [x] else env.lookup k) with
    | none => [.ok false]
    | some ls => flatAbs ls
  | x, .kcode =>
    match env.lookup "nsrck" with
    | none => [.error .attribute]
    | some l => l.flatMap (fun y => match y with
        | .none | .int => cmpAbs .lt x
        | .intJump | .intHor => [.error .attribute]
        | _ => [.error .unmodelled])

theorem mem_both (b : Bool) : (.ok b : Res Bool) ∈ both := by cases b <;> simp [both]

theorem cmp_sound (o : Cmp) (n : Int) (d : Nat) (v : Val) : cmpVal o n d v ∈ cmpAbs o (absOf v) := by
  unfold cmpVal
  split
  · exact mem_both _
  · exact mem_both _
  · exact mem_both _
  · rename_i h
    cases h <;> cases o <;> simp [absOf, cmpAbs]
  · rename_i h
    cases h <;> cases o <;> simp [absOf, cmpAbs]
  · rename_i h1 h2 h3 h4 h5
    match v with
    | .sc (.int (.num k)) => exact absurd rfl (h1 k)
    | .sc (.int (.hor h)) => exact absurd rfl (h4 h)
    | .sc (.real (.num (.fin x))) => exact absurd rfl (h2 x)
    | .sc (.real (.num (.inf x))) => exact absurd rfl (h3 x)
    | .sc (.real (.num (.nan _ _ _))) => simp [absOf, cmpAbs]
    | .sc (.real (.hor h)) => exact absurd rfl (h5 h)
    | .none | .tuple _ | .obj _ _ | .sc (.str _) | .sc (.zaid _) | .sc (.dist _) | .sc (.desig _) | .sc (.subst _)
    | .sc (.index _) | .sc (.geo _) | .sc (.lat _) | .sc (.trans _ _ _) => simp [absOf, cmpAbs]

theorem inInts_sound (l : List Int) (v : Val) : inIntsVal l v ∈ inIntsAbs (absOf v) := by
  unfold inIntsVal
  split
  · exact mem_both _
  · exact mem_both _
  · exact mem_both _
  · rename_i h
    cases h <;> simp [absOf, inIntsAbs]
  · rename_i h
    cases h <;> simp [absOf, inIntsAbs]
  · rename_i h1 h2 h3 h4 h5
    match v with
    | .sc (.int (.num k)) => exact absurd rfl (h1 k)
    | .sc (.int (.hor h)) => exact absurd rfl (h4 h)
    | .sc (.real (.num (.fin x))) => exact absurd rfl (h2 x)
    | .sc (.real (.num (.inf x))) => exact absurd rfl (h3 x)
    | .sc (.real (.num (.nan _ _ _))) => simp [absOf, inIntsAbs]
    | .sc (.real (.hor h)) => exact absurd rfl (h5 h)
    | .none | .tuple _ | .obj _ _ | .sc (.str _) | .sc (.zaid _) | .sc (.dist _) | .sc (.desig _) | .sc (.subst _)
    | .sc (.index _) | .sc (.geo _) | .sc (.lat _) | .sc (.trans _ _ _) => simp [absOf, inIntsAbs]

theorem mod_sound (m : Int) (p : Int → Bool) (v : Val) : modVal m p v ∈ modAbs (absOf v) := by
  match v with
  | .sc (.int (.num k)) => exact mem_both _
  | .sc (.int (.hor h)) => cases h <;> simp [absOf, modAbs, modVal]
  | .sc (.real (.num (.fin x))) | .sc (.real (.num (.inf x))) | .sc (.real (.num (.nan _ _ _))) => simp [absOf, modAbs, modVal]
  | .sc (.real (.hor h)) => cases h <;> simp [absOf, modAbs, modVal]
  | .none | .tuple _ | .obj _ _ | .sc (.str _) | .sc (.zaid _) | .sc (.dist _) | .sc (.desig _) | .sc (.subst _)
  | .sc (.index _) | .sc (.geo _) | .sc (.lat _) | .sc (.trans _ _ _) => simp [absOf, modAbs, modVal]

theorem falsy_sound (v : Val) : falsyVal v ∈ falsyAbs (absOf v) := by
  match v with
  | .sc (.int (.num k)) => exact mem_both _
  | .sc (.int (.hor h)) => cases h <;> simp [absOf, falsyAbs, falsyVal]
  | .sc (.real (.num (.fin x))) | .sc (.real (.num (.inf x))) | .sc (.real (.num (.nan _ _ _))) => simp [absOf, falsyAbs, falsyVal]
  | .sc (.real (.hor h)) => cases h <;> simp [absOf, falsyAbs, falsyVal]
  | .none | .tuple _ | .obj _ _ | .sc (.str _) | .sc (.zaid _) | .sc (.dist _) | .sc (.desig _) | .sc (.subst _)
  | .sc (.index _) | .sc (.geo _) | .sc (.lat _) | .sc (.trans _ _ _) => simp [absOf, falsyAbs, falsyVal]

theorem minPos_sound (v : Val) : minPosVal v ∈ minPosAbs (absOf v) := by
  match v with
  | .tuple [] => simp [absOf, minPosAbs, minPosVal]
  | .tuple (a :: l) =>
    simp only [minPosVal, absOf, minPosAbs]
    split
    · exact List.mem_cons_of_mem _ (List.mem_cons_of_mem _ (mem_both _))
    · simp
  | .sc (.int (.num k)) => simp [absOf, minPosAbs, minPosVal]
  | .sc (.int (.hor h)) => cases h <;> simp [absOf, minPosAbs, minPosVal]
  | .sc (.real (.num (.fin x))) | .sc (.real (.num (.inf x))) | .sc (.real (.num (.nan _ _ _))) => simp [absOf, minPosAbs, minPosVal]
  | .sc (.real (.hor h)) => cases h <;> simp [absOf, minPosAbs, minPosVal]
  | .none | .obj _ _ | .sc (.str _) | .sc (.zaid _) | .sc (.dist _) | .sc (.desig _) | .sc (.subst _)
  | .sc (.index _) | .sc (.geo _) | .sc (.lat _) | .sc (.trans _ _ _) => simp [absOf, minPosAbs, minPosVal]

/-- The values agree with the kinds. -/
def Agree (env : List (String × Val)) (aenv : AEnv) : Prop :=
  ∀ n, (env.lookup n = none ∧ aenv.lookup n = none) ∨ ∃ v l, env.lookup n = some v ∧ aenv.lookup n = some l ∧ absOf v ∈ l

theorem abs_hor (h : Horiz) : absOf (.sc (.real (.hor h))) = .realJump ∨ absOf (.sc (.real (.hor h))) = .realHor := by
  cases h <;> simp [absOf]

theorem lt_sound (v w : Val) : ltVal v w ∈ ltAbs (absOf v) (absOf w) := by
  by_cases hv : ∃ x, v = .sc (.real (.hor x))
  · obtain ⟨x, rfl⟩ := hv
    have : ltVal (.sc (.real (.hor x))) w = .error .typeErr := by unfold ltVal; split <;> simp_all
    rw [this]
    rcases abs_hor x with h | h <;> rw [h] <;> cases absOf w <;> simp [ltAbs]
  · by_cases hw : ∃ x, w = .sc (.real (.hor x))
    · obtain ⟨x, rfl⟩ := hw
      have : ltVal v (.sc (.real (.hor x))) = .error .typeErr := by unfold ltVal; split <;> simp_all
      rw [this]
      rcases abs_hor x with h | h <;> rw [h] <;> cases absOf v <;> simp [ltAbs]
    · have hno : ∀ y, (¬ ∃ x, y = Val.sc (.real (.hor x))) → absOf y ≠ .realJump ∧ absOf y ≠ .realHor := by
        intro y hy
        match y, hy with
        | .sc (.real (.hor x)), hy => exact absurd ⟨x, rfl⟩ hy
        | .sc (.int (.hor h)), _ => cases h <;> simp [absOf]
        | .sc (.int (.num _)), _ | .sc (.real (.num (.fin _))), _ | .sc (.real (.num (.inf _))), _
        | .sc (.real (.num (.nan _ _ _))), _ | .none, _ | .tuple _, _ | .obj _ _, _ | .sc (.str _), _ | .sc (.zaid _), _
        | .sc (.dist _), _ | .sc (.desig _), _ | .sc (.subst _), _ | .sc (.index _), _ | .sc (.geo _), _ | .sc (.lat _), _
        | .sc (.trans _ _ _), _ => simp [absOf]
      have hre : ∀ y, absOf y = .real → ∃ x, y = .sc (.real (.num (.fin x))) := by
        intro y hy
        match y, hy with
        | .sc (.real (.num (.fin x))), _ => exact ⟨x, rfl⟩
        | .sc (.int (.hor h)), hy => cases h <;> cases hy
        | .sc (.real (.hor h)), hy => cases h <;> cases hy
      by_cases hb : absOf v = .real ∧ absOf w = .real
      · obtain ⟨x, rfl⟩ := hre v hb.1
        obtain ⟨y, rfl⟩ := hre w hb.2
        exact mem_both _
      · have : ltVal v w = .error .unmodelled := by
          unfold ltVal
          split
          · exact absurd ⟨rfl, rfl⟩ hb
          · exact absurd ⟨_, rfl⟩ hv
          · exact absurd ⟨_, rfl⟩ hw
          · rfl
        rw [this]
        have h1 := hno v hv
        have h2 := hno w hw
        revert h1 h2 hb
        cases absOf v <;> cases absOf w <;> simp [ltAbs]

theorem diff_sound (v w : Val) (e : Err) (h : diffVal v w = .error e) : e = .arith ∨
    (e = .typeErr ∨ e = .attribute) ∧ ((absOf v).short = true ∨ (absOf w).short = true) ∨
    e = .unmodelled ∧ ((absOf v).isReal = false ∨ (absOf w).isReal = false) := by
  have hsub : ∀ a b, decSub a b = .error e → e = .arith := by
    intro a b hab
    have key : ∀ (p : Prop) [Decidable p] (x : Dbl), (if p then (.error .arith : Res Dbl) else .ok x) = .error e → e = .arith := by
      intro p _ x hp
      split at hp <;> cases hp
      rfl
    unfold decSub at hab
    split at hab
    · exact key _ _ hab
    · cases hab; rfl
    · cases hab; rfl
    · cases hab
    · cases hab
    · split at hab
      · cases hab; rfl
      · cases hab
    · cases hab
    · cases hab
  have hreal : ∀ y, (∃ x, y = Val.sc (.real x)) ∨ (absOf y).isReal = false := by
    intro y
    match y with
    | .sc (.real x) => exact .inl ⟨x, rfl⟩
    | .sc (.int (.hor h)) => cases h <;> exact .inr rfl
    | .sc (.int (.num _)) | .none | .tuple _ | .obj _ _ | .sc (.str _) | .sc (.zaid _)
    | .sc (.dist _) | .sc (.desig _) | .sc (.subst _) | .sc (.index _) | .sc (.geo _) | .sc (.lat _)
    | .sc (.trans _ _ _) => exact .inr rfl
  unfold diffVal at h
  split at h
  · exact .inl (hsub _ _ h)
  · rename_i a x
    cases h
    refine .inr (.inl ⟨.inl rfl, .inr ?_⟩)
    rcases abs_hor x with hx | hx <;> rw [hx] <;> rfl
  · rename_i x _
    cases h
    refine .inr (.inl ⟨.inr rfl, .inl ?_⟩)
    rcases abs_hor x with hx | hx <;> rw [hx] <;> rfl
  · rename_i h1 h2 h3
    cases h
    refine .inr (.inr ⟨rfl, ?_⟩)
    rcases hreal v with ⟨x, rfl⟩ | hv
    · rcases hreal w with ⟨y, rfl⟩ | hw
      · exfalso
        cases x with
        | num a =>
          cases y with
          | num b => exact h1 _ _ rfl rfl
          | hor b => exact h2 _ _ rfl rfl
        | hor a => exact h3 _ _ rfl rfl
      · exact .inr hw
    · exact .inl hv

theorem Kinds.mem {vs : List Val} {ls : List (List Abs)} (h : Kinds vs ls) : ∀ v ∈ vs, ∃ l ∈ ls, absOf v ∈ l := by
  induction h with
  | nil => intro v hv; cases hv
  | cons hv _ ih =>
    intro w hw
    rcases List.mem_cons.1 hw with rfl | hw
    · exact ⟨_, List.mem_cons_self, hv⟩
    · obtain ⟨l, hl, h⟩ := ih w hw
      exact ⟨l, List.mem_cons_of_mem _ hl, h⟩

theorem diff_flat {vs : List Val} {ls : List (List Abs)} (h : Kinds vs ls) {v w : Val} (hv : v ∈ vs) (hw : w ∈ vs) {e : Err}
    (he : diffVal v w = .error e) : (.error e : Res Bool) ∈ flatAbs ls := by
  obtain ⟨l, hl, hvl⟩ := h.mem v hv
  obtain ⟨k, hk, hwk⟩ := h.mem w hw
  unfold flatAbs
  rcases diff_sound v w e he with rfl | ⟨h1, h2⟩ | ⟨rfl, h2⟩
  · simp
  · have : ls.all (fun l => l.all (fun x => !x.short)) = false := by
      rw [Bool.eq_false_iff]
      intro hall
      have hs : ∀ m ∈ ls, ∀ x ∈ m, x.short = false := by
        intro m hm x hx
        simpa using List.all_eq_true.1 (List.all_eq_true.1 hall m hm) x hx
      rcases h2 with h2 | h2
      · rw [hs l hl _ hvl] at h2; cases h2
      · rw [hs k hk _ hwk] at h2; cases h2
    rw [this]
    rcases h1 with rfl | rfl <;> simp
  · have : ls.all (fun l => l.all Abs.isReal) = false := by
      rw [Bool.eq_false_iff]
      intro hall
      have hs : ∀ m ∈ ls, ∀ x ∈ m, x.isReal = true := fun m hm x hx => List.all_eq_true.1 (List.all_eq_true.1 hall m hm) x hx
      rcases h2 with h2 | h2
      · rw [hs l hl _ hvl] at h2; cases h2
      · rw [hs k hk _ hwk] at h2; cases h2
    rw [this]
    simp

theorem ok_flat (b : Bool) (ls : List (List Abs)) : (.ok b : Res Bool) ∈ flatAbs ls := by
  unfold flatAbs
  exact List.mem_append_left _ (List.mem_append_left _ (List.mem_cons_of_mem _ (mem_both b)))

theorem flat_sound {vs : List Val} {ls : List (List Abs)} (h : Kinds vs ls) : flatVal vs ∈ flatAbs ls := by
  unfold flatVal
  split
  · rename_i x1 y1 z1 x2 y2 z2 x3 y3 z3
    simp only [bind, Except.bind]
    split
    · rename_i e he; exact diff_flat h (by simp) (by simp) he
    split
    · rename_i e he; exact diff_flat h (by simp) (by simp) he
    split
    · rename_i e he; exact diff_flat h (by simp) (by simp) he
    split
    · rename_i e he; exact diff_flat h (by simp) (by simp) he
    split
    · rename_i e he; exact diff_flat h (by simp) (by simp) he
    split
    · rename_i e he; exact diff_flat h (by simp) (by simp) he
    exact ok_flat _ _
  · exact ok_flat _ _

theorem args_kinds {env : List (String × Val)} {aenv : AEnv} (h : Agree env aenv) (n : String) (x : Val) (ks : List String) :
    (ks.mapM (fun k => if k = n then some x else env.lookup k) = none ∧
      ks.mapM (fun k => if k = n then some [absOf x] else aenv.lookup k) = none) ∨
    ∃ vs ls, ks.mapM (fun k => if k = n then some x else env.lookup k) = some vs ∧
      ks.mapM (fun k => if k = n then some [absOf x] else aenv.lookup k) = some ls ∧ Kinds vs ls := by
  induction ks with
  | nil => exact .inr ⟨[], [], rfl, rfl, .nil⟩
  | cons k ks ih =>
    simp only [List.mapM_cons]
    have hk : ((if k = n then some x else env.lookup k) = none ∧ (if k = n then some [absOf x] else aenv.lookup k) = none) ∨
        ∃ v l, (if k = n then some x else env.lookup k) = some v ∧ (if k = n then some [absOf x] else aenv.lookup k) = some l ∧
          absOf v ∈ l := by
      split
      · exact .inr ⟨x, [absOf x], rfl, rfl, by simp⟩
      · exact h k
    rcases hk with ⟨h1, h2⟩ | ⟨v, l, h1, h2, h3⟩
    · rw [h1, h2]; exact .inl ⟨rfl, rfl⟩
    · rw [h1, h2]
      rcases ih with ⟨h4, h5⟩ | ⟨vs, ls, h4, h5, h6⟩
      · rw [h4, h5]; exact .inl ⟨rfl, rfl⟩
      · rw [h4, h5]; exact .inr ⟨v :: vs, l :: ls, rfl, rfl, .cons h3 h6⟩

theorem chk_sound {env : List (String × Val)} {aenv : AEnv} (h : Agree env aenv) (c : Chk) :
    ∀ x, c.eval env x ∈ chkAbs aenv (absOf x) c := by
  induction c with
  | isNone => intro x; cases x with
    | none => simp [Chk.eval, chkAbs, absOf]
    | sc s =>
      have : absOf (.sc s) ≠ .none := by
        intro h
        match s, h with
        | .int (.hor x), h => cases x <;> cases h
        | .real (.hor x), h => cases x <;> cases h
      simp [Chk.eval, chkAbs, this]
    | tuple l => simp [Chk.eval, chkAbs, absOf]
    | obj i l => simp [Chk.eval, chkAbs, absOf]
  | notNone => intro x; cases x with
    | none => simp [Chk.eval, chkAbs, absOf]
    | sc s =>
      have : absOf (.sc s) ≠ .none := by
        intro h
        match s, h with
        | .int (.hor x), h => cases x <;> cases h
        | .real (.hor x), h => cases x <;> cases h
      simp [Chk.eval, chkAbs, this]
    | tuple l => simp [Chk.eval, chkAbs, absOf]
    | obj i l => simp [Chk.eval, chkAbs, absOf]
  | cmp o n d => intro x; rw [Chk.eval, chkAbs]; exact cmp_sound o n d x
  | inInts l => intro x; rw [Chk.eval, chkAbs]; exact inInts_sound l x
  | lowIn l => 
    intro x
    by_cases hx : ∃ s, x = .sc (.str s)
    · obtain ⟨s, rfl⟩ := hx
      rw [Chk.eval]; exact mem_both _
    · have ha : absOf x ≠ .str := by
        intro h
        match x, h with
        | .sc (.str s), _ => exact hx ⟨s, rfl⟩
        | .sc (.int (.hor y)), h => cases y <;> cases h
        | .sc (.real (.hor y)), h => cases y <;> cases h
      rw [Chk.eval]
      · simp [chkAbs, ha]
      · intro s hs; exact hx ⟨s, hs⟩
  | eqStr l => 
    intro x
    by_cases hx : ∃ s, x = .sc (.str s)
    · obtain ⟨s, rfl⟩ := hx
      rw [Chk.eval]; exact mem_both _
    · have ha : absOf x ≠ .str := by
        intro h
        match x, h with
        | .sc (.str s), _ => exact hx ⟨s, rfl⟩
        | .sc (.int (.hor y)), h => cases y <;> cases h
        | .sc (.real (.hor y)), h => cases y <;> cases h
      rw [Chk.eval]
      · simp [chkAbs, ha]
      · intro s hs; exact hx ⟨s, hs⟩
  | lenLe l => 
    intro x
    by_cases hx : ∃ s, x = .sc (.str s)
    · obtain ⟨s, rfl⟩ := hx
      rw [Chk.eval]; exact mem_both _
    · have ha : absOf x ≠ .str := by
        intro h
        match x, h with
        | .sc (.str s), _ => exact hx ⟨s, rfl⟩
        | .sc (.int (.hor y)), h => cases y <;> cases h
        | .sc (.real (.hor y)), h => cases y <;> cases h
      rw [Chk.eval]
      · simp [chkAbs, ha]
      · intro s hs; exact hx ⟨s, hs⟩
  | isJump =>
    intro x
    simp only [Chk.eval, chkAbs, List.mem_singleton]
    congr 1
    match x with
    | .sc (.int (.num k)) => rfl
    | .sc (.int (.hor h)) => cases h <;> rfl
    | .sc (.real (.num (.fin x))) | .sc (.real (.num (.inf x))) | .sc (.real (.num (.nan _ _ _))) => rfl
    | .sc (.real (.hor h)) => cases h <;> rfl
    | .none | .tuple _ | .obj _ _ | .sc (.str _) | .sc (.zaid _) | .sc (.dist _) | .sc (.desig _) | .sc (.subst _)
    | .sc (.index _) | .sc (.geo _) | .sc (.lat _) | .sc (.trans _ _ _) => rfl
  | modEq m r => intro x; rw [Chk.eval, chkAbs]; exact mod_sound _ _ x
  | modIn m l => intro x; rw [Chk.eval, chkAbs]; exact mod_sound _ _ x
  | minPos => intro x; rw [Chk.eval, chkAbs]; exact minPos_sound x
  | falsy => intro x; rw [Chk.eval, chkAbs]; exact falsy_sound x
  | tt => intro x; simp [Chk.eval, chkAbs]
  | not a ih => intro x; rw [Chk.eval, chkAbs]; exact List.mem_map.2 ⟨_, ih x, rfl⟩
  | and a b iha ihb =>
    intro x
    rw [Chk.eval, chkAbs]
    refine List.mem_flatMap.2 ⟨_, iha x, ?_⟩
    cases a.eval env x with
    | error e => simp [Except.bind]
    | ok p => cases p
              · simp [Except.bind]
              · simpa [Except.bind] using ihb x
  | or a b iha ihb =>
    intro x
    rw [Chk.eval, chkAbs]
    refine List.mem_flatMap.2 ⟨_, iha x, ?_⟩
    cases a.eval env x with
    | error e => simp [Except.bind]
    | ok p => cases p
              · simpa [Except.bind] using ihb x
              · simp [Except.bind]
  | ite c a b ihc iha ihb =>
    intro x
    rw [Chk.eval, chkAbs]
    refine List.mem_flatMap.2 ⟨_, ihc x, ?_⟩
    cases c.eval env x with
    | error e => simp [Except.bind]
    | ok p => cases p
              · simpa [Except.bind] using ihb x
              · simpa [Except.bind] using iha x
  | self n a ih =>
    intro x
    rw [Chk.eval, chkAbs]
    unfold getAttr
    rcases h n with ⟨h1, h2⟩ | ⟨v, l, h1, h2, h3⟩
    · rw [h1, h2]; simp [Except.bind]
    · rw [h1, h2]
      exact List.mem_flatMap.2 ⟨_, h3, ih v⟩
  | ltSelf n =>
    intro x
    rw [Chk.eval, chkAbs]
    unfold getAttr
    rcases h n with ⟨h1, h2⟩ | ⟨v, l, h1, h2, h3⟩
    · rw [h1, h2]; simp [Except.bind]
    · rw [h1, h2]
      exact List.mem_flatMap.2 ⟨_, h3, lt_sound v x⟩
  | flat n =>
    intro x
    rw [Chk.eval, chkAbs]
    unfold flatArgs
    rcases args_kinds h n x ["x1", "y1", "z1", "x2", "y2", "z2", "x3", "y3", "z3"] with ⟨h1, h2⟩ | ⟨vs, ls, h1, h2, h3⟩
    · rw [h1, h2]; simp [flatVal]
    · rw [h1, h2]; exact flat_sound h3
  | kcode =>
    intro x
    rw [Chk.eval, chkAbs]
    unfold getAttr
    rcases h "nsrck" with ⟨h1, h2⟩ | ⟨v, l, h1, h2, h3⟩
    · rw [h1, h2]; simp [Except.bind]
    · rw [h1, h2]
      refine List.mem_flatMap.2 ⟨_, h3, ?_⟩
      simp only [Except.bind]
      match v with
      | .sc (.int (.num k)) => exact cmp_sound _ _ _ x
      | .none => exact cmp_sound _ _ _ x
      | .sc (.int (.hor h)) => cases h <;> simp [absOf]
      | .sc (.real (.num (.fin x))) | .sc (.real (.num (.inf x))) | .sc (.real (.num (.nan _ _ _))) => simp [absOf]
      | .sc (.real (.hor h)) => cases h <;> simp [absOf]
      | .tuple _ | .obj _ _ | .sc (.str _) | .sc (.zaid _) | .sc (.dist _) | .sc (.desig _) | .sc (.subst _)
      | .sc (.index _) | .sc (.geo _) | .sc (.lat _) | .sc (.trans _ _ _) => simp [absOf]

/-! ### Constructors -/

/-- The exceptions of a setter on values of the kinds `l`. -/
def setErrs (env : AEnv) (a : Attr) (l : List Abs) : List Err :=
  match a.chk with
  | none => []
  | some c => l.flatMap (fun x => (chkAbs env x c).flatMap (fun r => match r with
      | .ok true => [.inp] | .ok false => [] | .error e => [e]))

/-- The kinds a setter lets pass. -/
def passing (env : AEnv) (a : Attr) (l : List Abs) : List Abs :=
  match a.chk with
  | none => l
  | some c => l.filter (fun x => (chkAbs env x c).any (fun r => match r with | .ok false => true | _ => false))

/-- The exceptions of `__init__` for attributes of these kinds. -/
def initErrs (avs : List (Attr × List Abs)) : AEnv → List String → List Err
  | _, [] => []
  | env, n :: ns =>
    match avs.find? (fun p => p.1.name == n) with
    | none => [.attribute]
    | some (a, l) => setErrs env a l ++ initErrs avs ((a.name, passing env a l) :: env) ns

theorem set_sound {env : List (String × Val)} {aenv : AEnv} (h : Agree env aenv) (a : Attr) {v : Val} {l : List Abs} (hv : absOf v ∈ l) :
    Out (· ∈ setErrs aenv a l) (setAttr env a v) ∧
      ∀ env', setAttr env a v = .ok env' → Agree env' ((a.name, passing aenv a l) :: aenv) := by
  have hag : absOf v ∈ passing aenv a l → Agree ((a.name, v) :: env) ((a.name, passing aenv a l) :: aenv) := by
    intro hp n
    rw [List.lookup_cons, List.lookup_cons]
    split
    · exact .inr ⟨v, _, rfl, rfl, hp⟩
    · exact h n
  revert hag
  unfold setAttr setErrs passing
  cases hc : a.chk with
  | none => intro hag; exact ⟨.ok _, fun env' he => by cases he; exact hag hv⟩
  | some c =>
    intro hag
    simp only
    have key := chk_sound h c v
    cases he : c.eval env v with
    | error e =>
      rw [he] at key
      exact ⟨.err (List.mem_flatMap.2 ⟨_, hv, List.mem_flatMap.2 ⟨_, key, by simp⟩⟩), fun env' he => by cases he⟩
    | ok b =>
      rw [he] at key
      cases b with
      | true => exact ⟨.err (List.mem_flatMap.2 ⟨_, hv, List.mem_flatMap.2 ⟨_, key, by simp⟩⟩), fun env' he => by cases he⟩
      | false =>
        refine ⟨.ok _, fun env' he => ?_⟩
        cases he
        exact hag (List.mem_filter.2 ⟨hv, List.any_eq_true.2 ⟨_, key, rfl⟩⟩)

theorem find_sound {as : List Attr} {vs : List Val} {ls : List (List Abs)} (h : Kinds vs ls) (n : String) :
    ((as.zip vs).find? (fun p => p.1.name == n) = none ∧ (as.zip ls).find? (fun p => p.1.name == n) = none) ∨
    ∃ a v l, (as.zip vs).find? (fun p => p.1.name == n) = some (a, v) ∧ (as.zip ls).find? (fun p => p.1.name == n) = some (a, l) ∧
      absOf v ∈ l := by
  induction h generalizing as with
  | nil => left; simp
  | cons hv _ ih =>
    cases as with
    | nil => left; simp
    | cons a as =>
      simp only [List.zip_cons_cons, List.find?_cons]
      cases a.name == n with
      | true => right; exact ⟨a, _, _, rfl, rfl, hv⟩
      | false => exact ih

theorem init_sound {as : List Attr} {vs : List Val} {ls : List (List Abs)} (h : Kinds vs ls)
    (ns : List String) : ∀ env aenv, Agree env aenv → Out (· ∈ initErrs (as.zip ls) aenv ns) (runInit (as.zip vs) env ns) := by
  induction ns with
  | nil => intro env aenv _; exact .ok _
  | cons n ns ih =>
    intro env aenv hag
    unfold runInit initErrs
    rcases find_sound h n with ⟨h1, h2⟩ | ⟨a, v, l, h1, h2, h3⟩
    · rw [h1, h2]; exact .err (by simp)
    · rw [h1, h2]
      simp only
      obtain ⟨s1, s2⟩ := set_sound hag a h3
      split
      · rename_i e he; exact .err (List.mem_append_left _ (s1 e he))
      · rename_i env' he
        exact (ih env' _ (s2 env' he)).mono (fun e he => List.mem_append_right _ he)

/-! ### Attributes -/

/-- Every group of that number satisfies `p`. -/
def groupIs (r : Re) (n : Nat) (p : Re → Bool) : Bool := r.groupsAll (fun k b => k != n || p b)

/-- Kinds of the values of attribute `i`. -/
def attrAbs (r : Re) (i : Nat) (a : Attr) : List Abs :=
  .none :: (if a.many then [.tuple] else match a.ty with
    | .base .int => .int :: (if groupIs r (i + 1) (avoids hEnds) then [] else [.intJump, .intHor])
    | .base .real => .real :: ((if groupIs r (i + 1) (avoids hEnds) then [] else [.realJump, .realHor]) ++
        (if groupIs r (i + 1) (avoids enN) then [] else [.realInf, .realNan]))
    | .base .str => [.str]
    | .base _ => [.other]
    | .other _ _ _ _ => [.obj])

/-- Exceptions of reading attribute `i` (option and entry types aside). -/
def attrErrs (r : Re) (i : Nat) (a : Attr) : List Err :=
  match a.ty with
  | .base .int => .types :: (if a.many then [] else (if groupIs r (i + 1) inked then [] else [.index]) ++
      (if groupIs r (i + 1) (avoids enN) then [] else [.overflow, .value]))
  | .base .real => .types :: (if a.many || groupIs r (i + 1) inked then [] else [.index])
  | .base .str => []
  | .base .index => [.types, .overflow, .value, .unmodelled]
  | .base .geo => [.types, .assertion, .index]
  | .base .lat => [.types, .assertion, .index]
  | .base (.trans _) => [.types, .index]
  | .base _ => [.types]
  | .other _ _ _ _ => []

/-- What is known about the option and entry types of a class. -/
def TyOut (E : List Err) : Ty → Prop
  | .base _ => True
  | .other _ _ _ p => ∀ s, Out (· ∈ E) (p s) ∧ ∀ v, p s = .ok v → absOf v = .obj

theorem tuple_sound {E : List Err} {a : Attr} {t : Ty} (ht : TyOut E t) (r : Re) (i : Nat) (hty : a.ty = t) (s : Str) :
    Out (· ∈ attrErrs r i a ++ E) (tupleParse t s) := by
  have hall : ∀ u ∈ finditer (t.re 1) s, Out (· ∈ attrErrs r i a ++ E) (t.parse u) := by
    intro u hu
    unfold attrErrs
    rw [hty]
    cases t with
    | other n re ng p => exact (ht u).1
    | base k =>
      have hne := (finditer_infix hu).2
      cases k with
      | int =>
        simp only [Ty.parse, Kind.parse]
        refine Out.map ((out_int hne).mono ?_)
        rintro e (rfl | ⟨-, hs⟩)
        · simp
        · exact absurd hs (num_not_special hu)
      | real =>
        simp only [Ty.parse, Kind.parse]
        refine Out.map ((out_real hne).mono ?_)
        rintro e rfl; simp
      | str => exact Out.map (.ok _)
      | zaid => exact Out.map ((out_zaid u).mono (by rintro e rfl; simp))
      | dist => exact Out.map ((out_dist u).mono (by rintro e rfl; simp))
      | desig => exact Out.map ((out_desig u).mono (by rintro e rfl; simp))
      | subst => exact Out.map ((out_subst u).mono (by rintro e rfl; simp))
      | index => exact Out.map ((out_index u).mono (fun e h => List.mem_append_left _ h))
      | geo => exact Out.map ((out_geo u).mono (fun e h => List.mem_append_left _ h))
      | lat => exact Out.map ((out_lat u).mono (fun e h => List.mem_append_left _ h))
      | trans k => exact (out_trans k u).mono (fun e h => List.mem_append_left _ h)
  unfold tupleParse
  refine Out.map ?_
  generalize finditer (t.re 1) s = l at hall
  induction l with
  | nil => exact .ok _
  | cons u l ih =>
    rw [List.mapM_cons]
    refine Out.bind (hall u List.mem_cons_self) (fun v _ => Out.bind (ih (fun w hw => hall w (List.mem_cons_of_mem _ hw))) (fun _ _ => .ok _))

theorem group_wrote {r : Re} {s : Str} {m} (h : reMatch r s = some m) {n u} (hn : n ≠ 0) (hu : cap m n = some u) {p : Re → Bool}
    (hp : groupIs r n p = true) : ∃ b, p b = true ∧ Wrote b u := by
  obtain ⟨b, hb, hw⟩ := cap_wrote h hp hn hu
  simp only [bne_self_eq_false, Bool.false_or] at hb
  exact ⟨b, hb, hw⟩

theorem attr_sound {E : List Err} {r : Re} {s : Str} {m} (h : reMatch r s = some m) {ng i : Nat} {a : Attr} (hng : i + 1 ≤ ng)
    (ht : TyOut E a.ty) : Out (· ∈ attrErrs r i a ++ E) (attrVal ng m i a) ∧ ∀ v, attrVal ng m i a = .ok v → absOf v ∈ attrAbs r i a := by
  unfold attrVal
  rw [if_neg (by omega)]
  cases hu : cap m (i + 1) with
  | none => exact ⟨.ok _, fun v hv => by cases hv; simp [attrAbs, absOf]⟩
  | some u =>
    cases u with
    | nil => exact ⟨.ok _, fun v hv => by cases hv; simp [attrAbs, absOf]⟩
    | cons ch us =>
      simp only
      generalize hx : ch :: us = u at hu
      have hink : groupIs r (i + 1) inked = true → strip u ≠ [] := by
        intro hg
        obtain ⟨b, hb, hw⟩ := group_wrote h (by omega) hu hg
        exact strip_ne (hw.1 hb)
      have hav : ∀ l, groupIs r (i + 1) (avoids l) = true → ∀ c ∈ strip u, c ∉ l := by
        intro l hg c hc
        obtain ⟨b, hb, hw⟩ := group_wrote h (by omega) hu hg
        exact hw.2 l hb c (strip_mem hc)
      unfold Attr.parse
      by_cases hm : a.many = true
      · rw [if_pos hm]
        refine ⟨tuple_sound ht r i rfl _, ?_⟩
        intro v hv
        unfold tupleParse at hv
        cases hq : (finditer (a.ty.re 1) (strip u)).mapM a.ty.parse with
        | error e => rw [hq] at hv; cases hv
        | ok l => rw [hq] at hv; cases hv; simp [attrAbs, absOf, hm]
      · rw [if_neg hm]
        have hm' : a.many = false := by simpa using hm
        unfold attrErrs attrAbs
        rw [hm']
        revert ht
        cases a.ty with
        | other n re ng p =>
          intro ht
          exact ⟨(ht _).1, fun v hv => by rw [(ht _).2 v hv]; simp⟩
        | base k =>
          intro _
          cases k with
          | int =>
            simp only [Ty.parse, Kind.parse, Bool.false_eq_true, if_false]
            constructor
            · refine Out.map ?_
              by_cases h0 : strip u = []
              · rw [h0]
                have : intParse [] = .error .index := by decide +kernel
                rw [this]
                refine .err ?_
                have hn : ¬ groupIs r (i + 1) inked = true := fun hg => hink hg h0
                simp [hn]
              · refine (out_int h0).mono ?_
                rintro e (rfl | ⟨he, hs⟩)
                · simp
                · have hn : ¬ groupIs r (i + 1) (avoids enN) = true := fun hg => not_special (hav _ hg) hs
                  rcases he with rfl | rfl <;> simp [hn]
            · intro v hv
              cases hi : intParse (strip u) with
              | error e => rw [hi] at hv; cases hv
              | ok w =>
                rw [hi] at hv
                cases hv
                cases w with
                | num n => simp [absOf]
                | hor x =>
                  have hn : ¬ groupIs r (i + 1) (avoids hEnds) = true := by
                    intro hg
                    obtain ⟨n, hn⟩ := int_num (not_hor (hav _ hg)) hi
                    cases hn
                  cases x <;> simp [absOf, hn]
          | real =>
            simp only [Ty.parse, Kind.parse, Bool.false_eq_true, if_false, Bool.false_or]
            constructor
            · refine Out.map ?_
              by_cases h0 : strip u = []
              · rw [h0]
                have : realParse [] = .error .index := by decide +kernel
                rw [this]
                refine .err ?_
                have hn : ¬ groupIs r (i + 1) inked = true := fun hg => hink hg h0
                simp [hn]
              · refine (out_real h0).mono ?_
                rintro e rfl
                simp
            · intro v hv
              cases hi : realParse (strip u) with
              | error e => rw [hi] at hv; cases hv
              | ok w =>
                rw [hi] at hv
                cases hv
                cases w with
                | num d =>
                  cases d with
                  | fin x => simp [absOf]
                  | inf x =>
                    have hn : ¬ groupIs r (i + 1) (avoids enN) = true :=
                      fun hg => not_special (hav _ hg) ⟨_, hi, by intro f hf; cases hf⟩
                    simp [absOf, hn]
                  | nan x y z =>
                    have hn : ¬ groupIs r (i + 1) (avoids enN) = true :=
                      fun hg => not_special (hav _ hg) ⟨_, hi, by intro f hf; cases hf⟩
                    simp [absOf, hn]
                | hor x =>
                  have hn : ¬ groupIs r (i + 1) (avoids hEnds) = true := by
                    intro hg
                    obtain ⟨n, hn⟩ := real_num (not_hor (hav _ hg)) hi
                    cases hn
                  cases x <;> simp [absOf, hn]
          | str => exact ⟨Out.map (.ok _), fun v hv => by cases hv; simp [absOf]⟩
          | zaid =>
            refine ⟨Out.map ((out_zaid _).mono (by rintro e rfl; simp)), fun v hv => ?_⟩
            simp only [Ty.parse, Kind.parse] at hv
            cases hi : zaidParse (strip u) <;> rw [hi] at hv <;> cases hv
            simp [absOf]
          | dist =>
            refine ⟨Out.map ((out_dist _).mono (by rintro e rfl; simp)), fun v hv => ?_⟩
            simp only [Ty.parse, Kind.parse] at hv
            cases hi : distParse (strip u) <;> rw [hi] at hv <;> cases hv
            simp [absOf]
          | desig =>
            refine ⟨Out.map ((out_desig _).mono (by rintro e rfl; simp)), fun v hv => ?_⟩
            simp only [Ty.parse, Kind.parse] at hv
            cases hi : desigParse (strip u) <;> rw [hi] at hv <;> cases hv
            simp [absOf]
          | subst =>
            refine ⟨Out.map ((out_subst _).mono (by rintro e rfl; simp)), fun v hv => ?_⟩
            simp only [Ty.parse, Kind.parse] at hv
            cases hi : substParse (strip u) <;> rw [hi] at hv <;> cases hv
            simp [absOf]
          | index =>
            refine ⟨Out.map ((out_index _).mono (fun e h => List.mem_append_left _ h)), fun v hv => ?_⟩
            simp only [Ty.parse, Kind.parse] at hv
            cases hi : indexParse (strip u) <;> rw [hi] at hv <;> cases hv
            simp [absOf]
          | geo =>
            refine ⟨Out.map ((out_geo _).mono (fun e h => List.mem_append_left _ h)), fun v hv => ?_⟩
            simp only [Ty.parse, Kind.parse] at hv
            cases hi : geoParse (strip u) <;> rw [hi] at hv <;> cases hv
            simp [absOf]
          | lat =>
            refine ⟨Out.map ((out_lat _).mono (fun e h => List.mem_append_left _ h)), fun v hv => ?_⟩
            simp only [Ty.parse, Kind.parse] at hv
            cases hi : latParse (strip u) <;> rw [hi] at hv <;> cases hv
            simp [absOf]
          | trans k =>
            refine ⟨(out_trans k _).mono (fun e h => List.mem_append_left _ h), fun v hv => ?_⟩
            simp only [Ty.parse, Kind.parse] at hv
            obtain ⟨rs, q, rfl⟩ := trans_abs hv; simp [absOf]

/-- Exceptions of reading the attributes from the `i`-th on. -/
def attrsErrs (r : Re) : Nat → List Attr → List Err
  | _, [] => []
  | i, a :: as => attrErrs r i a ++ attrsErrs r (i + 1) as

/-- Kinds of the attributes from the `i`-th on. -/
def attrsAbs (r : Re) : Nat → List Attr → List (List Abs)
  | _, [] => []
  | i, a :: as => attrAbs r i a :: attrsAbs r (i + 1) as

theorem attrs_sound {E : List Err} {r : Re} {s : Str} {m} (h : reMatch r s = some m) {ng : Nat} (as : List Attr) :
    ∀ i, i + as.length ≤ ng → (∀ a ∈ as, TyOut E a.ty) → Out (· ∈ attrsErrs r i as ++ E) (attrVals ng m i as) ∧
      ∀ vs, attrVals ng m i as = .ok vs → Kinds vs (attrsAbs r i as) := by
  induction as with
  | nil => intro i _ _; exact ⟨.ok _, fun vs hv => by cases hv; exact .nil⟩
  | cons a as ih =>
    intro i hi ht
    rw [List.length_cons] at hi
    obtain ⟨a1, a2⟩ := attr_sound h (ng := ng) (i := i) (a := a) (by omega) (ht a List.mem_cons_self)
    obtain ⟨b1, b2⟩ := ih (i + 1) (by omega) (fun x hx => ht x (List.mem_cons_of_mem _ hx))
    unfold attrVals
    cases hv : attrVal ng m i a with
    | error e =>
      refine ⟨.err ?_, fun vs hv => by cases hv⟩
      have := a1 e hv
      simp only [attrsErrs, List.mem_append] at this ⊢
      grind
    | ok v =>
      simp only
      cases hvs : attrVals ng m (i + 1) as with
      | error e =>
        refine ⟨.err ?_, fun vs hv => by cases hv⟩
        have := b1 e hvs
        simp only [attrsErrs, List.mem_append] at this ⊢
        grind
      | ok vs => exact ⟨.ok _, fun ws hw => by cases hw; exact .cons (a2 v hv) (b2 vs hvs)⟩

/-! ### Classes -/

/-- Exceptions of building an object of the class from a match (option and entry types aside). -/
def clsErrs (c : Cls) : List Err :=
  attrsErrs c.re 0 c.attrs ++ initErrs (c.attrs.zip (attrsAbs c.re 0 c.attrs)) [] c.init

/-- Exceptions of the setters when no entry is a shorthand. -/
def calmErrs (c : Cls) : List Err :=
  initErrs (c.attrs.zip ((attrsAbs c.re 0 c.attrs).map (fun l => l.filter (fun x => !x.short)))) [] c.init

theorem agree_nil : Agree [] [] := fun _ => .inl ⟨rfl, rfl⟩

theorem build_sound {E : List Err} {c : Cls} (hl : c.attrs.length ≤ c.pat.ng) (hc : ∀ a ∈ c.attrs, TyOut E a.ty) {s : Str} {m} (h : reMatch c.re s = some m) :
    Out (· ∈ clsErrs c ++ E) (c.build m) ∧ ∀ v, c.build m = .ok v → absOf v = .obj := by
  constructor
  · unfold Cls.build clsErrs
    obtain ⟨a1, a2⟩ := attrs_sound h (ng := c.pat.ng) c.attrs 0 (by omega) hc
    split
    · rename_i e he
      have := a1 e he
      refine .err ?_
      simp only [List.mem_append] at this ⊢
      grind
    · rename_i vs hv
      unfold Cls.mk'
      split
      · rename_i e he
        have := init_sound (as := c.attrs) (a2 vs hv) c.init [] [] agree_nil e he
        refine .err ?_
        simp only [List.mem_append] at this ⊢
        grind
      · exact .ok _
  · intro v hv
    unfold Cls.build at hv
    split at hv
    · cases hv
    · unfold Cls.mk' at hv
      split at hv
      · cases hv
      · cases hv; rfl

end Inp
