import Verif.Inp.FlatRead
import Verif.Inp.RoundSpec
import Verif.Inp.WrapLemmas
import Verif.Props.Number
import Verif.Props.Scalar
/-!
# Printing and reading back of plain classes
-/
namespace Inp
open Py Types

/-! ## Printed scalars -/

theorem numCh_facts {c : Char} (h : numCh c = true) :
    isSpace c = false ∧ c ≠ '&' ∧ c ≠ '=' ∧ c ≠ '$' ∧ c ≠ '(' ∧ c ≠ ')' ∧ lowerC c ≠ 'j' ∧ lowerC c ≠ 'r' ∧ lowerC c ≠ 'i' ∧
      lowerC c ≠ 'l' := by
  rcases numCh_cases h with h | rfl | rfl | rfl | rfl | rfl
  · have : ∀ n : Fin 10, ∀ c, c = Char.ofNat (48 + n.1) → isSpace c = false ∧ c ≠ '&' ∧ c ≠ '=' ∧ c ≠ '$' ∧ c ≠ '(' ∧ c ≠ ')' ∧
        lowerC c ≠ 'j' ∧ lowerC c ≠ 'r' ∧ lowerC c ≠ 'i' ∧ lowerC c ≠ 'l' := by
      intro n c hc; subst hc; revert n; decide +kernel
    simp only [isDigit, Bool.and_eq_true, decide_eq_true_eq, Char.le_def, UInt32.le_iff_toNat_le] at h
    have h1 : 48 ≤ c.toNat := h.1
    have h2 : c.toNat ≤ 57 := h.2
    refine this ⟨c.toNat - 48, by omega⟩ c ?_
    have : 48 + (c.toNat - 48) = c.toNat := by omega
    simp only [this, Char.ofNat_toNat]
  all_goals decide +kernel

theorem shorthand_head : ∀ w ∈ shorthand, ∃ c t, w = c :: t ∧ (c = 'j' ∨ c = 'r' ∨ c = 'i' ∨ c = 'l') := by
  intro w hw
  simp only [shorthand, List.mem_cons, List.not_mem_nil, or_false] at hw
  rcases hw with rfl | rfl | rfl | rfl | rfl <;> exact ⟨_, _, rfl, by simp⟩

theorem not_short_of {w : Str} (h : ∀ c ∈ w, numCh c = true) : lower w ∉ shorthand := by
  intro hw
  obtain ⟨c, t, e, hc⟩ := shorthand_head _ hw
  cases w with
  | nil => cases e
  | cons d w =>
    simp only [lower, List.map_cons, List.cons.injEq] at e
    obtain ⟨_, _, _, _, _, _, h1, h2, h3, h4⟩ := numCh_facts (h d (by simp))
    rw [e.1] at h1 h2 h3 h4
    rcases hc with hc | hc | hc | hc
    · exact h1 hc
    · exact h2 hc
    · exact h3 hc
    · exact h4 hc

theorem plain_num {w : Str} (hne : w ≠ []) (h : ∀ c ∈ w, numCh c = true) : Stable w := by
  refine ⟨⟨hne, fun c hc => (numCh_facts (h c hc)).1, fun hc => (numCh_facts (h _ hc)).2.1 rfl,
    fun hc => (numCh_facts (h _ hc)).2.2.1 rfl, fun hc => (numCh_facts (h _ hc)).2.2.2.1 rfl, ?_, ?_⟩, ?_, ?_⟩
  · intro hl
    exact (numCh_facts (h _ (List.mem_of_getLast? hl))).2.2.2.2.1 rfl
  · intro hl
    exact (numCh_facts (h _ (List.mem_of_mem_head? hl))).2.2.2.2.2.1 rfl
  · intro hs; exact absurd hs (not_short_of h)
  · unfold countedEntry
    rw [if_neg]
    rintro ⟨_, hs⟩
    exact not_short_of (fun c hc => h c (List.dropWhile_subset _ hc)) hs

theorem numCh_digit {c : Char} (h : isDigit c = true) : numCh c = true := by simp [numCh, h]

theorem plain_int (n : Int) : Stable (intStr n) :=
  plain_num (by cases n with
    | ofNat k => exact natStr_ne_nil k
    | negSucc k => simp [intStr]) (fun c hc => by
      rcases intStr_chars n c hc with h | rfl
      · exact numCh_digit h
      · decide)

theorem bare_printable {h : Horiz} (hb : Bare h) : Props.Printable h := by
  cases h with
  | mul x => exact hb
  | rep n | ins n | jump n | log n =>
    all_goals
      intro k hk
      have : n = none := hb
      subst this; cases hk

theorem plain_bare {h : Horiz} (hb : Bare h) : Stable h.str := by
  have fixed : ∀ w ∈ shorthand, Stable w := by
    have hall : ∀ w ∈ shorthand, w ≠ [] ∧ (∀ c ∈ w, isSpace c = false) ∧ '&' ∉ w ∧ '=' ∉ w ∧ '$' ∉ w ∧ w.getLast? ≠ some '(' ∧
        w.head? ≠ some ')' ∧ countedEntry w = none := by decide +kernel
    intro w hw
    obtain ⟨a, b, c, d, e, f, g, i⟩ := hall w hw
    exact ⟨⟨a, b, c, d, e, f, g⟩, fun _ => hw, i⟩
  cases h with
  | rep n => have : n = none := hb
             subst this; exact fixed _ (by simp [shorthand, Horiz.str, orEmpty])
  | ins n => have : n = none := hb
             subst this; exact fixed _ (by simp [shorthand, Horiz.str, orEmpty])
  | jump n => have : n = none := hb
              subst this; exact fixed _ (by simp [shorthand, Horiz.str])
  | log n => have : n = none := hb
             subst this; exact fixed _ (by simp [shorthand, Horiz.str, orEmpty])
  | mul x =>
    have hx : 0 < x := hb
    obtain ⟨k, rfl⟩ : ∃ k : Nat, x = k := ⟨x.toNat, by omega⟩
    have hd := natStr_digits k
    have hne := natStr_ne_nil k
    have hs : (Horiz.mul (k : Int)).str = natStr k ++ ['m'] := rfl
    have htw : (natStr k ++ ['m']).dropWhile isDigit = ['m'] := by
      rw [List.dropWhile_append_of_pos hd]; decide
    have hns : lower ['m'] ∉ shorthand := by decide
    rw [hs]
    refine ⟨⟨by simp, ?_, ?_, ?_, ?_, by simp, ?_⟩, ?_, ?_⟩
    · intro c hc
      rcases List.mem_append.1 hc with hc | hc
      · exact (numCh_facts (numCh_digit (hd c hc))).1
      · simp only [List.mem_singleton] at hc; subst hc; decide
    · intro hc
      rcases List.mem_append.1 hc with hc | hc
      · exact absurd (hd _ hc) (by decide)
      · revert hc; decide
    · intro hc
      rcases List.mem_append.1 hc with hc | hc
      · exact absurd (hd _ hc) (by decide)
      · revert hc; decide
    · intro hc
      rcases List.mem_append.1 hc with hc | hc
      · exact absurd (hd _ hc) (by decide)
      · revert hc; decide
    · intro hc
      rcases List.mem_append.1 (List.mem_of_mem_head? hc) with hc | hc
      · exact absurd (hd _ hc) (by decide)
      · revert hc; decide
    · intro hs
      exfalso
      obtain ⟨c, t, e, hc⟩ := shorthand_head _ hs
      cases hn : natStr k with
      | nil => exact hne hn
      | cons d r =>
        rw [hn] at e
        simp only [lower, List.cons_append, List.map_cons, List.cons.injEq] at e
        obtain ⟨_, _, _, _, _, _, h1, h2, h3, h4⟩ := numCh_facts (numCh_digit (hd d (by rw [hn]; simp)))
        rw [e.1] at h1 h2 h3 h4
        rcases hc with hc | hc | hc | hc
        · exact h1 hc
        · exact h2 hc
        · exact h3 hc
        · exact h4 hc
    · unfold countedEntry
      rw [htw, if_neg]
      rintro ⟨_, h⟩; exact hns h

/-- A readable scalar prints one entry which reads back to it. -/
theorem sc_round {k : Kind} {s : Sc} (h : ReadSc k s) : Stable s.text ∧ k.parse s.text = .ok (.sc s) := by
  cases k <;> cases s <;> try (exact False.elim h)
  · rename_i v
    cases v with
    | num n =>
      refine ⟨plain_int n, ?_⟩
      have := Props.C02_integer_roundtrip n
      simp only [Kind.parse, Sc.text, this]; rfl
    | hor x =>
      refine ⟨plain_bare h, ?_⟩
      have := (Props.C06_shorthand_roundtrip_partial x (bare_printable h)).2.1
      simp only [Kind.parse, Sc.text, this]; rfl
  · rename_i v
    cases v with
    | num n =>
      cases n with
      | fin d =>
        refine ⟨plain_num (Dec.str_ne_nil d) (Dec.str_chars d), ?_⟩
        have := Props.C01_real_roundtrip d
        simp only [Kind.parse, Sc.text, this]; rfl
      | _ => exact False.elim h
    | hor x =>
      refine ⟨plain_bare h, ?_⟩
      have := (Props.C06_shorthand_roundtrip_partial x (bare_printable h)).2.2
      simp only [Kind.parse, Sc.text, this]; rfl
  · exact ⟨h, rfl⟩
  · rename_i z
    obtain ⟨z, a, abx⟩ := z
    obtain ⟨h1, h2, h3, h4⟩ := h
    refine ⟨h4, ?_⟩
    have := (Props.C07_zaid_roundtrip z a abx h1 h2 h3).2
    simp only [Kind.parse, Sc.text, this]; rfl
  · rename_i n
    have hn : n ≤ 9 := h
    refine ⟨?_, ?_⟩
    · have hall : ∀ n : Fin 10, distStr n.1 ≠ [] ∧ (∀ c ∈ distStr n.1, isSpace c = false) ∧ '&' ∉ distStr n.1 ∧ '=' ∉ distStr n.1 ∧
          '$' ∉ distStr n.1 ∧ (distStr n.1).getLast? ≠ some '(' ∧ (distStr n.1).head? ≠ some ')' ∧
          lower (distStr n.1) ∉ shorthand ∧ countedEntry (distStr n.1) = none := by decide +kernel
      obtain ⟨a, b, c, d, e, f, g, i, j⟩ := hall ⟨n, by omega⟩
      exact ⟨⟨a, b, c, d, e, f, g⟩, fun hs => absurd hs i, j⟩
    · have := Props.C08_distribution_roundtrip_partial n hn
      simp only [Kind.parse, Sc.text, this]; rfl
  · refine ⟨h.2, ?_⟩
    simp only [Kind.parse, Sc.text, h.1]; rfl

theorem mapM_round {k : Kind} {l : List Val} (h : ∀ v ∈ l, ∃ s, v = .sc s ∧ ReadSc k s) :
    (l.map Val.str).mapM k.parse = .ok l ∧ ∀ w ∈ l.map Val.str, Stable w := by
  induction l with
  | nil => exact ⟨rfl, by simp⟩
  | cons v l ih =>
    obtain ⟨i1, i2⟩ := ih (fun u hu => h u (by simp [hu]))
    obtain ⟨s, rfl, hs⟩ := h v (by simp)
    obtain ⟨p, r⟩ := sc_round hs
    have ht : (Val.sc s).str = s.text := rfl
    refine ⟨?_, ?_⟩
    · rw [List.map_cons, List.mapM_cons, ht, r, i1]; rfl
    · intro w hw
      rw [List.map_cons, ht] at hw
      rcases List.mem_cons.1 hw with rfl | hw
      · exact p
      · exact i2 w hw

/-- A readable value prints entries that read back to it. -/
theorem val_round {a : Attr} {v : Val} (h : ReadVal a v) :
    readVal a v.words = .ok v ∧ ∀ ws, v.words = some ws → ∀ w ∈ ws, Stable w := by
  cases v with
  | none => exact ⟨rfl, by intro ws hw; cases hw⟩
  | sc s =>
    obtain ⟨hm, k, hk, hs⟩ := h
    obtain ⟨p, r⟩ := sc_round hs
    refine ⟨?_, ?_⟩
    · simp only [Val.words, readVal, hm, hk, Ty.parse, join]
      exact r
    · intro ws hw w hww
      simp only [Val.words, Option.some.injEq] at hw
      subst hw
      simp only [List.mem_singleton] at hww
      subst hww; exact p
  | tuple l =>
    obtain ⟨hm, hne, k, hk, hs⟩ := h
    obtain ⟨r, p⟩ := mapM_round hs
    refine ⟨?_, ?_⟩
    · simp only [Val.words, readVal, hm, hk, Ty.parse, if_true, r]; rfl
    · intro ws hw
      simp only [Val.words, Option.some.injEq] at hw
      subst hw; exact p
  | obj => cases h

theorem vals_round {as : List Attr} {vs : List Val} (h : ReadVals as vs) :
    readVals as (vs.map Val.words) = .ok vs ∧ ∀ w ∈ Assign.flat (vs.map Val.words), Stable w := by
  induction as generalizing vs with
  | nil => cases vs with
    | nil => exact ⟨rfl, by simp [Assign.flat]⟩
    | cons v vs => cases h
  | cons a as ih => cases vs with
    | nil => cases h
    | cons v vs =>
      obtain ⟨i1, i2⟩ := ih h.2
      obtain ⟨v1, v2⟩ := val_round h.1
      refine ⟨?_, ?_⟩
      · simp only [List.map_cons, readVals, v1, i1]
      · intro w hw
        rw [List.map_cons] at hw
        cases hv : v.words with
        | none => rw [hv, flat_cons_none] at hw; exact i2 w hw
        | some ws =>
          rw [hv, flat_cons_some] at hw
          rcases List.mem_append.1 hw with hw | hw
          · exact v2 ws hv w hw
          · exact i2 w hw

end Inp
