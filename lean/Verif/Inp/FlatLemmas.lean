import Verif.Inp.ReadSpec
import Verif.Inp.ShortLemmas
import Verif.Py.RegexMt
/-!
# Patterns made of blank-separated fields

The backtracking matcher on a pattern `( u₁)( u₂)?((?: u₃)+?)…` and a text of blank-separated words
computes the assignment of words to fields specified by `assign`.
-/
namespace Inp
open Py Types

/-! ## Blank space -/

/-- The characters of `\s`. -/
def spaces : List Char :=
  [9, 10, 11, 12, 13, 28, 29, 30, 31, 32, 0x85, 0xa0, 0x1680, 0x2000, 0x2001, 0x2002, 0x2003, 0x2004,
   0x2005, 0x2006, 0x2007, 0x2008, 0x2009, 0x200a, 0x2028, 0x2029, 0x202f, 0x205f, 0x3000].map Char.ofNat

theorem isSpace_mem {c : Char} (h : isSpace c = true) : c ∈ spaces := by
  have hc : c = Char.ofNat c.toNat := by simp
  rw [hc]
  unfold spaces
  apply List.mem_map_of_mem
  unfold isSpace at h
  simp only [Bool.or_eq_true, Bool.and_eq_true, decide_eq_true_eq, beq_iff_eq] at h
  simp only [List.mem_cons, List.not_mem_nil, or_false]
  omega

theorem isSpace_of_lower {a b : Char} (h : lowerC a = lowerC b) (hb : isSpace b = false) : isSpace a = false := by
  cases ha : isSpace a with
  | false => rfl
  | true =>
    exfalso
    have h1 : lowerC a = a := by
      have : ∀ c ∈ spaces, lowerC c = c := by decide +kernel
      exact this a (isSpace_mem ha)
    rw [h1] at h
    have h2 : lowerC b ∈ spaces := h ▸ isSpace_mem ha
    unfold lowerC at h2
    split at h2
    · rename_i hb2
      have h4 : (Char.ofNat (b.toNat + 32)).toNat ≤ 122 ∧ 97 ≤ (Char.ofNat (b.toNat + 32)).toNat := by
        have h5 : 65 ≤ b.toNat ∧ b.toNat ≤ 90 := by
          simp only [Bool.and_eq_true, decide_eq_true_eq, Char.le_def, UInt32.le_iff_toNat_le] at hb2
          exact hb2
        have : ∀ n : Fin 123, 65 ≤ n.1 ∧ n.1 ≤ 90 → (Char.ofNat (n.1 + 32)).toNat ≤ 122 ∧ 97 ≤ (Char.ofNat (n.1 + 32)).toNat := by
          decide +kernel
        exact this ⟨b.toNat, by omega⟩ h5
      have : ∀ c ∈ spaces, ¬ (c.toNat ≤ 122 ∧ 97 ≤ c.toNat) := by decide +kernel
      exact this _ h2 h4
    · have : ∀ c ∈ spaces, isSpace c = true := by decide +kernel
      rw [this b h2] at hb; cases hb

/-- Every class of the pattern excludes blank space. -/
def _root_.Py.Re.noSp : Re → Prop
  | .cls p => ∀ c, p c = true → isSpace c = false
  | .seq a b => a.noSp ∧ b.noSp
  | .alt a b => a.noSp ∧ b.noSp
  | .opt _ a => a.noSp
  | .star _ a => a.noSp
  | .grp _ a => a.noSp
  | _ => True

theorem noSp_mt {r : Re} (h : r.noSp) : NoSp r := by
  intro w e hm
  induction hm with
  | eps => intro c hc; cases hc
  | cls hp => intro c hc; simp only [List.mem_singleton] at hc; subst hc; exact h _ hp
  | seq _ _ ih1 ih2 =>
    intro c hc
    rcases List.mem_append.1 hc with hc | hc
    · exact ih1 h.1 c hc
    · exact ih2 h.2 c hc
  | altL _ ih => exact ih h.1
  | altR _ ih => exact ih h.2
  | optNone => intro c hc; cases hc
  | optSome _ ih => exact ih h
  | starNil => intro c hc; cases hc
  | starCons _ _ _ ih1 ih2 =>
    intro c hc
    rcases List.mem_append.1 hc with hc | hc
    · exact ih1 h c hc
    · exact ih2 h c hc
  | grp _ ih => exact ih h

/-! ## Single-word patterns -/

/-- Types whose pattern matches single words. -/
def Kind.word : Kind → Bool
  | .int | .real | .str | .zaid | .dist | .desig | .index => true
  | _ => false

/-- Patterns that match single words. -/
def Pat.word : Pat → Bool
  | .lits s => s.all (fun c => !isSpace c)
  | .cls c => spaces.all (fun x => !c.test x)
  | .ty (.base k) => k.word
  | .ty (.other _ _ _ _) => false
  | .seq a b => a.word && b.word
  | .alt a b => a.word && b.word
  | .opt a => a.word
  | .plus _ a => a.word
  | .star a => a.word
  | .grp a => a.word
  | .ngrp a => a.word
  | .behind _ _ => false

theorem litRe_facts (s : Str) (h : ∀ c ∈ s, isSpace c = false) (lo hi) :
    (litRe s).free = true ∧ (litRe s).noSp ∧ (litRe s).groupsIn lo hi := by
  induction s with
  | nil => exact ⟨rfl, trivial, trivial⟩
  | cons c s ih =>
    obtain ⟨a, b, d⟩ := ih (fun x hx => h x (by simp [hx]))
    refine ⟨by simp [litRe, Re.free, Re.chrI, a], ⟨?_, b⟩, ⟨trivial, d⟩⟩
    intro x hx
    exact isSpace_of_lower (by simpa using hx) (h c (by simp))

theorem digit_noSp : ∀ c, isDigit c = true → isSpace c = false := by
  intro c hc
  cases hs : isSpace c with
  | false => rfl
  | true =>
    have : ∀ c ∈ spaces, isDigit c = false := by decide +kernel
    rw [this c (isSpace_mem hs)] at hc; cases hc

theorem cls_noSp {p : Char → Bool} (h : ∀ c ∈ spaces, p c = false) : ∀ c, p c = true → isSpace c = false := by
  intro c hc
  cases hs : isSpace c with
  | false => rfl
  | true => rw [h c (isSpace_mem hs)] at hc; cases hc

theorem Kind.facts (k : Kind) (h : k.word = true) (n : Nat) :
    (k.re n).free = true ∧ (k.re n).noSp ∧ (k.re n).groupsIn n (n + k.ng) := by
  have hlog := litRe_facts c!"log" (by decide +kernel)
  have hilog := litRe_facts c!"ilog" (by decide +kernel)
  have hns : ∀ c, (!isSpace c) = true → isSpace c = false := by simp
  have num : numRe.free = true ∧ numRe.noSp ∧ numRe.groupsIn n n := by
    refine ⟨rfl, ?_, ?_⟩
    · refine ⟨cls_noSp (by decide +kernel), (hlog 0 0).2.1, (hilog 0 0).2.1, ⟨digit_noSp, cls_noSp (by decide +kernel)⟩,
        cls_noSp (by decide +kernel), cls_noSp (by decide +kernel), cls_noSp (by decide +kernel), cls_noSp (by decide +kernel)⟩
    · exact ⟨trivial, (hlog _ _).2.2, (hilog _ _).2.2, ⟨trivial, trivial⟩, trivial, trivial, trivial, trivial⟩
  cases k with
  | int => exact num
  | real => exact num
  | str => exact ⟨rfl, ⟨hns, hns⟩, trivial, trivial⟩
  | zaid =>
    refine ⟨rfl, ⟨⟨digit_noSp, digit_noSp, digit_noSp⟩, ⟨digit_noSp, digit_noSp, digit_noSp⟩,
      cls_noSp (by decide +kernel), hns, hns⟩, ?_⟩
    simp only [Kind.re, Re.groupsIn, Kind.ng, d13, Re.digit, Re.chr, Re.plus, Re.nonspace]
    refine ⟨⟨by omega, by omega, ?_⟩, ⟨by omega, by omega, ?_⟩, ?_, by omega, by omega, ?_⟩ <;> simp
  | dist =>
    refine ⟨rfl, ⟨⟨cls_noSp (by decide +kernel), digit_noSp, digit_noSp⟩, cls_noSp (by decide +kernel)⟩, ?_⟩
    simp only [Kind.re, Re.groupsIn, Kind.ng, Re.digit, Re.chr, Re.plus]
    refine ⟨⟨?_, by omega, by omega, ?_⟩, ?_⟩ <;> simp
  | desig =>
    refine ⟨rfl, ⟨cls_noSp (by decide +kernel), cls_noSp (by decide +kernel), cls_noSp (by decide +kernel)⟩, ?_⟩
    simp only [Kind.re, Re.groupsIn, Kind.ng, Re.chr]
    refine ⟨by omega, by omega, ?_⟩; simp
  | index =>
    refine ⟨rfl, ⟨⟨hns, hns⟩, cls_noSp (by decide +kernel), hns, hns⟩, ?_⟩
    simp only [Kind.re, Re.groupsIn, Kind.ng, Re.chr, Re.plus, Re.nonspace]
    refine ⟨⟨by omega, by omega, ?_⟩, ?_, by omega, by omega, ?_⟩ <;> simp
  | _ => cases h

theorem Pat.facts (p : Pat) (h : p.word = true) (n : Nat) :
    (p.re n).free = true ∧ (p.re n).noSp ∧ (p.re n).groupsIn n (n + p.ng) := by
  induction p generalizing n with
  | lits s => exact litRe_facts s (by simpa [Pat.word] using h) _ _
  | cls c => exact ⟨rfl, cls_noSp (by simpa [Pat.word] using h), trivial⟩
  | ty t =>
    cases t with
    | base k => exact k.facts h n
    | other => cases h
  | seq a b iha ihb =>
    simp only [Pat.word, Bool.and_eq_true] at h
    obtain ⟨a1, a2, a3⟩ := iha h.1 n
    obtain ⟨b1, b2, b3⟩ := ihb h.2 (n + a.ng)
    exact ⟨by simp [Pat.re, Re.free, a1, b1], ⟨a2, b2⟩, a3.mono (by omega) (by simp [Pat.ng]),
      b3.mono (by omega) (by simp [Pat.ng]; omega)⟩
  | alt a b iha ihb =>
    simp only [Pat.word, Bool.and_eq_true] at h
    obtain ⟨a1, a2, a3⟩ := iha h.1 n
    obtain ⟨b1, b2, b3⟩ := ihb h.2 (n + a.ng)
    exact ⟨by simp [Pat.re, Re.free, a1, b1], ⟨a2, b2⟩, a3.mono (by omega) (by simp [Pat.ng]),
      b3.mono (by omega) (by simp [Pat.ng]; omega)⟩
  | opt a iha => exact iha h n
  | star a iha => exact iha h n
  | plus g a iha =>
    obtain ⟨a1, a2, a3⟩ := iha h n
    exact ⟨by simp [Pat.re, Re.plus, Re.free, a1], ⟨a2, a2⟩, a3, a3⟩
  | grp a iha =>
    obtain ⟨a1, a2, a3⟩ := iha h (n + 1)
    exact ⟨a1, a2, by omega, by simp [Pat.ng]; omega, a3.mono (by omega) (by simp [Pat.ng]; omega)⟩
  | ngrp a iha => exact iha h n
  | behind => cases h

theorem Kind.erase (k : Kind) (h : k.word = true) (n m : Nat) : (k.re n).erase = (k.re m).erase := by
  cases k <;> first | rfl | cases h

theorem Pat.erase (p : Pat) (h : p.word = true) (n m : Nat) : (p.re n).erase = (p.re m).erase := by
  induction p generalizing n m with
  | lits s => rfl
  | cls c => rfl
  | ty t =>
    cases t with
    | base k => exact k.erase h n m
    | other => cases h
  | seq a b iha ihb =>
    simp only [Pat.word, Bool.and_eq_true] at h
    simp only [Pat.re, Re.erase]; rw [iha h.1 n m, ihb h.2 (n + a.ng) (m + a.ng)]
  | alt a b iha ihb =>
    simp only [Pat.word, Bool.and_eq_true] at h
    simp only [Pat.re, Re.erase]; rw [iha h.1 n m, ihb h.2 (n + a.ng) (m + a.ng)]
  | opt a iha => simp only [Pat.re, Re.erase]; rw [iha h n m]
  | star a iha => simp only [Pat.re, Re.erase]; rw [iha h n m]
  | plus g a iha => simp only [Pat.re, Re.plus, Re.erase]; rw [iha h n m]
  | grp a iha => simp only [Pat.re, Re.erase]; exact iha h _ _
  | ngrp a iha => exact iha h n m
  | behind => cases h

theorem unitOk_iff (p : Pat) (h : p.word = true) (n : Nat) (w : Str) : unitOk p w = true ↔ Full (p.re n) w := by
  unfold unitOk anchored
  rw [full_iff _ (p.facts h 1).1, Full.congr (p.erase h 1 n)]

/-! ## Fields -/

theorem Field.ng_pat (f : Field) : f.pat.ng = 1 + f.unit.ng := by
  unfold Field.pat
  cases f.mode <;> simp [Pat.ng]

/-- Captures of the fields: the group of each filled field holds its words, everything else has a
number inside the field. -/
inductive Good : Nat → List Field → Assign → List (Nat × Str) → Prop where
  | nil {n} : Good n [] [] []
  | some {n f fs ws vs e1 e2} (h1 : ∀ x ∈ e1, n < x.1 ∧ x.1 < n + f.pat.ng)
      (h2 : Good (n + f.pat.ng) fs vs e2) : Good n (f :: fs) (some ws :: vs) (e2 ++ (n, enc ws) :: e1)
  | none {n f fs vs e2} (h2 : Good (n + f.pat.ng) fs vs e2) : Good n (f :: fs) (none :: vs) e2

/-- The pattern of a list of fields. -/
def fieldsRe (fs : List Field) (n : Nat) : Re := (Pat.cat (fs.map Field.pat)).re n

theorem fieldsRe_nil (n) : fieldsRe [] n = .eps := rfl
theorem fieldsRe_cons (f : Field) (fs) (n) :
    fieldsRe (f :: fs) n = .seq (f.pat.re n) (fieldsRe fs (n + f.pat.ng)) := rfl

/-- The unit preceded by its blank. -/
def unitRe (f : Field) (n : Nat) : Re := .seq (.seq (.chrI ' ') .eps) (f.unit.re n)

theorem Field.re_eq (f : Field) (n : Nat) : f.pat.re n =
    match f.mode with
    | .req => .grp n (unitRe f (n + 1))
    | .opt => .opt true (.grp n (unitRe f (n + 1)))
    | .many => .grp n (.seq (unitRe f (n + 1)) (.star false (unitRe f (n + 1))))
    | .greedy => .grp n (.seq (unitRe f (n + 1)) (.star true (unitRe f (n + 1))))
    | .manyOpt => .opt true (.grp n (.seq (unitRe f (n + 1)) (.star false (unitRe f (n + 1))))) := by
  unfold Field.pat
  cases f.mode <;> rfl

theorem lower_space {x : Char} : lowerC x = lowerC ' ' ↔ x = ' ' := by
  constructor
  · intro h
    cases hx : isSpace x with
    | true =>
      have : ∀ c ∈ spaces, lowerC c = lowerC ' ' → c = ' ' := by decide +kernel
      exact this x (isSpace_mem hx) h
    | false =>
      have := isSpace_of_lower h.symm hx
      exact absurd this (by decide)
  · rintro rfl; rfl

/-- A unit on a text that does not start with a blank. -/
theorem unitRe_blocked {α : Type} (f : Field) (n : Nat) (st : St) (k : St → Option α)
    (h : ∀ c ∈ st.rest.head?, c ≠ ' ') : run (unitRe f n) st k = none := by
  unfold unitRe
  rw [run_seq, run_seq]
  obtain ⟨prev, rest, caps⟩ := st
  cases rest with
  | nil => rfl
  | cons c cs =>
    have : c ≠ ' ' := h c (by simp)
    simp only [Re.chrI, run_cls_cons, beq_iff_eq, lower_space, this, if_false]

theorem fieldsRe_blocked {α : Type} (fs : List Field) (n : Nat) (st : St) (k : St → Option α)
    (h : ∀ c ∈ st.rest.head?, c ≠ ' ') (hne : st.rest ≠ []) (hk : ∀ st, st.rest ≠ [] → k st = none) :
    run (fieldsRe fs n) st k = none := by
  induction fs generalizing n with
  | nil => rw [fieldsRe_nil, run_eps]; exact hk st hne
  | cons f fs ih =>
    rw [fieldsRe_cons, run_seq, Field.re_eq]
    cases f.mode with
    | req => simp only [run_grp]; exact unitRe_blocked _ _ _ _ h
    | opt =>
      simp only [run_opt_greedy, run_grp]
      rw [unitRe_blocked _ _ _ _ h, ih]; rfl
    | many => simp only [run_grp, run_seq]; exact unitRe_blocked _ _ _ _ h
    | greedy => simp only [run_grp, run_seq]; exact unitRe_blocked _ _ _ _ h
    | manyOpt =>
      simp only [run_opt_greedy, run_grp, run_seq]
      rw [unitRe_blocked _ _ _ _ h, ih]; rfl

theorem enc_bnd (ws : List Str) : Bnd (enc ws) := by
  cases ws with
  | nil => intro c hc; cases hc
  | cons w ws => intro c hc; simp at hc; subst hc; decide

theorem enc_length_cons (w ws) : (enc (w :: ws)).length = 1 + w.length + (enc ws).length := by simp; omega

/-- One unit on a list of words, with a continuation that fails inside words. -/
theorem unit_words {α : Type} (f : Field) (hw : f.unit.word = true) (n : Nat) (w : Str) (ws : List Str)
    (hws : Words (w :: ws)) (prev caps) (k : St → Option α)
    (hb : ∀ st : St, (∀ c ∈ st.rest.head?, c ≠ ' ') → st.rest ≠ [] → k st = none) :
    (unitOk f.unit w = true → ∃ e, (∀ x ∈ e, n ≤ x.1 ∧ x.1 < n + f.unit.ng) ∧
      run (unitRe f n) ⟨prev, enc (w :: ws), caps⟩ k =
        k ⟨(enc [w]).reverse ++ prev, enc ws, e ++ caps⟩) ∧
    (unitOk f.unit w = false → run (unitRe f n) ⟨prev, enc (w :: ws), caps⟩ k = none) := by
  have h0 : run (unitRe f n) ⟨prev, enc (w :: ws), caps⟩ k =
      run (f.unit.re n) ⟨' ' :: prev, w ++ enc ws, caps⟩ k := by
    unfold unitRe
    rw [run_seq, run_seq, enc_cons]
    simp [Re.chrI, run_cls_cons, run_eps]
  obtain ⟨fr, ns, gi⟩ := f.unit.facts hw n
  have key := run_word (f.unit.re n) fr (noSp_mt ns) w (enc ws) (' ' :: prev) caps (enc_bnd ws) k (by
    intro u v e huv hv
    apply hb
    · intro c hc hcs
      subst hcs
      cases v with
      | nil => exact hv rfl
      | cons d ds =>
        simp at hc; subst hc
        have := (hws w (by simp)).1 ' ' (by rw [huv]; simp)
        exact absurd this (by decide)
    · simp [hv])
  constructor
  · intro ho
    obtain ⟨e, he, hr⟩ := key.1 ((unitOk_iff _ hw n w).1 ho)
    refine ⟨e, he.groups gi, ?_⟩
    rw [h0, hr]
    simp
  · intro ho
    rw [h0]
    apply key.2
    intro hf
    rw [(unitOk_iff _ hw n w).2 hf] at ho; cases ho

/-- What the matcher computes on the remaining fields. -/
def Sem {α : Type} (fs : List Field) (n : Nat) (k : St → Option α) : Prop :=
  ∀ ws, Words ws → ∀ prev caps,
    (assign (fs.map Field.spec) ws = none → run (fieldsRe fs n) ⟨prev, enc ws, caps⟩ k = none) ∧
    (∀ vs, assign (fs.map Field.spec) ws = some vs → ∃ e, Good n fs vs e ∧
      run (fieldsRe fs n) ⟨prev, enc ws, caps⟩ k = k ⟨(enc ws).reverse ++ prev, [], e ++ caps⟩)

/-- End of a group that started at `start`, followed by the remaining fields. -/
def close {α : Type} (n : Nat) (start : Str) (next : St → Option α) : St → Option α :=
  fun st' => next ⟨st'.prev, st'.rest, (n, start.take (start.length - st'.rest.length)) :: st'.caps⟩

theorem take_enc (a b : List Str) : (enc (a ++ b)).take ((enc (a ++ b)).length - (enc b).length) = enc a := by
  rw [enc_append]; exact take_consumed _ _

/-- A repeat of units after at least one word has been taken. -/
theorem star_words {α : Type} (f : Field) (hw : f.unit.word = true) (fs : List Field) (n : Nat) (lazy : Bool)
    (k : St → Option α) (hk : ∀ st, st.rest ≠ [] → k st = none) (hs : ∀ st, st.rest = [] → (k st).isSome = true)
    (ih : Sem fs (n + f.pat.ng) k) :
    ∀ (ws : List Str), Words ws → ∀ (taken : List Str) (prev : Str) (e1 caps : List (Nat × Str)),
      (∀ x ∈ e1, n < x.1 ∧ x.1 < n + f.pat.ng) →
      (takeMore (unitOk f.unit) lazy (assign (fs.map Field.spec)) taken ws = none →
        run (.star (!lazy) (unitRe f (n + 1))) ⟨prev, enc ws, e1 ++ caps⟩
          (close n (enc (taken ++ ws)) (fun st => run (fieldsRe fs (n + f.pat.ng)) st k)) = none) ∧
      (∀ vs, takeMore (unitOk f.unit) lazy (assign (fs.map Field.spec)) taken ws = some vs →
        ∃ e, Good n (f :: fs) vs e ∧ run (.star (!lazy) (unitRe f (n + 1))) ⟨prev, enc ws, e1 ++ caps⟩
          (close n (enc (taken ++ ws)) (fun st => run (fieldsRe fs (n + f.pat.ng)) st k)) =
            k ⟨(enc ws).reverse ++ prev, [], e ++ caps⟩) := by
  intro ws
  induction ws with
  | nil =>
    intro _ taken prev e1 caps he1
    have hrun : run (.star (!lazy) (unitRe f (n + 1))) ⟨prev, enc [], e1 ++ caps⟩
          (close n (enc (taken ++ [])) (fun st => run (fieldsRe fs (n + f.pat.ng)) st k)) =
        run (fieldsRe fs (n + f.pat.ng)) ⟨prev, enc [], (n, enc taken) :: e1 ++ caps⟩ k := by
      rw [run_star_unfold]
      simp only
      rw [unitRe_blocked _ _ _ _ (by simp)]
      have : close n (enc (taken ++ [])) (fun st => run (fieldsRe fs (n + f.pat.ng)) st k) ⟨prev, enc [], e1 ++ caps⟩
          = run (fieldsRe fs (n + f.pat.ng)) ⟨prev, enc [], (n, enc taken) :: e1 ++ caps⟩ k := by
        unfold close
        simp only
        rw [take_enc taken []]; rfl
      rw [this]
      cases lazy <;> simp
    obtain ⟨ih1, ih2⟩ := ih [] (by intro w hw; cases hw) prev ((n, enc taken) :: e1 ++ caps)
    rw [hrun]
    simp only [takeMore, Option.map_eq_none_iff, Option.map_eq_some_iff]
    refine ⟨ih1, ?_⟩
    rintro vs ⟨vs', h1, rfl⟩
    obtain ⟨e, hg, hr⟩ := ih2 vs' h1
    refine ⟨e ++ (n, enc taken) :: e1, .some he1 hg, ?_⟩
    rw [hr]; simp
  | cons w ws ihw =>
    intro hws taken prev e1 caps he1
    -- leaving the repeat here
    have here : close n (enc (taken ++ w :: ws)) (fun st => run (fieldsRe fs (n + f.pat.ng)) st k)
          ⟨prev, enc (w :: ws), e1 ++ caps⟩
        = run (fieldsRe fs (n + f.pat.ng)) ⟨prev, enc (w :: ws), (n, enc taken) :: e1 ++ caps⟩ k := by
      unfold close
      simp only
      rw [take_enc taken (w :: ws)]; rfl
    obtain ⟨a1, a2⟩ := ih (w :: ws) hws prev ((n, enc taken) :: e1 ++ caps)
    have hereN : (assign (fs.map Field.spec) (w :: ws)).map (some taken :: ·) = none →
        close n (enc (taken ++ w :: ws)) (fun st => run (fieldsRe fs (n + f.pat.ng)) st k)
          ⟨prev, enc (w :: ws), e1 ++ caps⟩ = none := by
      intro h; rw [here]; exact a1 (by simpa using h)
    have hereS : ∀ vs, (assign (fs.map Field.spec) (w :: ws)).map (some taken :: ·) = some vs → ∃ e, Good n (f :: fs) vs e ∧
        close n (enc (taken ++ w :: ws)) (fun st => run (fieldsRe fs (n + f.pat.ng)) st k)
          ⟨prev, enc (w :: ws), e1 ++ caps⟩ = k ⟨(enc (w :: ws)).reverse ++ prev, [], e ++ caps⟩ := by
      intro vs h
      obtain ⟨vs', h1, rfl⟩ := Option.map_eq_some_iff.1 h
      obtain ⟨e, hg, hr⟩ := a2 vs' h1
      refine ⟨e ++ (n, enc taken) :: e1, .some he1 hg, ?_⟩
      rw [here, hr]; simp
    -- another iteration
    have hb : ∀ st : St, (∀ c ∈ st.rest.head?, c ≠ ' ') → st.rest ≠ [] →
        (fun st' : St => if st'.rest.length < (enc (w :: ws)).length then run (.star (!lazy) (unitRe f (n + 1))) st'
          (close n (enc (taken ++ w :: ws)) (fun st => run (fieldsRe fs (n + f.pat.ng)) st k)) else none) st = none := by
      intro st h1 h2
      simp only
      split
      · rw [run_star_unfold]
        simp only
        rw [unitRe_blocked _ _ _ _ h1]
        have : close n (enc (taken ++ w :: ws)) (fun st => run (fieldsRe fs (n + f.pat.ng)) st k) st = none := by
          unfold close
          exact fieldsRe_blocked _ _ _ _ h1 h2 hk
        rw [this]; cases lazy <;> rfl
      · rfl
    obtain ⟨u1, u2⟩ := unit_words f hw (n + 1) w ws hws prev (e1 ++ caps) _ hb
    have moreN : (if unitOk f.unit w then takeMore (unitOk f.unit) lazy (assign (fs.map Field.spec)) (taken ++ [w]) ws else none) = none →
        run (unitRe f (n + 1)) ⟨prev, enc (w :: ws), e1 ++ caps⟩ (fun st' : St => if st'.rest.length < (enc (w :: ws)).length then run (.star (!lazy) (unitRe f (n + 1))) st'
          (close n (enc (taken ++ w :: ws)) (fun st => run (fieldsRe fs (n + f.pat.ng)) st k)) else none) = none := by
      intro h
      cases ho : unitOk f.unit w with
      | false => exact u2 ho
      | true =>
        rw [ho, if_pos rfl] at h
        obtain ⟨e, he, hr⟩ := u1 ho
        rw [hr]
        simp only
        rw [if_pos (by rw [enc_length_cons]; omega)]
        have := (ihw hws.tail (taken ++ [w]) ((enc [w]).reverse ++ prev) (e ++ e1) caps (by
          intro x hx
          rcases List.mem_append.1 hx with hx | hx
          · have := he x hx; rw [f.ng_pat]; omega
          · exact he1 x hx)).1 h
        rw [List.append_assoc taken, List.append_assoc e] at this
        exact this
    have moreS : ∀ vs, (if unitOk f.unit w then takeMore (unitOk f.unit) lazy (assign (fs.map Field.spec)) (taken ++ [w]) ws else none) = some vs →
        ∃ e, Good n (f :: fs) vs e ∧
        run (unitRe f (n + 1)) ⟨prev, enc (w :: ws), e1 ++ caps⟩ (fun st' : St => if st'.rest.length < (enc (w :: ws)).length then run (.star (!lazy) (unitRe f (n + 1))) st'
          (close n (enc (taken ++ w :: ws)) (fun st => run (fieldsRe fs (n + f.pat.ng)) st k)) else none)
          = k ⟨(enc (w :: ws)).reverse ++ prev, [], e ++ caps⟩ := by
      intro vs h
      cases ho : unitOk f.unit w with
      | false => rw [ho] at h; cases h
      | true =>
        rw [ho, if_pos rfl] at h
        obtain ⟨e, he, hr⟩ := u1 ho
        obtain ⟨e', hg, hr'⟩ := (ihw hws.tail (taken ++ [w]) ((enc [w]).reverse ++ prev) (e ++ e1) caps (by
          intro x hx
          rcases List.mem_append.1 hx with hx | hx
          · have := he x hx; rw [f.ng_pat]; omega
          · exact he1 x hx)).2 vs h
        refine ⟨e', hg, ?_⟩
        rw [hr]
        simp only
        rw [if_pos (by rw [enc_length_cons]; omega)]
        rw [List.append_assoc taken, List.append_assoc e] at hr'
        refine Eq.trans hr' ?_
        congr 2
        simp
    rw [run_star_unfold]
    simp only [takeMore]
    cases lazy with
    | true =>
      simp only [Bool.not_true, if_true, Bool.false_eq_true, if_false] at *
      constructor
      · intro h
        rw [Option.or_eq_none_iff] at h
        rw [hereN h.1, moreN h.2]; rfl
      · intro vs h
        cases hh : (assign (fs.map Field.spec) (w :: ws)).map (some taken :: ·) with
        | some vs' =>
          rw [hh] at h
          simp only [Option.some_or, Option.some.injEq] at h
          subst h
          obtain ⟨e, hg, hr⟩ := hereS vs' hh
          refine ⟨e, hg, ?_⟩
          rw [hr]
          obtain ⟨x, hx⟩ := Option.isSome_iff_exists.1 (hs ⟨(enc (w :: ws)).reverse ++ prev, [], e ++ caps⟩ rfl)
          rw [hx]; rfl
        | none =>
          rw [hh, Option.none_or] at h
          obtain ⟨e, hg, hr⟩ := moreS vs h
          exact ⟨e, hg, by rw [hereN hh, hr]; rfl⟩
    | false =>
      simp only [Bool.not_false, if_true, Bool.false_eq_true, if_false] at *
      constructor
      · intro h
        rw [Option.or_eq_none_iff] at h
        rw [hereN h.2, moreN h.1]; rfl
      · intro vs h
        cases hh : (if unitOk f.unit w then takeMore (unitOk f.unit) false (assign (fs.map Field.spec)) (taken ++ [w]) ws else none) with
        | some vs' =>
          rw [hh] at h
          simp only [Option.some_or, Option.some.injEq] at h
          subst h
          obtain ⟨e, hg, hr⟩ := moreS vs' hh
          refine ⟨e, hg, ?_⟩
          rw [hr]
          obtain ⟨x, hx⟩ := Option.isSome_iff_exists.1 (hs ⟨(enc (w :: ws)).reverse ++ prev, [], e ++ caps⟩ rfl)
          rw [hx]; rfl
        | none =>
          rw [hh, Option.none_or] at h
          obtain ⟨e, hg, hr⟩ := hereS vs h
          exact ⟨e, hg, by rw [moreN hh, hr]; rfl⟩

/-- Taking exactly one word, then the remaining fields. -/
theorem one_words {α : Type} (f : Field) (hw : f.unit.word = true) (fs : List Field) (n : Nat)
    (k : St → Option α) (hk : ∀ st, st.rest ≠ [] → k st = none) (ih : Sem fs (n + f.pat.ng) k)
    (ws : List Str) (hws : Words ws) (prev caps) :
    (takeOne (unitOk f.unit) (assign (fs.map Field.spec)) ws = none →
      run (unitRe f (n + 1)) ⟨prev, enc ws, caps⟩
        (close n (enc ws) (fun st => run (fieldsRe fs (n + f.pat.ng)) st k)) = none) ∧
    (∀ vs, takeOne (unitOk f.unit) (assign (fs.map Field.spec)) ws = some vs → ∃ e, Good n (f :: fs) vs e ∧
      run (unitRe f (n + 1)) ⟨prev, enc ws, caps⟩
        (close n (enc ws) (fun st => run (fieldsRe fs (n + f.pat.ng)) st k)) =
          k ⟨(enc ws).reverse ++ prev, [], e ++ caps⟩) := by
  cases ws with
  | nil =>
    refine ⟨fun _ => unitRe_blocked _ _ _ _ (by simp), ?_⟩
    intro vs h; cases h
  | cons w ws =>
    obtain ⟨u1, u2⟩ := unit_words f hw (n + 1) w ws hws prev caps
      (close n (enc (w :: ws)) (fun st => run (fieldsRe fs (n + f.pat.ng)) st k)) (by
        intro st h1 h2
        unfold close
        exact fieldsRe_blocked _ _ _ _ h1 h2 hk)
    simp only [takeOne]
    cases ho : unitOk f.unit w with
    | false =>
      refine ⟨fun _ => u2 ho, ?_⟩
      intro vs h; cases h
    | true =>
      obtain ⟨e, he, hr⟩ := u1 ho
      rw [hr]
      have hc : close n (enc (w :: ws)) (fun st => run (fieldsRe fs (n + f.pat.ng)) st k)
            ⟨(enc [w]).reverse ++ prev, enc ws, e ++ caps⟩
          = run (fieldsRe fs (n + f.pat.ng)) ⟨(enc [w]).reverse ++ prev, enc ws, (n, enc [w]) :: e ++ caps⟩ k := by
        unfold close
        have := take_enc [w] ws
        rw [List.singleton_append] at this
        simp only
        rw [this]; rfl
      rw [hc]
      obtain ⟨i1, i2⟩ := ih ws hws.tail ((enc [w]).reverse ++ prev) ((n, enc [w]) :: e ++ caps)
      simp only [if_true, Option.map_eq_none_iff, Option.map_eq_some_iff]
      refine ⟨i1, ?_⟩
      rintro vs ⟨vs', h1, rfl⟩
      obtain ⟨e', hg, hr'⟩ := i2 vs' h1
      refine ⟨e' ++ (n, enc [w]) :: e, .some ?_ hg, ?_⟩
      · intro x hx
        have := he x hx
        rw [f.ng_pat]; omega
      · rw [hr']; simp

/-- Taking one or more words, then the remaining fields. -/
theorem many_words {α : Type} (f : Field) (hw : f.unit.word = true) (fs : List Field) (n : Nat) (lazy : Bool)
    (k : St → Option α) (hk : ∀ st, st.rest ≠ [] → k st = none) (hs : ∀ st, st.rest = [] → (k st).isSome = true)
    (ih : Sem fs (n + f.pat.ng) k) (ws : List Str) (hws : Words ws) (prev caps) :
    (takeMany (unitOk f.unit) lazy (assign (fs.map Field.spec)) ws = none →
      run (.seq (unitRe f (n + 1)) (.star (!lazy) (unitRe f (n + 1)))) ⟨prev, enc ws, caps⟩
        (close n (enc ws) (fun st => run (fieldsRe fs (n + f.pat.ng)) st k)) = none) ∧
    (∀ vs, takeMany (unitOk f.unit) lazy (assign (fs.map Field.spec)) ws = some vs → ∃ e, Good n (f :: fs) vs e ∧
      run (.seq (unitRe f (n + 1)) (.star (!lazy) (unitRe f (n + 1)))) ⟨prev, enc ws, caps⟩
        (close n (enc ws) (fun st => run (fieldsRe fs (n + f.pat.ng)) st k)) =
          k ⟨(enc ws).reverse ++ prev, [], e ++ caps⟩) := by
  cases ws with
  | nil =>
    refine ⟨fun _ => ?_, ?_⟩
    · rw [run_seq]; exact unitRe_blocked _ _ _ _ (by simp)
    · intro vs h; cases h
  | cons w ws =>
    rw [run_seq]
    obtain ⟨u1, u2⟩ := unit_words f hw (n + 1) w ws hws prev caps
      (fun st => run (.star (!lazy) (unitRe f (n + 1))) st
        (close n (enc (w :: ws)) (fun st => run (fieldsRe fs (n + f.pat.ng)) st k))) (by
        intro st h1 h2
        rw [run_star_unfold]
        simp only
        rw [unitRe_blocked _ _ _ _ h1]
        have : close n (enc (w :: ws)) (fun st => run (fieldsRe fs (n + f.pat.ng)) st k) st = none := by
          unfold close
          exact fieldsRe_blocked _ _ _ _ h1 h2 hk
        rw [this]; cases lazy <;> rfl)
    simp only [takeMany]
    cases ho : unitOk f.unit w with
    | false =>
      refine ⟨fun _ => u2 ho, ?_⟩
      intro vs h; cases h
    | true =>
      obtain ⟨e, he, hr⟩ := u1 ho
      rw [hr]
      obtain ⟨s1, s2⟩ := star_words f hw fs n lazy k hk hs ih ws hws.tail [w] ((enc [w]).reverse ++ prev) e caps (by
        intro x hx
        have := he x hx
        rw [f.ng_pat]; omega)
      rw [List.singleton_append] at s1 s2
      simp only [if_true]
      refine ⟨s1, ?_⟩
      intro vs h
      obtain ⟨e', hg, hr'⟩ := s2 vs h
      exact ⟨e', hg, by rw [hr']; simp⟩

/-- The matcher on a list of fields computes `assign`. -/
theorem fields_sem {α : Type} (fs : List Field) (hw : ∀ f ∈ fs, f.unit.word = true) (n : Nat)
    (k : St → Option α) (hk : ∀ st, st.rest ≠ [] → k st = none) (hs : ∀ st, st.rest = [] → (k st).isSome = true) :
    Sem fs n k := by
  induction fs generalizing n with
  | nil =>
    intro ws hws prev caps
    rw [fieldsRe_nil, run_eps]
    cases ws with
    | nil =>
      refine ⟨fun h => (by cases h), ?_⟩
      intro vs h
      simp only [List.map_nil, assign, Option.some.injEq] at h
      subst h
      exact ⟨[], .nil, rfl⟩
    | cons w ws =>
      refine ⟨fun _ => hk _ (by simp), ?_⟩
      intro vs h; cases h
  | cons f fs ih =>
    have hf := hw f (by simp)
    have ih := ih (fun g hg => hw g (by simp [hg])) (n + f.pat.ng)
    intro ws hws prev caps
    rw [fieldsRe_cons, run_seq, Field.re_eq, List.map_cons]
    have skip := ih ws hws prev caps
    have optional : ∀ (r : Option Assign) (m : Re),
        ((r = none → run m ⟨prev, enc ws, caps⟩ (close n (enc ws) (fun st => run (fieldsRe fs (n + f.pat.ng)) st k)) = none) ∧
        (∀ vs, r = some vs → ∃ e, Good n (f :: fs) vs e ∧
          run m ⟨prev, enc ws, caps⟩ (close n (enc ws) (fun st => run (fieldsRe fs (n + f.pat.ng)) st k)) =
          k ⟨(enc ws).reverse ++ prev, [], e ++ caps⟩)) →
        (r.or ((assign (fs.map Field.spec) ws).map (none :: ·)) = none →
          run (.opt true (.grp n m)) ⟨prev, enc ws, caps⟩ (fun st => run (fieldsRe fs (n + f.pat.ng)) st k) = none) ∧
        (∀ vs, r.or ((assign (fs.map Field.spec) ws).map (none :: ·)) = some vs → ∃ e, Good n (f :: fs) vs e ∧
          run (.opt true (.grp n m)) ⟨prev, enc ws, caps⟩ (fun st => run (fieldsRe fs (n + f.pat.ng)) st k) =
            k ⟨(enc ws).reverse ++ prev, [], e ++ caps⟩) := by
      intro r m hm
      rw [run_opt_greedy, run_grp]
      constructor
      · intro h
        rw [Option.or_eq_none_iff, Option.map_eq_none_iff] at h
        have := hm.1 h.1
        unfold close at this
        rw [this, skip.1 h.2]; rfl
      · intro vs h
        cases r with
        | none =>
          rw [Option.none_or] at h
          obtain ⟨vs', h1, rfl⟩ := Option.map_eq_some_iff.1 h
          obtain ⟨e, hg, hr⟩ := skip.2 vs' h1
          refine ⟨e, .none hg, ?_⟩
          have := hm.1 rfl
          unfold close at this
          rw [this, hr]; rfl
        | some vs' =>
          simp only [Option.some_or, Option.some.injEq] at h
          subst h
          obtain ⟨e, hg, hr⟩ := hm.2 vs' rfl
          refine ⟨e, hg, ?_⟩
          unfold close at hr
          rw [hr]
          obtain ⟨x, hx⟩ := Option.isSome_iff_exists.1 (hs ⟨(enc ws).reverse ++ prev, [], e ++ caps⟩ rfl)
          rw [hx]; rfl
    have hone := one_words f hf fs n k hk ih ws hws prev caps
    have hmany := fun lazy => many_words f hf fs n lazy k hk hs ih ws hws prev caps
    cases hm : f.mode with
    | req => unfold close at hone; simpa only [Field.spec, hm, assign, run_grp, Bool.not_true, Bool.not_false] using hone
    | opt => simpa only [Field.spec, hm, assign, Bool.not_true, Bool.not_false] using optional _ _ hone
    | many => unfold close at hmany; simpa only [Field.spec, hm, assign, run_grp, Bool.not_true, Bool.not_false] using (hmany true)
    | greedy => unfold close at hmany; simpa only [Field.spec, hm, assign, run_grp, Bool.not_true, Bool.not_false] using hmany false
    | manyOpt => simpa only [Field.spec, hm, assign, Bool.not_true, Bool.not_false] using optional _ _ (hmany true)

end Inp
