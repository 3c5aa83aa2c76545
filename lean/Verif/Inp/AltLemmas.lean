import Verif.Inp.CardLemmas
/-!
# Patterns of unions of option classes

Facts about `altsRe` (src/pymcnp/_symbol.py:44-48): which texts it matches and which groups it sets.
-/
namespace Inp
open Py Types

/-- A type whose pattern has no look-behind, keeps its group numbers inside its range, and matches the same texts
whatever the first group number. -/
def Ty.Good : Ty → Prop
  | .base _ => True
  | .other _ re ng _ => (∀ n, (re n).free = true ∧ (re n).groupsIn n (n + ng)) ∧ ∀ n m, (re n).erase = (re m).erase

/-- The same for patterns. -/
def Pat.Good : Pat → Prop
  | .ty t => t.Good
  | .seq a b | .alt a b => a.Good ∧ b.Good
  | .opt a | .plus _ a | .star a | .grp a | .ngrp a => a.Good
  | .behind _ _ => False
  | .lits _ | .cls _ => True

/-- Patterns of the types of src/pymcnp/types only. -/
def Pat.base : Pat → Bool
  | .ty (.base _) => true
  | .ty (.other _ _ _ _) => false
  | .seq a b | .alt a b => a.base && b.base
  | .opt a | .plus _ a | .star a | .grp a | .ngrp a => a.base
  | .behind _ _ => false
  | .lits _ | .cls _ => true

theorem Pat.base_good {p : Pat} (h : p.base = true) : p.Good := by
  induction p with
  | ty t => cases t with
    | base k => trivial
    | other => cases h
  | seq a b iha ihb => simp only [Pat.base, Bool.and_eq_true] at h; exact ⟨iha h.1, ihb h.2⟩
  | alt a b iha ihb => simp only [Pat.base, Bool.and_eq_true] at h; exact ⟨iha h.1, ihb h.2⟩
  | opt a iha => exact iha h
  | plus g a iha => exact iha h
  | star a iha => exact iha h
  | grp a iha => exact iha h
  | ngrp a iha => exact iha h
  | behind => cases h
  | lits => trivial
  | cls => trivial

theorem litRe_any (s : Str) (lo hi) : (litRe s).free = true ∧ (litRe s).groupsIn lo hi := by
  induction s with
  | nil => exact ⟨rfl, trivial⟩
  | cons c s ih => exact ⟨by simp [litRe, Re.free, Re.chrI, ih.1], trivial, ih.2⟩

theorem trRe_any (k g : Nat) : (trRe k g).free = true ∧ (trRe k g).groupsIn g (g + k + 1) := by
  induction k generalizing g with
  | zero => exact ⟨rfl, by omega, by omega, trivial⟩
  | succ k ih =>
    obtain ⟨h1, h2⟩ := ih (g + 1)
    exact ⟨by simp [trRe, Re.free, Re.plus, Re.chr, h1], ⟨by omega, by omega, trivial, trivial⟩, trivial, h2.mono (by omega) (by omega)⟩

theorem trRe_erase (k g g' : Nat) : (trRe k g).erase = (trRe k g').erase := by
  induction k generalizing g g' with
  | zero => rfl
  | succ k ih => simp only [trRe, Re.erase]; rw [ih (g + 1) (g' + 1)]

theorem trCount_pos (k : Nat) : 0 < trCount k := by
  unfold trCount; split <;> omega

theorem Kind.any (k : Kind) (n : Nat) : (k.re n).free = true ∧ (k.re n).groupsIn n (n + k.ng) := by
  cases k with
  | trans k =>
    obtain ⟨h1, h2⟩ := trRe_any (trCount k - 1) n
    have hp := trCount_pos k
    refine ⟨by simp [Kind.re, transRe, Re.free, Re.chr, h1], trivial, h2.mono (by omega) (by simp only [Kind.ng]; omega), ⟨trivial, ?_⟩, trivial⟩
    simp only [Kind.ng, Re.groupsIn]
    refine ⟨by omega, by omega, trivial⟩
  | subst =>
    refine ⟨rfl, ?_⟩
    simp only [Kind.re, Re.groupsIn, Kind.ng, Re.chr, Re.plus, Re.nonspace]
    refine ⟨⟨by omega, by omega, ?_⟩, ?_, by omega, by omega, ?_⟩ <;> simp
  | geo => exact ⟨rfl, trivial⟩
  | lat => exact ⟨rfl, by simp [Kind.re, Re.groupsIn, Re.plus, Re.space, Re.digit]⟩
  | int => exact ⟨(Kind.facts .int rfl n).1, (Kind.facts .int rfl n).2.2⟩
  | real => exact ⟨(Kind.facts .real rfl n).1, (Kind.facts .real rfl n).2.2⟩
  | str => exact ⟨(Kind.facts .str rfl n).1, (Kind.facts .str rfl n).2.2⟩
  | zaid => exact ⟨(Kind.facts .zaid rfl n).1, (Kind.facts .zaid rfl n).2.2⟩
  | dist => exact ⟨(Kind.facts .dist rfl n).1, (Kind.facts .dist rfl n).2.2⟩
  | desig => exact ⟨(Kind.facts .desig rfl n).1, (Kind.facts .desig rfl n).2.2⟩
  | index => exact ⟨(Kind.facts .index rfl n).1, (Kind.facts .index rfl n).2.2⟩

theorem Kind.eraseAny (k : Kind) (n m : Nat) : (k.re n).erase = (k.re m).erase := by
  cases k with
  | trans k => simp only [Kind.re, transRe, Re.erase]; rw [trRe_erase _ n m]
  | _ => rfl

theorem Pat.Good.any {p : Pat} (h : p.Good) (n : Nat) : (p.re n).free = true ∧ (p.re n).groupsIn n (n + p.ng) := by
  induction p generalizing n with
  | lits s => exact litRe_any s _ _
  | cls c => exact ⟨rfl, trivial⟩
  | ty t =>
    cases t with
    | base k => exact k.any n
    | other nm re ng ps => exact h.1 n
  | seq a b iha ihb =>
    obtain ⟨a1, a3⟩ := iha h.1 n
    obtain ⟨b1, b3⟩ := ihb h.2 (n + a.ng)
    exact ⟨by simp [Pat.re, Re.free, a1, b1], a3.mono (by omega) (by simp [Pat.ng]),
      b3.mono (by omega) (by simp [Pat.ng]; omega)⟩
  | alt a b iha ihb =>
    obtain ⟨a1, a3⟩ := iha h.1 n
    obtain ⟨b1, b3⟩ := ihb h.2 (n + a.ng)
    exact ⟨by simp [Pat.re, Re.free, a1, b1], a3.mono (by omega) (by simp [Pat.ng]),
      b3.mono (by omega) (by simp [Pat.ng]; omega)⟩
  | opt a iha => exact iha h n
  | star a iha => exact iha h n
  | plus g a iha =>
    obtain ⟨a1, a3⟩ := iha h n
    exact ⟨by simp [Pat.re, Re.plus, Re.free, a1], a3, a3⟩
  | grp a iha =>
    obtain ⟨a1, a3⟩ := iha h (n + 1)
    exact ⟨a1, by omega, by simp [Pat.ng]; omega, a3.mono (by omega) (by simp [Pat.ng]; omega)⟩
  | ngrp a iha => exact iha h n
  | behind => cases h

theorem Pat.Good.erase {p : Pat} (h : p.Good) (n m : Nat) : (p.re n).erase = (p.re m).erase := by
  induction p generalizing n m with
  | lits s => rfl
  | cls c => rfl
  | ty t =>
    cases t with
    | base k => exact k.eraseAny n m
    | other nm re ng ps => exact h.2 n m
  | seq a b iha ihb =>
    simp only [Pat.re, Re.erase]; rw [iha h.1 n m, ihb h.2 (n + a.ng) (m + a.ng)]
  | alt a b iha ihb =>
    simp only [Pat.re, Re.erase]; rw [iha h.1 n m, ihb h.2 (n + a.ng) (m + a.ng)]
  | opt a iha => simp only [Pat.re, Re.erase]; rw [iha h n m]
  | star a iha => simp only [Pat.re, Re.erase]; rw [iha h n m]
  | plus g a iha => simp only [Pat.re, Re.plus, Re.erase]; rw [iha h n m]
  | grp a iha => simp only [Pat.re, Re.erase]; exact iha h _ _
  | ngrp a iha => exact iha h n m
  | behind => cases h

/-! ## Alternatives -/

theorem mem_insertLen {c d : Cls} : ∀ {cs : List Cls}, d ∈ insertLen c cs ↔ d = c ∨ d ∈ cs
  | [] => by simp [insertLen]
  | x :: xs => by
    unfold insertLen
    split
    · simp
    · simp only [List.mem_cons, mem_insertLen (cs := xs)]
      constructor
      · rintro (h | h | h)
        · exact .inr (.inl h)
        · exact .inl h
        · exact .inr (.inr h)
      · rintro (h | h | h)
        · exact .inr (.inl h)
        · exact .inl h
        · exact .inr (.inr h)

theorem mem_foldLen {d : Cls} (cs acc : List Cls) : d ∈ cs.foldl (fun acc c => insertLen c acc) acc ↔ d ∈ cs ∨ d ∈ acc := by
  induction cs generalizing acc with
  | nil => simp
  | cons c cs ih =>
    rw [List.foldl_cons, ih, mem_insertLen, List.mem_cons]
    constructor
    · rintro (h | h | h)
      · exact .inl (.inr h)
      · exact .inl (.inl h)
      · exact .inr h
    · rintro ((h | h) | h)
      · exact .inr (.inl h)
      · exact .inl h
      · exact .inr (.inr h)

theorem mem_sortLen {d : Cls} (cs : List Cls) : d ∈ sortLen cs ↔ d ∈ cs := by
  unfold sortLen; rw [mem_foldLen]; simp

theorem sum_insertLen (f : Cls → Nat) (c : Cls) : ∀ cs : List Cls, ((insertLen c cs).map f).sum = f c + (cs.map f).sum
  | [] => by simp [insertLen]
  | x :: xs => by
    unfold insertLen
    split
    · simp
    · simp only [List.map_cons, List.sum_cons, sum_insertLen f c xs]; omega

theorem sum_sortLen (f : Cls → Nat) (cs : List Cls) : ((sortLen cs).map f).sum = (cs.map f).sum := by
  have : ∀ (cs acc : List Cls), ((cs.foldl (fun acc c => insertLen c acc) acc).map f).sum = (cs.map f).sum + (acc.map f).sum := by
    intro cs
    induction cs with
    | nil => intro acc; simp
    | cons c cs ih => intro acc; rw [List.foldl_cons, ih, sum_insertLen]; simp only [List.map_cons, List.sum_cons]; omega
  unfold sortLen; rw [this]; simp

theorem alts_any (cs : List Cls) (h : ∀ c ∈ cs, c.pat.Good) (n : Nat) :
    (altsRe cs n).free = true ∧ (altsRe cs n).groupsIn n (n + (cs.map (fun c => c.pat.ng)).sum) := by
  match cs with
  | [] => exact ⟨rfl, trivial⟩
  | [c] =>
    obtain ⟨h1, h2⟩ := (h c (by simp)).any n
    exact ⟨h1, h2.mono (by omega) (by simp)⟩
  | c :: d :: cs =>
    obtain ⟨h1, h2⟩ := (h c (by simp)).any n
    obtain ⟨h3, h4⟩ := alts_any (d :: cs) (fun x hx => h x (by simp [hx])) (n + c.pat.ng)
    refine ⟨by simp [altsRe, Re.free, h1, h3], h2.mono (by omega) ?_, h4.mono (by omega) ?_⟩
    · simp only [List.map_cons, List.sum_cons]; omega
    · simp only [List.map_cons, List.sum_cons]; omega

theorem alts_erase (cs : List Cls) (h : ∀ c ∈ cs, c.pat.Good) (n m : Nat) : (altsRe cs n).erase = (altsRe cs m).erase := by
  match cs with
  | [] => rfl
  | [c] => exact (h c (by simp)).erase n m
  | c :: d :: cs =>
    simp only [altsRe, Re.erase]
    rw [(h c (by simp)).erase n m, alts_erase (d :: cs) (fun x hx => h x (by simp [hx])) (n + c.pat.ng) (m + c.pat.ng)]

/-- A union matches what one of its classes matches. -/
theorem alts_full (cs : List Cls) (h : ∀ c ∈ cs, c.pat.Good) (n : Nat) (w : Str) :
    Full (altsRe cs n) w ↔ ∃ c ∈ cs, Full (c.pat.re 1) w := by
  match cs with
  | [] =>
    constructor
    · rintro ⟨e, he⟩
      obtain ⟨c, hc, -⟩ := mt_cls.1 he
      cases hc
    · rintro ⟨c, hc, -⟩; cases hc
  | [c] =>
    simp only [altsRe, List.mem_singleton, exists_eq_left]
    exact Full.congr ((h c (by simp)).erase n 1)
  | c :: d :: cs =>
    have ih := alts_full (d :: cs) (fun x hx => h x (by simp [hx])) (n + c.pat.ng) w
    have hc := Full.congr (w := w) ((h c (by simp)).erase n 1)
    constructor
    · rintro ⟨e, he⟩
      rcases mt_alt.1 he with he | he
      · exact ⟨c, by simp, hc.1 ⟨e, he⟩⟩
      · obtain ⟨x, hx, hf⟩ := ih.1 ⟨e, he⟩
        exact ⟨x, by simp only [List.mem_cons] at hx ⊢; exact .inr hx, hf⟩
    · rintro ⟨x, hx, hf⟩
      rcases List.mem_cons.1 hx with rfl | hx
      · obtain ⟨e, he⟩ := hc.2 hf
        exact ⟨e, mt_alt.2 (.inl he)⟩
      · obtain ⟨e, he⟩ := ih.2 ⟨x, hx, hf⟩
        exact ⟨e, mt_alt.2 (.inr he)⟩

theorem unionTy_good (nm : String) (cs : List Cls) (h : ∀ c ∈ cs, c.pat.Good) : (unionTy nm cs).Good := by
  have h' : ∀ c ∈ sortLen cs, c.pat.Good := fun c hc => h c ((mem_sortLen cs).1 hc)
  refine ⟨fun n => ?_, fun n m => alts_erase _ h' n m⟩
  have := alts_any (sortLen cs) h' n
  rw [sum_sortLen] at this
  exact this

/-- The pattern of a plain class on a first word and entries. -/
theorem plain_full {c : Cls} (hp : c.isPlain = true) (hg : c.pat.Good) (hd : Str) (ws : List Str) (hw : Words (hd :: ws)) :
    Full (c.pat.re 1) (hd ++ enc ws) ↔ c.accepts hd ws = true := by
  rw [← (plain_match c hp hd ws hw).2.2]
  exact (full_iff _ (hg.any 1).1 _).symm

end Inp
