import Verif.Inp.CellsRead
import Verif.Inp.DetectorRead
/-!
# Which class reads a tally card with chains of cells
-/
set_option maxRecDepth 100000
namespace Inp
open Py Types

/-- The pattern never consumes the character. -/
def _root_.Py.Re.avoids (x : Char) : Re → Bool
  | .cls q => !q x
  | .seq a b => a.avoids x && b.avoids x
  | .alt a b => a.avoids x && b.avoids x
  | .opt _ a => a.avoids x
  | .star _ a => a.avoids x
  | .grp _ a => a.avoids x
  | _ => true

theorem avoids_only {x : Char} : ∀ {r : Re}, r.avoids x = true → r.onlyC (fun c => c != x)
  | .cls q, h => by
    intro c hc
    simp only [bne_iff_ne, ne_eq]
    rintro rfl
    simp [Re.avoids, hc] at h
  | .seq a b, h => by
    simp only [Re.avoids, Bool.and_eq_true] at h
    exact ⟨avoids_only h.1, avoids_only h.2⟩
  | .alt a b, h => by
    simp only [Re.avoids, Bool.and_eq_true] at h
    exact ⟨avoids_only h.1, avoids_only h.2⟩
  | .opt _ a, h => avoids_only (r := a) h
  | .star _ a, h => avoids_only (r := a) h
  | .grp _ a, h => avoids_only (r := a) h
  | .eps, _ => trivial
  | .bos, _ => trivial
  | .eos, _ => trivial
  | .behind _ _, _ => trivial

/-- The parts of a tally card: the first word and what follows it. -/
theorem tally_split {S : Pat} (hS : S.word = true) {U V : Re} {hd : Str} {ws : List Str} (hw : Words (hd :: ws)) {e}
    (hU : ∀ u x, Mt U u x → ∃ t, u = ' ' :: t)
    (hm : Mt (.seq preRe (.seq (litRe c!"f") (.seq (S.re 2) (.seq (desRe 3) (.seq U V))))) (hd ++ enc ws) e) :
    ∃ a b s d u v x1 x2 x3 x4 x5 x6, hd = a ++ (b ++ (s ++ d)) ∧ enc ws = u ++ v ∧ Mt preRe a x1 ∧ Mt (litRe c!"f") b x2 ∧ Mt (S.re 2) s x3 ∧
      Mt (desRe 3) d x4 ∧ Mt U u x5 ∧ Mt V v x6 := by
  obtain ⟨a, w1, ea, x1, m1, hm1, e1, rfl⟩ := mt_seq.1 hm
  obtain ⟨b, w2, eb, x2, m2, hm2, rfl, rfl⟩ := mt_seq.1 hm1
  obtain ⟨s, w3, es, x3, m3, hm3, rfl, rfl⟩ := mt_seq.1 hm2
  obtain ⟨d, w4, ed, x4, m4, hm4, rfl, rfl⟩ := mt_seq.1 hm3
  obtain ⟨u, v, eu, ev, m5, m6, rfl, rfl⟩ := mt_seq.1 hm4
  have na := noSp_mt (starPat.facts (by decide +kernel) 1).2.1 _ _ m1
  have nb := noSp_mt (litRe_facts c!"f" (by decide) 0 0).2.1 _ _ m2
  have nsu := noSp_mt (S.facts hS 2).2.1 _ _ m3
  have nd := noSp_mt (desigPat.facts (by decide +kernel) 3).2.1 _ _ m4
  have hu := hU _ _ m5
  have hnu : ∀ c ∈ a ++ (b ++ (s ++ d)), isSpace c = false := by
    intro c hc
    simp only [List.mem_append] at hc
    rcases hc with hc | hc | hc | hc
    · exact na c hc
    · exact nb c hc
    · exact nsu c hc
    · exact nd c hc
  obtain ⟨y, h1, h2⟩ := prefix_word (t := u ++ v) hnu (enc_bnd ws) (by rw [e1]; simp)
  cases y with
  | nil => exact ⟨a, b, s, d, u, v, _, _, _, _, _, _, by simpa using h1, h2.symm, m1, m2, m3, m4, m5, m6⟩
  | cons f fs =>
    obtain ⟨t, rfl⟩ := hu
    simp only [List.cons_append, List.cons.injEq] at h2
    have := (hw hd (by simp)).1 f (by rw [h1]; simp)
    rw [← h2.1] at this
    exact absurd this (by decide)

theorem blanks_first {n : Nat} {g : Bool} {r : Re} : ∀ u x, Mt (.grp n (.plus g (.seq (litRe c!" ") r))) u x → ∃ t, u = ' ' :: t := by
  intro u x h
  obtain ⟨z, h, -⟩ := mt_grp.1 h
  obtain ⟨p, q, x, y, k1, k2, rfl, -⟩ := mt_seq.1 h
  obtain ⟨p1, p2, x1, y1, k3, k4, rfl, -⟩ := mt_seq.1 k1
  obtain ⟨rfl, -⟩ := (blank_lit.mt _ _).1 k3
  exact ⟨_, rfl⟩

/-- Tallies over cells or surfaces refuse chains. -/
theorem plain_refuse {c : Cls} {ds : List Char} (hx : (c, ds) ∈ tallyCards) {hd : Str} {ws : List Str} (hw : Words (hd :: ws))
    (hc : '<' ∈ enc ws) : reMatch c.re (hd ++ enc ws) = none := by
  cases h : reMatch c.re (hd ++ enc ws) with
  | none => rfl
  | some m =>
    exfalso
    have hp := tallyCards_pat _ hx
    simp only at hp
    have hre : c.re = anchored (.seq preRe (.seq (litRe c!"f") (.seq ((tallySuf ds).re 2) (.seq (desRe 3)
        (.seq (.grp 4 (.plus false (.seq (litRe c!" ") numRe))) (.opt true (.grp 5 (litRe c!" t")))))))) := by
      show anchored (c.pat.re 1) = _
      rw [hp]; rfl
    have hS : (tallySuf ds).word = true := by
      have : ∀ x ∈ tallyCards, (tallySuf x.2).word = true := by decide +kernel
      exact this _ hx
    have hfree : (Re.seq preRe (.seq (litRe c!"f") (.seq ((tallySuf ds).re 2) (.seq (desRe 3)
        (.seq (.grp 4 (.plus false (.seq (litRe c!" ") numRe))) (.opt true (.grp 5 (litRe c!" t")))))))).free = true := by
      have h2 := ((tallySuf ds).facts hS 2).1
      simp only [Re.free, h2, Bool.true_and]
      decide +kernel
    rw [hre] at h
    obtain ⟨e, hm, -⟩ := full_match hfree h
    obtain ⟨a, b, s, d, u, v, x1, x2, x3, x4, x5, x6, -, he, -, -, -, -, m5, m6⟩ := tally_split hS hw blanks_first hm
    have q1 := onlyC_mt (avoids_only (x := '<') (by decide +kernel)) m5
    have q2 := onlyC_mt (avoids_only (x := '<') (by decide +kernel)) m6
    rw [he] at hc
    rcases List.mem_append.1 hc with hc | hc
    · have := q1 _ hc; simp at this
    · have := q2 _ hc; simp at this

/-- The first word of an accepted tally over repeated structures: its number does not end with five. -/
theorem f4_word {hd : Str} {ws : List Str} (hw : Words (hd :: ws)) {m} (h : reMatch Tab.F_4.re (hd ++ enc ws) = some m) :
    ∃ (p : Option Char) (f : Char) (n : Str) (d : Option Str) (c : Char), (∀ c ∈ p, c = '*' ∨ c = '+') ∧ lowerC f = 'f' ∧ (∀ c ∈ n, isDigit c = true) ∧
      n.getLast? = some c ∧ c ≠ '5' ∧ hd = p.toList ++ f :: (n ++ colon d) := by
  rw [f4_re] at h
  obtain ⟨e, hm, -⟩ := full_match (by decide +kernel) h
  obtain ⟨a, b, s, d, u, v, x1, x2, x3, x4, x5, x6, rfl, -, m1, m2, m3, m4, -, -⟩ := tally_split (S := suffixPat) (by decide +kernel) hw blanks_first hm
  obtain ⟨p, hp, rfl, -⟩ := mt_pre.1 m1
  obtain ⟨f, hf, rfl, -⟩ := mt_f.1 m2
  obtain ⟨d', hd', rfl, -⟩ := mt_des.1 m4
  obtain ⟨z, m3, -⟩ := mt_grp.1 m3
  obtain ⟨n, w, y1, y2, k1, k2, rfl, -⟩ := mt_seq.1 m3
  obtain ⟨k1, -⟩ := mt_star_cls.1 k1
  obtain ⟨c, hc, rfl, -⟩ := mt_cls.1 k2
  have hc : c ∈ ['1', '2', '3', '4', '6', '7'] := (digit_in (ds := ['1', '2', '3', '4', '6', '7']) (by decide)).1 hc
  refine ⟨p, f, n ++ [c], d', c, hp, hf, ?_, by simp, ?_, by simp⟩
  · intro x hx
    rcases List.mem_append.1 hx with hx | hx
    · simpa [CC.test, CI.test] using k1 x hx
    · rw [List.mem_singleton.1 hx]
      exact (by decide : ∀ c ∈ ['1', '2', '3', '4', '6', '7'], isDigit c = true) c hc
  · rintro rfl
    exact absurd hc (by decide)

/-- The word of a detector is no word of a tally over repeated structures. -/
theorem det_word {h : DetWord} (ok : h.Ok) {p : Option Char} {f : Char} {n : Str} {d : Option Str} {c : Char} (hp : ∀ c ∈ p, c = '*' ∨ c = '+')
    (hf : lowerC f = 'f') (hn : ∀ c ∈ n, isDigit c = true) (hl : n.getLast? = some c) (hc : c ≠ '5') : h.text ≠ p.toList ++ f :: (n ++ colon d) := by
  intro e
  have pf : ∀ {c : Char}, (c = '*' ∨ c = '+') → lowerC c ≠ 'f' := by rintro c (rfl | rfl) <;> decide
  have e1 : h.num ++ (h.axis.toList ++ colon h.des) = n ++ colon d := by
    unfold DetWord.text at e
    cases hq : h.pre with
    | none =>
      rw [hq] at e
      cases p with
      | none => simp at e; exact e.2
      | some y =>
        simp at e
        exact absurd (e.1 ▸ ok.f) (pf (hp y rfl))
    | some z =>
      rw [hq] at e
      cases p with
      | none =>
        simp at e
        exact absurd (e.1.symm ▸ hf) (pf (ok.pre z hq))
      | some y => simp at e; exact e.2.2
  have hcol : ∀ d : Option Str, ∀ c ∈ (colon d).head?, isDigit c = false := by
    intro d c hc
    cases d with
    | none => cases hc
    | some d => simp [colon] at hc; subst hc; decide
  have e2 := (digits_split ok.num hn (by
    intro c hc
    cases hq : h.axis with
    | none => rw [hq] at hc; exact hcol _ c hc
    | some a => rw [hq] at hc; simp at hc; subst hc; exact (axis_char (ok.axis a hq)).1) (hcol d) e1).1
  have := ok.five
  rw [e2, hl] at this
  exact hc (Option.some.inj this)

/-- Detectors refuse what tallies over repeated structures accept. -/
theorem det_refuse {hd : Str} {ws : List Str} (hw : Words (hd :: ws)) {m} (h : reMatch Tab.F_4.re (hd ++ enc ws) = some m) :
    reMatch Tab.F_1.re (hd ++ enc ws) = none ∧ reMatch Tab.F_2.re (hd ++ enc ws) = none := by
  obtain ⟨p, f, n, d, c, h1, h2, h3, h4, h5, rfl⟩ := f4_word hw h
  constructor
  · cases hr : reMatch Tab.F_1.re _ with
    | none => rfl
    | some m' =>
      obtain ⟨⟨e, he⟩, -⟩ := (det_iff point_det _ ws hw).1 (by rw [hr]; rfl)
      obtain ⟨w, ok, -, ht, -⟩ := mt_point he
      exact absurd ht.symm (det_word ok h1 h2 h3 h4 h5)
  · cases hr : reMatch Tab.F_2.re _ with
    | none => rfl
    | some m' =>
      obtain ⟨⟨e, he⟩, -⟩ := (det_iff ring_det _ ws hw).1 (by rw [hr]; rfl)
      obtain ⟨w, ok, -, ht, -⟩ := mt_ring he
      exact absurd ht.symm (det_word ok h1 h2 h3 h4 h5)

end Inp
