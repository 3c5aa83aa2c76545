import Verif.Inp.DeepFind
import Verif.Inp.SourceSpec
/-!
# Options inside options
-/
set_option maxRecDepth 100000
namespace Inp
open Py Types

/-- A class made of a keyword and one option of another list. -/
structure Nested (c : Cls) (kw nm : _) (fs : List Cls) : Prop where
  shape : c.shape = .flat ⟨.no, kw, .no, .no⟩ [⟨.ngrp (.ty (unionTy nm fs)), .req⟩]
  attrs : ∃ name chk, c.attrs = [⟨name, unionTy nm fs, false, chk⟩]

theorem nested_re {c kw nm fs} (nc : Nested c kw nm fs) (n : Nat) :
    c.pat.re n = .seq (litRe kw) (.seq (.grp n (.seq (litRe c!" ") (altsRe (sortLen fs) (n + 1)))) .eps) := by
  unfold Cls.pat
  rw [nc.shape]
  rfl

/-- The class takes its option, if the inner class takes its own. -/
theorem nested_run {c kw nm fs} (nc : Nested c kw nm fs) (hg : ∀ d ∈ fs, d.pat.Good) {hd : Str} (hh : lower hd = lower kw) (d : Cls) (kw' : Str) (ws rest : List Str)
    (hw : Words (kw' :: ws)) (hf : firstOf fs (kw' ++ enc (ws ++ rest)) = some d) (ht : d.takes kw' ws rest.head? = true) (n : Nat) (prev : Str) (caps)
    (k : St → Option St) (hs : ∀ e, (k ⟨(hd ++ enc (kw' :: ws)).reverse ++ prev, enc rest, e⟩).isSome = true) :
    ∃ e, run (c.pat.re n) ⟨prev, hd ++ enc (kw' :: ws ++ rest), caps⟩ k = k ⟨(hd ++ enc (kw' :: ws)).reverse ++ prev, enc rest, e⟩ := by
  have e1 : (hd ++ enc (kw' :: ws)).reverse ++ prev = (kw' ++ enc ws).reverse ++ (' ' :: (hd.reverse ++ prev)) := by simp [enc_cons]
  rw [e1] at hs ⊢
  rw [nested_re nc, run_seq, run_lit_ok kw hd hh, run_seq, run_grp, List.cons_append, enc_cons, blank_run]
  obtain ⟨-, as, bs, hsort, hdead⟩ := firstOf_split hf
  rw [hsort]
  let K : St → Option St := fun st' => run .eps { st' with caps := (n, (' ' :: (kw' ++ enc (ws ++ rest))).take
    ((' ' :: (kw' ++ enc (ws ++ rest))).length - st'.rest.length)) :: st'.caps } k
  have hK : ∀ e, (K ⟨(kw' ++ enc ws).reverse ++ (' ' :: (hd.reverse ++ prev)), enc rest, e⟩).isSome = true := by
    intro e
    exact hs _
  obtain ⟨st', ⟨e, he⟩, h2⟩ := alts_option as bs d ⟨' ' :: (hd.reverse ++ prev), kw' ++ enc (ws ++ rest), caps⟩ K
    (fun st => ∃ e, k ⟨(kw' ++ enc ws).reverse ++ (' ' :: (hd.reverse ++ prev)), enc rest, e⟩ = some st)
    (fun x hx m => begins_none (hg x (hdead x hx).1) (hdead x hx).2 m _ _ _)
    (by
      intro m
      obtain ⟨e, he⟩ := free_option d kw' ws rest ht hw m (' ' :: (hd.reverse ++ prev)) caps K hK
      obtain ⟨v, hv⟩ := Option.isSome_iff_exists.1 (hK e)
      exact ⟨v, ⟨_, hv⟩, by rw [he, hv]⟩) (n + 1)
  exact ⟨e, by rw [he]; exact h2⟩

theorem nested_free {c kw nm fs} (nc : Nested c kw nm fs) (hg : ∀ d ∈ fs, d.pat.Good) : (c.pat.re 1).free = true := by
  have := (alts_any (sortLen fs) (fun c hc => hg c ((mem_sortLen fs).1 hc)) 2).1
  rw [nested_re nc]
  simp only [Re.free, this, (litRe_any kw 0 0).1, (litRe_any c!" " 0 0).1, Bool.and_self]

/-- What the whole option is read as. -/
theorem nested_build {c kw nm fs} (nc : Nested c kw nm fs) (hg : ∀ d ∈ fs, d.pat.Good) {hd : Str} (hh : lower hd = lower kw) (d : Cls) (kw' : Str) (ws : List Str)
    (hw : Words (hd :: kw' :: ws)) (hfull : Full (d.pat.re 1) (kw' ++ enc ws)) (hd' : d ∈ fs) :
    ∃ m, reMatch c.re (hd ++ enc (kw' :: ws)) = some m ∧ cap m 0 = some (hd ++ enc (kw' :: ws)) ∧
      c.build m = match unionParse fs (kw' ++ enc ws) with | .error e => .error e | .ok v => c.mk' [v] := by
  have hgood := fun x (hx : x ∈ sortLen fs) => hg x ((mem_sortLen fs).1 hx)
  have hfree := nested_free nc hg
  have hall : Full (altsRe (sortLen fs) 2) (kw' ++ enc ws) := (alts_full (sortLen fs) hgood 2 _).2 ⟨d, (mem_sortLen fs).2 hd', hfull⟩
  obtain ⟨e0, he0⟩ := hall
  have full : Full (c.pat.re 1) (hd ++ enc (kw' :: ws)) := by
    rw [nested_re nc, enc_cons]
    refine ⟨_, mt_seq.2 ⟨hd, ' ' :: (kw' ++ enc ws), [], _, mt_lit.2 ⟨hh, rfl⟩, mt_seq.2 ⟨_, [], _, [], mt_grp.2 ⟨_, mt_seq.2 ⟨[' '], _, [], e0, mt_lit.2 ⟨rfl, rfl⟩, he0, rfl, rfl⟩, rfl⟩, mt_eps.2 ⟨rfl, rfl⟩, by simp, rfl⟩, rfl, rfl⟩⟩
  obtain ⟨m, hm⟩ := Option.isSome_iff_exists.1 ((full_iff _ hfree _).2 full)
  refine ⟨m, hm, anchored_whole hm, ?_⟩
  obtain ⟨e, he, rfl⟩ := full_match hfree hm
  rw [nested_re nc] at he
  obtain ⟨u, v, x, y, m1, m2, huv, rfl⟩ := mt_seq.1 he
  obtain ⟨hu, rfl⟩ := mt_lit.1 m1
  obtain ⟨v1, v2, x1, x2, m3, m4, hv, rfl⟩ := mt_seq.1 m2
  obtain ⟨rfl, rfl⟩ := mt_eps.1 m4
  obtain ⟨x3, m5, rfl⟩ := mt_grp.1 m3
  have hlen : u.length = hd.length := lower_length (hu.trans hh.symm)
  obtain ⟨rfl, hv1⟩ := List.append_inj huv hlen.symm
  rw [List.append_nil] at hv
  subst hv
  subst hv1
  obtain ⟨name, chk, hat⟩ := nc.attrs
  have hng : 1 ≤ c.pat.ng := by
    have : c.pat.ng = 0 + ((1 + (0 + (fs.map (fun c => c.pat.ng)).sum)) + 0) := by
      unfold Cls.pat; rw [nc.shape]; rfl
    omega
  unfold Cls.build
  rw [hat]
  have hst : strip (enc (kw' :: ws)) = kw' ++ enc ws := strip_enc _ _ (fun x hx => hw x (by simp only [List.mem_cons] at hx ⊢; exact .inr hx))
  have hcap : cap ((0, hd ++ enc (kw' :: ws)) :: ([] ++ (1, enc (kw' :: ws)) :: x3 ++ [])) 1 = some (enc (kw' :: ws)) := rfl
  simp only [attrVals, attrVal]
  rw [if_neg (by omega)]
  have hcap' : cap ((0, hd ++ enc (kw' :: ws)) :: ([] ++ (1, enc (kw' :: ws)) :: x3 ++ [])) (0 + 1) = some (enc (kw' :: ws)) := hcap
  rw [hcap', enc_cons] at *
  simp only [hst, Attr.parse, Bool.false_eq_true, if_false]
  have : (unionTy nm fs).parse = unionParse fs := rfl
  rw [this]
  cases unionParse fs (kw' ++ enc ws) <;> rfl

/-- An option is found and read by its class, if the class takes exactly its words and no class tried before it begins there. -/
theorem found_by {cs : List Cls} (hgc : ∀ c ∈ cs, c.pat.Good) (hn : (cs.map (·.info.name)).Nodup) (hns : ((sortLen cs).map (·.info.name)).Nodup)
    {c : Cls} (hc : c ∈ cs) (hd : Str) (ws rest : List Str) (hs : ∀ w ∈ hd :: ws, Stable w) {r : Res Val} {m}
    (hrun : ∀ (n : Nat) (prev : Str), ∃ e, run (c.pat.re n) ⟨prev, hd ++ enc (ws ++ rest), []⟩ (findK (hd ++ enc (ws ++ rest)).length) =
      some ⟨(hd ++ enc ws).reverse ++ prev, enc rest, e⟩)
    (h1 : reMatch c.re (hd ++ enc ws) = some m) (h3 : c.build m = r)
    (hm1 : ∀ x ∈ (sortLen cs).takeWhile (·.info.name != c.info.name), x.begins (hd ++ enc (ws ++ rest)) = false)
    (hm2 : ∀ x ∈ cs.takeWhile (·.info.name != c.info.name), x.begins (hd ++ enc ws) = false) : Found cs (hd, ws) rest false r := by
  have hfull : Full (c.pat.re 1) (hd ++ enc ws) :=
    (full_iff _ ((hgc c hc).any 1).1 _).1 (by rw [Option.isSome_iff_exists]; exact ⟨m, h1⟩)
  refine ⟨fun prev => ?_, (fun h => by cases h), ?_⟩
  · have hsplit : ∃ as bs, sortLen cs = as ++ c :: bs ∧ ∀ x ∈ as, x ∈ cs ∧ x.begins (hd ++ enc (ws ++ rest)) = false := by
      have := takeWhile_find (p := fun x => x.begins (hd ++ enc (ws ++ rest))) ((mem_sortLen cs).2 hc) hns (by
        cases hb : c.begins (hd ++ enc (ws ++ rest)) with
        | true => rfl
        | false =>
          rw [enc_append, ← List.append_assoc] at hb
          exact absurd hfull (begins_full (hgc c hc) hb 1)) hm1
      exact (firstOf_split this).2
    obtain ⟨as, bs, hsort, hdead⟩ := hsplit
    obtain ⟨st', ⟨e, rfl⟩, h5⟩ := alts_option as bs c ⟨prev, hd ++ enc (ws ++ rest), []⟩ (findK (hd ++ enc (ws ++ rest)).length)
      (fun st => ∃ e, st = ⟨(hd ++ enc ws).reverse ++ prev, enc rest, e⟩)
      (fun x hx n => begins_none (hgc x (hdead x hx).1) (hdead x hx).2 n _ _ _)
      (by
        intro n
        obtain ⟨e, he⟩ := hrun n prev
        exact ⟨_, ⟨e, rfl⟩, he⟩) 1
    rw [hsort]
    exact ⟨e, by simpa [swal] using h5⟩
  · obtain ⟨s1, s2⟩ := spaced_single hd ws [] (hs hd (by simp)).entry (fun w h => hs w (by simp [h])) .nil
    have := spaced_prep s1
    rw [single_body, s2] at this
    obtain ⟨-, h4, -⟩ := this
    rw [List.nil_append, List.append_nil] at h4
    have hfind := takeWhile_find (p := fun x => (reMatch x.re (hd ++ enc ws)).isSome) hc hn (by rw [h1]; rfl) (by
      intro x hx
      have hx2 := hgc x (mem_takeWhile hx)
      cases hb : (reMatch x.re (hd ++ enc ws)).isSome with
      | false => rfl
      | true =>
        exact absurd ((full_iff _ (hx2.any 1).1 _).1 hb) (begins_full (v := []) hx2 (by rw [List.append_nil]; exact hm2 x hx) 1))
    have key : ∀ ds : List Cls, ds.find? (fun x => (reMatch x.re (hd ++ enc ws)).isSome) = some c →
        firstMatch (hd ++ enc ws) ds = some (c, m) := by
      intro ds
      induction ds with
      | nil => intro h; cases h
      | cons x ds ih =>
        intro h
        unfold firstMatch
        cases hx : reMatch x.re (hd ++ enc ws) with
        | none =>
          rw [List.find?_cons_of_neg (by rw [hx]; simp)] at h
          exact ih h
        | some m' =>
          rw [List.find?_cons_of_pos (by rw [hx]; rfl)] at h
          simp only [Option.some.injEq] at h
          subst h
          have h2 := anchored_whole h1
          rw [h1] at hx
          cases hx
          simp only [h2, if_true]
    simp only [swal, Bool.false_eq_true, if_false, List.append_nil]
    unfold unionParse
    rw [h4, key cs hfind]
    exact h3

/-- The option is found and read, if no class tried before its own begins there. -/
theorem found_nested {cs : List Cls} (hgc : ∀ c ∈ cs, c.pat.Good) (hn : (cs.map (·.info.name)).Nodup) (hns : ((sortLen cs).map (·.info.name)).Nodup)
    {c kw nm fs} (hc : c ∈ cs) (nc : Nested c kw nm fs) (hg : ∀ d ∈ fs, d.pat.Good) {hd : Str} (hh : lower hd = lower kw) (d : Cls) (kw' : Str) (ws rest : List Str)
    (hs : ∀ w ∈ hd :: (kw' :: ws ++ rest), Stable w) (hd' : d ∈ fs) (hpl : d.isPlain = true)
    (hf : firstOf fs (kw' ++ enc (ws ++ rest)) = some d) (ht : d.takes kw' ws rest.head? = true) (hwh : wholeOf fs (kw' ++ enc ws) = some d)
    (hm1 : ∀ x ∈ (sortLen cs).takeWhile (·.info.name != c.info.name), x.begins (hd ++ enc (kw' :: ws ++ rest)) = false)
    (hm2 : ∀ x ∈ cs.takeWhile (·.info.name != c.info.name), x.begins (hd ++ enc (kw' :: ws)) = false) :
    Found cs (hd, kw' :: ws) rest false (match d.readW kw' ws with | .error e => .error e | .ok v => c.mk' [v]) := by
  have hw := stable_words hs
  have hwi : Words (kw' :: ws) := fun w h => hw w (by simp only [List.mem_cons, List.mem_append] at h ⊢; exact .inr (.inl h))
  have hwo : Words (hd :: kw' :: ws) := fun w h => by
    rcases List.mem_cons.1 h with rfl | h
    · exact hw w (by simp)
    · exact hwi w h
  have hfull := takes_full ht (hg d hd') hwi
  obtain ⟨m, h1, h2, h3⟩ := nested_build nc hg hh d kw' ws hwo hfull hd'
  have hdw : unionParse fs (kw' ++ enc ws) = d.readW kw' ws :=
    option_read fs d kw' ws hwh hpl (hs kw' (by simp)).entry (fun w h => hs w (by simp [h]))
  rw [hdw] at h3
  refine found_by hgc hn hns hc hd (kw' :: ws) rest (fun w h => hs w (by
    simp only [List.mem_cons, List.mem_append] at h ⊢
    rcases h with h | h
    · exact .inl h
    · exact .inr (.inl h))) (fun n prev => ?_) h1 h3 hm1 hm2
  have hk : ∀ e, findK (hd ++ enc (kw' :: ws ++ rest)).length ⟨(hd ++ enc (kw' :: ws)).reverse ++ prev, enc rest, e⟩ =
      some ⟨(hd ++ enc (kw' :: ws)).reverse ++ prev, enc rest, e⟩ := by
    intro e
    refine findK_ok ?_
    simp only [enc_append, enc_cons, List.length_append, List.length_cons]
    omega
  obtain ⟨e, he⟩ := nested_run nc hg hh d kw' ws rest hwi hf ht n prev [] (findK (hd ++ enc (kw' :: ws ++ rest)).length) (by intro e; rw [hk]; rfl)
  exact ⟨e, by rw [he, hk]⟩

theorem numRe_f (c : Char) (s : Str) (hc : c = 'f' ∨ c = 'F') : reMatch numRe (c :: s) = none := by
  rcases hc with rfl | rfl
  · rfl
  · rfl

theorem dist_f (c : Char) (s : Str) (hc : c = 'f' ∨ c = 'F') : reMatch (Kind.re 1 .dist) (c :: s) = none := by
  rcases hc with rfl | rfl
  · rfl
  · rfl

theorem lower_f {c : Char} (h : lowerC c = 'f') : c = 'f' ∨ c = 'F' := by
  unfold lowerC at h
  split at h
  · rename_i hx
    right
    simp only [Bool.and_eq_true, decide_eq_true_eq] at hx
    have b1 : 65 ≤ c.toNat := hx.1
    have b2 : c.toNat ≤ 90 := hx.2
    have : (Char.ofNat (c.toNat + 32)).toNat = c.toNat + 32 := by
      have hv : (c.toNat + 32).isValidChar := Or.inl (by omega)
      simp only [Char.ofNat, hv, dif_pos]
      rfl
    rw [h] at this
    have h7 : c.toNat = 70 := by
      have : (102 : Nat) = c.toNat + 32 := this
      omega
    rw [← Char.ofNat_toNat c, h7]
  · exact .inl h

end Inp
