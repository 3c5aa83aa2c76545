import Verif.Inp.TallySpec
import Verif.Inp.RoundTrip
import Verif.Inp.ApartLemmas
import Verif.Inp.OptionApart
import Verif.Inp.Whole
/-!
# Reading and printing tallies
-/
set_option maxRecDepth 100000
namespace Inp
open Py Types

/-- A pattern that is a first word followed by fields. -/
theorem headed_match (P : Pat) (H : Re) (g : Nat) (fs : List Field) (R : Str → Option (List (Option Str)))
    (hrun : ∀ {α : Type} (st : St) (k : St → Option α), run (P.re 1) st k = run H st (fun st => run (fieldsRe fs (1 + g)) st k))
    (hfree : H.free = true) (hnos : NoSp H) (hu : ∀ f ∈ fs, f.unit.word = true) (ha : aligned fs = true)
    (hd : Str) (ws : List Str) (hw : Words (hd :: ws))
    (h1 : ∀ e, Mt H hd e → ∃ vs, Caps e 1 vs ∧ vs.length = g ∧ R hd = some vs) (h2 : ∀ vs, R hd = some vs → Full H hd) :
    ((R hd = none ∨ assign (fs.map Field.spec) ws = none) → reMatch (anchored (P.re 1)) (hd ++ enc ws) = none) ∧
    (∀ hv vs, R hd = some hv → assign (fs.map Field.spec) ws = some vs →
      ∃ m, reMatch (anchored (P.re 1)) (hd ++ enc ws) = some m ∧ hv.length = g ∧
        cap m 0 = some (hd ++ enc ws) ∧
        (∀ i v, hv[i]? = some v → cap m (1 + i) = v) ∧ (∀ i v, vs[i]? = some v → cap m (1 + g + i) = v.map enc)) := by
  let k : St → Option (List (Nat × Str)) := fun st => run .eos st (fun st =>
    some ((0, (hd ++ enc ws).take ((hd ++ enc ws).length - st.rest.length)) :: st.caps))
  have hk : ∀ st, st.rest ≠ [] → k st = none := by
    intro st hs; show run .eos st _ = none; rw [run_eos, if_neg hs]
  have hs : ∀ st, st.rest = [] → (k st).isSome = true := by
    intro st hs; show (run .eos st _).isSome = true; rw [run_eos, if_pos hs]; rfl
  have hrun' : reMatch (anchored (P.re 1)) (hd ++ enc ws) =
      run H ⟨[], hd ++ enc ws, []⟩ (fun st => run (fieldsRe fs (1 + g)) st k) := by
    unfold reMatch anchored
    rw [run_seq, run_bos, if_pos rfl, run_seq, hrun]
  rw [hrun']
  have key := run_word H hfree hnos hd (enc ws) [] [] (enc_bnd ws)
    (fun st => run (fieldsRe fs (1 + g)) st k) (by
      intro u v e huv hv
      apply fieldsRe_blocked _ _ _ _ _ _ hk
      · intro c hc hcs
        subst hcs
        cases v with
        | nil => exact hv rfl
        | cons d ds =>
          simp at hc; subst hc
          have := (hw hd (by simp)).1 ' ' (by rw [huv]; simp)
          exact absurd this (by decide)
      · simp [hv])
  have hsem := fields_sem fs hu (1 + g) k hk hs ws hw.tail
  constructor
  · intro h
    cases hr : R hd with
    | none =>
      apply key.2
      rintro ⟨e, he⟩
      obtain ⟨vs, _, _, h3⟩ := h1 e he
      rw [hr] at h3; cases h3
    | some hv =>
      rcases h with h | h
      · rw [hr] at h; cases h
      · obtain ⟨e, he, hr'⟩ := key.1 (h2 _ hr)
        rw [hr']
        exact (hsem _ _).1 h
  · intro hv vs h3 h4
    obtain ⟨e, he, hr⟩ := key.1 (h2 _ h3)
    obtain ⟨hv', hc, hl, h5⟩ := h1 e he
    rw [h3] at h5
    simp only [Option.some.injEq] at h5
    subst h5
    obtain ⟨e2, hg, hr2⟩ := (hsem (hd.reverse ++ []) (e ++ [])).2 vs h4
    obtain ⟨g1, g2⟩ := good_get hg ha
    refine ⟨(0, hd ++ enc ws) :: (e2 ++ e), ?_, hl, ?_, ?_, ?_⟩
    · rw [hr, hr2]
      show run .eos _ _ = _
      rw [run_eos, if_pos rfl]
      simp only [List.length_nil, Nat.sub_zero, List.take_length, List.append_nil]
    · simp [cap]
    · intro i v hi
      have hil : i < hv.length := (List.getElem?_eq_some_iff.1 hi).1
      unfold cap
      have : (1 + i == 0) = false := by simp
      rw [List.lookup, this, lookup_append, lookup_none (e := e2) (by intro x hx; have := g2 x hx; omega), Option.none_or]
      exact hc.get i v hi
    · intro i v hi
      unfold cap
      have : (1 + g + i == 0) = false := by simp
      rw [List.lookup, this, lookup_append, g1 i v hi, lookup_none (e := e) (by
        intro x hx; have := hc.keys x hx; rw [hl] at this; omega), Option.or_none]

/-! ## Tallies -/

/-- The pattern of the number. -/
def tallySuf (ds : List Char) : Pat := .grp (.seq (.star (.cls (.one .d))) (.cls (.set false (ds.map .ch))))

/-- The pattern of the first word. -/
def tallyHeadPat (ds : List Char) : Pat :=
  .seq (.opt (.grp (.cls (.set false [.ch '*', .ch '+'])))) (.seq (.lits c!"f") (.seq (tallySuf ds)
    (.opt (.ngrp (.seq (.lits c!":") (.grp (.plus true (.cls (.one .S)))))))))

/-- The pattern of a tally. -/
def tallyPat (ds : List Char) : Pat :=
  .seq (.opt (.grp (.cls (.set false [.ch '*', .ch '+'])))) (.seq (.lits c!"f") (.seq (tallySuf ds)
    (.seq (.opt (.ngrp (.seq (.lits c!":") (.grp (.plus true (.cls (.one .S))))))) (.seq
      (.grp (.plus false (.ngrp (.seq (.lits c!" ") (.ty (.base .int)))))) (.opt (.grp (.lits c!" t")))))))

theorem tally_run (ds : List Char) {α : Type} (st : St) (k : St → Option α) :
    run ((tallyPat ds).re 1) st k = run ((tallyHeadPat ds).re 1) st (fun st => run (fieldsRe tallyFields (1 + 3)) st k) := by
  simp only [tallyPat, tallyHeadPat, tallySuf, tallyFields, fieldsRe, Field.pat, List.map_cons, List.map_nil, Pat.cat, Pat.re, Pat.ng, run_seq, run_eps,
    litRe, run_opt_greedy, run_grp]

theorem digit_in {ds : List Char} (hds : ∀ c ∈ ds, isDigit c = true) {c : Char} : (CC.set false (ds.map .ch)).test c = true ↔ c ∈ ds := by
  simp only [CC.test, List.any_map, bne_iff_ne, ne_eq, Bool.not_eq_false, List.any_eq_true, Function.comp_apply, CI.test, beq_iff_eq]
  constructor
  · rintro ⟨a, ha, h⟩
    rw [lower_digit (hds a ha)] at h
    have hd := hds a ha
    have : c = a := by
      unfold lowerC at h
      split at h
      · rename_i hu
        rw [← h] at hd
        exfalso
        revert hd
        simp only [Bool.and_eq_true, decide_eq_true_eq] at hu
        have h1 : 65 ≤ c.toNat := hu.1
        have h2 : c.toNat ≤ 90 := hu.2
        have h3 : c.toNat = 65 ∨ c.toNat = 66 ∨ c.toNat = 67 ∨ c.toNat = 68 ∨ c.toNat = 69 ∨ c.toNat = 70 ∨ c.toNat = 71 ∨ c.toNat = 72 ∨ c.toNat = 73 ∨
          c.toNat = 74 ∨ c.toNat = 75 ∨ c.toNat = 76 ∨ c.toNat = 77 ∨ c.toNat = 78 ∨ c.toNat = 79 ∨ c.toNat = 80 ∨ c.toNat = 81 ∨ c.toNat = 82 ∨
          c.toNat = 83 ∨ c.toNat = 84 ∨ c.toNat = 85 ∨ c.toNat = 86 ∨ c.toNat = 87 ∨ c.toNat = 88 ∨ c.toNat = 89 ∨ c.toNat = 90 := by omega
        rcases h3 with h | h | h | h | h | h | h | h | h | h | h | h | h | h | h | h | h | h | h | h | h | h | h | h | h | h <;> rw [h] <;> decide
      · exact h
    rw [this]; exact ha
  · intro h
    exact ⟨c, h, rfl⟩

theorem tallyHeadPat_re (ds : List Char) : (tallyHeadPat ds).re 1 =
    .seq (.opt true (.grp 1 (.cls (CC.set false [.ch '*', .ch '+']).test))) (.seq (litRe c!"f")
      (.seq (.grp 2 (.seq (.star true (.cls (CC.one .d).test)) (.cls (CC.set false (ds.map .ch)).test)))
        ((Pat.opt (.ngrp (.seq (.lits c!":") (.grp (.plus true (.cls (.one .S))))))).re 3))) := rfl

theorem tallyHead_re : headRe tallyHead 1 =
    .seq (.opt true (.grp 1 (.cls (CC.set false [.ch '*', .ch '+']).test))) (.seq (litRe c!"f")
      (.seq (.grp 2 (Re.plus true (.cls (CC.one .d).test)))
        (.seq ((Pat.opt (.ngrp (.seq (.lits c!":") (.grp (.plus true (.cls (.one .S))))))).re 3) .eps))) := rfl

theorem readTally_iff {ds : List Char} {w : Str} {vs : List (Option Str)} : readTally ds w = some vs ↔
    ∃ p s d c, readHead tallyHead w = some [p, some s, d] ∧ vs = [p, some s, d] ∧ s.getLast? = some c ∧ c ∈ ds := by
  constructor
  · intro h
    unfold readTally at h
    split at h
    · rename_i p s d hr
      cases hg : s.getLast? with
      | none => rw [hg] at h; simp at h
      | some c' =>
        rw [hg] at h
        by_cases hm : ds.contains c' = true
        · rw [if_pos hm] at h
          exact ⟨p, s, d, c', hr, (Option.some.inj h).symm, hg, by simpa using hm⟩
        · rw [if_neg hm] at h; cases h
    · cases h
  · rintro ⟨p, s, d, c, h1, rfl, h2, h3⟩
    simp [readTally, h1, h2, h3]

theorem tally_head {ds : List Char} (hds : ∀ c ∈ ds, isDigit c = true) (w : Str) :
    (∀ e, Mt ((tallyHeadPat ds).re 1) w e → ∃ vs, Caps e 1 vs ∧ vs.length = 3 ∧ readTally ds w = some vs) ∧
    (∀ vs, readTally ds w = some vs → NoSpace w → Full ((tallyHeadPat ds).re 1) w) := by
  have hok : tallyHead.ok = true := by decide +kernel
  have hng : tallyHead.ng = 3 := by decide +kernel
  have gD : ((Pat.opt (.ngrp (.seq (.lits c!":") (.grp (.plus true (.cls (.one .S))))))).re 3).groupsIn 3 4 :=
    ((Pat.opt (.ngrp (.seq (.lits c!":") (.grp (.plus true (.cls (.one .S))))))).facts (by decide +kernel) 3).2.2
  constructor
  · intro e h
    rw [tallyHeadPat_re] at h
    obtain ⟨u1, v1, x1, y1, m1, m2, rfl, rfl⟩ := mt_seq.1 h
    obtain ⟨u2, v2, x2, y2, m3, m4, rfl, rfl⟩ := mt_seq.1 m2
    obtain ⟨u3, v3, x3, y3, m5, m6, rfl, rfl⟩ := mt_seq.1 m4
    obtain ⟨z, m7, rfl⟩ := mt_grp.1 m5
    obtain ⟨u4, v4, x4, y4, m8, m9, rfl, rfl⟩ := mt_seq.1 m7
    obtain ⟨k8, rfl⟩ := mt_star_cls.1 m8
    obtain ⟨c, hc, rfl, rfl⟩ := mt_cls.1 m9
    rw [digit_in hds] at hc
    have hm : Mt (headRe tallyHead 1) (u1 ++ (u2 ++ ((u4 ++ [c]) ++ v3))) (y3 ++ [(2, u4 ++ [c])] ++ x2 ++ x1) :=
      mt_seq.2 ⟨u1, _, x1, _, m1, mt_seq.2 ⟨u2, _, x2, _, m3, mt_seq.2 ⟨u4 ++ [c], v3, [(2, u4 ++ [c])], y3,
        mt_grp.2 ⟨[], mt_plus_cls.2 ⟨by simp, by
          intro d hd
          rcases List.mem_append.1 hd with hd | hd
          · exact k8 d hd
          · rw [List.mem_singleton.1 hd]; exact hds c hc, rfl⟩, rfl⟩,
        mt_seq.2 ⟨v3, [], y3, [], m6, .eps, by simp, by simp⟩, rfl, rfl⟩, rfl, rfl⟩, rfl, rfl⟩
    obtain ⟨vs, c1, c2, c3⟩ := head_mt hok hm
    rw [hng] at c2
    have hx2 : x2 = [] := (mt_lit.1 m3).2
    refine ⟨vs, by simpa using c1, c2, ?_⟩
    match vs, c2 with
    | [p, s, d], _ =>
      have := c1.get 1 s rfl
      have hy : y3.lookup 2 = none := lookup_none (by intro x hx; have := m6.groups gD x hx; omega)
      rw [hx2, List.append_nil, List.append_assoc, lookup_append, hy] at this
      simp at this
      subst this
      simp only [readTally, c3]
      simp [hc]
  · intro vs h hsp
    obtain ⟨p, s, d, c', hr, -, hgl, hl⟩ := readTally_iff.1 h
    obtain ⟨e, he⟩ := head_full hr hsp 1
    obtain ⟨vs', c1, c2, c3⟩ := head_mt hok he
    rw [hr] at c3
    cases c3
    rw [tallyHead_re] at he
    obtain ⟨u1, v1, x1, y1, m1, m2, rfl, rfl⟩ := mt_seq.1 he
    obtain ⟨u2, v2, x2, y2, m3, m4, rfl, rfl⟩ := mt_seq.1 m2
    obtain ⟨u3, v3, x3, y3, m5, m6, rfl, rfl⟩ := mt_seq.1 m4
    obtain ⟨z, m7, rfl⟩ := mt_grp.1 m5
    obtain ⟨v4, v5, y4, y5, m10, m11, rfl, rfl⟩ := mt_seq.1 m6
    obtain ⟨rfl, rfl⟩ := mt_eps.1 m11
    obtain ⟨n1, n2, rfl⟩ := mt_plus_cls.1 m7
    have hx2 : x2 = [] := (mt_lit.1 m3).2
    have hy : y4.lookup 2 = none := lookup_none (by intro x hx; have := m10.groups gD x hx; omega)
    have := c1.get 1 (some s) rfl
    rw [hx2] at this
    simp [lookup_append, hy] at this
    subst this
    have hne : u3 ≠ [] := n1
    obtain ⟨i, c, rfl⟩ : ∃ i c, u3 = i ++ [c] := ⟨u3.dropLast, u3.getLast hne, (List.dropLast_concat_getLast hne).symm⟩
    simp at hgl
    subst hgl
    rw [tallyHeadPat_re]
    refine ⟨y4 ++ [(2, i ++ [c])] ++ x2 ++ x1, ?_⟩
    refine mt_seq.2 ⟨u1, _, x1, _, m1, mt_seq.2 ⟨u2, _, x2, _, m3, mt_seq.2 ⟨i ++ [c], v4, [(2, i ++ [c])], y4,
          mt_grp.2 ⟨[], mt_seq.2 ⟨i, [c], [], [], mt_star_cls.2 ⟨fun d hd => n2 d (by simp [hd]), rfl⟩,
            mt_cls.2 ⟨c, (digit_in hds).2 hl, rfl, rfl⟩, rfl, rfl⟩, rfl⟩, m10, rfl, rfl⟩, by simp, rfl⟩, rfl, rfl⟩

/-- The class with the pattern of the specification. -/
def Cls.tally (c : Cls) : Cls := { c with shape := .flat tallyHead tallyFields }

theorem tallyCards_ok : ∀ x ∈ tallyCards, x.1.tally.std tallyHead tallyFields = true ∧ (∀ c ∈ x.2, isDigit c = true) ∧
    (tallyHeadPat x.2).word = true ∧ x.1.pat.ng = 5 ∧ x.1.info.style = .card := by decide +kernel

theorem tallyCards_pat : ∀ x ∈ tallyCards, x.1.pat = tallyPat x.2 := by
  intro x hx
  simp only [tallyCards, List.mem_cons, List.not_mem_nil, or_false] at hx
  rcases hx with rfl | rfl <;> rfl

/-- Reading of tallies, entry by entry. -/
theorem tally_read {c : Cls} {ds : List Char} (hx : (c, ds) ∈ tallyCards) (hd : Str) (ws : List Str) (hw : Words (hd :: ws)) :
    (match reMatch c.re (hd ++ enc ws) with | none => .error .inp | some m => c.build m) = tallyWords c ds hd ws ∧
    ∀ m, reMatch c.re (hd ++ enc ws) = some m → cap m 0 = some (hd ++ enc ws) := by
  obtain ⟨k1, k2, k3, k4, k5⟩ := tallyCards_ok _ hx
  have hpat := tallyCards_pat _ hx
  simp only at k1 k2 k3 k4 hpat
  have hpl := std_plain k1
  simp only [Cls.plain, Bool.and_eq_true, List.all_eq_true, beq_iff_eq, Bool.not_eq_true'] at hpl
  obtain ⟨⟨⟨⟨⟨hok, hu⟩, ha⟩, hlen⟩, hmany⟩, hof⟩ := hpl
  have hng : tallyHead.ng = 3 := by decide +kernel
  have hre : c.re = anchored ((tallyPat ds).re 1) := by simp [Cls.re, hpat]
  have hf3 := (tallyHeadPat ds).facts k3 1
  obtain ⟨t1, t2⟩ := tally_head k2 hd
  obtain ⟨m1, m2⟩ := headed_match (tallyPat ds) ((tallyHeadPat ds).re 1) 3 tallyFields (readTally ds) (fun st k => tally_run ds st k) hf3.1
    (noSp_mt hf3.2.1) hu ha hd ws hw t1 (fun vs h => t2 vs h (hw hd (by simp)).1)
  rw [hre]
  unfold tallyWords
  cases hr : readTally ds hd with
  | none => rw [m1 (.inl hr)]; exact ⟨rfl, by intro m hm; cases hm⟩
  | some hv =>
    cases hf : assign (tallyFields.map Field.spec) ws with
    | none => rw [m1 (.inr hf)]; exact ⟨rfl, by intro m hm; cases hm⟩
    | some vs =>
      obtain ⟨m, hm, hl, h0, g1, g2⟩ := m2 hv vs hr hf
      rw [hm]
      refine ⟨?_, by intro m' hm'; cases hm'; exact h0⟩
      obtain ⟨ft, fl⟩ := assign_sound hf
      have hrh : readHead tallyHead hd = some hv := by
        obtain ⟨p, s, d, c', q1, q2, -, -⟩ := readTally_iff.1 hr
        rw [q1, q2]
      have hat := attrs_fields c.pat.ng m tallyFields (c.attrs.drop 3) vs 3 (by rw [hng] at hof; exact hof) hu ft (by rw [fl]; exact hw.tail) (by
        intro j v hj
        have := g2 j v hj
        rw [← this]) (by rw [k4]; decide)
      have := attrs_head c.pat.ng m hv (c.attrs.take 3) (c.attrs.drop 3) vs 0 (by rw [hng] at hlen; rw [hl]; exact hlen)
        (by rw [hng] at hmany; exact fun a ha => hmany a ha)
        (readHead_words hrh (hw hd (by simp)).1) (by
          intro j v hj
          have := g1 j v hj
          rw [← this]) (by omega) (by rw [hl]; exact hat)
      rw [List.take_append_drop] at this
      show c.build m = _
      unfold Cls.build
      rw [this]
      rfl

theorem natStr_last (n : Nat) : (natStr n).getLast? = some (digitChar (n % 10)) := by
  by_cases h : n < 10
  · rw [natStr_lt h]; simp [Nat.mod_eq_of_lt h]
  · rw [natStr_ge h]; simp

theorem init_chk {avs : List (Attr × Val)} {n : String} {a : Attr} {v : Val} {k : Chk}
    (hf : avs.find? (fun p => p.1.name == n) = some (a, v)) (hk : a.chk = some k) :
    ∀ (ns : List String) (env : List (String × Val)), n ∈ ns → runInit avs env ns = .ok () → ∃ env', k.eval env' v = .ok false
  | [], _, h, _ => by cases h
  | x :: ns, env, h, hr => by
    unfold runInit at hr
    split at hr
    · cases hr
    · rename_i a' v' hf'
      split at hr
      · cases hr
      · rename_i env' hs
        by_cases hx : x = n
        · subst hx
          rw [hf] at hf'
          cases hf'
          unfold setAttr at hs
          rw [hk] at hs
          simp only at hs
          split at hs
          · cases hs
          · cases hs
          · rename_i h; exact ⟨env, h⟩
        · have : n ∈ ns := by
            rcases List.mem_cons.1 h with h | h
            · exact absurd h.symm hx
            · exact h
          exact init_chk hf hk ns env' this hr

theorem mk_chk {c : Cls} {vs : List Val} {u v : Val} {n : String} {a : Attr} {k : Chk} (h : c.mk' vs = .ok u)
    (hf : (c.attrs.zip vs).find? (fun p => p.1.name == n) = some (a, v)) (hk : a.chk = some k) (hn : n ∈ c.init) :
    ∃ env, k.eval env v = .ok false := by
  unfold Cls.mk' at h
  split at h
  · cases h
  · rename_i hi
    exact init_chk hf hk _ _ hn hi

theorem ends_in {n : Nat} {env : List (String × Val)} {k : Int} {l : List Int}
    (h : (Chk.or .isNone (.not (.and (.cmp .le k 0) (.modIn 10 l)))).eval env (.sc (.int (.num n))) = .ok false) : ((n : Int) % 10) ∈ l := by
  simp only [Chk.eval, modVal, Except.bind, Except.map] at h
  cases hc : cmpVal .le k 0 (.sc (.int (.num n))) with
  | error e => rw [hc] at h; simp at h
  | ok q => rw [hc] at h; cases q <;> simpa using h

theorem ends_eq {n : Nat} {env : List (String × Val)} {k : Int} {r : Int}
    (h : (Chk.or .isNone (.not (.and (.cmp .le k 0) (.modEq 10 r)))).eval env (.sc (.int (.num n))) = .ok false) : ((n : Int) % 10) = r := by
  simp only [Chk.eval, modVal, Except.bind, Except.map] at h
  cases hc : cmpVal .le k 0 (.sc (.int (.num n))) with
  | error e => rw [hc] at h; simp at h
  | ok q => rw [hc] at h; cases q <;> simpa using h

theorem number_ends {c : Cls} {ds : List Char} (hx : (c, ds) ∈ tallyCards) {n : Nat} {p d a b v : Val}
    (h : c.mk' [p, .sc (.int (.num n)), d, a, b] = .ok v) : digitChar (n % 10) ∈ ds := by
  simp only [tallyCards, List.mem_cons, List.not_mem_nil, or_false, Prod.mk.injEq] at hx
  rcases hx with ⟨rfl, rfl⟩ | ⟨rfl, rfl⟩
  · obtain ⟨env, he⟩ := mk_chk (n := "suffix") h rfl rfl (by decide)
    have := ends_in he
    have h2 : n % 10 = 1 ∨ n % 10 = 2 ∨ n % 10 = 4 ∨ n % 10 = 6 ∨ n % 10 = 7 := by
      simp only [List.mem_cons, List.not_mem_nil, or_false] at this
      omega
    rcases h2 with h2 | h2 | h2 | h2 | h2 <;> rw [h2] <;> decide
  · obtain ⟨env, he⟩ := mk_chk (n := "suffix") h rfl rfl (by decide)
    have := ends_eq he
    have h2 : n % 10 = 8 := by omega
    rw [h2]; decide

theorem lower_t {c : Char} (h : lowerC c = 't') : c = 't' ∨ c = 'T' := by
  unfold lowerC at h
  split at h
  · rename_i hu
    right
    simp only [Bool.and_eq_true, decide_eq_true_eq] at hu
    have h1 : 65 ≤ c.toNat := hu.1
    have h2 : c.toNat ≤ 90 := hu.2
    rw [← Char.ofNat_toNat c]
    have h3 : c.toNat = 65 ∨ c.toNat = 66 ∨ c.toNat = 67 ∨ c.toNat = 68 ∨ c.toNat = 69 ∨ c.toNat = 70 ∨ c.toNat = 71 ∨ c.toNat = 72 ∨ c.toNat = 73 ∨ c.toNat = 74 ∨ c.toNat = 75 ∨ c.toNat = 76 ∨ c.toNat = 77 ∨ c.toNat = 78 ∨ c.toNat = 79 ∨ c.toNat = 80 ∨ c.toNat = 81 ∨ c.toNat = 82 ∨ c.toNat = 83 ∨ c.toNat = 84 ∨ c.toNat = 85 ∨ c.toNat = 86 ∨ c.toNat = 87 ∨ c.toNat = 88 ∨ c.toNat = 89 ∨ c.toNat = 90 := by omega
    revert h
    rcases h3 with h | h | h | h | h | h | h | h | h | h | h | h | h | h | h | h | h | h | h | h | h | h | h | h | h | h <;> rw [h] <;> decide
  · left; exact h

theorem lower_c {c : Char} (h : lowerC c = 'c') : c = 'c' ∨ c = 'C' := by
  unfold lowerC at h
  split at h
  · rename_i hu
    right
    simp only [Bool.and_eq_true, decide_eq_true_eq] at hu
    have h1 : 65 ≤ c.toNat := hu.1
    have h2 : c.toNat ≤ 90 := hu.2
    rw [← Char.ofNat_toNat c]
    have h3 : c.toNat = 65 ∨ c.toNat = 66 ∨ c.toNat = 67 ∨ c.toNat = 68 ∨ c.toNat = 69 ∨ c.toNat = 70 ∨ c.toNat = 71 ∨ c.toNat = 72 ∨ c.toNat = 73 ∨ c.toNat = 74 ∨ c.toNat = 75 ∨ c.toNat = 76 ∨ c.toNat = 77 ∨ c.toNat = 78 ∨ c.toNat = 79 ∨ c.toNat = 80 ∨ c.toNat = 81 ∨ c.toNat = 82 ∨ c.toNat = 83 ∨ c.toNat = 84 ∨ c.toNat = 85 ∨ c.toNat = 86 ∨ c.toNat = 87 ∨ c.toNat = 88 ∨ c.toNat = 89 ∨ c.toNat = 90 := by omega
    revert h
    rcases h3 with h | h | h | h | h | h | h | h | h | h | h | h | h | h | h | h | h | h | h | h | h | h | h | h | h | h <;> rw [h] <;> decide
  · left; exact h

theorem int_not_c {w : Str} (h : unitOk (.ty (.base .int)) w = true) : unitOk (.lits c!"c") w = false := by
  cases ht : unitOk (.lits c!"c") w with
  | false => rfl
  | true =>
    obtain ⟨e, he⟩ := (unitOk_iff (.lits c!"c") (by decide +kernel) 1 _).1 ht
    have hl := (mt_lit.1 he).1
    obtain ⟨c, rfl, hc⟩ : ∃ c, w = [c] ∧ lowerC c = 'c' := by
      cases w with
      | nil => cases hl
      | cons c w => cases w with
        | nil => exact ⟨c, rfl, by simpa [lower, show lowerC 'c' = 'c' by decide] using hl⟩
        | cons d w => simp [lower] at hl
    rcases lower_c hc with rfl | rfl
    · revert h; decide +kernel
    · revert h; decide +kernel

theorem int_not_t {w : Str} (h : unitOk (.ty (.base .int)) w = true) : unitOk (.lits c!"t") w = false := by
  cases ht : unitOk (.lits c!"t") w with
  | false => rfl
  | true =>
    obtain ⟨e, he⟩ := (unitOk_iff (.lits c!"t") (by decide +kernel) 1 _).1 ht
    have hl := (mt_lit.1 he).1
    obtain ⟨c, rfl, hc⟩ : ∃ c, w = [c] ∧ lowerC c = 't' := by
      cases w with
      | nil => cases hl
      | cons c w => cases w with
        | nil => exact ⟨c, rfl, by simpa [lower, show lowerC 't' = 't' by decide] using hl⟩
        | cons d w => simp [lower] at hl
    rcases lower_t hc with rfl | rfl
    · revert h; decide +kernel
    · revert h; decide +kernel

/-- Printing and reading back a tally. -/
theorem tally_round {c : Cls} {ds : List Char} (hx : (c, ds) ∈ tallyCards) (hv : List Val) (hh : HeadOk tallyHead hv) (xs : List Val)
    (hne : xs ≠ []) (hxs : ∀ x ∈ xs, ∃ s, x = .sc s ∧ ReadSc .int s) (t : Val) (ht : t = .none ∨ t = .sc (.str c!"t"))
    (v : Val) (hmk : c.mk' (hv ++ [.tuple xs, t]) = .ok v) :
    ∃ hd ws, Entry hd ∧ (∀ w ∈ ws, Stable w) ∧ v.str = postprocess (join [' '] (hd :: ws)) ∧ cardParse c v.str = .ok (v, []) ∧
      v.headWord = hd ∧ ∃ l, readHead tallyHead hd = some l := by
  obtain ⟨k1, k2, k3, k4, k5⟩ := tallyCards_ok _ hx
  simp only at k1 k2 k3 k4 k5
  have hng : tallyHead.ng = 3 := by decide +kernel
  have hattrs : ∀ x ∈ tallyCards, ∃ a b, x.1.attrs.drop 3 = [a, b] ∧ a.many = true ∧ a.ty = .base .int ∧ b.many = false ∧ b.ty = .base .str := by
    intro x hx
    simp only [tallyCards, List.mem_cons, List.not_mem_nil, or_false] at hx
    rcases hx with rfl | rfl <;> exact ⟨_, _, rfl, rfl, rfl, rfl, rfl⟩
  obtain ⟨a, b, hab, a1, a2, b1, b2⟩ := hattrs _ hx
  simp only at hab
  have hst : Stable c!"t" := ⟨⟨by decide, by decide, by decide, by decide, by decide, by decide, by decide⟩, by intro h; revert h; decide +kernel, by decide +kernel⟩
  have hr : ReadVals (c.tally.attrs.drop tallyHead.ng) [.tuple xs, t] := by
    rw [hng]
    show ReadVals (c.attrs.drop 3) _
    rw [hab]
    refine ⟨⟨a1, hne, .int, a2, hxs⟩, ?_, trivial⟩
    rcases ht with rfl | rfl
    · trivial
    · exact ⟨b1, .str, b2, hst⟩
  obtain ⟨hd, he, hst', h1, h2, hrd, hw, hrv, hl⟩ := std_facts c.tally tallyHead tallyFields k1 hv [.tuple xs, t] hh hr
  obtain ⟨n, hn⟩ : ∃ (n : Nat) (p d : Val), hv = [p, .sc (.int (.num n)), d] := by
    obtain ⟨p, s, d, rfl, hp, hs, hd⟩ := hh
    obtain ⟨n, rfl⟩ := hs
    have : ∃ p', p = [p'] := by
      rcases hp with h | ⟨c, -, h⟩ <;> exact ⟨_, h⟩
    obtain ⟨p', rfl⟩ := this
    have : ∃ d', d = [d'] := by
      rcases hd with h | ⟨c, h, -⟩ <;> exact ⟨_, h⟩
    obtain ⟨d', rfl⟩ := this
    exact ⟨n, p', d', rfl⟩
  obtain ⟨p, d, rfl⟩ := hn
  have hend := number_ends hx hmk
  have htal : readTally ds hd = some ([p, .sc (.int (.num n)), d].map Val.text) := by
    rw [readTally_iff]
    exact ⟨p.text, natStr n, d.text, _, hrd, rfl, natStr_last n, hend⟩
  have hasg : assign (tallyFields.map Field.spec) (Assign.flat ([.tuple xs, t].map Val.words)) = some ([.tuple xs, t].map Val.words) := by
    have hu : ∀ w ∈ xs.map Val.str, unitOk (.ty (.base .int)) w = true := by
      intro w hw
      obtain ⟨x, hx, rfl⟩ := List.mem_map.1 hw
      obtain ⟨s, rfl, hs⟩ := hxs x hx
      exact sc_unit hs
    apply assign_apart
    · refine ⟨by simpa using hne, hu, by simp, ?_⟩
      rcases ht with rfl | rfl
      · exact ⟨.inl rfl, trivial⟩
      · exact ⟨by simp, by intro w hw; rw [List.mem_singleton.1 hw]; decide +kernel, by simp, trivial⟩
    · refine ⟨?_, ?_, ?_⟩
      · intro _ w hw f hf
        rw [List.mem_singleton.1 hf]
        exact int_not_t (hu w (List.mem_of_mem_tail hw))
      · rintro (h | h) <;> cases h
      · rcases ht with rfl | rfl
        · exact ⟨(by rintro (h | h) <;> cases h), (by intro _ w hw; cases hw), trivial⟩
        · exact ⟨(by rintro (h | h) <;> cases h), (by rintro (h | h) <;> cases h), trivial⟩
  have hws : Words (hd :: Assign.flat ([.tuple xs, t].map Val.words)) := by
    intro w hw
    rcases List.mem_cons.1 hw with rfl | hw
    · exact ⟨he.sp, he.ne⟩
    · exact ⟨(hst' w hw).entry.sp, (hst' w hw).entry.ne⟩
  have hobj := Props.mk_obj hmk
  have hstr : v.str = postprocess (join [' '] (hd :: Assign.flat ([.tuple xs, t].map Val.words))) := by
    rw [hobj, obj_str]
    unfold objStr
    simp only [k5]
    rw [show c.tally.info = c.info from rfl] at h1 h2
    rw [h1, h2, strip_text hd _ hws]
  refine ⟨hd, _, he, hst', hstr, ?_, ?_, _, hrd⟩
  · rw [hstr]
    unfold cardParse
    rw [Props.C18_wrap_roundtrip hd _ (fun w hw => by
      rcases List.mem_cons.1 hw with rfl | hw
      · exact he
      · exact (hst' w hw).entry) (fun w hw => (hst' w hw).low) (fun w hw => (hst' w hw).cnt), join_enc]
    have hread := (tally_read hx hd _ hws).1
    unfold tallyWords at hread
    rw [htal, hasg] at hread
    simp only at hread
    rw [← hw, show readVals c.attrs _ = _ from hrv] at hread
    simp only at hread
    rw [hmk] at hread
    simp only
    cases hm : reMatch c.re (hd ++ enc (Assign.flat ([.tuple xs, t].map Val.words))) with
    | none => rw [hm] at hread; cases hread
    | some m =>
      rw [hm] at hread
      simp only at hread ⊢
      rw [hread]
  · rw [hobj]
    exact h1

/-- Segments of a tally: numbers, the total, the accumulation. -/
theorem fs_assigned {xs : List Val} (hne : xs ≠ []) (hxs : ∀ x ∈ xs, ∃ s, x = .sc s ∧ ReadSc .int s) {t c : Val}
    (ht : t = .none ∨ t = .sc (.str c!"t")) (hc : c = .none ∨ c = .sc (.str c!"c")) :
    assign ([⟨.ty (.base .int), .many⟩, ⟨.lits c!"t", .opt⟩, ⟨.lits c!"c", .opt⟩].map Field.spec)
      (Assign.flat ([.tuple xs, t, c].map Val.words)) = some ([.tuple xs, t, c].map Val.words) := by
  have hu : ∀ w ∈ xs.map Val.str, unitOk (.ty (.base .int)) w = true := by
    intro w hw
    obtain ⟨x, hx, rfl⟩ := List.mem_map.1 hw
    obtain ⟨s, rfl, hs⟩ := hxs x hx
    exact sc_unit hs
  apply assign_apart
  · refine ⟨by simpa using hne, hu, by simp, ?_⟩
    have h2 : Fits [Field.spec ⟨.lits c!"c", .opt⟩] [c.words] := by
      rcases hc with rfl | rfl
      · exact ⟨.inl rfl, trivial⟩
      · exact ⟨by simp, by intro w hw; rw [List.mem_singleton.1 hw]; decide +kernel, by simp, trivial⟩
    rcases ht with rfl | rfl
    · exact ⟨.inl rfl, h2⟩
    · exact ⟨by simp, by intro w hw; rw [List.mem_singleton.1 hw]; decide +kernel, by simp, h2⟩
  · refine ⟨?_, (by rintro (h | h) <;> cases h), (by rintro (h | h) <;> cases h), ?_, (by rintro (h | h) <;> cases h), ?_, trivial⟩
    · intro _ w hw f hf
      simp only [List.map_cons, List.map_nil, List.mem_cons, List.not_mem_nil, or_false] at hf
      rcases hf with rfl | rfl
      · exact int_not_t (hu w (List.mem_of_mem_tail hw))
      · exact int_not_c (hu w (List.mem_of_mem_tail hw))
    · intro _ w hw
      rcases hc with rfl | rfl
      · cases hw
      · simp [Val.words, Assign.flat] at hw
        subst hw; decide +kernel
    · intro _ w hw; cases hw

end Inp
