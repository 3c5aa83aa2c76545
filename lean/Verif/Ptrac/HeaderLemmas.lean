import Verif.Ptrac.Header
import Verif.Ptrac.HistoryLemmas
import Verif.Inp.TokLemmas
import Verif.Props.Number
/-! Lemmas on the blocks of PTRAC headers. -/
namespace Ptrac
open Py Types Inp

/-! ### Words in blank space -/

/-- The words of a text separated by blank space of any kind and length. -/
inductive Spaced : List Str → Str → Prop where
  | nil : Spaced [] []
  | space {ws t c} : isSpace c = true → Spaced ws t → Spaced ws (c :: t)
  | word {ws t w} : NoSpace w → w ≠ [] → Bnd t → Spaced ws t → Spaced (w :: ws) (w ++ t)

theorem finditer_spaced (r : Re) (ht : Tok r) (hf : r.free = true) (hs : NoSp r) {ws : List Str} {t : Str}
    (h : Spaced ws t) (hfull : ∀ v ∈ ws, Full r v) : finditer r t = ws := by
  have hit : ∀ (prev : Str) (n : Nat), t.length ≤ n →
      (finditerAux r n prev t).filterMap (fun | .inl _ => none | .inr (t, _) => some t) = ws := by
    induction h with
    | nil => intro prev n _; cases n <;> rfl
    | @space ws t c hc _ ih =>
      intro prev n hn
      cases n with
      | zero => simp at hn
      | succ n =>
        rw [finditerAux]
        have : run r ⟨prev, c :: t, []⟩ (fun st => if st.rest.length < (c :: t).length then some st else none) = none := by
          apply run_none
          intro st' hst
          obtain ⟨u, e', h1, h2, h3, h4⟩ := hst.mt hf
          cases u with
          | nil =>
            simp only [List.nil_append] at h2
            rw [← h2]; simp
          | cons a u =>
            simp only [List.cons_append, List.cons.injEq] at h2
            have := hs _ _ h1 a (by simp)
            rw [← h2.1, hc] at this
            cases this
        rw [this]
        simp only [List.filterMap_cons]
        exact ih hfull _ n (by simp at hn; omega)
    | @word ws t w hns hne hb _ ih =>
      intro prev n hn
      obtain ⟨c, w', rfl⟩ : ∃ c w', w = c :: w' := by
        cases w with
        | nil => exact absurd rfl hne
        | cons c t => exact ⟨c, t, rfl⟩
      cases n with
      | zero => simp at hn
      | succ n =>
        obtain ⟨e, he⟩ := ht (c :: w') (hfull _ (by simp)) t hb prev [] (findK (c :: w' ++ t).length)
          (by intro e; simp [findK]; omega)
        rw [findK_ok (by simp; omega)] at he
        rw [List.cons_append] at he ⊢
        rw [finditerAux]
        unfold findK at he
        rw [he]
        simp only [List.filterMap_cons]
        have htake : (c :: (w' ++ t)).take ((c :: (w' ++ t)).length - t.length) = c :: w' := take_consumed (c :: w') t
        rw [htake, ih (fun v hv => hfull v (by simp [hv])) _ n (by simp at hn; omega)]
  exact hit [] _ (Nat.le_refl _)

theorem Spaced.blanks {ws t} (k : Nat) (h : Spaced ws t) : Spaced ws (List.replicate k ' ' ++ t) := by
  induction k with
  | zero => exact h
  | succ k ih => rw [List.replicate_succ, List.cons_append]; exact .space (by decide) ih

/-! ### Matching a whole text -/

theorem whole_match (r : Re) (hf : r.free = true) (s : Str) (h : Full r s) :
    ∃ m, reMatch (.seq .bos (.seq (.grp 1 r) .eos)) s = some m ∧ cap m 1 = some s := by
  obtain ⟨e, he⟩ := h
  have hsome : ∃ m, reMatch (.seq .bos (.seq (.grp 1 r) .eos)) s = some m := by
    cases hm : reMatch (.seq .bos (.seq (.grp 1 r) .eos)) s with
    | some m => exact ⟨m, rfl⟩
    | none =>
      exfalso
      have s1 := (Mt.grp (n := 1) he).step [] [] []
      simp only [List.append_nil] at s1
      have := (run_spec _ _ _).1.1 hm _ (step_seq.2 ⟨_, step_bos.2 ⟨rfl, rfl⟩, step_seq.2 ⟨_, s1, step_eos.2 ⟨rfl, rfl⟩⟩⟩)
      cases this
  obtain ⟨m, hm⟩ := hsome
  refine ⟨m, hm, ?_⟩
  obtain ⟨st, h1, h2⟩ := reMatch_some hm
  obtain ⟨a, ha, h1⟩ := step_seq.1 h1
  obtain ⟨rfl, -⟩ := step_bos.1 ha
  obtain ⟨b, hb, h1⟩ := step_seq.1 h1
  obtain ⟨rfl, hend⟩ := step_eos.1 h1
  obtain ⟨u, e, u1, u2, -, u4⟩ := hb.mt hf
  simp only [hend, List.append_nil] at u2 u4
  subst u2
  cases u1 with
  | grp u1 => rw [h2, cap_skip (by decide), u4, cap_hd]

theorem whole_none (r : Re) (hf : r.free = true) (s : Str) (h : ¬ Full r s) :
    reMatch (.seq .bos (.seq (.grp 1 r) .eos)) s = none := by
  apply reMatch_none
  intro st' h1
  obtain ⟨a, ha, h1⟩ := step_seq.1 h1
  obtain ⟨rfl, -⟩ := step_bos.1 ha
  obtain ⟨b, hb, h1⟩ := step_seq.1 h1
  obtain ⟨rfl, hend⟩ := step_eos.1 h1
  obtain ⟨u, e, u1, u2, -, u4⟩ := hb.mt hf
  simp only [hend, List.append_nil] at u2
  subst u2
  cases u1 with
  | grp u1 => exact h ⟨_, u1⟩

theorem full_plus_one {g : Bool} {r : Re} {w : Str} (h : Full r w) : Full (Re.plus g r) w := by
  obtain ⟨e, he⟩ := h
  have := Mt.seq he (Mt.starNil (g := g) (a := r))
  rw [List.append_nil] at this
  exact ⟨_, this⟩

theorem full_plus_cons {g : Bool} {r : Re} {w s : Str} (hw : w ≠ []) (h : Full r w) (hs : Full (Re.plus g r) s) : Full (Re.plus g r) (w ++ s) := by
  obtain ⟨e, he⟩ := h
  obtain ⟨f, hf⟩ := hs
  cases hf with
  | @seq _ _ u v e' f' h1 h2 =>
    by_cases hu : u = []
    · subst hu
      exact ⟨_, .seq he (by simpa using h2)⟩
    · exact ⟨_, .seq he (.starCons hu h1 h2)⟩

/-- The last piece of a repetition. -/
theorem full_plus_last {g : Bool} {r : Re} {s : Str} (h : Full (Re.plus g r) s) : ∃ u w, s = u ++ w ∧ Full r w := by
  have star : ∀ {v e}, Mt (.star g r) v e → v = [] ∨ ∃ u w, v = u ++ w ∧ Full r w := by
    intro v e h
    generalize hr : Re.star g r = q at h
    induction h with
    | starNil => exact .inl rfl
    | @starCons _ _ u v e f hu h1 h2 _ ih =>
      cases hr
      right
      rcases ih rfl with rfl | ⟨a, w, rfl, hw⟩
      · exact ⟨[], u, by simp, ⟨_, h1⟩⟩
      · exact ⟨u ++ a, w, by simp, hw⟩
    | _ => cases hr
  obtain ⟨f, hf⟩ := h
  cases hf with
  | @seq _ _ u v e' f' h1 h2 =>
    rcases star h2 with rfl | ⟨a, w, rfl, hw⟩
    · exact ⟨[], u, by simp, ⟨_, h1⟩⟩
    · exact ⟨u ++ a, w, by simp, hw⟩

/-! ### Lines -/

theorem full_rep (w : Str) (h : '\n' ∉ w) : Full (Re.rep w.length .dot) w := by
  induction w with
  | nil => exact ⟨_, .eps⟩
  | cons c w ih =>
    simp only [List.mem_cons, not_or] at h
    obtain ⟨e, he⟩ := ih h.2
    exact ⟨_, .seq (u := [c]) (.cls (by simpa using fun e => h.1 e.symm)) he⟩

theorem full_upTo (n : Nat) (w : Str) (h : '\n' ∉ w) (hl : w.length ≤ n) : Full (upTo .dot n) w := by
  induction n generalizing w with
  | zero => cases w with
    | nil => exact ⟨_, .eps⟩
    | cons c w => simp at hl
  | succ n ih =>
    cases w with
    | nil => exact ⟨_, .optNone⟩
    | cons c w =>
      simp only [List.mem_cons, not_or] at h
      obtain ⟨e, he⟩ := ih w h.2 (by simp at hl; omega)
      exact ⟨_, .optSome (.seq (u := [c]) (.cls (by simpa using fun e => h.1 e.symm)) he)⟩

theorem full_seq {a b : Re} {u v : Str} (h1 : Full a u) (h2 : Full b v) : Full (.seq a b) (u ++ v) := by
  obtain ⟨e, he⟩ := h1
  obtain ⟨f, hf⟩ := h2
  exact ⟨_, .seq he hf⟩

theorem full_nl : Full (Re.chr '\n') ['\n'] := ⟨_, .cls (by decide)⟩

theorem full_blank : Full Re.space [' '] := ⟨_, .cls (by decide)⟩

/-- Lines of columns of four characters. -/
theorem full_four (n : Nat) (w : Str) (h : '\n' ∉ w) (hl : w.length = 4 * (n + 1)) :
    Full (Re.plus true (Re.rep 4 .dot)) w := by
  induction n generalizing w with
  | zero =>
    have := full_rep w h
    rw [hl] at this
    exact full_plus_one this
  | succ n ih =>
    obtain ⟨a, b, rfl, ha⟩ : ∃ a b, w = a ++ b ∧ a.length = 4 :=
      ⟨w.take 4, w.drop 4, (List.take_append_drop 4 w).symm, by rw [List.length_take]; omega⟩
    have hn : '\n' ∉ a ∧ '\n' ∉ b := by simpa [not_or] using h
    have h1 := full_rep a hn.1
    rw [ha] at h1
    refine full_plus_cons ?_ h1 (ih b hn.2 ?_)
    · rintro rfl; simp at ha
    · rw [List.length_append, ha] at hl; omega

def lLine : Re := .seq .space (.seq (Re.plus true (Re.rep 4 .dot)) (Re.chr '\n'))

theorem full_lLine (n : Nat) (w : Str) (h : '\n' ∉ w) (hl : w.length = 4 * (n + 1)) : Full lLine (' ' :: (w ++ ['\n'])) :=
  full_seq full_blank (full_seq (full_four n w h hl) full_nl)

theorem mt_plus_rep {n : Nat} {w : Str} {e} (h : Mt (Re.plus true (Re.rep n .dot)) w e) : n ≤ w.length ∧ '\n' ∉ w := by
  have star : ∀ {v e}, Mt (.star true (Re.rep n .dot)) v e → '\n' ∉ v := by
    intro v e h
    generalize hr : Re.star true (Re.rep n .dot) = q at h
    induction h with
    | starNil => simp
    | @starCons _ _ u v e f hu h1 h2 _ ih =>
      cases hr
      have := (mt_rep h1).2.1
      simp only [List.mem_append, not_or]
      exact ⟨this, ih rfl⟩
    | _ => cases hr
  cases h with
  | seq h1 h2 =>
    obtain ⟨a, b, -⟩ := mt_rep h1
    refine ⟨by rw [List.length_append]; omega, ?_⟩
    simp only [List.mem_append, not_or]
    exact ⟨b, star h2⟩

theorem full_lLine_inv {w : Str} (h : Full lLine w) : ∃ c u, w = c :: (u ++ ['\n']) ∧ 4 ≤ u.length ∧ '\n' ∉ u := by
  obtain ⟨e, he⟩ := h
  cases he with
  | seq h1 h2 =>
    cases h1 with
    | cls hc =>
      cases h2 with
      | seq h3 h4 =>
        cases h4 with
        | cls hd =>
          have := eq_of_beq hd
          subst this
          obtain ⟨a, b⟩ := mt_plus_rep h3
          exact ⟨_, _, rfl, a, b⟩

def vLine : Re := .seq (Re.rep 5 .dot) (.seq (upTo .dot 116) (Re.chr '\n'))

theorem full_vLine (w : Str) (h : '\n' ∉ w) (h5 : 5 ≤ w.length) (h121 : w.length ≤ 121) : Full vLine (w ++ ['\n']) := by
  obtain ⟨a, b, rfl, ha⟩ : ∃ a b, w = a ++ b ∧ a.length = 5 :=
    ⟨w.take 5, w.drop 5, (List.take_append_drop 5 w).symm, by rw [List.length_take]; omega⟩
  have hn : '\n' ∉ a ∧ '\n' ∉ b := by simpa [not_or] using h
  have h1 := full_rep a hn.1
  rw [ha] at h1
  rw [List.append_assoc]
  rw [List.length_append, ha] at h121
  exact full_seq h1 (full_seq (full_upTo 116 b hn.2 (by omega)) full_nl)

theorem full_vLine_inv {w : Str} (h : Full vLine w) : ∃ u, w = u ++ ['\n'] := by
  obtain ⟨e, he⟩ := h
  cases he with
  | seq h1 h2 =>
    cases h2 with
    | seq h3 h4 =>
      cases h4 with
      | cls hd =>
        have := eq_of_beq hd
        subst this
        exact ⟨_, (List.append_assoc _ _ _).symm⟩

theorem free_upTo (n : Nat) : (upTo .dot n).free = true := by
  induction n with
  | zero => rfl
  | succ n ih => simp only [upTo, Re.free, ih]; rfl

theorem free_lLine : (Re.plus true lLine).free = true := by
  simp [Re.plus, lLine, Re.free, free_rep, Re.space, Re.chr]

theorem free_vLine : (Re.plus true vLine).free = true := by
  simp [Re.plus, vLine, Re.free, free_rep, free_upTo, Re.chr]

theorem int_str (n : Int) : intParse (intStr n) = .ok (.num n) := Props.C02_integer_roundtrip n

/-! ### L blocks -/

theorem lItems_lines (vs : List IntVal) : ∀ (i : Nat) (cur : Str), (∀ v ∈ vs, v.str.length ≤ 4 ∧ '\n' ∉ v.str) →
    cur.length = 4 * (i % 30) → '\n' ∉ cur → (i + vs.length) % 30 ≠ 0 →
    Full (Re.plus true lLine) (' ' :: (cur ++ (lItems i vs ++ ['\n']))) := by
  induction vs with
  | nil =>
    intro i cur _ hc hn he
    rw [List.length_nil, Nat.add_zero] at he
    exact full_plus_one (full_lLine (i % 30 - 1) cur hn (by omega))
  | cons v vs ih =>
    intro i cur hv hc hn he
    obtain ⟨v1, v2⟩ := hv v (by simp)
    have hl := rjust_length v1
    have hnl : '\n' ∉ cur ++ rjust 4 v.str := by
      simp only [List.mem_append, not_or]
      exact ⟨hn, rjust_nl v2⟩
    rw [List.length_cons] at he
    rw [lItems]
    by_cases h : (i + 1) % 30 = 0 ∧ i ≠ 0
    · rw [if_pos h]
      have h1 := full_lLine (i % 30) (cur ++ rjust 4 v.str) hnl (by rw [List.length_append, hl, hc]; omega)
      have h2 := ih (i + 1) [] (fun x hx => hv x (by simp [hx])) (by rw [h.1]; rfl) (by simp) (by
        rw [show i + 1 + vs.length = i + (vs.length + 1) by omega]; exact he)
      have := full_plus_cons (by simp) h1 h2
      simpa using this
    · rw [if_neg h]
      have h3 : (i + 1) % 30 = i % 30 + 1 := by
        by_cases hi : i = 0
        · subst hi; rfl
        · have : (i + 1) % 30 ≠ 0 := fun e => h ⟨e, hi⟩
          omega
      have := ih (i + 1) (cur ++ rjust 4 v.str) (fun x hx => hv x (by simp [hx])) (by rw [List.length_append, hl, hc]; omega) hnl
        (by rw [show i + 1 + vs.length = i + (vs.length + 1) by omega]; exact he)
      simpa using this

theorem Plain.full {s : Str} (h : Plain s) : Full numRe s := by
  have hh : ∀ c, numCh c = true → numHead c = true := fun c hc => numCh_all (q := numHead) (by decide) hc
  obtain ⟨c, cs, rfl, -⟩ := h.head
  refine full_num.2 (.num c cs (hh c (h.ch c (by simp))) ?_)
  intro x hx
  have := hh x (h.ch x (by simp [hx]))
  rw [numTail, this]; rfl

theorem Plain.noSpace {s : Str} (h : Plain s) : NoSpace s := fun c hc => numCh_space (h.ch c hc)

theorem Plain.ne {s : Str} (h : Plain s) : s ≠ [] := by
  obtain ⟨c, cs, rfl, -⟩ := h.head
  simp

/-- Splitting numbers in blank space. -/
theorem finditer_num {ws : List Str} {t : Str} (h : Spaced ws t) (hp : ∀ w ∈ ws, Plain w) : finditer numRe t = ws :=
  finditer_spaced numRe tok_num rfl (noSp_mt (Kind.facts .int rfl 0).2.1) h (fun w hw => (hp w hw).full)

theorem lItems_spaced (ns : List Int) : ∀ i, (∀ n ∈ ns, (intStr n).length ≤ 3) →
    Bnd (lItems i (ns.map .num) ++ ['\n']) ∧ Spaced (ns.map intStr) (lItems i (ns.map .num) ++ ['\n']) := by
  induction ns with
  | nil => intro i _; exact ⟨by intro c hc; cases hc; decide, .space (by decide) .nil⟩
  | cons n ns ih =>
    intro i h
    obtain ⟨h1, h2⟩ := ih (i + 1) (fun x hx => h x (by simp [hx]))
    have hp := plain_int n
    have hl := h n (by simp)
    have hns := hp.noSpace
    have hne := hp.ne
    rw [List.map_cons, List.map_cons, lItems]
    obtain ⟨k, hk⟩ : ∃ k, rjust 4 (intStr n) = List.replicate (k + 1) ' ' ++ intStr n := by
      refine ⟨4 - (intStr n).length - 1, ?_⟩
      rw [rjust]
      congr 2
      omega
    show Bnd (rjust 4 (intStr n) ++ _ ++ ['\n']) ∧ Spaced _ (rjust 4 (intStr n) ++ _ ++ ['\n'])
    rw [hk]
    refine ⟨by intro c hc; rw [List.replicate_succ] at hc; cases hc; decide, ?_⟩
    rw [List.append_assoc, List.append_assoc]
    apply Spaced.blanks
    split
    · refine .word hns hne (by intro c hc; cases hc; decide) ?_
      exact .space (by decide) (.space (by decide) h2)
    · exact .word hns hne h1 h2

theorem lline_round (ns : List Int) (h : ∀ n ∈ ns, (intStr n).length ≤ 3) (he : ns.length % 30 ≠ 0) :
    lParse (lStr (ns.map .num)) = .ok (ns.map .num) := by
  have hf : Full (Re.plus true lLine) (lStr (ns.map .num)) := by
    refine lItems_lines (ns.map .num) 0 [] ?_ rfl (by simp) (by simpa using he)
    intro v hv
    obtain ⟨n, hn, rfl⟩ := List.mem_map.1 hv
    exact ⟨Nat.le_succ_of_le (h n hn), (plain_int n).nl⟩
  obtain ⟨m, h1, h2⟩ := whole_match _ free_lLine _ hf
  rw [lParse, show reMatch lRe (lStr (ns.map .num)) = some m from h1]
  simp only [tok_of_cap h2]
  rw [lStr, finditer_num (ws := ns.map intStr) (.space (by decide) (lItems_spaced ns 0 h).2) (by
    intro w hw
    obtain ⟨n, hn, rfl⟩ := List.mem_map.1 hw
    exact plain_int n)]
  clear h h1 h2 hf he
  induction ns with
  | nil => rfl
  | cons n ns ih =>
    rw [List.map_cons, List.map_cons, each, int_str]
    show (each intParse _).bind _ = _
    rw [ih]; rfl

/-- The text of a full last line ends in an empty line. -/
theorem lItems_end (vs : List IntVal) : ∀ i, vs ≠ [] → (i + vs.length) % 30 = 0 → ∃ u, lItems i vs = u ++ c!"\n " := by
  induction vs with
  | nil => intro i h; exact absurd rfl h
  | cons v vs ih =>
    intro i _ he
    rw [List.length_cons] at he
    rw [lItems]
    by_cases hv : vs = []
    · subst hv
      rw [List.length_nil] at he
      rw [if_pos ⟨by omega, by omega⟩]
      exact ⟨rjust 4 v.str, rfl⟩
    · obtain ⟨u, hu⟩ := ih (i + 1) hv (by omega)
      rw [hu]
      split
      · exact ⟨rjust 4 v.str ++ '\n' :: ' ' :: u, by simp⟩
      · exact ⟨rjust 4 v.str ++ u, by simp⟩

theorem lline_none (vs : List IntVal) (h : vs.length % 30 = 0) : lParse (lStr vs) = .error .ptrac := by
  have : ¬ Full (Re.plus true lLine) (lStr vs) := by
    intro hf
    obtain ⟨u, w, e, hw⟩ := full_plus_last hf
    obtain ⟨c, x, rfl, hx, hn⟩ := full_lLine_inv hw
    unfold lStr at e
    have e : (' ' :: lItems 0 vs) ++ ['\n'] = (u ++ c :: x) ++ ['\n'] := by simpa using e
    have e := List.append_cancel_right e
    by_cases hv : vs = []
    · subst hv
      have := congrArg List.length e
      simp [lItems] at this
      omega
    · obtain ⟨y, hy⟩ := lItems_end vs 0 hv (by simpa using h)
      rw [hy] at e
      obtain ⟨x', a, rfl⟩ : ∃ x' a, x = x' ++ [a] := ⟨x.dropLast, x.getLast (by rintro rfl; simp at hx), (List.dropLast_concat_getLast _).symm⟩
      obtain ⟨x'', b, rfl⟩ : ∃ x'' b, x' = x'' ++ [b] := ⟨x'.dropLast, x'.getLast (by rintro rfl; simp at hx), (List.dropLast_concat_getLast _).symm⟩
      have e : (' ' :: y ++ ['\n']) ++ [' '] = (u ++ c :: x'' ++ [b]) ++ [a] := by simpa using e
      have e1 := (List.append_inj' e rfl).1
      have e2 := (List.append_inj' e1 rfl).2
      have : b = '\n' := by simpa using e2.symm
      subst this
      exact hn (by simp)
  rw [lParse, show reMatch lRe (lStr vs) = none from whole_none _ free_lLine _ this]

/-! ### N blocks -/

theorem readInts_ok (vs : List IntVal) (m : List (Nat × Str)) (n : Nat)
    (hm : ∀ i (hi : i < vs.length), intParse (tok m (n + i)) = .ok vs[i]) : readInts m n vs.length = .ok vs := by
  induction vs generalizing n with
  | nil => rfl
  | cons v vs ih =>
    rw [List.length_cons, readInts]
    have h0 := hm 0 (by simp)
    rw [Nat.add_zero] at h0
    rw [h0]
    show (readInts m (n + 1) vs.length).bind _ = _
    rw [ih (n + 1) (fun i hi => by
      have := hm (i + 1) (by simp; omega)
      rw [show n + 1 + i = n + (i + 1) by omega]
      exact this)]
    rfl

theorem nline_round (ns : List Int) (hl : ns.length = 20) (h : ∀ n ∈ ns, (intStr n).length ≤ 5) :
    nParse (nStr (ns.map .num)) = .ok (ns.map .num) := by
  let fs := ns.map fun n => rjust 5 (intStr n)
  have hfs : fs.map (·.length) = List.replicate 20 5 := by
    rw [← hl]
    show (ns.map _).map _ = _
    rw [List.map_map]
    apply List.eq_replicate_iff.2
    refine ⟨by simp, ?_⟩
    intro b hb
    obtain ⟨n, hn, rfl⟩ := List.mem_map.1 hb
    exact rjust_length (h n hn)
  have hnl : ∀ f ∈ fs, '\n' ∉ f := by
    intro f hf
    obtain ⟨n, hn, rfl⟩ := List.mem_map.1 hf
    exact rjust_nl (plain_int n).nl
  have htext : nStr (ns.map .num) = ' ' :: (fs.flatten ++ ['\n']) := by
    rw [nStr]
    show _ = ' ' :: ((ns.map _).flatten ++ ['\n'])
    rw [List.flatMap_map, List.flatMap]
    rfl
  have hm : reMatch nRe (' ' :: (fs.flatten ++ ['\n'])) = some ((0, ' ' :: (fs.flatten ++ ['\n'])) :: capsFrom 1 fs []) := by
    unfold reMatch nRe
    rw [run_seq, run_bos, if_pos rfl, run_seq, Re.space, run_cls_cons, if_pos (by decide), run_seq, ← hfs,
      run_fields 1 fs _ _ _ _ hnl, run_seq, Re.chr, run_cls_cons, if_pos (by decide), run_eos, if_pos rfl]
    simp only [List.length_nil, Nat.sub_zero, List.take_length]
  rw [nParse, htext, hm]
  have := readInts_ok (ns.map .num) ((0, ' ' :: (fs.flatten ++ ['\n'])) :: capsFrom 1 fs []) 1 (by
    intro i hi
    have hi' : i < fs.length := by simpa [fs] using hi
    rw [Nat.add_comm, line_tok _ fs i hi']
    have hi'' : i < ns.length := by simpa using hi
    have hp := plain_int ns[i]
    show intParse ((ns.map _)[i]'(by simpa [fs] using hi')) = _
    rw [List.getElem_map, List.getElem_map, rjust, intParse_pad _ _ hp.ch hp.chain hp.head, int_str])
  rw [List.length_map, hl] at this
  exact this

/-! ### V blocks -/

theorem Spaced.trim {ws : List Str} {s : Str} (h : Spaced ws s) : ∀ t c, s = t ++ [c] → isSpace c = true → Spaced ws t := by
  induction h with
  | nil => intro t c e; cases t <;> cases e
  | @space ws u d hd hu ih =>
    intro t c e hc
    cases t with
    | nil =>
      simp only [List.nil_append, List.cons.injEq] at e
      obtain ⟨-, rfl⟩ := e
      exact hu
    | cons x t =>
      simp only [List.cons_append, List.cons.injEq] at e
      obtain ⟨rfl, e⟩ := e
      exact .space hd (ih t c e hc)
  | @word ws u w hns hne hb hu ih =>
    intro t c e hc
    by_cases hu' : u = []
    · subst hu'
      rw [List.append_nil] at e
      have := hns c (by rw [e]; simp)
      rw [hc] at this; cases this
    · obtain ⟨u', x, rfl⟩ : ∃ u' x, u = u' ++ [x] := ⟨u.dropLast, u.getLast hu', (List.dropLast_concat_getLast _).symm⟩
      rw [← List.append_assoc] at e
      obtain ⟨e1, e2⟩ := List.append_inj' e rfl
      subst e1
      refine .word hns hne ?_ (ih u' x rfl ?_)
      · intro y hy
        cases u' with
        | nil => cases hy
        | cons z u' => exact hb y (by simpa using hy)
      · have : x = c := by simpa using e2
        rw [this]; exact hc

/-- Two lists related element by element. -/
inductive All2 {α β : Type} (R : α → β → Prop) : List α → List β → Prop
  | nil : All2 R [] []
  | cons {a b as bs} : R a b → All2 R as bs → All2 R (a :: as) (b :: bs)

theorem All2.length_eq {α β : Type} {R : α → β → Prop} {as bs} (h : All2 R as bs) : as.length = bs.length := by
  induction h with
  | nil => rfl
  | cons _ _ ih => rw [List.length_cons, List.length_cons, ih]

/-- The loop of `V.to_mcnp` on printed numbers. -/
def vJoin : Nat → List Str → Str
  | _, [] => []
  | i, t :: ts => ' ' :: (t ++ (if (i + 1) % 10 = 0 ∧ i ≠ 0 then '\n' :: ' ' :: vJoin (i + 1) ts else vJoin (i + 1) ts))

/-- A printed number. -/
structure VText (d : Dec) (t : Str) : Prop where
  fmt : realFmt 4 0 (.num (.fin d)) = .ok t
  parts : ∃ k w, t = List.replicate k ' ' ++ w ∧ Plain w ∧ realParse w = .ok (.num (.fin (printed 4 0 d)))
  len : 4 ≤ t.length
  wide : d.coeff = 0 ∨ d.adjusted.natAbs < 100 → t.length ≤ 11

theorem VText.nl {d t} (h : VText d t) : '\n' ∉ t := by
  obtain ⟨k, w, rfl, hw, -⟩ := h.parts
  intro hc
  rcases pad_mem hc with hc | hc
  · exact absurd hc (by decide)
  · exact hw.nl hc

theorem vtext (d : Dec) : ∃ t, VText d t := by
  obtain ⟨ip, fp, n, ds, hm, he, hf, hv, h1, h2, h3⟩ := realFmt_shape 4 0 d
  have hp := plain_sci (sgOf d.neg) ip (some fp) 'E' n ds hm (.inr rfl) he
  have hr := realParse_sci (sgOf d.neg) ip (some fp) 'E' n ds hm (.inr rfl) he
  rw [hv] at hr
  have hs : (blankOf d.neg).length + (sgOf d.neg).text.length = 1 := by cases d.neg <;> rfl
  refine ⟨_, hf, ?_, ?_, ?_⟩
  · cases hn : d.neg with
    | true => rw [hn] at hp hr; exact ⟨0, _, rfl, hp, hr⟩
    | false => rw [hn] at hp hr; exact ⟨1, _, rfl, hp, hr⟩
  · simp only [List.length_append, mantText, fracText, List.length_cons]
    omega
  · intro hw
    have hl : fp.length ≤ 4 ∧ ds.length = 2 := by
      by_cases h0 : d.coeff = 0
      · have := h2 h0; omega
      · obtain ⟨a, b⟩ := h3 h0
        rcases hw with h | h'
        · exact absurd h h0
        · refine ⟨by omega, ?_⟩
          rw [b]; exact zfill2_length _ (by simpa using h')
    simp only [List.length_append, mantText, fracText, List.length_cons]
    omega

theorem vItems_join (ds : List Dec) (ts : List Str) (h : All2 VText ds ts) : ∀ i,
    vItems i (ds.map fun d => .num (.fin d)) = .ok (vJoin i ts) := by
  induction h with
  | nil => intro i; rfl
  | @cons d t ds ts h _ ih =>
    intro i
    rw [List.map_cons, vItems, h.fmt]
    show (vItems (i + 1) _).bind _ = _
    rw [ih]
    rfl

theorem vtexts (ds : List Dec) : ∃ ts, All2 VText ds ts := by
  induction ds with
  | nil => exact ⟨[], .nil⟩
  | cons d ds ih =>
    obtain ⟨ts, h⟩ := ih
    obtain ⟨t, ht⟩ := vtext d
    exact ⟨t :: ts, .cons ht h⟩

theorem vJoin_lines (ts : List Str) : ∀ (i : Nat) (cur : Str), (∀ t ∈ ts, 4 ≤ t.length ∧ t.length ≤ 11 ∧ '\n' ∉ t) →
    cur.length ≤ 12 * (i % 10) → '\n' ∉ cur → ts ≠ [] → (i + ts.length) % 10 = 0 →
    ∃ s, ' ' :: (cur ++ vJoin i ts) = s ++ [' '] ∧ Full (Re.plus true vLine) s := by
  induction ts with
  | nil => intro i cur _ _ _ h; exact absurd rfl h
  | cons t ts ih =>
    intro i cur hv hc hn _ he
    obtain ⟨v1, v2, v3⟩ := hv t (by simp)
    rw [List.length_cons] at he
    have hnl : '\n' ∉ cur ++ ' ' :: t := by
      simp only [List.mem_append, List.mem_cons, not_or]
      exact ⟨hn, by decide, v3⟩
    rw [vJoin]
    by_cases h : (i + 1) % 10 = 0 ∧ i ≠ 0
    · rw [if_pos h]
      have h1 := full_vLine (' ' :: (cur ++ ' ' :: t)) (by simp only [List.mem_cons, not_or]; exact ⟨by decide, hnl⟩)
        (by simp only [List.length_cons, List.length_append]; omega) (by simp only [List.length_cons, List.length_append]; omega)
      by_cases hts : ts = []
      · subst hts
        exact ⟨_, by simp [vJoin], full_plus_one h1⟩
      · obtain ⟨s, e, hs⟩ := ih (i + 1) [] (fun x hx => hv x (by simp [hx])) (by simp) (by simp) hts (by omega)
        rw [List.nil_append] at e
        refine ⟨_, ?_, full_plus_cons (by simp) h1 hs⟩
        rw [e]; simp
    · rw [if_neg h]
      have h3 : (i + 1) % 10 = i % 10 + 1 := by
        by_cases hi : i = 0
        · subst hi; rfl
        · have : (i + 1) % 10 ≠ 0 := fun e => h ⟨e, hi⟩
          omega
      have hts : ts ≠ [] := by
        rintro rfl
        rw [List.length_nil] at he
        omega
      obtain ⟨s, e, hs⟩ := ih (i + 1) (cur ++ ' ' :: t) (fun x hx => hv x (by simp [hx]))
        (by simp only [List.length_cons, List.length_append]; omega) hnl hts (by omega)
      refine ⟨s, ?_, hs⟩
      rw [← e]; simp

theorem vJoin_spaced (ds : List Dec) (ts : List Str) (h : All2 VText ds ts) : ∃ ws : List Str,
    All2 (fun d w => Plain w ∧ realParse w = .ok (.num (.fin (printed 4 0 d)))) ds ws ∧
    ∀ i, Bnd (vJoin i ts) ∧ Spaced ws (vJoin i ts) := by
  induction h with
  | nil => exact ⟨[], .nil, fun i => ⟨(by intro c hc; cases hc), .nil⟩⟩
  | @cons d t ds ts h _ ih =>
    obtain ⟨ws, h1, h2⟩ := ih
    obtain ⟨k, w, rfl, hp, hr⟩ := h.parts
    refine ⟨w :: ws, .cons ⟨hp, hr⟩ h1, fun i => ⟨(by intro c hc; cases hc; decide), ?_⟩⟩
    rw [vJoin, List.append_assoc]
    refine .space (by decide) (.blanks k ?_)
    obtain ⟨b, g⟩ := h2 (i + 1)
    split
    · exact .word hp.noSpace hp.ne (by intro c hc; cases hc; decide) (.space (by decide) (.space (by decide) g))
    · exact .word hp.noSpace hp.ne b g

theorem vblock_round (ds : List Dec) (h0 : ds ≠ []) (he : ds.length % 10 = 0)
    (h : ∀ d ∈ ds, d.coeff = 0 ∨ d.adjusted.natAbs < 100) :
    ∃ s, vStr (ds.map fun d => .num (.fin d)) = .ok s ∧ vParse s = .ok ((ds.map (printed 4 0)).map fun d => .num (.fin d)) := by
  obtain ⟨ts, ht⟩ := vtexts ds
  have hlen := ht.length_eq
  have hall : ∀ t ∈ ts, 4 ≤ t.length ∧ t.length ≤ 11 ∧ '\n' ∉ t := by
    clear hlen he h0
    induction ht with
    | nil => intro t h; cases h
    | @cons d t ds ts h1 _ ih =>
      intro x hx
      rcases List.mem_cons.1 hx with rfl | hx
      · exact ⟨h1.len, h1.wide (h d (by simp)), h1.nl⟩
      · exact ih (fun y hy => h y (by simp [hy])) x hx
  obtain ⟨s, e, hs⟩ := vJoin_lines ts 0 [] hall (by simp) (by simp) (by
    rintro rfl
    exact h0 (List.length_eq_zero_iff.1 hlen)) (by rw [← hlen]; simpa using he)
  rw [List.nil_append] at e
  obtain ⟨ws, w1, w2⟩ := vJoin_spaced ds ts ht
  have hsp : Spaced ws s := (Spaced.space (by decide) (w2 0).2).trim s ' ' e (by decide)
  refine ⟨s, ?_, ?_⟩
  · show (vItems 0 _).bind _ = _
    rw [vItems_join ds ts ht]
    show Except.ok ((' ' :: vJoin 0 ts).dropLast) = _
    rw [e, List.dropLast_concat]
  · obtain ⟨m, h1, h2⟩ := whole_match _ free_vLine _ hs
    rw [vParse, show reMatch vRe s = some m from h1]
    simp only [tok_of_cap h2]
    rw [finditer_num hsp (by
      clear w2 hsp hlen he h0 h hall e ht
      induction w1 with
      | nil => intro w h; cases h
      | cons h _ ih =>
        intro x hx
        rcases List.mem_cons.1 hx with rfl | hx
        · exact h.1
        · exact ih x hx)]
    clear w2 hsp hlen he h0 h hall e ht h1 h2
    induction w1 with
    | nil => rfl
    | cons h _ ih =>
      rw [each, h.2]
      show (each realParse _).bind _ = _
      rw [ih]; rfl

theorem vJoin_end (ts : List Str) : ∀ i, ts ≠ [] → (i + ts.length) % 10 ≠ 0 → ∃ u, ∃ t ∈ ts, vJoin i ts = u ++ t := by
  induction ts with
  | nil => intro i h; exact absurd rfl h
  | cons t ts ih =>
    intro i _ he
    rw [List.length_cons] at he
    rw [vJoin]
    by_cases hv : ts = []
    · subst hv
      rw [List.length_nil] at he
      rw [if_neg (fun h => he (by omega))]
      exact ⟨[' '], t, by simp, by simp [vJoin]⟩
    · obtain ⟨u, t', ht', hu⟩ := ih (i + 1) hv (by omega)
      rw [hu]
      split
      · exact ⟨' ' :: (t ++ '\n' :: ' ' :: u), t', by simp [ht'], by simp⟩
      · exact ⟨' ' :: (t ++ u), t', by simp [ht'], by simp⟩

theorem vblock_none (ds : List Dec) (he : ds = [] ∨ ds.length % 10 ≠ 0) :
    ∃ s, vStr (ds.map fun d => .num (.fin d)) = .ok s ∧ vParse s = .error .ptrac := by
  obtain ⟨ts, ht⟩ := vtexts ds
  have hlen := ht.length_eq
  refine ⟨(' ' :: vJoin 0 ts).dropLast, ?_, ?_⟩
  · show (vItems 0 _).bind _ = _
    rw [vItems_join ds ts ht]; rfl
  · have : ¬ Full (Re.plus true vLine) (' ' :: vJoin 0 ts).dropLast := by
      intro hf
      obtain ⟨u, w, e, hw⟩ := full_plus_last hf
      obtain ⟨x, rfl⟩ := full_vLine_inv hw
      rw [← List.append_assoc] at e
      by_cases hts : ts = []
      · subst hts
        have := congrArg List.length e
        simp [vJoin] at this
      · obtain ⟨y, t, htm, hy⟩ := vJoin_end ts 0 hts (by
          rw [Nat.zero_add, ← hlen]
          rcases he with rfl | he
          · cases ht; exact absurd rfl hts
          · exact he)
        have ht4 : 4 ≤ t.length ∧ '\n' ∉ t := by
          clear hlen he hts hy e hf
          induction ht with
          | nil => cases htm
          | cons h _ ih =>
            rcases List.mem_cons.1 htm with rfl | hx
            · exact ⟨h.len, h.nl⟩
            · exact ih hx
        obtain ⟨t', a, rfl⟩ : ∃ t' a, t = t' ++ [a] := ⟨t.dropLast, t.getLast (by rintro rfl; simp at ht4), (List.dropLast_concat_getLast _).symm⟩
        rw [hy, ← List.cons_append, ← List.append_assoc, List.dropLast_concat] at e
        obtain ⟨t'', b, rfl⟩ : ∃ t'' b, t' = t'' ++ [b] := ⟨t'.dropLast, t'.getLast (by rintro rfl; simp at ht4), (List.dropLast_concat_getLast _).symm⟩
        rw [← List.append_assoc] at e
        have := (List.append_inj' e rfl).2
        have : b = '\n' := by simpa using this
        subst this
        exact ht4.2 (by simp)
    rw [vParse, show reMatch vRe _ = none from whole_none _ free_vLine _ this]

end Ptrac
