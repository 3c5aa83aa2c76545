import Verif.Inp.HeadLemmas
/-!
# Splitting a blank-separated list into its entries

`Tuple.from_mcnp` splits its text with `finditer` of the unanchored pattern of the element type.
-/
namespace Inp
open Py Types

/-- On a word it matches entirely, the pattern's preferred match is the whole word. -/
def Tok (r : Re) : Prop := ∀ w, Full r w → ∀ rest, Bnd rest → ∀ (prev caps) (k : St → Option St),
  (∀ e, (k ⟨w.reverse ++ prev, rest, e⟩).isSome = true) →
  ∃ e, run r ⟨prev, w ++ rest, caps⟩ k = k ⟨w.reverse ++ prev, rest, e⟩

theorem run_lit_ok {α : Type} (s w : Str) (h : lower w = lower s) (prev rest caps) (k : St → Option α) :
    run (litRe s) ⟨prev, w ++ rest, caps⟩ k = k ⟨w.reverse ++ prev, rest, caps⟩ := by
  induction s generalizing w prev with
  | nil =>
    have : w = [] := by simpa [lower] using h
    subst this; rfl
  | cons c s ih =>
    cases w with
    | nil => simp [lower] at h
    | cons d w =>
      simp only [lower, List.map_cons, List.cons.injEq] at h
      rw [litRe, run_seq]
      simp only [List.cons_append, Re.chrI, run_cls_cons, h.1, beq_self_eq_true, if_true]
      rw [ih w h.2]
      simp

theorem run_chrI {α : Type} (x : Char) (w : Str) (h : lower w = lower [x]) (prev rest caps) (k : St → Option α) :
    run (.chrI x) ⟨prev, w ++ rest, caps⟩ k = k ⟨w.reverse ++ prev, rest, caps⟩ := by
  have := run_lit_ok [x] w h prev rest caps k
  rw [litRe, run_seq] at this
  exact this

theorem run_chrI_no {α : Type} (x c : Char) (h : lowerC c ≠ lowerC x) (prev t caps) (k : St → Option α) :
    run (.chrI x) ⟨prev, c :: t, caps⟩ k = none := by
  simp [Re.chrI, run_cls_cons, h]

theorem run_lit_no {α : Type} (x c : Char) (s : Str) (h : lowerC c ≠ lowerC x) (prev t caps) (k : St → Option α) :
    run (litRe (x :: s)) ⟨prev, c :: t, caps⟩ k = none := by
  rw [litRe, run_seq]; exact run_chrI_no x c h ..

/-- Characters of the number pattern. -/
theorem numTail_mem {c : Char} (h : numTail c = true) : c ∈ c!"-+0123456789.eEdD" := by
  simp only [numTail, numHead, Bool.or_eq_true, beq_iff_eq] at h
  have hd : isDigit c = true → c ∈ c!"0123456789" := by
    intro hd
    have hc : c = Char.ofNat c.toNat := by simp
    have h5 : 48 ≤ c.toNat ∧ c.toNat ≤ 57 := by
      simp only [isDigit, Bool.and_eq_true, decide_eq_true_eq, Char.le_def, UInt32.le_iff_toNat_le] at hd
      exact hd
    have : ∀ n : Fin 58, 48 ≤ n.1 → Char.ofNat n.1 ∈ c!"0123456789" := by decide +kernel
    rw [hc]; exact this ⟨c.toNat, by omega⟩ h5.1
  rcases h with ((((((h | h) | h) | h) | h) | h) | h) | h
  all_goals first | (subst h; decide) | skip
  have := hd h
  simp only [List.mem_cons, List.not_mem_nil, or_false] at this ⊢
  rcases this with h | h | h | h | h | h | h | h | h | h <;> simp [h]

theorem numTail_lower {c x : Char} (h : numTail c = true) (hx : x ∈ c!"jlimrog") : lowerC c ≠ lowerC x := by
  have : ∀ c ∈ c!"-+0123456789.eEdD", ∀ x ∈ c!"jlimrog", lowerC c ≠ lowerC x := by decide +kernel
  exact this c (numTail_mem h) x hx

theorem numHead_tail {c : Char} (h : numHead c = true) : numTail c = true := by simp [numTail, h]
theorem digit_numHead {c : Char} (h : isDigit c = true) : numHead c = true := by simp [numHead, h]

/-- The words of the number pattern. -/
inductive NumWord : Str → Prop
  | lit (x : Char) (w : Str) (hx : x ∈ c!"jir") (h : lower w = lower [x]) : NumWord w
  | log (w : Str) (h : lower w = lower c!"log") : NumWord w
  | ilog (w : Str) (h : lower w = lower c!"ilog") : NumWord w
  | mul (ds l : Str) (hd : ∀ c ∈ ds, isDigit c = true) (h : lower l = lower ['m']) : NumWord (ds ++ l)
  | num (c : Char) (t : Str) (hc : numHead c = true) (ht : ∀ c ∈ t, numTail c = true) : NumWord (c :: t)

theorem mt_alt {a b w e} : Mt (.alt a b) w e ↔ Mt a w e ∨ Mt b w e := by
  constructor
  · intro h
    cases h with
    | altL h => exact .inl h
    | altR h => exact .inr h
  · rintro (h | h)
    · exact .altL h
    · exact .altR h

theorem mt_chrI {x w e} : Mt (.chrI x) w e ↔ lower w = lower [x] ∧ e = [] := by
  rw [← mt_lit (s := [x])]
  constructor
  · intro h; have := Mt.seq h Mt.eps; rw [List.append_nil] at this; exact this
  · intro h
    obtain ⟨u, v, x, y, h1, h2, rfl, rfl⟩ := mt_seq.1 h
    obtain ⟨rfl, rfl⟩ := mt_eps.1 h2
    simpa using h1

theorem full_num {w : Str} : Full numRe w ↔ NumWord w := by
  unfold Full numRe
  simp only [mt_alt, mt_chrI, mt_lit, mt_seq, Re.digit, mt_star_cls, mt_cls]
  constructor
  · rintro ⟨e, h | h | h | h | h | h | h⟩
    · exact .lit 'j' w (by decide) h.1
    · exact .log w h.1
    · exact .ilog w h.1
    · obtain ⟨u, v, x, y, h1, h2, rfl, rfl⟩ := h
      exact .mul u v h1.1 h2.1
    · exact .lit 'i' w (by decide) h.1
    · exact .lit 'r' w (by decide) h.1
    · obtain ⟨u, v, x, y, ⟨c, hc, rfl, rfl⟩, h2, rfl, rfl⟩ := h
      exact .num c v hc h2.1
  · intro h
    cases h with
    | lit x _ hx h =>
      simp only [List.mem_cons, List.not_mem_nil, or_false] at hx
      rcases hx with rfl | rfl | rfl
      · exact ⟨[], .inl ⟨h, rfl⟩⟩
      · exact ⟨[], .inr (.inr (.inr (.inr (.inl ⟨h, rfl⟩))))⟩
      · exact ⟨[], .inr (.inr (.inr (.inr (.inr (.inl ⟨h, rfl⟩)))))⟩
    | log _ h => exact ⟨[], .inr (.inl ⟨h, rfl⟩)⟩
    | ilog _ h => exact ⟨[], .inr (.inr (.inl ⟨h, rfl⟩))⟩
    | mul ds l hd h => exact ⟨[], .inr (.inr (.inr (.inl ⟨ds, l, [], [], ⟨hd, rfl⟩, ⟨h, rfl⟩, rfl, rfl⟩)))⟩
    | num c t hc ht =>
      exact ⟨[], .inr (.inr (.inr (.inr (.inr (.inr ⟨[c], t, [], [], ⟨c, hc, rfl, rfl⟩, ⟨ht, rfl⟩, rfl, rfl⟩)))))⟩

theorem lower_single {w : Str} {x : Char} (h : lower w = lower [x]) : ∃ c, w = [c] ∧ lowerC c = lowerC x := by
  cases w with
  | nil => simp [lower] at h
  | cons c w =>
    cases w with
    | nil => exact ⟨c, rfl, by simpa [lower] using h⟩
    | cons d w => simp [lower] at h

theorem or_some {α : Type} {a b : Option α} (h : a.isSome = true) : a.or b = a := by
  cases a with
  | none => cases h
  | some => rfl

/-- `\d*m` fails on a word without `m`. -/
theorem run_mul_no {α : Type} (w rest : Str) (hr : Bnd rest) (hw : ∀ c ∈ w, lowerC c ≠ lowerC 'm') (prev caps)
    (k : St → Option α) : run (.seq (.star true .digit) (.chrI 'm')) ⟨prev, w ++ rest, caps⟩ k = none := by
  apply run_none
  intro st' hst
  exfalso
  obtain ⟨u, e, h1, h2, _⟩ := hst.mt rfl
  have hsp := noSp_mt (r := .seq (.star true .digit) (.chrI 'm')) ⟨digit_noSp, cls_noSp (by decide +kernel)⟩ u e h1
  obtain ⟨v, rfl, _⟩ := prefix_word hsp hr h2
  obtain ⟨a, b, x, y, _, h4, rfl, rfl⟩ := mt_seq.1 h1
  obtain ⟨c, rfl, hc⟩ := lower_single (mt_chrI.1 h4).1
  exact hw c (by simp) hc

theorem tok_num : Tok numRe := by
  intro w hw rest hr prev caps k hk
  have ne : ∀ {c x : Char} {y : Char}, lowerC c = lowerC y → lowerC y ≠ lowerC x → lowerC c ≠ lowerC x :=
    fun h1 h2 => h1 ▸ h2
  unfold numRe
  simp only [run_alt]
  cases full_num.1 hw with
  | lit x _ hx h =>
    refine ⟨caps, ?_⟩
    simp only [List.mem_cons, List.not_mem_nil, or_false] at hx
    rcases hx with rfl | rfl | rfl
    · rw [run_chrI 'j' w h, or_some (hk caps)]
    · obtain ⟨c, rfl, hc⟩ := lower_single h
      rw [run_mul_no _ rest hr (by intro d hd; simp only [List.mem_singleton] at hd; subst hd; exact ne hc (by decide))]
      rw [run_chrI 'i' [c] h]
      simp only [List.singleton_append]
      rw [run_chrI_no 'j' c (ne hc (by decide)), run_lit_no 'l' c _ (ne hc (by decide)), Option.none_or, Option.none_or, Option.none_or]
      have : run (litRe c!"ilog") ⟨prev, c :: rest, caps⟩ k = none := by
        simp only [litRe, run_seq, Re.chrI, run_cls_cons]
        cases rest with
        | nil => simp [run_cls_nil]
        | cons d t =>
          have hd : isSpace d = true := hr d (by simp)
          have : lowerC d ≠ lowerC 'l' := by
            intro hdl
            have := isSpace_of_lower hdl (by decide)
            rw [hd] at this; cases this
          have : (lowerC d == lowerC 'l') = false := by simpa using this
          simp only [run_cls_cons, this]
          simp
      rw [this, Option.none_or, or_some (hk caps)]
    · obtain ⟨c, rfl, hc⟩ := lower_single h
      rw [run_mul_no _ rest hr (by intro d hd; simp only [List.mem_singleton] at hd; subst hd; exact ne hc (by decide))]
      rw [run_chrI 'r' [c] h]
      simp only [List.singleton_append]
      rw [run_chrI_no 'j' c (ne hc (by decide)), run_lit_no 'l' c _ (ne hc (by decide)),
        run_lit_no 'i' c _ (ne hc (by decide)), run_chrI_no 'i' c (ne hc (by decide))]
      simp only [Option.none_or]
      rw [or_some (hk caps)]
  | log _ h =>
    refine ⟨caps, ?_⟩
    rw [run_lit_ok _ w h]
    cases w with
    | nil => simp [lower] at h
    | cons c w =>
      simp only [lower, List.map_cons, List.cons.injEq] at h
      simp only [List.cons_append]
      rw [run_chrI_no 'j' c (ne h.1 (by decide)), Option.none_or, or_some (hk caps)]
  | ilog _ h =>
    refine ⟨caps, ?_⟩
    rw [run_lit_ok c!"ilog" w h]
    cases w with
    | nil => simp [lower] at h
    | cons c w =>
      simp only [lower, List.map_cons, List.cons.injEq] at h
      simp only [List.cons_append]
      rw [run_chrI_no 'j' c (ne h.1 (by decide)), run_lit_no 'l' c _ (ne h.1 (by decide)), Option.none_or, Option.none_or,
        or_some (hk caps)]
  | mul ds l hd h =>
    refine ⟨caps, ?_⟩
    obtain ⟨m, rfl, hm⟩ := lower_single h
    have hmd : isDigit m = false := by
      cases hmd : isDigit m with
      | false => rfl
      | true => exact absurd hm (numTail_lower (numHead_tail (digit_numHead hmd)) (by decide))
    have hc : ∃ c t, ds ++ [m] = c :: t ∧ ∀ x ∈ c!"jli", lowerC c ≠ lowerC x := by
      cases ds with
      | nil => exact ⟨m, [], rfl, by
          intro x hx
          refine ne hm ?_
          revert x; decide⟩
      | cons d ds =>
        refine ⟨d, ds ++ [m], rfl, ?_⟩
        intro x hx
        refine numTail_lower (numHead_tail (digit_numHead (hd d (by simp)))) ?_
        revert x; decide
    obtain ⟨x, hx⟩ := Option.isSome_iff_exists.1 (hk caps)
    have hrun : run (.seq (.star true .digit) (.chrI 'm')) ⟨prev, (ds ++ [m]) ++ rest, caps⟩ k =
        k ⟨(ds ++ [m]).reverse ++ prev, rest, caps⟩ := by
      rw [run_seq, List.append_assoc, hx]
      apply run_star_cls_full isDigit ds ([m] ++ rest) prev caps _ x hd
      · intro c cs hcs
        simp only [List.singleton_append, List.cons.injEq] at hcs
        rw [← hcs.1]; exact hmd
      · rw [run_chrI 'm' [m] h]
        rw [← hx]; simp
    rw [hrun]
    obtain ⟨c, t, hct, hcx⟩ := hc
    rw [hct]
    simp only [List.cons_append]
    rw [run_chrI_no 'j' c (hcx _ (by decide)), run_lit_no 'l' c _ (hcx _ (by decide)), run_lit_no 'i' c _ (hcx _ (by decide))]
    simp only [Option.none_or]
    rw [← hct, or_some (hk caps)]
  | num c t hc ht =>
    refine ⟨caps, ?_⟩
    rw [run_mul_no _ rest hr (by
      intro d hd
      rcases List.mem_cons.1 hd with rfl | hd
      · exact numTail_lower (numHead_tail hc) (by decide)
      · exact numTail_lower (ht d hd) (by decide))]
    have hx := fun x (hx : x ∈ c!"jlimrog") => numTail_lower (numHead_tail hc) hx
    simp only [List.cons_append]
    rw [run_chrI_no 'j' c (hx _ (by decide)), run_lit_no 'l' c _ (hx _ (by decide)), run_lit_no 'i' c _ (hx _ (by decide)),
      run_chrI_no 'i' c (hx _ (by decide)), run_chrI_no 'r' c (hx _ (by decide))]
    simp only [Option.none_or, run_seq, run_cls_cons, hc, if_true]
    obtain ⟨x, hx⟩ := Option.isSome_iff_exists.1 (hk caps)
    rw [hx]
    refine run_star_cls_full numTail t rest (c :: prev) caps _ x ht ?_ ?_
    · intro d ds hds
      have hsp : isSpace d = true := hr d (by rw [hds]; simp)
      cases hn : numTail d with
      | false => rfl
      | true =>
        have : ∀ c ∈ c!"-+0123456789.eEdD", isSpace c = false := by decide +kernel
        rw [this d (numTail_mem hn)] at hsp; cases hsp
    · rw [← hx]; simp

theorem tok_plus_cls {p : Char → Bool} (hp : ∀ c, isSpace c = true → p c = false) : Tok (.plus true (.cls p)) := by
  intro w hw rest hr prev caps k hk
  obtain ⟨e, hw⟩ := hw
  obtain ⟨hne, hall, _⟩ := mt_plus_cls.1 hw
  cases w with
  | nil => exact absurd rfl hne
  | cons c t =>
    obtain ⟨x, hx⟩ := Option.isSome_iff_exists.1 (hk caps)
    refine ⟨caps, ?_⟩
    rw [hx]
    simp only [Re.plus, run_seq, List.cons_append, run_cls_cons, hall c (by simp), if_true]
    refine run_star_cls_full p t rest (c :: prev) caps _ x (fun d hd => hall d (by simp [hd])) ?_ ?_
    · intro d ds hds
      exact hp d (hr d (by rw [hds]; simp))
    · rw [← hx]; simp

theorem tok_dist (n : Nat) : Tok (Kind.re n .dist) := by
  intro w hw rest hr prev caps k hk
  obtain ⟨e, hw⟩ := hw
  simp only [Kind.re] at hw ⊢
  rw [mt_alt] at hw
  rw [run_alt]
  rcases hw with hw | hw
  · obtain ⟨u, v, x, y, h1, h2, rfl, rfl⟩ := mt_seq.1 hw
    obtain ⟨c, hc, rfl, rfl⟩ := mt_cls.1 h1
    obtain ⟨z, h3, rfl⟩ := mt_grp.1 h2
    obtain ⟨hne, hall, rfl⟩ := mt_plus_cls.1 h3
    cases v with
    | nil => exact absurd rfl hne
    | cons d t =>
      refine ⟨(n, d :: t) :: caps, ?_⟩
      obtain ⟨x, hx⟩ := Option.isSome_iff_exists.1 (hk ((n, d :: t) :: caps))
      have : run (.seq (.cls (fun c => c == 'd' || c == 'D')) (.grp n (.plus true .digit))) ⟨prev, [c] ++ d :: t ++ rest, caps⟩ k = some x := by
        simp only [run_seq, run_grp, Re.plus, List.nil_append, List.cons_append, run_cls_cons, hc, if_true, Re.digit,
          hall d (by simp)]
        refine run_star_cls_full isDigit t rest (d :: c :: prev) caps _ x (fun a ha => hall a (by simp [ha])) ?_ ?_
        · intro a as has
          cases hd : isDigit a with
          | false => rfl
          | true =>
            have := hr a (by rw [has]; simp)
            rw [digit_noSp a hd] at this; cases this
        · have ht := take_consumed (d :: t) rest
          simp only [List.cons_append] at ht
          simp only [ht]
          rw [← hx]; simp
      rw [this, hx]; rfl
  · obtain ⟨c, hc, rfl, rfl⟩ := mt_cls.1 hw
    have : c = '0' := by simpa using hc
    subst this
    refine ⟨caps, ?_⟩
    obtain ⟨x, hx⟩ := Option.isSome_iff_exists.1 (hk caps)
    simp only [run_seq, List.singleton_append, run_cls_cons, Re.chr]
    simp

theorem desig_comma : desigC ',' = false := by decide +kernel

theorem star_pairs {p : Char → Bool} (v : Str) (e) (h : Mt (.star true (.seq (.chr ',') (.cls p))) v e) (rest : Str)
    (hr : Bnd rest) (prev caps) (k : St → Option St) (x : St) (hk : k ⟨v.reverse ++ prev, rest, caps⟩ = some x) :
    run (.star true (.seq (.chr ',') (.cls p))) ⟨prev, v ++ rest, caps⟩ k = some x := by
  generalize hre : Re.star true (.seq (.chr ',') (.cls p)) = r at h
  induction h generalizing prev with
  | starNil =>
    simp only [Re.star.injEq] at hre
    obtain ⟨rfl, rfl⟩ := hre
    rw [run_star_greedy]
    have : run (.seq (.chr ',') (.cls p)) ⟨prev, [] ++ rest, caps⟩ (starNext (.seq (.chr ',') (.cls p)) ([] ++ rest).length k) = none := by
      rw [run_seq, List.nil_append]
      cases rest with
      | nil => rfl
      | cons a as =>
        have ha : a ≠ ',' := by
          rintro rfl
          exact absurd (hr ',' (by simp)) (by decide)
        simp [Re.chr, run_cls_cons, ha]
    rw [this, Option.none_or]
    exact hk
  | @starCons g a u v e f hu h1 h2 _ ih2 =>
    simp only [Re.star.injEq] at hre
    obtain ⟨rfl, rfl⟩ := hre
    obtain ⟨u1, u2, x1, y1, h3, h4, rfl, rfl⟩ := mt_seq.1 h1
    obtain ⟨c, hc, rfl, rfl⟩ := mt_cls.1 h3
    obtain ⟨d, hd, rfl, rfl⟩ := mt_cls.1 h4
    have hc : c = ',' := by simpa using hc
    subst hc
    rw [run_star_greedy, run_seq]
    simp only [List.nil_append, List.cons_append, Re.chr, run_cls_cons, beq_self_eq_true, if_true, hd, starNext]
    rw [if_pos (by simp; omega)]
    have := ih2 (d :: ',' :: prev) (by rw [← hk]; simp) rfl
    rw [Re.chr] at this
    rw [this]; rfl
  | _ => cases hre

theorem tok_desig (n : Nat) : Tok (Kind.re n .desig) := by
  intro w hw rest hr prev caps k hk
  obtain ⟨e, hw⟩ := hw
  simp only [Kind.re] at hw ⊢
  obtain ⟨z, h3, rfl⟩ := mt_grp.1 hw
  obtain ⟨u, v, x, y, h1, h2, rfl, rfl⟩ := mt_seq.1 h3
  obtain ⟨c, hc, rfl, rfl⟩ := mt_cls.1 h1
  refine ⟨(n, c :: v) :: caps, ?_⟩
  obtain ⟨x, hx⟩ := Option.isSome_iff_exists.1 (hk ((n, c :: v) :: caps))
  rw [hx, run_grp, run_seq]
  simp only [List.nil_append, List.cons_append, run_cls_cons, hc, if_true]
  refine star_pairs v y h2 rest hr (c :: prev) caps _ x ?_
  have ht := take_consumed (c :: v) rest
  simp only [List.cons_append] at ht
  simp only [ht]
  rw [← hx]; simp

theorem tok_ext (m : Nat) : Tok (.opt true (.seq (.chr '.') (.grp m (.plus true .nonspace)))) := by
  intro w hw rest hr prev caps k hk
  obtain ⟨e, hw⟩ := hw
  rw [run_opt_greedy]
  rcases mt_opt.1 hw with ⟨rfl, rfl⟩ | hw
  · refine ⟨caps, ?_⟩
    have : run (.seq (.chr '.') (.grp m (.plus true .nonspace))) ⟨prev, [] ++ rest, caps⟩ k = none := by
      rw [run_seq, List.nil_append]
      cases rest with
      | nil => rfl
      | cons a as =>
        have ha : a ≠ '.' := by
          rintro rfl
          exact absurd (hr '.' (by simp)) (by decide)
        simp [Re.chr, run_cls_cons, ha]
    rw [this, Option.none_or]; rfl
  · obtain ⟨u, v, x, y, h1, h2, rfl, rfl⟩ := mt_seq.1 hw
    obtain ⟨c, hc, rfl, rfl⟩ := mt_cls.1 h1
    obtain ⟨z, h3, rfl⟩ := mt_grp.1 h2
    obtain ⟨hne, hall, rfl⟩ := mt_plus_cls.1 h3
    have hc : c = '.' := by simpa using hc
    subst hc
    refine ⟨(m, v) :: caps, ?_⟩
    obtain ⟨x, hx⟩ := Option.isSome_iff_exists.1 (hk ((m, v) :: caps))
    have : run (.seq (.chr '.') (.grp m (.plus true .nonspace))) ⟨prev, ['.'] ++ v ++ rest, caps⟩ k = some x := by
      simp only [run_seq, run_grp, Re.chr, List.nil_append, List.cons_append, run_cls_cons, beq_self_eq_true, if_true, Re.nonspace]
      have ht := tok_plus_cls (p := fun c => !isSpace c) (by intro c h; simp [h]) v ⟨[], mt_plus_cls.2 ⟨hne, hall, rfl⟩⟩ rest hr
        ('.' :: prev) caps
      cases v with
      | nil => exact absurd rfl hne
      | cons d t =>
        simp only [Re.plus, run_seq, List.cons_append, run_cls_cons, hall d (by simp), if_true]
        refine run_star_cls_full _ t rest (d :: '.' :: prev) caps _ x (fun a ha => hall a (by simp [ha])) ?_ ?_
        · intro a as has
          simp [hr a (by rw [has]; simp)]
        · have ht := take_consumed (d :: t) rest
          simp only [List.cons_append] at ht
          simp only [ht]
          rw [← hx]; simp
    rw [this, hx]; rfl

theorem or_of_some {α : Type} {a b : Option α} {x : α} (h : a = some x) : a.or b = some x := by rw [h]; rfl

/-- The digits of a ZAID: the last three belong to the mass number. -/
theorem run_zaid_digits {n : Nat} {T : Re} {u v s : Str} {x : St} {prev caps} {k : St → Option St}
    (hu : (∀ c ∈ u, isDigit c = true) ∧ 1 ≤ u.length ∧ u.length ≤ 3)
    (hv : (∀ c ∈ v, isDigit c = true) ∧ v.length = 3) (hs : ∀ c ∈ s.head?, isDigit c = false)
    (h : run T ⟨v.reverse ++ (u.reverse ++ prev), s, (n + 1, v) :: (n, u) :: caps⟩ k = some x) :
    run (.seq (.grp n d13) (.seq (.grp (n + 1) (.seq .digit (.seq .digit .digit))) T)) ⟨prev, u ++ (v ++ s), caps⟩ k = some x := by
  obtain ⟨hu1, hu2, hu3⟩ := hu
  obtain ⟨hv1, hv2⟩ := hv
  have hs' : ∀ (k' : St → Option St) p c, run .digit ⟨p, s, c⟩ k' = none := by
    intro k' p c
    cases s with
    | nil => rfl
    | cons a as => simp [Re.digit, run_cls_cons, hs a (by simp)]
  match v, hv1, hv2 with
  | [x1, x2, x3], hv1, _ =>
    have d1 := hv1 x1 (by simp); have d2 := hv1 x2 (by simp); have d3 := hv1 x3 (by simp)
    have e3 := take_consumed [x1, x2, x3] s
    simp only [List.cons_append, List.nil_append, List.reverse_cons, List.reverse_nil] at h e3
    match u, hu1, hu2, hu3 with
    | [a], hu1, _, _ =>
      have a1 := hu1 a (by simp)
      have e1 := take_consumed [a] ([x1, x2, x3] ++ s)
      simp only [List.cons_append, List.nil_append] at e1
      simp only [run_seq, run_grp, d13, run_opt_greedy, List.cons_append, List.nil_append, Re.digit, run_cls_cons, a1, d1, d2, d3,
        if_true] at hs' ⊢
      simp only [hs', Option.none_or, e1, e3]
      exact h
    | [a, b], hu1, _, _ =>
      have a1 := hu1 a (by simp); have a2 := hu1 b (by simp)
      have e1 := take_consumed [a, b] ([x1, x2, x3] ++ s)
      simp only [List.cons_append, List.nil_append] at e1
      simp only [run_seq, run_grp, d13, run_opt_greedy, List.cons_append, List.nil_append, Re.digit, run_cls_cons, a1, a2, d1, d2, d3,
        if_true] at hs' ⊢
      simp only [hs', Option.none_or, e1, e3]
      exact or_of_some h
    | [a, b, c], hu1, _, _ =>
      have a1 := hu1 a (by simp); have a2 := hu1 b (by simp); have a3 := hu1 c (by simp)
      have e1 := take_consumed [a, b, c] ([x1, x2, x3] ++ s)
      simp only [List.cons_append, List.nil_append] at e1
      simp only [run_seq, run_grp, d13, run_opt_greedy, List.cons_append, List.nil_append, Re.digit, run_cls_cons, a1, a2, a3, d1, d2, d3,
        if_true] at hs' ⊢
      simp only [e1, e3]
      exact or_of_some (or_of_some h)

theorem tok_zaid (n : Nat) : Tok (Kind.re n .zaid) := by
  intro w hw rest hr prev caps k hk
  obtain ⟨e, hw⟩ := hw
  simp only [Kind.re] at hw ⊢
  obtain ⟨u, v', x, y, h1, h2, rfl, rfl⟩ := mt_seq.1 hw
  obtain ⟨v, t, x, y, h3, h4, rfl, rfl⟩ := mt_seq.1 h2
  have hu : (∀ c ∈ u, isDigit c = true) ∧ 1 ≤ u.length ∧ u.length ≤ 3 := by
    simp only [d13, mt_grp, mt_seq, mt_opt, Re.digit, mt_cls] at h1
    obtain ⟨_, ⟨a, b, _, _, ⟨c, hc, rfl, rfl⟩, h1, rfl, rfl⟩, rfl⟩ := h1
    rcases h1 with ⟨rfl, rfl⟩ | ⟨_, _, _, _, ⟨d, hd, rfl, rfl⟩, h1, rfl, rfl⟩
    · simp [hc]
    · rcases h1 with ⟨rfl, rfl⟩ | ⟨d', hd', rfl, rfl⟩
      · simp [hc, hd]
      · simp [hc, hd, hd']
  have hv : (∀ c ∈ v, isDigit c = true) ∧ v.length = 3 := by
    simp only [mt_grp, mt_seq, Re.digit, mt_cls] at h3
    obtain ⟨_, ⟨a, b, _, _, ⟨c, hc, rfl, rfl⟩, ⟨_, _, _, _, ⟨d, hd, rfl, rfl⟩, ⟨d', hd', rfl, rfl⟩, rfl, rfl⟩, rfl, rfl⟩, rfl⟩ := h3
    simp [hc, hd, hd']
  have ht : ∀ c ∈ (t ++ rest).head?, isDigit c = false := by
    rcases mt_opt.1 h4 with ⟨rfl, _⟩ | h
    · intro c hc
      cases hd : isDigit c with
      | false => rfl
      | true => have := hr c (by simpa using hc); rw [digit_noSp c hd] at this; cases this
    · obtain ⟨_, _, _, _, h5, _, rfl, _⟩ := mt_seq.1 h
      obtain ⟨d, hd, rfl, _⟩ := mt_cls.1 h5
      have hd : d = '.' := by simpa using hd
      subst hd
      intro c hc
      simp at hc; subst hc; decide
  obtain ⟨e, he⟩ := tok_ext (n + 2) t ⟨_, h4⟩ rest hr (v.reverse ++ (u.reverse ++ prev)) ((n + 1, v) :: (n, u) :: caps) k (by
    intro e; simpa using hk e)
  refine ⟨e, ?_⟩
  have hk' := hk e
  obtain ⟨x, hx⟩ := Option.isSome_iff_exists.1 hk'
  rw [hx]
  rw [List.append_assoc, List.append_assoc]
  refine run_zaid_digits hu hv ht ?_
  rw [he, ← hx]; simp

/-- Splitting a list of words. -/
theorem finditer_words (r : Re) (ht : Tok r) (hf : r.free = true) (hs : NoSp r) (w : Str) (ws : List Str)
    (hw : Words (w :: ws)) (hfull : ∀ v ∈ w :: ws, Full r v) : finditer r (w ++ enc ws) = w :: ws := by
  -- from any position, with any sufficient fuel
  have hit : ∀ (ws : List Str) (w : Str), Words (w :: ws) → (∀ v ∈ w :: ws, Full r v) → ∀ (prev : Str) (n : Nat),
      (w ++ enc ws).length ≤ n →
      (finditerAux r n prev (w ++ enc ws)).filterMap (fun | .inl _ => none | .inr (t, _) => some t) = w :: ws := by
    intro ws
    induction ws with
    | nil =>
      intro w hw hfull prev n hn
      have hne := (hw w (by simp)).2
      obtain ⟨c, t, rfl⟩ : ∃ c t, w = c :: t := by
        cases w with
        | nil => exact absurd rfl hne
        | cons c t => exact ⟨c, t, rfl⟩
      cases n with
      | zero => simp at hn
      | succ n =>
        obtain ⟨e, he⟩ := ht (c :: t) (hfull _ (by simp)) (enc []) (enc_bnd []) prev [] (findK (c :: t ++ enc []).length)
          (by intro e; simp [findK])
        rw [findK_ok (by simp)] at he
        rw [List.cons_append] at he ⊢
        rw [finditerAux]
        unfold findK at he
        rw [he]
        simp only [List.filterMap_cons, enc_nil, List.append_nil]
        have : finditerAux r n ((c :: t).reverse ++ prev) [] = [] := by cases n <;> rfl
        rw [this]; simp
    | cons v vs ih =>
      intro w hw hfull prev n hn
      have hne := (hw w (by simp)).2
      obtain ⟨c, t, rfl⟩ : ∃ c t, w = c :: t := by
        cases w with
        | nil => exact absurd rfl hne
        | cons c t => exact ⟨c, t, rfl⟩
      cases n with
      | zero => simp at hn
      | succ n =>
        obtain ⟨e, he⟩ := ht (c :: t) (hfull _ (by simp)) (enc (v :: vs)) (enc_bnd _) prev [] (findK (c :: t ++ enc (v :: vs)).length)
          (by intro e; simp [findK]; omega)
        rw [findK_ok (by simp; omega)] at he
        rw [List.cons_append] at he ⊢
        rw [finditerAux]
        unfold findK at he
        rw [he]
        simp only [List.filterMap_cons]
        have htake : (c :: (t ++ enc (v :: vs))).take ((c :: (t ++ enc (v :: vs))).length - (enc (v :: vs)).length) = c :: t := by
          have := take_consumed (c :: t) (enc (v :: vs))
          exact this
        rw [htake]
        congr 1
        cases n with
        | zero => simp at hn
        | succ n =>
          rw [enc_cons, finditerAux]
          have : run r ⟨(c :: t).reverse ++ prev, ' ' :: (v ++ enc vs), []⟩
              (fun st => if st.rest.length < (' ' :: (v ++ enc vs)).length then some st else none) = none := by
            apply run_none
            intro st' hst
            obtain ⟨u, e', h1, h2, h3, h4⟩ := hst.mt hf
            cases u with
            | nil =>
              simp only [List.nil_append] at h2
              rw [← h2]; simp
            | cons a u =>
              simp only [List.cons_append, List.cons.injEq] at h2
              have := hs _ _ h1 a (by simp)
              rw [← h2.1] at this
              exact absurd this (by decide)
          rw [this]
          simp only [List.filterMap_cons]
          refine ih v hw.tail (fun x hx => hfull x (by simp [hx])) _ n ?_
          simp only [enc_cons, List.length_append, List.length_cons] at hn ⊢
          omega
  exact hit ws w hw hfull [] _ (Nat.le_refl _)

end Inp
