import Verif.Inp.FlatLemmas
/-!
# The head of a pattern reads the first word as specified by `readHead`
-/
namespace Inp
open Py Types

/-! ## Inversion of `Mt` -/

theorem mt_cls {p w e} : Mt (.cls p) w e ↔ ∃ c, p c = true ∧ w = [c] ∧ e = [] := by
  constructor
  · intro h; cases h with | cls h => exact ⟨_, h, rfl, rfl⟩
  · rintro ⟨c, h, rfl, rfl⟩; exact .cls h

theorem mt_seq {a b w e} : Mt (.seq a b) w e ↔ ∃ u v x y, Mt a u x ∧ Mt b v y ∧ w = u ++ v ∧ e = y ++ x := by
  constructor
  · intro h; cases h with | seq h1 h2 => exact ⟨_, _, _, _, h1, h2, rfl, rfl⟩
  · rintro ⟨u, v, x, y, h1, h2, rfl, rfl⟩; exact .seq h1 h2

theorem mt_opt {g a w e} : Mt (.opt g a) w e ↔ (w = [] ∧ e = []) ∨ Mt a w e := by
  constructor
  · intro h
    cases h with
    | optNone => exact .inl ⟨rfl, rfl⟩
    | optSome h => exact .inr h
  · rintro (⟨rfl, rfl⟩ | h)
    · exact .optNone
    · exact .optSome h

theorem mt_grp {n a w e} : Mt (.grp n a) w e ↔ ∃ x, Mt a w x ∧ e = (n, w) :: x := by
  constructor
  · intro h; cases h with | grp h => exact ⟨_, h, rfl⟩
  · rintro ⟨x, h, rfl⟩; exact .grp h

theorem mt_eps {w e} : Mt .eps w e ↔ w = [] ∧ e = [] := by
  constructor
  · intro h; cases h; exact ⟨rfl, rfl⟩
  · rintro ⟨rfl, rfl⟩; exact .eps

theorem mt_lit {s w e} : Mt (litRe s) w e ↔ lower w = lower s ∧ e = [] := by
  induction s generalizing w e with
  | nil =>
    rw [litRe, mt_eps]
    simp [lower]
  | cons c s ih =>
    rw [litRe, mt_seq]
    constructor
    · rintro ⟨u, v, x, y, h1, h2, rfl, rfl⟩
      obtain ⟨d, hd, rfl, rfl⟩ := mt_cls.1 h1
      obtain ⟨h3, rfl⟩ := ih.1 h2
      simp only [beq_iff_eq] at hd
      refine ⟨?_, rfl⟩
      simp only [lower, List.singleton_append, List.map_cons] at h3 ⊢
      rw [h3, hd]
    · rintro ⟨h, rfl⟩
      cases w with
      | nil => simp [lower] at h
      | cons d w =>
        simp only [lower, List.map_cons, List.cons.injEq] at h
        exact ⟨[d], w, [], [], mt_cls.2 ⟨d, by simp [h.1], rfl, rfl⟩, ih.2 ⟨h.2, rfl⟩, rfl, rfl⟩

theorem mt_star_cls {g p w e} : Mt (.star g (.cls p)) w e ↔ (∀ c ∈ w, p c = true) ∧ e = [] := by
  constructor
  · intro h
    generalize hr : Re.star g (.cls p) = r at h
    induction h with
    | starNil => exact ⟨(by intro c hc; cases hc), rfl⟩
    | @starCons g' a' u v x y hu h1 h2 _ ih2 =>
      simp only [Re.star.injEq] at hr
      obtain ⟨rfl, rfl⟩ := hr
      obtain ⟨d, hd, rfl, rfl⟩ := mt_cls.1 h1
      obtain ⟨h3, rfl⟩ := ih2 rfl
      refine ⟨?_, rfl⟩
      intro c hc
      rcases List.mem_append.1 hc with hc | hc
      · simp only [List.mem_singleton] at hc; subst hc; exact hd
      · exact h3 c hc
    | _ => cases hr
  · rintro ⟨h, rfl⟩
    induction w with
    | nil => exact .starNil
    | cons c w ih =>
      exact .starCons (u := [c]) (e := []) (f := []) (by simp) (.cls (h c (by simp))) (ih (fun d hd => h d (by simp [hd])))

theorem mt_plus_cls {g p w e} : Mt (Re.plus g (.cls p)) w e ↔ w ≠ [] ∧ (∀ c ∈ w, p c = true) ∧ e = [] := by
  unfold Re.plus
  rw [mt_seq]
  constructor
  · rintro ⟨u, v, x, y, h1, h2, rfl, rfl⟩
    obtain ⟨d, hd, rfl, rfl⟩ := mt_cls.1 h1
    obtain ⟨h3, rfl⟩ := mt_star_cls.1 h2
    refine ⟨by simp, ?_, rfl⟩
    intro c hc
    rcases List.mem_append.1 hc with hc | hc
    · simp only [List.mem_singleton] at hc; subst hc; exact hd
    · exact h3 c hc
  · rintro ⟨hne, h, rfl⟩
    cases w with
    | nil => exact absurd rfl hne
    | cons c w =>
      exact ⟨[c], w, [], [], mt_cls.2 ⟨c, h c (by simp), rfl, rfl⟩,
        mt_star_cls.2 ⟨fun d hd => h d (by simp [hd]), rfl⟩, rfl, rfl⟩

theorem Pat.ng_cat_append (as bs : List Pat) : (Pat.cat (as ++ bs)).ng = (Pat.cat as).ng + (Pat.cat bs).ng := by
  induction as with
  | nil => simp [Pat.cat, Pat.ng]
  | cons a as ih => simp [Pat.cat, Pat.ng, ih]; omega

theorem mt_cat_append (as bs : List Pat) (n w e) : Mt ((Pat.cat (as ++ bs)).re n) w e ↔
    ∃ u v x y, Mt ((Pat.cat as).re n) u x ∧ Mt ((Pat.cat bs).re (n + (Pat.cat as).ng)) v y ∧ w = u ++ v ∧ e = y ++ x := by
  induction as generalizing n w e with
  | nil =>
    constructor
    · intro h; exact ⟨[], w, [], e, .eps, h, rfl, by simp⟩
    · rintro ⟨u, v, x, y, h1, h2, rfl, rfl⟩
      obtain ⟨rfl, rfl⟩ := mt_eps.1 h1
      simpa [Pat.cat, Pat.ng] using h2
  | cons a as ih =>
    simp only [List.cons_append, Pat.cat, Pat.re, mt_seq, ih, Pat.ng]
    constructor
    · rintro ⟨u, v, x, y, h1, ⟨u', v', x', y', h2, h3, rfl, rfl⟩, rfl, rfl⟩
      exact ⟨u ++ u', v', x' ++ x, y', ⟨u, u', x, x', h1, h2, rfl, rfl⟩, by rw [← Nat.add_assoc]; exact h3,
        by simp, by simp⟩
    · rintro ⟨u, v, x, y, ⟨u', v', x', y', h1, h2, rfl, rfl⟩, h3, rfl, rfl⟩
      exact ⟨u', v' ++ v, x', y ++ y', h1, ⟨v', v, y', y, h2, by rw [Nat.add_assoc]; exact h3, rfl, rfl⟩,
        by simp, by simp⟩

theorem run_cat_append {α : Type} (as bs : List Pat) (n : Nat) (st : St) (k : St → Option α) :
    run ((Pat.cat (as ++ bs)).re n) st k =
      run ((Pat.cat as).re n) st (fun st' => run ((Pat.cat bs).re (n + (Pat.cat as).ng)) st' k) := by
  induction as generalizing n st with
  | nil =>
    have h1 : (Pat.cat []).re n = .eps := rfl
    have h2 : (Pat.cat []).ng = 0 := rfl
    rw [h1, run_eps, h2]; rfl
  | cons a as ih =>
    simp only [List.cons_append, Pat.cat, Pat.re, run_seq, ih, Pat.ng]
    congr 1; funext st'
    congr 1; funext st''
    rw [Nat.add_assoc]

/-! ## Captures by number -/

/-- The groups `n, n+1, …` hold `vs`, and there are no others. -/
structure Caps (e : List (Nat × Str)) (n : Nat) (vs : List (Option Str)) : Prop where
  get : ∀ i v, vs[i]? = some v → e.lookup (n + i) = v
  keys : ∀ x ∈ e, n ≤ x.1 ∧ x.1 < n + vs.length

theorem lookup_none {e : List (Nat × Str)} {i : Nat} (h : ∀ x ∈ e, x.1 ≠ i) : e.lookup i = none := by
  induction e with
  | nil => rfl
  | cons x e ih =>
    have h1 : (i == x.1) = false := by
      have := h x (by simp)
      simp; omega
    rw [List.lookup, h1]
    exact ih (fun y hy => h y (by simp [hy]))

theorem lookup_append (a b : List (Nat × Str)) (i : Nat) : (a ++ b).lookup i = (a.lookup i).or (b.lookup i) := by
  induction a with
  | nil => rfl
  | cons x a ih =>
    simp only [List.cons_append, List.lookup]
    cases i == x.1 with
    | true => rfl
    | false => exact ih

theorem Caps.nil (n : Nat) : Caps [] n [] := ⟨by simp, by simp⟩
theorem Caps.one (n : Nat) (w : Str) : Caps [(n, w)] n [some w] := by
  refine ⟨?_, by simp⟩
  intro i v hv
  cases i with
  | zero => simp only [List.getElem?_cons_zero, Option.some.injEq] at hv; subst hv; simp
  | succ i => simp at hv
theorem Caps.skip (n : Nat) : Caps [] n [none] := by
  refine ⟨?_, by simp⟩
  intro i v hv
  cases i with
  | zero => simp only [List.getElem?_cons_zero, Option.some.injEq] at hv; subst hv; rfl
  | succ i => simp at hv

theorem Caps.append {e f n vs us} (h1 : Caps e n vs) (h2 : Caps f (n + vs.length) us) : Caps (f ++ e) n (vs ++ us) := by
  refine ⟨?_, ?_⟩
  · intro i v hv
    rw [lookup_append]
    by_cases hi : i < vs.length
    · rw [List.getElem?_append_left hi] at hv
      rw [lookup_none (e := f) (by intro x hx; have := h2.keys x hx; omega), Option.none_or]
      exact h1.get i v hv
    · have hi : vs.length ≤ i := by omega
      rw [List.getElem?_append_right hi] at hv
      have := h2.get _ _ hv
      have hn : n + vs.length + (i - vs.length) = n + i := by omega
      rw [hn] at this
      rw [this, lookup_none (e := e) (by intro x hx; have := h1.keys x hx; omega), Option.or_none]
  · intro x hx
    simp only [List.length_append]
    rcases List.mem_append.1 hx with h | h
    · have := h2.keys x h; omega
    · have := h1.keys x h; omega

/-! ## The parts of the head -/

theorem lower_eq_char {x c : Char} (hc : c ∈ ['*', '+', ':']) : lowerC x = lowerC c ↔ x = c := by
  constructor
  · intro h
    have h1 : lowerC c = c := by
      simp only [List.mem_cons, List.not_mem_nil, or_false] at hc
      rcases hc with rfl | rfl | rfl <;> decide
    rw [h1] at h
    unfold lowerC at h
    split at h
    · rename_i hb
      exfalso
      have h5 : 65 ≤ x.toNat ∧ x.toNat ≤ 90 := by
        simp only [Bool.and_eq_true, decide_eq_true_eq, Char.le_def, UInt32.le_iff_toNat_le] at hb
        exact hb
      have : ∀ n : Fin 123, 65 ≤ n.1 ∧ n.1 ≤ 90 → ∀ c ∈ ['*', '+', ':'], Char.ofNat (n.1 + 32) ≠ c := by decide +kernel
      exact this ⟨x.toNat, by omega⟩ h5 c hc h
    · exact h
  · rintro rfl; rfl

/-- The keyword does not start with a prefix character. -/
def Head.ok (h : Head) : Bool :=
  match h.kw with
  | [] => false
  | c :: _ => c != '*' && c != '+' && h.kw.all (fun c => !isSpace c)

/-- Word classes of the head pieces. -/
theorem Pre.ng_len (p : Pre) (s : Str) : (readPre p s).1.length = (Pat.cat p.pats).ng := by
  unfold readPre
  cases p with
  | no => rfl
  | _ => cases s with
    | nil => rfl
    | cons c t => simp only [reduceCtorEq, if_false]; split <;> rfl

theorem pre_test {p : Pre} (hp : p ≠ .no) : ∃ C : CC, (Pat.cat p.pats) = .seq (.opt (.grp (.cls C))) (.lits []) ∧
    ∀ c, C.test c = true ↔ c ∈ p.chars := by
  have h := fun x : Char => @lower_eq_char x '*' (by decide)
  have h' := fun x : Char => @lower_eq_char x '+' (by decide)
  cases p with
  | no => exact absurd rfl hp
  | star => exact ⟨_, rfl, by intro c; simp [CC.test, CI.test, Pre.chars, h]⟩
  | starPlus => exact ⟨_, rfl, by intro c; simp [CC.test, CI.test, Pre.chars, h, h']⟩
  | plusStar => exact ⟨_, rfl, by intro c; simp [CC.test, CI.test, Pre.chars, h, h']⟩

theorem Pre.chars_mem {p : Pre} {c : Char} (h : c ∈ p.chars) : c = '*' ∨ c = '+' := by
  cases p <;> simp [Pre.chars] at h
  · exact .inl h
  · exact h
  · exact h.symm

theorem pre_mt {p : Pre} {n w e} (h : Mt ((Pat.cat p.pats).re n) w e) :
    ∃ vs, Caps e n vs ∧ ∀ t : Str, (∀ c ∈ t.head?, c ≠ '*' ∧ c ≠ '+') → t ≠ [] → readPre p (w ++ t) = (vs, t) := by
  by_cases hp : p = .no
  · subst hp
    obtain ⟨rfl, rfl⟩ := mt_eps.1 h
    exact ⟨[], .nil n, fun t _ _ => rfl⟩
  · obtain ⟨C, hC, ht⟩ := pre_test hp
    rw [hC] at h
    simp only [Pat.re, mt_seq, mt_opt, mt_grp, mt_cls, litRe, mt_eps] at h
    obtain ⟨u, v, x, y, h1, ⟨rfl, rfl⟩, rfl, rfl⟩ := h
    rcases h1 with ⟨rfl, rfl⟩ | ⟨_, ⟨c, hc, rfl, rfl⟩, rfl⟩
    · refine ⟨[none], .skip n, ?_⟩
      intro t h1 h2
      cases t with
      | nil => exact absurd rfl h2
      | cons c t =>
        have h3 := h1 c (by simp)
        have h4 : c ∉ p.chars := by
          intro hm
          rcases Pre.chars_mem hm with rfl | rfl
          · exact h3.1 rfl
          · exact h3.2 rfl
        simp [readPre, hp, h4]
    · refine ⟨[some [c]], .one n _, ?_⟩
      intro t _ _
      simp [readPre, hp, (ht c).1 hc]

theorem pre_full {p : Pre} {s vs t} (h : readPre p s = (vs, t)) (n : Nat) :
    ∃ w, s = w ++ t ∧ Full ((Pat.cat p.pats).re n) w := by
  by_cases hp : p = .no
  · subst hp
    simp only [readPre, if_true, Prod.mk.injEq] at h
    exact ⟨[], by simp [h.2], [], .eps⟩
  · obtain ⟨C, hC, ht⟩ := pre_test hp
    rw [hC]
    have full : ∀ w, (w = [] ∨ ∃ c ∈ p.chars, w = [c]) → Full ((Pat.seq (.opt (.grp (.cls C))) (.lits [])).re n) w := by
      intro w hw
      rcases hw with rfl | ⟨c, hc, rfl⟩
      · exact ⟨[], .seq (e := []) (f := []) .optNone .eps⟩
      · exact ⟨_, .seq (u := [c]) (v := []) (.optSome (.grp (.cls ((ht c).2 hc)))) .eps⟩
    unfold readPre at h
    rw [if_neg hp] at h
    cases s with
    | nil =>
      simp only [Prod.mk.injEq] at h
      exact ⟨[], by simp [h.2.symm], full _ (.inl rfl)⟩
    | cons c r =>
      simp only at h
      split at h
      · rename_i hc
        simp only [Prod.mk.injEq] at h
        exact ⟨[c], by simp [h.2], full _ (.inr ⟨c, hc, rfl⟩)⟩
      · simp only [Prod.mk.injEq] at h
        exact ⟨[], by simp [h.2.symm], full _ (.inl rfl)⟩

theorem takeWhile_digits {w t : Str} (hw : ∀ c ∈ w, isDigit c = true) (ht : ∀ c ∈ t.head?, isDigit c = false) :
    (w ++ t).takeWhile isDigit = w ∧ (w ++ t).dropWhile isDigit = t := by
  induction w with
  | nil =>
    cases t with
    | nil => exact ⟨rfl, rfl⟩
    | cons c t => simp [ht c (by simp)]
  | cons c w ih =>
    have := ih (fun d hd => hw d (by simp [hd]))
    simp [hw c (by simp), this.1, this.2]

theorem one_digit {c : Char} : CC.test (.one .d) c = isDigit c := rfl
theorem one_S {c : Char} : CC.test (.one .S) c = !isSpace c := rfl

theorem suf_mt {f : Suf} {n w e} (h : Mt ((Pat.cat f.pats).re n) w e) :
    ∃ vs, Caps e n vs ∧ vs.length = (Pat.cat f.pats).ng ∧
      ∀ t : Str, (∀ c ∈ t.head?, isDigit c = false) → readSuf f (w ++ t) = some (vs, t) := by
  cases f with
  | no =>
    obtain ⟨rfl, rfl⟩ := mt_eps.1 h
    exact ⟨[], .nil n, rfl, fun t _ => rfl⟩
  | req =>
    simp only [Suf.pats, Pat.cat, Pat.re, mt_seq, mt_grp, mt_plus_cls, litRe, mt_eps, one_digit] at h
    obtain ⟨u, v, x, y, ⟨_, ⟨hne, hd, rfl⟩, rfl⟩, ⟨rfl, rfl⟩, rfl, rfl⟩ := h
    refine ⟨[some u], .one n u, rfl, ?_⟩
    intro t ht
    obtain ⟨h1, h2⟩ := takeWhile_digits hd ht
    simp [readSuf, h1, h2, hne]
  | opt =>
    simp only [Suf.pats, Pat.cat, Pat.re, mt_seq, mt_opt, mt_grp, mt_plus_cls, litRe, mt_eps, one_digit] at h
    obtain ⟨u, v, x, y, h1, ⟨rfl, rfl⟩, rfl, rfl⟩ := h
    rcases h1 with ⟨rfl, rfl⟩ | ⟨_, ⟨hne, hd, rfl⟩, rfl⟩
    · refine ⟨[none], .skip n, rfl, ?_⟩
      intro t ht
      obtain ⟨h1, h2⟩ := takeWhile_digits (w := []) (by simp) ht
      simp only [List.nil_append] at h1 h2
      simp [readSuf, h1, h2]
    · refine ⟨[some u], .one n u, rfl, ?_⟩
      intro t ht
      obtain ⟨h1, h2⟩ := takeWhile_digits hd ht
      simp [readSuf, h1, h2, hne]

theorem suf_full {f : Suf} {s vs t} (h : readSuf f s = some (vs, t)) (n : Nat) :
    ∃ w, s = w ++ t ∧ Full ((Pat.cat f.pats).re n) w := by
  have hd : ∀ c ∈ s.takeWhile isDigit, isDigit c = true := fun c hc => by
    have := List.all_takeWhile (p := isDigit) (l := s)
    exact List.all_eq_true.1 this c hc
  cases f with
  | no =>
    simp only [readSuf, Option.some.injEq, Prod.mk.injEq] at h
    exact ⟨[], by simp [h.2], [], .eps⟩
  | req =>
    simp only [readSuf] at h
    split at h
    · cases h
    · rename_i hne
      simp only [Option.some.injEq, Prod.mk.injEq] at h
      refine ⟨s.takeWhile isDigit, by rw [← h.2, List.takeWhile_append_dropWhile], ?_⟩
      simp only [Full, Suf.pats, Pat.cat, Pat.re, mt_seq, mt_grp, mt_plus_cls, litRe, mt_eps, one_digit]
      exact ⟨_, _, [], _, [], ⟨[], ⟨hne, hd, rfl⟩, rfl⟩, ⟨rfl, rfl⟩, by simp, rfl⟩
  | opt =>
    simp only [readSuf, Option.some.injEq, Prod.mk.injEq] at h
    refine ⟨s.takeWhile isDigit, by rw [← h.2, List.takeWhile_append_dropWhile], ?_⟩
    simp only [Full, Suf.pats, Pat.cat, Pat.re, mt_seq, mt_opt, mt_grp, mt_plus_cls, litRe, mt_eps, one_digit]
    by_cases hne : s.takeWhile isDigit = []
    · exact ⟨_, _, [], _, [], .inl ⟨rfl, rfl⟩, ⟨rfl, rfl⟩, by simp [hne], rfl⟩
    · exact ⟨_, _, [], _, [], .inr ⟨[], ⟨hne, hd, rfl⟩, rfl⟩, ⟨rfl, rfl⟩, by simp, rfl⟩

theorem lower_colon {w : Str} (h : lower w = lower c!":") : w = [':'] := by
  cases w with
  | nil => simp [lower] at h
  | cons a w =>
    cases w with
    | nil =>
      simp only [lower, List.map_cons, List.map_nil, List.cons.injEq, and_true] at h
      rw [(lower_eq_char (by decide)).1 h]
    | cons b w => simp [lower] at h

theorem des_mt {d : Des} {n w e} (h : Mt ((Pat.cat d.pats).re n) w e) :
    ∃ vs, Caps e n vs ∧ readDes d w = some vs ∧ ∀ c ∈ w.head?, isDigit c = false := by
  cases d with
  | no =>
    obtain ⟨rfl, rfl⟩ := mt_eps.1 h
    exact ⟨[], .nil n, rfl, by simp⟩
  | req =>
    simp only [Des.pats, Pat.cat, Pat.re, Pat.ng, mt_seq, mt_grp, mt_plus_cls, mt_lit, Nat.add_zero] at h
    obtain ⟨u, v, x, y, ⟨hu, rfl⟩, ⟨u', v', x', y', ⟨_, ⟨hne, hd, rfl⟩, rfl⟩, ⟨hv', rfl⟩, rfl, rfl⟩, rfl, rfl⟩ := h
    have := lower_colon hu; subst this
    have : v' = [] := by simpa [lower] using hv'
    subst this
    cases u' with
    | nil => exact absurd rfl hne
    | cons c u' =>
      refine ⟨[some (c :: u')], by simpa using Caps.one n (c :: u'), by simp [readDes], ?_⟩
      intro a ha
      simp at ha; subst ha; decide
  | opt =>
    simp only [Des.pats, Pat.cat, Pat.re, Pat.ng, mt_seq, mt_opt, mt_grp, mt_plus_cls, mt_lit, Nat.add_zero] at h
    obtain ⟨u, v, x, y, h1, ⟨hv, rfl⟩, rfl, rfl⟩ := h
    have : v = [] := by simpa [lower] using hv
    subst this
    rcases h1 with ⟨rfl, rfl⟩ | ⟨u, u', x', y', ⟨hu, rfl⟩, ⟨_, ⟨hne, hd, rfl⟩, rfl⟩, rfl, rfl⟩
    · exact ⟨[none], .skip n, rfl, by simp⟩
    · have := lower_colon hu; subst this
      cases u' with
      | nil => exact absurd rfl hne
      | cons c u' =>
        refine ⟨[some (c :: u')], by simpa using Caps.one n (c :: u'), by simp [readDes], ?_⟩
        intro a ha
        simp at ha; subst ha; decide

theorem des_full {d : Des} {s vs} (h : readDes d s = some vs) (hs : ∀ c ∈ s, isSpace c = false) (n : Nat) :
    Full ((Pat.cat d.pats).re n) s := by
  unfold readDes at h
  split at h
  · exact ⟨[], .eps⟩
  · exact ⟨[], .seq (u := []) (v := []) (e := []) (f := []) .optNone .eps⟩
  · simp only [Full, Des.pats, Pat.cat, Pat.re, Pat.ng, mt_seq, mt_grp, mt_plus_cls, mt_lit, Nat.add_zero]
    rename_i c t
    refine ⟨_, [':'], c :: t, [], _, ⟨rfl, rfl⟩, ⟨c :: t, [], _, [], ⟨[], ⟨by simp, ?_, rfl⟩, rfl⟩, ⟨rfl, rfl⟩, by simp, rfl⟩, rfl, rfl⟩
    intro a ha
    rw [one_S, hs a (by simp only [List.mem_cons] at ha ⊢; exact .inr ha)]; rfl
  · simp only [Full, Des.pats, Pat.cat, Pat.re, Pat.ng, mt_seq, mt_opt, mt_grp, mt_plus_cls, mt_lit, Nat.add_zero]
    rename_i c t
    refine ⟨_, ':' :: c :: t, [], _, [], .inr ⟨[':'], c :: t, [], _, ⟨rfl, rfl⟩, ⟨[], ⟨by simp, ?_, rfl⟩, rfl⟩, rfl, rfl⟩, ⟨rfl, rfl⟩, by simp, rfl⟩
    intro a ha
    rw [one_S, hs a (by simp only [List.mem_cons] at ha ⊢; exact .inr ha)]; rfl
  · cases h

/-! ## The whole head -/

/-- The pattern of the head, groups from `n`. -/
def headRe (h : Head) (n : Nat) : Re := (Pat.cat h.pats).re n

/-- Number of groups of the head. -/
def Head.ng (h : Head) : Nat := (Pat.cat h.pats).ng

theorem lower_length {a b : Str} (h : lower a = lower b) : a.length = b.length := by
  have := congrArg List.length h
  simpa [lower] using this

theorem kw_head {h : Head} (hok : h.ok = true) {w : Str} (hw : lower w = lower h.kw) (t : Str) :
    (∀ c ∈ (w ++ t).head?, c ≠ '*' ∧ c ≠ '+') ∧ w ++ t ≠ [] := by
  unfold Head.ok at hok
  split at hok
  · cases hok
  · rename_i c r hk
    rw [hk] at hw
    cases w with
    | nil => simp [lower] at hw
    | cons x w =>
      simp only [lower, List.map_cons, List.cons.injEq] at hw
      refine ⟨?_, by simp⟩
      intro y hy
      simp at hy; subst hy
      simp only [Bool.and_eq_true, bne_iff_ne, ne_eq] at hok
      constructor
      · rintro rfl; exact hok.1.1 ((lower_eq_char (by decide)).1 hw.1.symm)
      · rintro rfl; exact hok.1.2 ((lower_eq_char (by decide)).1 hw.1.symm)

theorem head_mt {h : Head} (hok : h.ok = true) {n w e} (hm : Mt (headRe h n) w e) :
    ∃ vs, Caps e n vs ∧ vs.length = h.ng ∧ readHead h w = some vs := by
  unfold headRe Head.pats at hm
  rw [mt_cat_append] at hm
  obtain ⟨u, v, x, y, h1, h2, rfl, rfl⟩ := hm
  simp only [Pat.cat, Pat.re, mt_seq, mt_lit] at h2
  obtain ⟨a, b, x', y', ⟨hk, rfl⟩, h3, rfl, rfl⟩ := h2
  rw [mt_cat_append] at h3
  obtain ⟨c, d, x', y', h4, h5, rfl, rfl⟩ := h3
  obtain ⟨vp, p1, p2⟩ := pre_mt h1
  obtain ⟨vs, s1, s2, s3⟩ := suf_mt h4
  obtain ⟨vd, d1, d2, d3⟩ := des_mt h5
  obtain ⟨k1, k2⟩ := kw_head hok hk (c ++ d)
  have hp := p2 _ k1 k2
  have lp : vp.length = (Pat.cat h.pre.pats).ng := by
    have := Pre.ng_len h.pre (u ++ (a ++ (c ++ d)))
    rw [hp] at this; exact this
  have ld : vd.length = (Pat.cat h.des.pats).ng := by
    unfold readDes at d2
    split at d2 <;> cases d2 <;> simp_all [Des.pats, Pat.cat, Pat.ng]
  refine ⟨vp ++ vs ++ vd, ?_, ?_, ?_⟩
  · have e1 : Caps (x' ++ x) n (vp ++ vs) := p1.append (by simpa [lp, Pat.ng] using s1)
    have e2 := e1.append (f := y') (us := vd) (by
      rw [List.length_append, lp, s2]
      simpa [Pat.ng, Nat.add_assoc] using d1)
    simpa using e2
  · simp only [List.length_append, lp, s2, ld, Head.ng, Head.pats, Pat.ng_cat_append, Pat.cat, Pat.ng]
    omega
  · unfold readHead
    rw [hp]
    have hl := lower_length hk
    have hkw : readKw h.kw (a ++ (c ++ d)) = some (c ++ d) := by
      unfold readKw
      rw [← hl, List.take_left, List.drop_left, if_pos hk]
    simp only [hkw, s3 d d3, d2, Option.map_some]

theorem head_full {h : Head} {s vs} (hr : readHead h s = some vs) (hs : ∀ c ∈ s, isSpace c = false) (n : Nat) :
    Full (headRe h n) s := by
  unfold readHead at hr
  split at hr
  · cases hr
  · rename_i t hk
    split at hr
    · cases hr
    · rename_i x u hf
      obtain ⟨d, hd, rfl⟩ := Option.map_eq_some_iff.1 hr
      obtain ⟨w1, e1, ⟨c1, f1⟩⟩ := pre_full (p := h.pre) (s := s) (vs := (readPre h.pre s).1) (t := (readPre h.pre s).2) rfl n
      unfold readKw at hk
      split at hk
      · rename_i hkw
        simp only [Option.some.injEq] at hk
        obtain ⟨w3, e3, ⟨c3, f3⟩⟩ := suf_full hf (n + (Pat.cat h.pre.pats).ng + 0)
        have hsu : ∀ c ∈ u, isSpace c = false := by
          intro c hc
          apply hs
          rw [e1]
          apply List.mem_append_right
          apply List.mem_of_mem_drop (i := h.kw.length)
          rw [hk, e3]
          exact List.mem_append_right _ hc
        obtain ⟨c4, f4⟩ := des_full hd hsu (n + (Pat.cat h.pre.pats).ng + 0 + (Pat.cat h.suf.pats).ng)
        unfold headRe Head.pats Full
        simp only [mt_cat_append, Pat.cat, Pat.re, mt_seq, mt_lit, Pat.ng]
        refine ⟨_, w1, _, c1, _, f1, ⟨(readPre h.pre s).2.take h.kw.length, _, [], _, ⟨hkw, rfl⟩, ⟨w3, u, c3, c4, f3, f4, rfl, rfl⟩, rfl, rfl⟩, ?_, rfl⟩
        rw [← e3, ← hk, List.take_append_drop]
        exact e1
      · cases hk

theorem Head.word {h : Head} (hok : h.ok = true) : (Pat.cat h.pats).word = true := by
  have hk : h.kw.all (fun c => !isSpace c) = true := by
    unfold Head.ok at hok
    split at hok
    · cases hok
    · simp only [Bool.and_eq_true] at hok; exact hok.2
  have cat : ∀ as bs : List Pat, (Pat.cat (as ++ bs)).word = ((Pat.cat as).word && (Pat.cat bs).word) := by
    intro as bs
    induction as with
    | nil => simp [Pat.cat, Pat.word]
    | cons a as ih => simp only [List.cons_append, Pat.cat, Pat.word, ih, Bool.and_assoc]
  unfold Head.pats
  rw [cat]
  simp only [Pat.cat, Pat.word, hk, cat, Bool.true_and]
  have h1 : (Pat.cat h.pre.pats).word = true := by
    cases h.pre <;> decide +kernel
  have h2 : (Pat.cat h.suf.pats).word = true := by
    cases h.suf <;> decide +kernel
  have h3 : (Pat.cat h.des.pats).word = true := by
    cases h.des <;> decide +kernel
  rw [h1, h2, h3]; rfl

end Inp
