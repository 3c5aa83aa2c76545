import Verif.Py.Caps
import Verif.Props.PtracEvent
import Verif.Ptrac.Header
import Verif.Inp.TokLemmas
/-! Helper lemmas: which exceptions reading PTRAC text can raise. -/
namespace Ptrac
open Py Types

/-- Every exception satisfies `P`. -/
def Out {α : Type} (P : Err → Prop) (r : Res α) : Prop := ∀ e, r = .error e → P e

theorem Out.ok {α : Type} {P : Err → Prop} (a : α) : Out P (.ok a : Res α) := by intro e h; cases h

theorem Out.err {α : Type} {P : Err → Prop} {e : Err} (h : P e) : Out P (.error e : Res α) := by intro e' h'; cases h'; exact h

theorem Out.bind {α β : Type} {P : Err → Prop} {x : Res α} {f : α → Res β} (hx : Out P x) (hf : ∀ a, x = .ok a → Out P (f a)) :
    Out P (x.bind f) := by
  cases x with
  | ok a => exact hf a rfl
  | error e => exact .err (hx e rfl)

theorem Out.mono {α : Type} {P Q : Err → Prop} {r : Res α} (h : Out P r) (hpq : ∀ e, P e → Q e) : Out Q r :=
  fun e he => hpq e (h e he)

theorem Out.map {α β : Type} {P : Err → Prop} {f : α → β} {x : Res α} (hx : Out P x) : Out P (x.map f) := by
  cases x with
  | ok a => exact .ok _
  | error e => exact .err (hx e rfl)

/-- The number is infinite or not a number. -/
def Special (t : Str) : Prop := ∃ d, realParse t = .ok (.num d) ∧ ∀ f, d ≠ .fin f

theorem out_real {t : Str} (h : t ≠ []) : Out (· = .types) (realParse t) := by
  rcases Props.C05_real_errors_partial t h with ⟨v, hv⟩ | hv <;> rw [hv]
  · exact .ok _
  · exact .err rfl

theorem out_int {t : Str} (h : t ≠ []) : Out (fun e => e = .types ∨ (e = .overflow ∨ e = .value) ∧ Special t) (intParse t) := by
  rcases Props.C05_integer_errors_partial t h with ⟨v, hv⟩ | hv | ⟨hv | hv, hd⟩ <;> rw [hv]
  · exact .ok _
  · exact .err (.inl rfl)
  · exact .err (.inr ⟨.inl rfl, hd⟩)
  · exact .err (.inr ⟨.inr rfl, hd⟩)

/-! ### Infinities and not-a-numbers have a letter `n` -/

theorem finditerAux_left {r : Re} : ∀ k prev (s : Str), ∀ x ∈ finditerAux r k prev s, ∀ t, x = .inl t → t <:+: s
  | 0, _, _, x, hx => by simp [finditerAux] at hx
  | k + 1, _, [], x, hx => by simp [finditerAux] at hx
  | k + 1, prev, a :: s, x, hx => by
    intro t ht
    rw [finditerAux] at hx
    split at hx
    · rename_i st hst
      obtain ⟨st', h1, h2⟩ := (run_spec r _ _).2 _ hst
      split at h2
      · cases h2
        rcases List.mem_cons.1 hx with rfl | hx
        · cases ht
        · exact (finditerAux_left k _ _ x hx t ht).trans h1.suffix.isInfix
      · cases h2
    · rcases List.mem_cons.1 hx with rfl | hx
      · cases ht; exact ⟨[], s, rfl⟩
      · exact (finditerAux_left k _ _ x hx t ht).trans (List.suffix_cons _ _).isInfix

theorem reSub_mem {r : Re} {f : Str → List (Nat × Str) → Str} {s : Str} {ch : Char} (h : ch ∈ reSub r f s) :
    ch ∈ s ∨ ∃ t c, t <:+: s ∧ (∀ y ∈ c, y.2 <:+: s) ∧ ch ∈ f t c := by
  unfold reSub at h
  obtain ⟨x, hx, h⟩ := List.mem_flatMap.1 h
  split at h
  · exact .inl ((finditerAux_left _ _ _ _ hx _ rfl).subset h)
  · rename_i t c
    obtain ⟨a, -, b⟩ := finditerAux_infix _ _ _ _ hx _ _ rfl
    exact .inr ⟨t, c, a, b, h⟩

theorem strip_mem {s : Str} {c : Char} (h : c ∈ strip s) : c ∈ s := by
  unfold strip rstrip lstrip at h
  have h1 := (List.dropWhile_suffix _).subset (List.mem_reverse.1 h)
  exact (List.dropWhile_suffix _).subset (List.mem_reverse.1 h1)

/-- A letter that no step adds. -/
theorem numText_mem {s t : Str} (h : numText s = .ok t) {c : Char} (hc : c ∈ t) (h1 : c ≠ '1') (he : c ≠ 'e') : c ∈ s := by
  unfold numText at h
  have step : c ∈ reSub (.cls (fun c => c == 'd' || c == 'D')) (fun _ _ => ['e']) (reSub bareExpRe bareExpRepl s) := by
    revert h
    simp only
    split
    · intro h; cases h
    · rename_i d ds hd
      rw [hd]
      intro h
      cases h
      split at hc
      · rcases List.mem_cons.1 hc with hc | hc
        · exact absurd hc h1
        · exact hc
      · exact hc
  rcases reSub_mem step with h2 | ⟨_, _, _, _, h2⟩
  · rcases reSub_mem h2 with h3 | ⟨_, m, _, hm, h3⟩
    · exact h3
    · have hcap : ∀ n, c ∈ (cap m n).getD [] → c ∈ s := by
        intro n hn
        cases hx : cap m n with
        | none => rw [hx] at hn; cases hn
        | some u => rw [hx] at hn; exact (hm _ (cap_mem hx)).subset hn
      simp only [bareExpRepl, List.mem_append, List.mem_singleton] at h3
      rcases h3 with ((h3 | h3) | h3) | h3
      · exact hcap 1 h3
      · exact absurd h3 he
      · exact hcap 2 h3
      · exact hcap 3 h3
  · exact absurd (List.mem_singleton.1 h2) he

theorem lower_mem {s : Str} {c : Char} (h : c ∈ lower s) : ∃ d ∈ s, lowerC d = c := by
  unfold lower at h
  exact List.mem_map.1 h

theorem special_n {t : Str} (h : Special t) : ∃ c ∈ t, lowerC c = 'n' := by
  obtain ⟨d, hd, hf⟩ := h
  unfold realParse at hd
  split at hd
  · cases hd
  · split at hd
    · cases hd
    · rename_i u hu
      split at hd
      · cases hd
      · rename_i v hv
        cases hd
        unfold decParse at hv
        simp only at hv
        have hn : ∀ b s, numParse b s = none ∨ ∃ f, numParse b s = some (.fin f) := by
          intro b s
          unfold numParse numBuild
          split
          · exact .inl rfl
          · split
            · exact .inl rfl
            · exact .inr ⟨_, rfl⟩
        rcases hn (takeSign ((strip u).filter (· ≠ '_'))).1 (takeSign ((strip u).filter (· ≠ '_'))).2 with h | ⟨f, h⟩
        · rw [h, Option.none_or] at hv
          have hl : 'n' ∈ lower (takeSign ((strip u).filter (· ≠ '_'))).2 := by
            unfold specialParse at hv
            simp only at hv
            split at hv
            · rename_i hx
              rcases hx with hx | hx <;> rw [hx] <;> decide
            · split at hv
              · rename_i hx
                exact (List.take_subset 3 _) (by rw [hx.1]; decide)
              · split at hv
                · rename_i hx
                  exact (List.take_subset 4 _) (by rw [hx.1]; decide)
                · cases hv
          obtain ⟨c, hc, hcl⟩ := lower_mem hl
          have hs : ∀ s : Str, ∀ c ∈ (takeSign s).2, c ∈ s := by
            intro s c hc
            unfold takeSign at hc
            split at hc
            · exact List.mem_cons_of_mem _ hc
            · exact List.mem_cons_of_mem _ hc
            · exact hc
          have hu' := strip_mem (List.mem_filter.1 (hs _ c hc)).1
          refine ⟨c, numText_mem hu hu' ?_ ?_, hcl⟩ <;> rintro rfl <;> revert hcl <;> decide
        · rw [h] at hv
          cases hv
          exact absurd rfl (hf f)
  · cases hd

/-- No part of the number pattern has a letter `n`. -/
theorem num_not_special {s t : Str} (h : t ∈ finditer Inp.numRe s) : ¬ Special t := by
  intro hs
  obtain ⟨c, hc, hn⟩ := special_n hs
  have hlow : ∀ v : Str, lower t = lower v → 'n' ∈ lower v := by
    intro v hv
    rw [← hv, ← hn]
    exact List.mem_map.2 ⟨c, hc, rfl⟩
  have htail : ∀ x : Char, Inp.numTail x = true → lowerC x ≠ 'n' := by
    intro x hx
    have : ∀ x ∈ c!"-+0123456789.eEdD", lowerC x ≠ 'n' := by decide +kernel
    exact this x (Inp.numTail_mem hx)
  cases Inp.full_num.1 (finditer_full (by decide) h) with
  | lit x _ hx h =>
    have h1 := hlow _ h
    have : ∀ x ∈ c!"jir", 'n' ∉ lower [x] := by decide
    exact this x hx h1
  | log _ h => exact absurd (hlow _ h) (by decide)
  | ilog _ h => exact absurd (hlow _ h) (by decide)
  | mul ds l hd hl =>
    rcases List.mem_append.1 hc with hc | hc
    · exact htail c (Inp.numHead_tail (Inp.digit_numHead (hd c hc))) hn
    · have : 'n' ∈ lower ['m'] := by rw [← hl, ← hn]; exact List.mem_map.2 ⟨c, hc, rfl⟩
      exact absurd this (by decide)
  | num d u hd hu =>
    rcases List.mem_cons.1 hc with rfl | hc
    · exact htail c (Inp.numHead_tail hd) hn
    · exact htail c (hu c hc) hn

/-- A field of the text: not empty, of width `w`. -/
structure Field (s : Str) (w : Nat) (t : Str) : Prop where
  part : t <:+: s
  width : t.length = w

theorem Field.ne {s t : Str} {w : Nat} (h : Field s w t) (hw : 0 < w) : t ≠ [] := by
  rintro rfl
  have := h.width
  simp at this; omega

/-- The text of a field of a line. -/
theorem tok_field {r : Re} {s : Str} {m} (h : reMatch r s = some m) (n w : Nat) (hn : n ≠ 0) (hm : r.must n = true)
    (hw : r.groupsAll (fun k b => k != n || b.width == some w) = true) : Field s w (tok m n) := by
  obtain ⟨u, hu⟩ := cap_must h hm
  obtain ⟨b, hb, ht⟩ := cap_taken h hw hn hu
  simp only [bne_self_eq_false, Bool.false_or, beq_iff_eq] at hb
  rw [tok_of_cap hu]
  exact ⟨cap_infix h hu, ht.2 w hb⟩

theorem cap_field {r : Re} {s : Str} {m} (h : reMatch r s = some m) (n w : Nat) (hn : n ≠ 0)
    (hw : r.groupsAll (fun k b => k != n || b.width == some w) = true) {u} (hu : cap m n = some u) : Field s w u := by
  obtain ⟨b, hb, ht⟩ := cap_taken h hw hn hu
  simp only [bne_self_eq_false, Bool.false_or, beq_iff_eq] at hb
  exact ⟨cap_infix h hu, ht.2 w hb⟩

theorem tok_infix {r : Re} {s : Str} {m} (h : reMatch r s = some m) (n : Nat) : tok m n <:+: s := by
  unfold tok
  cases hu : cap m n with
  | none => exact (List.nil_prefix).isInfix
  | some u => exact cap_infix h hu

theorem width_rep (w : Nat) : (Re.rep w .dot).width = some w := by
  induction w with
  | zero => rfl
  | succ w ih =>
    have : Re.dot.width = some 1 := rfl
    simp [Re.rep, Re.width, this, ih]; omega

theorem groups_none (n : Nat) (p) : (Re.rep n .dot).groupsAll p = true := by
  induction n with
  | zero => rfl
  | succ n ih =>
    have : Re.dot.groupsAll p = true := rfl
    simp [Re.rep, Re.groupsAll, ih, this]

theorem fields_width (k w n : Nat) (ws : List Nat) (h : ∀ x ∈ ws, x = w) :
    (fieldsRe n ws).groupsAll (fun j b => j != k || b.width == some w) = true := by
  induction ws generalizing n with
  | nil => rfl
  | cons x xs ih =>
    have := h x (by simp)
    subst this
    simp [fieldsRe, Re.groupsAll, width_rep, groups_none, ih (n + 1) (fun y hy => h y (by simp [hy]))]

theorem fields_must (k n : Nat) (ws : List Nat) (h1 : n ≤ k) (h2 : k < n + ws.length) : (fieldsRe n ws).must k = true := by
  induction ws generalizing n with
  | nil => simp at h2; omega
  | cons x xs ih =>
    simp only [fieldsRe, Re.must, Bool.or_eq_true, beq_iff_eq]
    by_cases hk : n = k
    · exact .inl (.inl hk)
    · exact .inr (ih (n + 1) (by omega) (by simp at h2; omega))

theorem line_field {s : Str} {m} {ws : List Nat} {w : Nat} (h : reMatch (lineRe ws) s = some m) (hw : ∀ x ∈ ws, x = w) (n : Nat)
    (h1 : 1 ≤ n) (h2 : n ≤ ws.length) : Field s w (tok m n) := by
  apply tok_field h n w (by omega)
  · simp [lineRe, Re.must, fields_must n 1 ws h1 (by omega)]
  · simp [lineRe, Re.groupsAll, Re.space, fields_width n w 1 ws hw]

/-! ### Numbers -/

theorem out_nums {m : List (Nat × Str)} {s : Str} {w : Nat} (hw : 0 < w) (ts : List NumTy) : ∀ n,
    (∀ k, n ≤ k → k < n + ts.length → Field s w (tok m k)) →
    Out (fun e => e = .types ∨ (e = .overflow ∨ e = .value) ∧ ∃ t, Field s w t ∧ Special t) (readNums m n ts) := by
  induction ts with
  | nil => intro n _; exact .ok _
  | cons t ts ih =>
    intro n h
    have hf := h n (Nat.le_refl _) (by simp)
    refine .bind (x := t.parse (tok m n)) ?_ fun v _ => .bind (x := readNums m (n + 1) ts) (ih _ fun k h1 h2 => h k (by omega) (by simp; omega)) fun _ _ => .ok _
    cases t with
    | int =>
      refine .map ((out_int (hf.ne hw)).mono ?_)
      rintro e (h | ⟨h, h'⟩)
      · exact .inl h
      · exact .inr ⟨h, _, hf, h'⟩
    | real => exact .map ((out_real (hf.ne hw)).mono fun e h => .inl h)

theorem out_reals {m : List (Nat × Str)} {s : Str} {w : Nat} (hw : 0 < w) (c : Nat) : ∀ n,
    (∀ k, n ≤ k → k < n + c → Field s w (tok m k)) → Out (· = .types) (readReals m n c) := by
  induction c with
  | zero => intro n _; exact .ok _
  | succ c ih =>
    intro n h
    exact .bind (x := realParse (tok m n)) (out_real ((h n (Nat.le_refl _) (by omega)).ne hw)) fun v _ =>
      .bind (x := readReals m (n + 1) c) (ih _ fun k h1 h2 => h k (by omega) (by omega)) fun _ _ => .ok _

theorem out_ints {m : List (Nat × Str)} {s : Str} {w : Nat} (hw : 0 < w) (c : Nat) : ∀ n,
    (∀ k, n ≤ k → k < n + c → Field s w (tok m k)) →
    Out (fun e => e = .types ∨ (e = .overflow ∨ e = .value) ∧ ∃ t, Field s w t ∧ Special t) (readInts m n c) := by
  induction c with
  | zero => intro n _; exact .ok _
  | succ c ih =>
    intro n h
    have hf := h n (Nat.le_refl _) (by omega)
    refine .bind (x := intParse (tok m n)) ((out_int (hf.ne hw)).mono ?_) fun v _ =>
      .bind (x := readInts m (n + 1) c) (ih _ fun k h1 h2 => h k (by omega) (by omega)) fun _ _ => .ok _
    rintro e (h | ⟨h, h'⟩)
    · exact .inl h
    · exact .inr ⟨h, _, hf, h'⟩

/-- Reals that were read come from fields. -/
theorem reals_from {m : List (Nat × Str)} {s : Str} {w : Nat} (c : Nat) : ∀ n vs,
    (∀ k, n ≤ k → k < n + c → Field s w (tok m k)) → readReals m n c = .ok vs → ∀ v ∈ vs, ∃ t, Field s w t ∧ realParse t = .ok v := by
  induction c with
  | zero => intro n vs _ h v hv; cases h; cases hv
  | succ c ih =>
    intro n vs hf h v hv
    change (realParse (tok m n)).bind _ = _ at h
    cases hx : realParse (tok m n) with
    | error e => rw [hx] at h; cases h
    | ok x =>
      rw [hx] at h
      change (readReals m (n + 1) c).bind _ = _ at h
      cases hy : readReals m (n + 1) c with
      | error e => rw [hy] at h; cases h
      | ok xs =>
        rw [hy] at h
        cases h
        rcases List.mem_cons.1 hv with rfl | hv
        · exact ⟨_, hf n (Nat.le_refl _) (by omega), hx⟩
        · exact ih (n + 1) xs (fun k h1 h2 => hf k (by omega) (by omega)) hy v hv

theorem out_eventType (t : Str) : Out (fun e => e = .ptrac ∧ ∀ c : EventType, t ≠ c.code) (eventType t) := by
  unfold eventType
  split
  · exact .ok _
  · rename_i h
    refine .err ⟨rfl, fun c hc => ?_⟩
    have := List.find?_eq_none.1 h c (List.mem_finRange c)
    simp only [decide_eq_true_eq] at this
    exact this hc.symm

/-! ### Loops over classes -/

theorem firstOk_err {α : Type} {fs : List (Str → Res α)} {s : Str} {e : Err} (h : firstOk fs s = .error e) :
    ∃ f ∈ fs, f s = .error e := by
  induction fs with
  | nil => cases h
  | cons f fs ih =>
    rw [firstOk] at h
    split at h
    · cases h
    · obtain ⟨g, hg, h⟩ := ih h; exact ⟨g, List.mem_cons_of_mem _ hg, h⟩
    · rename_i hf; cases h; exact ⟨f, List.mem_cons_self, hf⟩

theorem firstOk_none {α : Type} {fs : List (Str → Res α)} {s : Str} (h : firstOk fs s = .ok none) :
    ∀ f ∈ fs, f s = .error .ptrac := by
  induction fs with
  | nil => intro f hf; cases hf
  | cons f fs ih =>
    rw [firstOk] at h
    split at h
    · cases h
    · rename_i hf
      intro g hg
      rcases List.mem_cons.1 hg with rfl | hg
      · exact hf
      · exact ih h g hg
    · cases h

theorem firstOk_some {α : Type} {fs : List (Str → Res α)} {s : Str} {v} (h : firstOk fs s = .ok (some v)) :
    ∃ f ∈ fs, f s = .ok v := by
  induction fs with
  | nil => cases h
  | cons f fs ih =>
    rw [firstOk] at h
    split at h
    · rename_i hf; cases h; exact ⟨f, List.mem_cons_self, hf⟩
    · obtain ⟨g, hg, h⟩ := ih h; exact ⟨g, List.mem_cons_of_mem _ hg, h⟩
    · cases h

theorem out_each {α β : Type} {P : Err → Prop} {f : α → Res β} (xs : List α) (h : ∀ x ∈ xs, Out P (f x)) : Out P (each f xs) := by
  induction xs with
  | nil => exact .ok _
  | cons x xs ih =>
    exact .bind (x := f x) (h x (by simp)) fun y _ => .bind (x := each f xs) (ih fun z hz => h z (by simp [hz])) fun _ _ => .ok _

theorem each_from {α β : Type} {f : α → Res β} : ∀ (xs : List α) (ys : List β), each f xs = .ok ys → ∀ y ∈ ys, ∃ x ∈ xs, f x = .ok y := by
  intro xs
  induction xs with
  | nil => intro ys h y hy; cases h; cases hy
  | cons x xs ih =>
    intro ys h y hy
    change (f x).bind _ = _ at h
    cases hx : f x with
    | error e => rw [hx] at h; cases h
    | ok v =>
      rw [hx] at h
      change (each f xs).bind _ = _ at h
      cases hv : each f xs with
      | error e => rw [hv] at h; cases h
      | ok vs =>
        rw [hv] at h
        cases h
        rcases List.mem_cons.1 hy with rfl | hy
        · exact ⟨x, by simp, hx⟩
        · obtain ⟨z, hz, h⟩ := ih vs hv y hy; exact ⟨z, by simp [hz], h⟩

/-! ### Lines that have the right width are matched -/

theorem line_some (ws : List Nat) {s : Str} (h : Shape [ws.sum] s) : ∃ m, reMatch (lineRe ws) s = some m := by
  obtain ⟨c, u, rfl, hc, hn, hl⟩ := h
  obtain ⟨e, he⟩ := fields_mt 1 ws u (by simpa using hl) hn
  cases hm : reMatch (lineRe ws) (c :: u) with
  | some m => exact ⟨m, rfl⟩
  | none =>
    exfalso
    have s1 := he.step [c] [] []
    simp only [List.append_nil] at s1
    have := (run_spec _ _ _).1.1 hm _ (step_seq.2 ⟨_, step_bos.2 ⟨rfl, rfl⟩, step_seq.2 ⟨_, .cls _ _ _ _ _ hc,
      step_seq.2 ⟨_, s1, step_eos.2 ⟨rfl, rfl⟩⟩⟩⟩)
    cases this

end Ptrac
