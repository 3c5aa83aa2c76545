import Verif.Inp.Text
import Verif.Py.RegexSub
import Verif.Types.NumberLemmas
/-! Helper lemmas: collapsing and expanding shorthand on word sequences. -/
namespace Inp
open Py Types

/-- Words each preceded by one blank. -/
def enc (ws : List Str) : Str := ws.flatMap (' ' :: ·)

@[simp] theorem enc_nil : enc [] = [] := rfl
@[simp] theorem enc_cons (w : Str) (ws) : enc (w :: ws) = ' ' :: (w ++ enc ws) := rfl
@[simp] theorem enc_append (a b) : enc (a ++ b) = enc a ++ enc b := by simp [enc]

/-- Remove a case-insensitive keyword from the front. -/
def stripKw : Str → Str → Option Str
  | [], s => some s
  | _ :: _, [] => none
  | c :: cs, x :: xs => if x == c || x == upperC c then stripKw cs xs else none

/-- The word is the keyword in some letter case. -/
def isKw (kw w : Str) : Bool := stripKw kw w == some []

/-- Keywords: non-empty, no blanks and no digits in either case. -/
structure KwOk (kw : Str) : Prop where
  ne : kw ≠ []
  sp : ∀ x c, c ∈ kw → (x == c || x == upperC c) = true → isSpace x = false
  dg : ∀ x c, c ∈ kw → (x == c || x == upperC c) = true → isDigit x = false
  self : isKw kw kw = true

theorem kwOk_of (kw : Str) (h1 : kw ≠ [])
    (h2 : kw.all (fun c => !isSpace c && !isSpace (upperC c) && !isDigit c && !isDigit (upperC c)) = true)
    (h3 : isKw kw kw = true) : KwOk kw := by
  rw [List.all_eq_true] at h2
  refine ⟨h1, ?_, ?_, h3⟩
  · intro x c hc hx
    have := h2 c hc
    simp only [Bool.and_eq_true, Bool.not_eq_true', Bool.or_eq_true, beq_iff_eq] at this hx
    rcases hx with rfl | rfl
    · exact this.1.1.1
    · exact this.1.1.2
  · intro x c hc hx
    have := h2 c hc
    simp only [Bool.and_eq_true, Bool.not_eq_true', Bool.or_eq_true, beq_iff_eq] at this hx
    rcases hx with rfl | rfl
    · exact this.1.2
    · exact this.2

theorem kwJ_ok : KwOk kwJ := kwOk_of _ (by decide) (by decide) (by decide)
theorem kwR_ok : KwOk kwR := kwOk_of _ (by decide) (by decide) (by decide)
theorem kwI_ok : KwOk kwI := kwOk_of _ (by decide) (by decide) (by decide)
theorem kwLog_ok : KwOk kwLog := kwOk_of _ (by decide) (by decide) (by decide)
theorem kwIlog_ok : KwOk kwIlog := kwOk_of _ (by decide) (by decide) (by decide)

theorem run_kwRe {α : Type} (kw : Str) (prev s : Str) (caps) (k : St → Option α) :
    run (kwRe kw) ⟨prev, s, caps⟩ k =
      match stripKw kw s with
      | none => none
      | some t => k ⟨(s.take kw.length).reverse ++ prev, t, caps⟩ := by
  induction kw generalizing prev s with
  | nil => simp [kwRe, run_eps, stripKw]
  | cons c cs ih =>
    cases s with
    | nil => simp [kwRe, run_seq, run_cls_nil, stripKw]
    | cons x xs =>
      rw [kwRe, run_seq, run_cls_cons, stripKw]
      split
      · rw [ih]; simp
      · rfl

theorem stripKw_append (kw s t u : Str) (h : stripKw kw s = some t) : stripKw kw (s ++ u) = some (t ++ u) := by
  induction kw generalizing s with
  | nil => simp only [stripKw, Option.some.injEq] at h ⊢; rw [h]
  | cons c cs ih =>
    cases s with
    | nil => simp [stripKw] at h
    | cons x xs =>
      simp only [stripKw] at h
      split at h
      · rename_i hx
        rw [List.cons_append, stripKw, if_pos hx]; exact ih _ h
      · cases h

theorem stripKw_enc {kw : Str} (hk : ∀ x c, c ∈ kw → (x == c || x == upperC c) = true → isSpace x = false)
    (w : Str) (ws : List Str) (h : stripKw kw w = none) : stripKw kw (w ++ enc ws) = none := by
  induction kw generalizing w with
  | nil => simp [stripKw] at h
  | cons c cs ih =>
    cases w with
    | nil =>
      cases ws with
      | nil => simp [stripKw]
      | cons v vs =>
        simp only [List.nil_append, enc_cons, stripKw]
        rw [if_neg]
        intro hx
        have := hk ' ' c (by simp) hx
        exact absurd this (by decide)
    | cons x xs =>
      rw [stripKw] at h
      rw [List.cons_append, stripKw]
      split at h
      · rename_i hx
        rw [if_pos hx]
        exact ih (fun x c hc => hk x c (by simp [hc])) _ h
      · rename_i hx
        rw [if_neg hx]

theorem stripKw_split {kw s t : Str} (h : stripKw kw s = some t) :
    s = s.take kw.length ++ t ∧ isKw kw (s.take kw.length) = true := by
  induction kw generalizing s with
  | nil => simp only [stripKw, Option.some.injEq] at h; subst h; simp [isKw, stripKw]
  | cons c cs ih =>
    cases s with
    | nil => simp [stripKw] at h
    | cons x xs =>
      simp only [stripKw] at h
      split at h
      · rename_i hx
        obtain ⟨e, hi⟩ := ih h
        constructor
        · simp only [List.length_cons, List.take_succ_cons, List.cons_append]; rw [← e]
        · simp only [List.length_cons, List.take_succ_cons, isKw, stripKw]
          rw [if_pos hx]; exact hi
      · cases h

theorem isKw_length {kw w : Str} (h : isKw kw w = true) : w.length = kw.length := by
  have h1 : stripKw kw w = some [] := by simpa [isKw] using h
  obtain ⟨e, _⟩ := stripKw_split h1
  rw [List.append_nil] at e
  have : ∀ (kw w : Str), stripKw kw w = some [] → w.length = kw.length := by
    intro kw
    induction kw with
    | nil => intro w h; simp only [stripKw, Option.some.injEq] at h; simp [h]
    | cons c cs ih =>
      intro w h
      cases w with
      | nil => simp [stripKw] at h
      | cons x xs =>
        simp only [stripKw] at h
        split at h
        · simp [ih _ h]
        · cases h
  exact this _ _ h1

theorem isKw_chars {kw w : Str} (h : isKw kw w = true) : ∀ x ∈ w, ∃ c ∈ kw, (x == c || x == upperC c) = true := by
  have h1 : stripKw kw w = some [] := by simpa [isKw] using h
  clear h
  induction kw generalizing w with
  | nil => simp only [stripKw, Option.some.injEq] at h1; subst h1; intro x hx; cases hx
  | cons c cs ih =>
    cases w with
    | nil => intro x hx; cases hx
    | cons x xs =>
      simp only [stripKw] at h1
      split at h1
      · rename_i hx
        intro y hy
        rcases List.mem_cons.1 hy with rfl | hy
        · exact ⟨c, by simp, hx⟩
        · obtain ⟨d, hd, h⟩ := ih h1 y hy
          exact ⟨d, by simp [hd], h⟩
      · cases h1

theorem isKw_noSpace {kw w : Str} (hk : KwOk kw) (h : isKw kw w = true) : NoSpace w := by
  intro x hx
  obtain ⟨c, hc, h⟩ := isKw_chars h x hx
  exact hk.sp x c hc h

theorem isKw_ne_nil {kw w : Str} (hk : KwOk kw) (h : isKw kw w = true) : w ≠ [] := by
  intro e
  have := isKw_length h
  rw [e] at this
  exact hk.ne (List.length_eq_zero_iff.1 this.symm)

/-! ### one item -/

theorem item_hit {α : Type} {kw w : Str} (h : isKw kw w = true) (prev s caps) (k : St → Option α) :
    run (itemRe kw) ⟨prev, ' ' :: (w ++ s), caps⟩ k = k ⟨w.reverse ++ ' ' :: prev, s, caps⟩ := by
  have h1 : stripKw kw w = some [] := by simpa [isKw] using h
  rw [itemRe, run_seq, Re.chr, run_cls_cons, if_pos (by decide), run_kwRe, stripKw_append _ _ _ s h1]
  simp only [List.nil_append]
  rw [← isKw_length h, List.take_append_of_le_length (Nat.le_refl _), List.take_length]

theorem item_nospace {α : Type} (kw prev s caps) (k : St → Option α) (h : ∀ c cs, s = c :: cs → c ≠ ' ') :
    run (itemRe kw) ⟨prev, s, caps⟩ k = none := by
  rw [itemRe, run_seq, Re.chr]
  cases s with
  | nil => rfl
  | cons c cs =>
    rw [run_cls_cons, if_neg]
    have := h c cs rfl
    intro e
    have : c = ' ' := by simpa using e
    contradiction

theorem item_other {α : Type} {kw w : Str} (hk : KwOk kw) (hw : NoSpace w) (h : isKw kw w = false) (prev ws caps)
    (k : St → Option α) :
    run (itemRe kw) ⟨prev, ' ' :: (w ++ enc ws), caps⟩ k = none ∨
      ∃ pv x t, isSpace x = false ∧ (t ++ enc ws).length < (w ++ enc ws).length ∧
        run (itemRe kw) ⟨prev, ' ' :: (w ++ enc ws), caps⟩ k = k ⟨pv, x :: (t ++ enc ws), caps⟩ := by
  rw [itemRe, run_seq, Re.chr, run_cls_cons, if_pos (by decide), run_kwRe]
  cases hs : stripKw kw w with
  | none => left; rw [stripKw_enc hk.sp w ws hs]
  | some t =>
    right
    rw [stripKw_append _ _ _ (enc ws) hs]
    obtain ⟨e, hi⟩ := stripKw_split hs
    cases t with
    | nil => rw [isKw, hs] at h; simp at h
    | cons x xs =>
      refine ⟨_, x, xs, hw x (by rw [e]; simp), ?_, rfl⟩
      have := congrArg List.length e
      simp only [List.length_append, List.length_cons] at this ⊢
      omega

theorem sp_ne {x : Char} (h : isSpace x = false) : x ≠ ' ' := by rintro rfl; exact absurd h (by decide)

theorem star_stop {α : Type} (kw prev s caps) (k : St → Option α) (h : ∀ c cs, s = c :: cs → c ≠ ' ') :
    run (.star true (itemRe kw)) ⟨prev, s, caps⟩ k = k ⟨prev, s, caps⟩ := by
  rw [run_star_greedy, item_nospace _ _ _ _ _ h]
  simp

/-- A boundary: blank or end. -/
theorem bnd_end {α : Type} (prev caps) (k : St → Option α) :
    run bndRe ⟨prev, [], caps⟩ k = k ⟨prev, [], (2, []) :: caps⟩ := by
  rw [bndRe, run_grp, run_alt, Re.space, run_cls_nil, run_alt, run_eos, Option.none_or, Re.chr, run_cls_nil]
  simp

theorem bnd_space {α : Type} (prev s caps) (k : St → Option α) :
    run bndRe ⟨prev, ' ' :: s, caps⟩ k = k ⟨' ' :: prev, s, (2, [' ']) :: caps⟩ := by
  rw [bndRe, run_grp, run_alt, Re.space, run_cls_cons, run_alt, run_eos, Re.chr, run_cls_cons]
  simp [show isSpace ' ' = true from by decide]

theorem bnd_other {α : Type} (prev x s caps) (k : St → Option α) (h : isSpace x = false) :
    run bndRe ⟨prev, x :: s, caps⟩ k = none := by
  rw [bndRe, run_grp, run_alt, Re.space, run_cls_cons, run_alt, run_eos, Re.chr, run_cls_cons]
  have : (x == '\n') = false := by
    simp only [beq_eq_false_iff_ne]; rintro rfl; exact absurd h (by decide)
  simp [h, this]

/-- Repeat over keyword words, with a continuation that fails inside a word. -/
theorem star_items {α : Type} {kw : Str} (hk : KwOk kw) (js rest : List Str) (hj : ∀ j ∈ js, isKw kw j = true)
    (hr : ∀ w ws, rest = w :: ws → isKw kw w = false ∧ NoSpace w) (prev caps) (k : St → Option α) (x : α)
    (hin : ∀ pv c s, isSpace c = false → k ⟨pv, c :: s, caps⟩ = none)
    (hx : k ⟨(enc js).reverse ++ prev, enc rest, caps⟩ = some x) :
    run (.star true (itemRe kw)) ⟨prev, enc js ++ enc rest, caps⟩ k = some x := by
  induction js generalizing prev with
  | nil =>
    simp only [enc_nil, List.nil_append, List.reverse_nil] at hx ⊢
    cases rest with
    | nil => rw [enc_nil, star_stop _ _ _ _ _ (by intro c cs e; cases e)]; exact hx
    | cons w ws =>
      rw [run_star_greedy]
      obtain ⟨h1, h2⟩ := hr w ws rfl
      simp only [enc_cons] at hx ⊢
      rcases item_other hk h2 h1 prev ws caps (starNext (itemRe kw) (' ' :: (w ++ enc ws)).length k) with h | ⟨pv, c, t, hc, hl, h⟩
      · rw [h]; simpa using hx
      · rw [h]
        have : run (.star true (itemRe kw)) ⟨pv, c :: (t ++ enc ws), caps⟩ k = none := by
          rw [star_stop _ _ _ _ _ (by intro a b e; cases e; exact sp_ne hc)]
          exact hin _ _ _ hc
        simp only [starNext, this, ite_self, Option.none_or]
        exact hx
  | cons j js ih =>
    rw [run_star_greedy]
    simp only [enc_cons, List.cons_append, List.append_assoc]
    rw [item_hit (hj j (by simp)), starNext]
    rw [if_pos (by simp only [List.length_cons, List.length_append]; omega)]
    rw [ih (fun x hx => hj x (by simp [hx])) (j.reverse ++ ' ' :: prev) (by
      simp only [enc_cons, List.reverse_cons, List.reverse_append, List.append_assoc, List.cons_append, List.nil_append] at hx
      exact hx)]
    simp

theorem splitWs_space {c : Char} (h : isSpace c = true) (cs : Str) : splitWs (c :: cs) = splitWs cs := by
  conv => lhs; rw [splitWs.eq_def]
  simp [h]

theorem splitWs_cons2 {c d : Char} (hc : isSpace c = false) (hd : isSpace d = false) (ds : Str) :
    splitWs (c :: d :: ds) = match splitWs (d :: ds) with | [] => [[c]] | w :: ws => (c :: w) :: ws := by
  conv => lhs; rw [splitWs.eq_def]
  simp only [hc, hd, Bool.false_eq_true, if_false]
  cases splitWs (d :: ds) <;> rfl

/-- Words of a text without blanks inside. -/
theorem splitWs_word (w : Str) (hw : NoSpace w) (hne : w ≠ []) (s : Str) (hs : ∀ c cs, s = c :: cs → isSpace c = true) :
    splitWs (w ++ s) = w :: splitWs s := by
  induction w with
  | nil => exact absurd rfl hne
  | cons c cs ih =>
    have hc : isSpace c = false := hw c (by simp)
    cases cs with
    | nil =>
      cases s with
      | nil => simp [splitWs, hc]
      | cons d ds => simp [splitWs, hc, hs d ds rfl]
    | cons d ds =>
      have hd : isSpace d = false := hw d (by simp)
      have := ih (fun x hx => hw x (by simp [hx])) (by simp)
      simp only [List.cons_append] at this ⊢
      rw [splitWs_cons2 hc hd, this]

theorem splitWs_enc (ws : List Str) (h : ∀ w ∈ ws, NoSpace w ∧ w ≠ []) : splitWs (enc ws) = ws := by
  induction ws with
  | nil => rfl
  | cons w ws ih =>
    have e : splitWs (' ' :: (w ++ enc ws)) = splitWs (w ++ enc ws) := by
      exact splitWs_space (by decide) _
    rw [enc_cons, e, splitWs_word w (h w (by simp)).1 (h w (by simp)).2, ih (fun x hx => h x (by simp [hx]))]
    intro c cs e
    cases ws with
    | nil => cases e
    | cons v vs => cases e; decide

theorem splitWs_lstrip (s : Str) : splitWs (lstrip s) = splitWs s := by
  induction s with
  | nil => rfl
  | cons c cs ih =>
    unfold lstrip at *
    rw [List.dropWhile_cons]
    split
    · rename_i h
      rw [ih]
      rw [splitWs_space h]
    · rfl

/-- `strip` of blank-separated words that end in a word. -/
theorem strip_enc (w : Str) (ws : List Str) (h : ∀ x ∈ w :: ws, NoSpace x ∧ x ≠ []) :
    strip (enc (w :: ws)) = w ++ enc ws := by
  rw [enc_cons, strip_space_cons]
  apply strip_eq_self
  · intro c hc
    obtain ⟨h1, h2⟩ := h w (by simp)
    cases w with
    | nil => exact absurd rfl h2
    | cons a as => simp at hc; subst hc; exact h1 _ (by simp)
  · have key : ∀ (w : Str) (ws : List Str), (∀ x ∈ w :: ws, NoSpace x ∧ x ≠ []) →
        ∀ c ∈ (w ++ enc ws).getLast?, isSpace c = false := by
      intro w ws
      induction ws generalizing w with
      | nil =>
        intro h c hc
        rw [enc_nil, List.append_nil] at hc
        exact (h w (by simp)).1 c (List.mem_of_mem_getLast? hc)
      | cons v vs ih =>
        intro h c hc
        have hv := ih v (fun x hx => h x (by simp only [List.mem_cons] at hx ⊢; exact .inr hx))
        refine hv c ?_
        rw [enc_cons, List.getLast?_append] at hc
        have hne : v ++ enc vs ≠ [] := by
          intro e; exact (h v (by simp)).2 (List.append_eq_nil_iff.1 e).1
        cases hx : v ++ enc vs with
        | nil => exact absurd hx hne
        | cons a as =>
          rw [hx] at hc
          simp only [List.getLast?_cons_cons] at hc
          cases hl : (a :: as).getLast? with
          | none => simp at hl
          | some y => rw [hl] at hc; simpa using hc
    exact key w ws h

theorem splitWs_strip_enc (ws : List Str) (h : ∀ x ∈ ws, NoSpace x ∧ x ≠ []) : (splitWs (strip (enc ws))).length = ws.length := by
  cases ws with
  | nil => rfl
  | cons w ws =>
    rw [strip_enc w ws h]
    have : splitWs (w ++ enc ws) = w :: splitWs (enc ws) := by
      refine splitWs_word w (h w (by simp)).1 (h w (by simp)).2 _ ?_
      intro c cs e
      cases ws with
      | nil => cases e
      | cons v vs => cases e; decide
    rw [this, splitWs_enc ws (fun x hx => h x (by simp [hx]))]

/-! ### collapsing -/

/-- Counted word `nj`. -/
def counted (kw : Str) (n : Nat) : Str := natStr n ++ kw

/-- Leading keyword words. -/
def leadKw (kw : Str) : List Str → List Str
  | [] => []
  | w :: ws => if isKw kw w then w :: leadKw kw ws else []

/-- The word after a collapsed run is copied. -/
def copyHead (f : List Str → List Str) : List Str → List Str
  | [] => []
  | v :: vs => v :: f vs

/-- Collapsing on words (fuel: number of words). -/
def collW (kw : Str) : Nat → List Str → List Str
  | 0, ws => ws
  | _ + 1, [] => []
  | n + 1, w :: ws =>
    if isKw kw w then
      match leadKw kw ws with
      | [] => w :: collW kw n ws
      | js => counted kw (js.length + 1) :: copyHead (collW kw n) (ws.drop js.length)
    else w :: collW kw n ws

theorem leadKw_spec (kw : Str) (ws : List Str) :
    (∀ j ∈ leadKw kw ws, isKw kw j = true) ∧ leadKw kw ws ++ ws.drop (leadKw kw ws).length = ws ∧
    (∀ w vs, ws.drop (leadKw kw ws).length = w :: vs → isKw kw w = false) := by
  induction ws with
  | nil => simp [leadKw]
  | cons w ws ih =>
    unfold leadKw
    by_cases h : isKw kw w = true
    · rw [if_pos h]
      obtain ⟨h1, h2, h3⟩ := ih
      refine ⟨?_, ?_, ?_⟩
      · intro j hj; rcases List.mem_cons.1 hj with rfl | hj
        · exact h
        · exact h1 j hj
      · simp only [List.length_cons, List.drop_succ_cons, List.cons_append]; rw [h2]
      · simpa using h3
    · rw [if_neg h]
      refine ⟨by simp, by simp, ?_⟩
      intro v vs e
      simp only [List.length_nil, List.drop_zero] at e
      cases e
      simpa using h

/-- Texts of space-free, non-empty words. -/
def Words (ws : List Str) : Prop := ∀ w ∈ ws, NoSpace w ∧ w ≠ []

theorem Words.tail {w ws} (h : Words (w :: ws)) : Words ws := fun x hx => h x (by simp [hx])

theorem collapse_nospace {α : Type} (kw prev c cs caps) (k : St → Option α) (h : c ≠ ' ') :
    run (collapseRe kw) ⟨prev, c :: cs, caps⟩ k = none := by
  rw [collapseRe, run_seq, run_grp, run_seq, item_nospace]
  intro a b e; cases e; exact h

theorem collapse_words {kw : Str} (hk : KwOk kw) (ws : List Str) (hws : ∀ w ∈ ws, NoSpace w) (u : Str) (hu : NoSpace u)
    (n : Nat) (hn : ws.length ≤ n) (prev : Str) :
    subFrom (collapseRe kw) (fun _ m => collapseRepl kw m) prev (u ++ enc ws) = u ++ enc (collW kw n ws) := by
  induction n generalizing ws u prev with
  | zero =>
    have : ws = [] := List.length_eq_zero_iff.1 (by omega)
    subst this
    rw [subFrom_skip _ _ _ _ _ (fun c hc prev cs n => collapse_nospace _ _ _ _ _ _ (sp_ne (hu c hc)))]
    rfl
  | succ n ih =>
    rw [subFrom_skip _ _ _ _ _ (fun c hc prev cs n => collapse_nospace _ _ _ _ _ _ (sp_ne (hu c hc)))]
    congr 1
    generalize u.reverse ++ prev = prev
    cases ws with
    | nil => rfl
    | cons w ws =>
      have hlen : ws.length ≤ n := by simpa using hn
      -- miss: copy the blank and continue inside the word
      have miss : run (collapseRe kw) ⟨prev, ' ' :: (w ++ enc ws), []⟩ (findK (' ' :: (w ++ enc ws)).length) = none →
          subFrom (collapseRe kw) (fun _ m => collapseRepl kw m) prev (enc (w :: ws)) = enc (w :: collW kw n ws) := by
        intro hm
        rw [enc_cons, subFrom_miss _ _ _ _ _ hm, ih ws (fun x hx => hws x (by simp [hx])) w (hws w (by simp)) hlen]
        rfl
      by_cases hw : isKw kw w = true
      · obtain ⟨hl1, hl2, hl3⟩ := leadKw_spec kw ws
        cases hlead : leadKw kw ws with
        | nil =>
          have hc : collW kw (n + 1) (w :: ws) = w :: collW kw n ws := by simp [collW, hw, hlead]
          rw [hc]
          apply miss
          rw [collapseRe, run_seq, run_grp, run_seq, item_hit hw, run_seq]
          rw [hlead] at hl3
          cases ws with
          | nil => rw [enc_nil, item_nospace]; intro a b e; cases e
          | cons v vs =>
            have hv := hl3 v vs rfl
            rw [enc_cons]
            rcases item_other hk (hws v (by simp)) hv (w.reverse ++ ' ' :: prev) vs []
              (fun st' => run (.star true (itemRe kw)) st' (fun st' => run bndRe { st' with caps := (1, ((' ' :: (w ++ ' ' :: (v ++ enc vs))).take
                ((' ' :: (w ++ ' ' :: (v ++ enc vs))).length - st'.rest.length))) :: st'.caps } (findK (' ' :: (w ++ ' ' :: (v ++ enc vs))).length)))
              with h | ⟨pv, x, t, hx, _, h⟩
            · exact h
            · refine h.trans ?_
              rw [star_stop _ _ _ _ _ (by intro a b e; cases e; exact sp_ne hx)]
              exact bnd_other _ _ _ _ _ hx
        | cons j js =>
          rw [hlead] at hl1 hl2 hl3
          generalize hrest : ws.drop (j :: js).length = rest at hl2 hl3
          have hrw : ∀ w ∈ rest, NoSpace w := by
            intro x hx; refine hws x ?_
            rw [← hl2]; simp [hx]
          have hjs : Words (w :: j :: js) := by
            have hkw : ∀ x ∈ w :: j :: js, isKw kw x = true := by
              intro x hx
              rcases List.mem_cons.1 hx with rfl | hx
              · exact hw
              · exact hl1 x hx
            exact fun x hx => ⟨isKw_noSpace hk (hkw x hx), isKw_ne_nil hk (hkw x hx)⟩
          have hc : collW kw (n + 1) (w :: ws) = counted kw ((j :: js).length + 1) :: copyHead (collW kw n) rest := by
            rw [← hrest]; simp only [collW, hw, if_true, hlead]
          rw [hc]
          have htext : enc (w :: ws) = enc (w :: j :: js) ++ enc rest := by rw [← enc_append, ← hl2]; rfl
          have hcnt : ∀ g2 : Str, collapseRepl kw [(2, g2), (1, enc (w :: j :: js))] =
              ' ' :: (counted kw ((j :: js).length + 1) ++ g2) := by
            intro g2
            have : (splitWs (strip (enc (w :: j :: js)))).length = (w :: j :: js).length := splitWs_strip_enc _ hjs
            show ' ' :: natStr (splitWs (strip (enc (w :: j :: js)))).length ++ kw ++ g2 = _
            rw [this]; simp [counted]
          have hgrp : ∀ s : Str, ((' ' :: (w ++ ' ' :: (j ++ (enc js ++ s)))).take
              ((' ' :: (w ++ ' ' :: (j ++ (enc js ++ s)))).length - s.length)) = enc (w :: j :: js) := by
            intro s
            have := take_consumed (enc (w :: j :: js)) s
            simpa using this
          -- the match up to the boundary
          have hrun : ∀ (x : St), run bndRe ⟨(enc (w :: j :: js)).reverse ++ prev, enc rest, [(1, enc (w :: j :: js))]⟩
                (findK (enc (w :: j :: js) ++ enc rest).length) = some x →
              run (collapseRe kw) ⟨prev, enc (w :: j :: js) ++ enc rest, []⟩ (findK (enc (w :: j :: js) ++ enc rest).length) = some x := by
            intro x hx
            rw [collapseRe, run_seq, run_grp, run_seq]
            simp only [enc_cons, List.cons_append, List.append_assoc]
            rw [item_hit hw, run_seq, item_hit (hl1 j (by simp))]
            apply star_items hk js rest (fun y hy => hl1 y (by simp [hy]))
              (fun v vs e => ⟨hl3 v vs e, (hrw v (by rw [e]; simp))⟩)
            · intro pv c s hc; exact bnd_other _ _ _ _ _ hc
            · simp only [hgrp]
              simpa using hx
          rw [htext]
          cases hre : rest with
          | nil =>
            subst hre
            have h2 := subFrom_hit (collapseRe kw) (fun _ m => collapseRepl kw m) prev (enc (w :: j :: js)) (enc [])
              ((enc (w :: j :: js)).reverse ++ prev) [(2, []), (1, enc (w :: j :: js))] (by simp)
              (hrun _ (by rw [enc_nil, bnd_end]; apply findK_ok; simp))
            rw [h2, hcnt]
            simp [subFrom_nil, copyHead]
          | cons v vs =>
            subst hre
            have h2 := subFrom_hit (collapseRe kw) (fun _ m => collapseRepl kw m) prev (enc (w :: j :: js) ++ [' '])
              (v ++ enc vs)
              (' ' :: ((enc (w :: j :: js)).reverse ++ prev)) [(2, [' ']), (1, enc (w :: j :: js))] (by simp)
              (by
                have := hrun ⟨' ' :: ((enc (w :: j :: js)).reverse ++ prev), v ++ enc vs, [(2, [' ']), (1, enc (w :: j :: js))]⟩
                  (by
                    rw [enc_cons v vs, bnd_space]; apply findK_ok
                    simp only [enc_cons, List.length_append, List.length_cons]; omega)
                simpa using this)
            have e1 : enc (w :: j :: js) ++ enc (v :: vs) = (enc (w :: j :: js) ++ [' ']) ++ (v ++ enc vs) := by simp
            rw [e1, h2, hcnt, ih vs (fun x hx => hrw x (by simp [hx])) v (hrw v (by simp)) (by
              have := congrArg List.length hl2
              simp only [List.length_append, List.length_cons] at this
              omega)]
            simp [copyHead]
      · have hc : collW kw (n + 1) (w :: ws) = w :: collW kw n ws := by
          simp only [collW]; rw [if_neg hw]
        rw [hc]
        apply miss
        rw [collapseRe, run_seq, run_grp, run_seq]
        rcases item_other hk (hws w (by simp)) (by simpa using hw) prev ws []
          (fun st' => run (.seq (itemRe kw) (.star true (itemRe kw))) st' (fun st' => run bndRe { st' with caps := (1, ((' ' :: (w ++ enc ws)).take
            ((' ' :: (w ++ enc ws)).length - st'.rest.length))) :: st'.caps } (findK (' ' :: (w ++ enc ws)).length)))
          with h | ⟨pv, x, t, hx, _, h⟩
        · exact h
        · refine h.trans ?_
          rw [run_seq, item_nospace]
          intro a b e; cases e; exact sp_ne hx

theorem collapse_eq {kw : Str} (hk : KwOk kw) (u : Str) (hu : NoSpace u) (ws : List Str) (hws : Words ws) :
    collapse kw (u ++ enc ws) = u ++ enc (collW kw ws.length ws) :=
  collapse_words hk ws (fun w h => (hws w h).1) u hu _ (Nat.le_refl _) []

/-! ### expanding -/

/-- Value of a counted word. -/
def cntOf (kw w : Str) : Option Nat :=
  if w.takeWhile isDigit ≠ [] ∧ isKw kw (w.dropWhile isDigit) = true then some (strNat (w.takeWhile isDigit)) else none

/-- Expanding on words (fuel: number of words). -/
def expW (kw : Str) : Nat → List Str → List Str
  | 0, ws => ws
  | _ + 1, [] => []
  | n + 1, w :: ws =>
    match cntOf kw w with
    | some c => List.replicate c kw ++ copyHead (expW kw n) ws
    | none => w :: expW kw n ws

theorem isKw_head {kw w : Str} (hk : KwOk kw) (h : isKw kw w = true) (s : Str) :
    ∀ c cs, w ++ s = c :: cs → isDigit c = false := by
  intro c cs e
  cases w with
  | nil => exact absurd rfl (isKw_ne_nil hk h)
  | cons x xs =>
    cases e
    obtain ⟨d, hd, h⟩ := isKw_chars h c (by simp)
    exact hk.dg c d hd h

theorem cntOf_mk {kw ds l : Str} (hk : KwOk kw) (h1 : Digits ds) (h2 : ds ≠ []) (h3 : isKw kw l = true) :
    cntOf kw (ds ++ l) = some (strNat ds) := by
  have hh := isKw_head hk h3 []
  simp only [List.append_nil] at hh
  unfold cntOf
  rw [takeWhile_stop ds l h1 hh, dropWhile_stop ds l h1 hh, if_pos ⟨h2, h3⟩]

theorem cntOf_some {kw w : Str} {n : Nat} (h : cntOf kw w = some n) :
    ∃ ds l, w = ds ++ l ∧ Digits ds ∧ ds ≠ [] ∧ isKw kw l = true ∧ n = strNat ds := by
  unfold cntOf at h
  split at h
  · rename_i h1
    cases h
    refine ⟨_, _, (List.takeWhile_append_dropWhile).symm, ?_, h1.1, h1.2, rfl⟩
    have := List.all_takeWhile (p := isDigit) (l := w)
    rw [List.all_eq_true] at this
    exact this
  · cases h

theorem cntOf_counted {kw : Str} (hk : KwOk kw) (n : Nat) : cntOf kw (counted kw n) = some n := by
  unfold counted
  rw [cntOf_mk hk (natStr_digits n) (natStr_ne_nil n) hk.self, strNat_natStr]

theorem expand_nospace {α : Type} (kw prev c cs caps) (k : St → Option α) (h : c ≠ ' ') :
    run (expandRe kw) ⟨prev, c :: cs, caps⟩ k = none := by
  rw [expandRe, run_seq, Re.chr, run_cls_cons, if_neg]
  intro e
  exact h (by simpa using e)

theorem enc_head (ws : List Str) : ∀ c cs, enc ws = c :: cs → c = ' ' := by
  intro c cs e
  cases ws with
  | nil => cases e
  | cons v vs => cases e; rfl

theorem expand_miss {α : Type} {kw : Str} (hk : KwOk kw) (w : Str) (ws : List Str) (hw : NoSpace w)
    (h : cntOf kw w = none) (prev) (k : St → Option α) :
    run (expandRe kw) ⟨prev, ' ' :: (w ++ enc ws), []⟩ k = none := by
  apply run_none
  intro st' hst
  unfold expandRe at hst
  obtain ⟨m1, h1, hst⟩ := step_seq.1 hst
  obtain ⟨m2, h2, hst⟩ := step_seq.1 hst
  obtain ⟨c, cs, hc, e1, rfl⟩ := step_cls.1 h1
  cases e1
  obtain ⟨m3, h3, rfl⟩ := step_grp.1 h2
  obtain ⟨w1, r1, hne, hd, e2, rfl⟩ := step_plus_cls.1 h3
  simp only at e2
  exfalso
  have hr : ∃ w2, w = w1 ++ w2 ∧ r1 = w2 ++ enc ws := by
    rcases List.append_eq_append_iff.1 e2 with ⟨a, ha, hb⟩ | ⟨a, ha, hb⟩
    · cases a with
      | nil => exact ⟨[], by simpa using ha.symm, by simpa using hb.symm⟩
      | cons x xs =>
        have : x = ' ' := enc_head ws x (xs ++ r1) hb
        subst this
        have := hd ' ' (by rw [ha]; simp)
        exact absurd this (by decide)
    · exact ⟨a, ha, hb⟩
  obtain ⟨w2, rfl, rfl⟩ := hr
  have hrun : run (.seq (kwRe kw) bndRe) (St.adv ⟨' ' :: prev, w1 ++ w2 ++ enc ws, []⟩ w1 (w2 ++ enc ws) |> fun m3 =>
      { m3 with caps := (1, List.take ((w1 ++ w2 ++ enc ws).length - m3.rest.length) (w1 ++ w2 ++ enc ws)) :: m3.caps })
      (fun _ => some ()) = none := by
    simp only [St.adv]
    rw [run_seq, run_kwRe]
    cases hs : stripKw kw w2 with
    | none => rw [stripKw_enc hk.sp w2 ws hs]
    | some t =>
      rw [stripKw_append _ _ _ (enc ws) hs]
      cases t with
      | nil =>
        have hi : isKw kw w2 = true := by rw [isKw, hs]; rfl
        rw [cntOf_mk hk hd hne hi] at h
        cases h
      | cons x xs =>
        obtain ⟨e, _⟩ := stripKw_split hs
        have hx : isSpace x = false := hw x (by rw [e]; simp)
        simp only [List.cons_append]
        exact bnd_other _ _ _ _ _ hx
  have := (run_spec _ _ _).1.1 hrun st' hst
  cases this

theorem expand_words {kw : Str} (hk : KwOk kw) (ws : List Str) (hws : Words ws) (u : Str) (hu : NoSpace u)
    (n : Nat) (hn : ws.length ≤ n) (prev : Str) :
    subFrom (expandRe kw) (fun _ m => expandRepl kw m) prev (u ++ enc ws) = u ++ enc (expW kw n ws) := by
  induction n generalizing ws u prev with
  | zero =>
    have : ws = [] := List.length_eq_zero_iff.1 (by omega)
    subst this
    rw [subFrom_skip _ _ _ _ _ (fun c hc prev cs n => expand_nospace _ _ _ _ _ _ (sp_ne (hu c hc)))]
    rfl
  | succ n ih =>
    rw [subFrom_skip _ _ _ _ _ (fun c hc prev cs n => expand_nospace _ _ _ _ _ _ (sp_ne (hu c hc)))]
    congr 1
    generalize u.reverse ++ prev = prev
    cases ws with
    | nil => rfl
    | cons w ws =>
      have hlen : ws.length ≤ n := by simpa using hn
      cases hc : cntOf kw w with
      | none =>
        have e : expW kw (n + 1) (w :: ws) = w :: expW kw n ws := by simp [expW, hc]
        rw [e, enc_cons, subFrom_miss _ _ _ _ _ (expand_miss hk w ws (hws w (by simp)).1 hc _ _),
          ih ws hws.tail w (hws w (by simp)).1 hlen]
        rfl
      | some c =>
        have e : expW kw (n + 1) (w :: ws) = List.replicate c kw ++ copyHead (expW kw n) ws := by simp [expW, hc]
        rw [e]
        obtain ⟨ds, l, rfl, hd, hdne, hl, rfl⟩ := cntOf_some hc
        have hl1 : stripKw kw l = some [] := by simpa [isKw] using hl
        have hrun : ∀ (x : St), run bndRe ⟨(ds ++ l).reverse ++ ' ' :: prev, enc ws, [(1, ds)]⟩
              (findK (' ' :: (ds ++ l ++ enc ws)).length) = some x →
            run (expandRe kw) ⟨prev, ' ' :: (ds ++ l ++ enc ws), []⟩ (findK (' ' :: (ds ++ l ++ enc ws)).length) = some x := by
          intro x hx
          rw [expandRe, run_seq, Re.chr, run_cls_cons, if_pos (by decide), run_seq, run_grp, Re.plus, run_seq, Re.digit]
          cases ds with
          | nil => exact absurd rfl hdne
          | cons d ds =>
            simp only [List.cons_append, List.append_assoc]
            rw [run_cls_cons, if_pos (hd d (by simp))]
            apply run_star_cls_full isDigit ds (l ++ enc ws) _ _ _ _ (fun y hy => hd y (by simp [hy]))
              (isKw_head hk hl (enc ws))
            have ht := take_consumed (d :: ds) (l ++ enc ws)
            simp only [List.cons_append] at ht
            simp only [ht]
            rw [run_seq, run_kwRe, stripKw_append _ _ _ (enc ws) hl1, ← isKw_length hl,
              List.take_append_of_le_length (Nat.le_refl _), List.take_length]
            simpa using hx
        have hrepl : ∀ g2 : Str, expandRepl kw [(2, g2), (1, ds)] = enc (List.replicate (strNat ds) kw) ++ g2 := by
          intro g2
          show (List.replicate (strNat ds) (' ' :: kw)).flatten ++ g2 = _
          congr 1
          unfold enc
          rw [List.flatMap_def, List.map_replicate]
        cases ws with
        | nil =>
          have h2 := subFrom_hit (expandRe kw) (fun _ m => expandRepl kw m) prev (' ' :: (ds ++ l)) []
            ((ds ++ l).reverse ++ ' ' :: prev) [(2, []), (1, ds)] (by simp) (by
              have := hrun _ (by rw [enc_nil, bnd_end]; exact findK_ok (by simp))
              simpa using this)
          have e1 : enc [ds ++ l] = ' ' :: (ds ++ l) ++ [] := by simp
          rw [e1, h2, hrepl]
          simp [copyHead, subFrom_nil]
        | cons v vs =>
          have h2 := subFrom_hit (expandRe kw) (fun _ m => expandRepl kw m) prev (' ' :: (ds ++ l) ++ [' ']) (v ++ enc vs)
            (' ' :: ((ds ++ l).reverse ++ ' ' :: prev)) [(2, [' ']), (1, ds)] (by simp) (by
              have := hrun ⟨' ' :: ((ds ++ l).reverse ++ ' ' :: prev), v ++ enc vs, [(2, [' ']), (1, ds)]⟩
                (by rw [enc_cons v vs, bnd_space]; apply findK_ok; simp only [enc_cons, List.length_append, List.length_cons]; omega)
              simpa using this)
          have e1 : enc ((ds ++ l) :: v :: vs) = ' ' :: (ds ++ l) ++ [' '] ++ (v ++ enc vs) := by simp
          rw [e1, h2, hrepl, ih vs hws.tail.tail v (hws.tail v (by simp)).1 (by simp at hlen; omega)]
          simp [copyHead]

theorem expand_eq {kw : Str} (hk : KwOk kw) (u : Str) (hu : NoSpace u) (ws : List Str) (hws : Words ws) :
    expand kw (u ++ enc ws) = u ++ enc (expW kw ws.length ws) :=
  expand_words hk ws hws u hu _ (Nat.le_refl _) []

end Inp
