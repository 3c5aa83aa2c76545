import Verif.Types.GeometryLemmas
/-! Helper lemmas: the geometry tokenizer on printed expressions. -/
namespace Types
open Py

/-- Text of a token. -/
def GTok.text : GTok → Str
  | .col => [':']
  | .sp => [' ']
  | .lp => ['(']
  | .rp => [')']
  | .op o => o.str
  | .dig s => s
  | .bad s => s

theorem Ast.toks_text (e : Ast) : e.toks.flatMap GTok.text = e.str := by
  induction e with
  | inter l r ihl ihr => simp [Ast.toks, Ast.str, ihl, ihr, GTok.text]
  | union l r ihl ihr => simp [Ast.toks, Ast.str, ihl, ihr, GTok.text]
  | unary o e ih => simp [Ast.toks, Ast.str, ih, GTok.text]
  | paren e ih => simp [Ast.toks, Ast.str, ih, GTok.text]
  | digit s => simp [Ast.toks, Ast.str, GTok.text]

/-- Shape of surface/facet numbers: `\d+` or `\d+.\d+`. -/
theorem isNum_shape {s : Str} (h : isNum s) :
    ∃ a b, a ≠ [] ∧ Digits a ∧ Digits (fracDigits b) ∧ (b ≠ some []) ∧ s = a ++ fracText b := by
  unfold isNum at h
  cases hm : reMatch gdigitRe s with
  | none => rw [hm] at h; cases h
  | some m =>
    obtain ⟨st', hs, _⟩ := reMatch_some hm
    unfold gdigitRe at hs
    obtain ⟨m1, h1, hs⟩ := step_seq.1 hs
    obtain ⟨rfl, _⟩ := step_bos.1 h1
    obtain ⟨m2, h2, hs⟩ := step_seq.1 hs
    obtain ⟨rfl, he⟩ := step_eos.1 hs
    obtain ⟨m3, h3, rfl⟩ := step_grp.1 h2
    obtain ⟨m4, h4, h5⟩ := step_seq.1 h3
    obtain ⟨a, r, hne, ha, e1, rfl⟩ := step_plus_cls.1 h4
    rcases step_opt.1 h5 with rfl | h5
    · simp only [St.adv_rest] at he e1
      subst he
      exact ⟨a, none, hne, ha, (by intro c hc; cases hc), by simp, by simpa [fracText] using e1⟩
    · obtain ⟨m6, h6, h7⟩ := step_seq.1 h5
      obtain ⟨c, cs, hc, e2, rfl⟩ := step_cls.1 h6
      obtain ⟨b, r', hne', hb, e3, rfl⟩ := step_plus_cls.1 h7
      simp only [St.adv_rest] at he e1 e2 e3
      subst he
      have : c = '.' := by simpa using hc
      subst this
      refine ⟨a, some b, hne, ha, hb, by simpa using hne', ?_⟩
      rw [e1, e2, e3]; simp [fracText]

/-- First character of a text is not in a given class. -/
def HeadNot (p : Char → Bool) (s : Str) : Prop := ∀ c cs, s = c :: cs → p c = false

/-- What may follow a token so that the tokenizer separates them. -/
def sepOk : GTok → Str → Prop
  | .col, r => HeadNot isSpace r
  | .sp, r => HeadNot (fun c => isSpace c || c == ':') r
  | .lp, r => HeadNot isSpace r
  | .op _, r => HeadNot isSpace r
  | .rp, _ => True
  | .dig s, r => isNum s ∧ HeadNot (fun c => isDigit c || c == '.') r
  | .bad _, _ => False

theorem run_star_stop {α : Type} (g p prev s caps) (k : St → Option α) (h : HeadNot p s) :
    run (.star g (.cls p)) ⟨prev, s, caps⟩ k = k ⟨prev, s, caps⟩ := by
  cases s with
  | nil => exact run_star_cls_nil _ _ _ _ _
  | cons c cs =>
    rw [run_star_cls_cons]
    cases g <;> simp [h c cs rfl]

/-- Continuation of `finditer`. -/
def K (n : Nat) : St → Option St := fun st => if st.rest.length < n then some st else none

theorem K_ok {n : Nat} {st : St} (h : st.rest.length < n) : K n st = some st := by simp [K, h]

theorem altA_none {c : Char} (prev cs caps n) (h1 : isSpace c = false) (h2 : c ≠ ':') :
    run (.seq (.star true .space) (.seq (.chr ':') (.star true .space))) ⟨prev, c :: cs, caps⟩ (K n) = none := by
  rw [run_seq, Re.space, run_star_stop _ _ _ _ _ _ (by intro a b e; cases e; exact h1), run_seq, Re.chr, run_cls_cons]
  simp [h2]

theorem lex_step (t : GTok) (r prev : Str) (n : Nat) (hs : sepOk t r) (hn : r.length < n) :
    run geoRe ⟨prev, t.text ++ r, []⟩ (K n) = some ⟨t.text.reverse ++ prev, r, []⟩ := by
  unfold geoRe
  cases t with
  | bad s => exact absurd hs id
  | col =>
    simp only [GTok.text, List.singleton_append, List.reverse_singleton]
    rw [run_alt, run_seq, Re.space, run_star_stop _ _ _ _ _ _ (by intro a b e; cases e; decide),
      run_seq, Re.chr, run_cls_cons]
    simp only [beq_self_eq_true, if_true]
    rw [run_star_stop _ _ _ _ _ _ hs, K_ok hn]
    rfl
  | sp =>
    simp only [GTok.text, List.singleton_append, List.reverse_singleton]
    have hsp : HeadNot isSpace r := by
      intro c cs e; have := hs c cs e; simp only [Bool.or_eq_false_iff] at this; exact this.1
    have hA : run (.seq (.star true .space) (.seq (.chr ':') (.star true .space))) ⟨prev, ' ' :: r, []⟩ (K n) = none := by
      rw [run_seq, Re.space, run_star_cls_cons]
      simp only [show isSpace ' ' = true from by decide, if_true]
      rw [run_star_stop _ _ _ _ _ _ hsp, run_seq, run_seq, Re.chr]
      cases r with
      | nil => rw [run_cls_nil, run_cls_cons]; rfl
      | cons c cs =>
        have := hs c cs rfl
        simp only [Bool.or_eq_false_iff] at this
        rw [run_cls_cons, run_cls_cons]
        simp [this.2]
    rw [run_alt, hA, Option.none_or, run_alt, Re.plus, run_seq, Re.space, run_cls_cons]
    simp only [show isSpace ' ' = true from by decide, if_true]
    rw [run_star_stop _ _ _ _ _ _ hsp, K_ok hn]
    rfl
  | rp =>
    simp only [GTok.text, List.singleton_append, List.reverse_singleton]
    rw [run_alt, altA_none _ _ _ _ (by decide) (by decide), Option.none_or]
    rw [run_alt, Re.plus, run_seq, Re.space, run_cls_cons, if_neg (by decide), Option.none_or]
    rw [run_alt, Re.plus, run_seq, run_seq, Re.digit, run_cls_cons, if_neg (by decide), Option.none_or]
    rw [run_alt, run_seq, Re.oneOf, run_cls_cons, if_neg (by decide), Option.none_or]
    rw [run_seq, run_star_stop _ _ _ _ _ _ (by intro a b e; cases e; decide), Re.chr, run_cls_cons,
      if_pos (by decide), K_ok hn]
  | lp =>
    simp only [GTok.text, List.singleton_append, List.reverse_singleton]
    rw [run_alt, altA_none _ _ _ _ (by decide) (by decide), Option.none_or]
    rw [run_alt, Re.plus, run_seq, Re.space, run_cls_cons, if_neg (by decide), Option.none_or]
    rw [run_alt, Re.plus, run_seq, run_seq, Re.digit, run_cls_cons, if_neg (by decide), Option.none_or]
    rw [run_alt, run_seq, Re.oneOf, run_cls_cons, if_pos (by decide), run_star_stop _ _ _ _ _ _ hs, K_ok hn]
    rfl
  | op o =>
    have key : ∀ c : Char, isSpace c = false → c ≠ ':' → isDigit c = false → "(+#-".toList.contains c = true →
        run (.alt (.seq (.star true .space) (.seq (.chr ':') (.star true .space)))
          (.alt (.plus true .space)
          (.alt (.seq (.plus true .digit) (.opt true (.seq (.chr '.') (.plus true .digit))))
          (.alt (.seq (.oneOf "(+#-") (.star true .space))
                (.seq (.star true .space) (.chr ')')))))) ⟨prev, c :: r, []⟩ (K n) = some ⟨c :: prev, r, []⟩ := by
      intro c h1 h2 h3 h4
      rw [run_alt, altA_none _ _ _ _ h1 h2, Option.none_or]
      rw [run_alt, Re.plus, run_seq, Re.space, run_cls_cons, if_neg (by simp [h1]), Option.none_or]
      rw [run_alt, Re.plus, run_seq, run_seq, Re.digit, run_cls_cons, if_neg (by simp [h3]), Option.none_or]
      rw [run_alt, run_seq, Re.oneOf, run_cls_cons, if_pos h4, run_star_stop _ _ _ _ _ _ hs, K_ok hn]
      rfl
    cases o
    · exact key '+' (by decide) (by decide) (by decide) (by decide)
    · exact key '-' (by decide) (by decide) (by decide) (by decide)
    · exact key '#' (by decide) (by decide) (by decide) (by decide)
  | dig s =>
    obtain ⟨hnum, hr⟩ := hs
    obtain ⟨a, b, hne, ha, hb, hbn, rfl⟩ := isNum_shape hnum
    cases a with
    | nil => exact absurd rfl hne
    | cons c cs =>
      have hc : isDigit c = true := ha c (by simp)
      have hrd : HeadNot isDigit r := by
        intro x xs e; have := hr x xs e; simp only [Bool.or_eq_false_iff] at this; exact this.1
      have hrdot : ∀ x xs, r = x :: xs → (x == '.') = false := by
        intro x xs e; have := hr x xs e; simp only [Bool.or_eq_false_iff] at this; exact this.2
      simp only [GTok.text, List.cons_append]
      rw [run_alt, altA_none _ _ _ _ (isDigit_not_space hc) (digit_ne hc (by decide)), Option.none_or]
      rw [run_alt, Re.plus, run_seq, Re.space, run_cls_cons, if_neg (by simp [isDigit_not_space hc]), Option.none_or]
      have hC : run (.seq (.plus true .digit) (.opt true (.seq (.chr '.') (.plus true .digit))))
          ⟨prev, c :: (cs ++ fracText b ++ r), []⟩ (K n) =
          some ⟨(c :: (cs ++ fracText b)).reverse ++ prev, r, []⟩ := by
        rw [Re.plus, run_seq, run_seq, Re.digit, run_cls_cons, if_pos hc]
        cases b with
        | none =>
          have := run_star_cls_full isDigit cs r (c :: prev) []
            (fun st' => run (.opt true (.seq (.chr '.') (.seq (.cls isDigit) (.star true (.cls isDigit))))) st' (K n))
            ⟨(c :: (cs ++ fracText none)).reverse ++ prev, r, []⟩ (fun x hx => ha x (by simp [hx])) hrd (by
              rw [run_opt_greedy, run_seq, Re.chr]
              cases r with
              | nil => rw [run_cls_nil, Option.none_or, K_ok (by simpa using hn)]; simp [fracText]
              | cons x xs =>
                rw [run_cls_cons, if_neg (by simp [hrdot x xs rfl]), Option.none_or, K_ok hn]
                simp [fracText])
          simpa [fracText, Re.plus] using this
        | some f =>
          cases f with
          | nil => exact absurd rfl hbn
          | cons d f =>
            have hd : isDigit d = true := hb d (by simp [fracDigits])
            have := run_star_cls_full isDigit cs ('.' :: d :: f ++ r) (c :: prev) []
              (fun st' => run (.opt true (.seq (.chr '.') (.seq (.cls isDigit) (.star true (.cls isDigit))))) st' (K n))
              ⟨(c :: (cs ++ fracText (some (d :: f)))).reverse ++ prev, r, []⟩ (fun x hx => ha x (by simp [hx]))
              (by intro x xs e; cases e; decide) (by
                simp only [List.cons_append]
                rw [run_opt_greedy, run_seq, Re.chr, run_cls_cons, if_pos (by decide), run_seq, run_cls_cons, if_pos hd]
                have h2 := run_star_cls_full isDigit f r (d :: '.' :: (cs.reverse ++ c :: prev)) [] (K n)
                  ⟨f.reverse ++ d :: '.' :: (cs.reverse ++ c :: prev), r, []⟩
                  (fun x hx => hb x (by simp [fracDigits, hx])) hrd (K_ok hn)
                rw [h2, Option.some_or]
                simp [fracText])
            simpa [fracText, Re.plus] using this
      rw [run_alt, hC, Option.some_or]

/-- The tokenizer separates a token list. -/
def LexOk : List GTok → Prop
  | [] => True
  | t :: ts => sepOk t (ts.flatMap GTok.text) ∧ LexOk ts

theorem sepOk_ne_nil {t r} (h : sepOk t r) : t.text ≠ [] := by
  cases t with
  | op o => cases o <;> simp [GTok.text, GOp.str]
  | dig s =>
    obtain ⟨a, b, hne, _, _, _, rfl⟩ := isNum_shape h.1
    simp [GTok.text, hne]
  | bad s => exact absurd h id
  | _ => simp [GTok.text]

theorem lexOk_finditerAux (ts : List GTok) (h : LexOk ts) (n : Nat) (prev : Str)
    (hn : (ts.flatMap GTok.text).length ≤ n) :
    finditerAux geoRe n prev (ts.flatMap GTok.text) = ts.map (fun t => .inr (t.text, [])) := by
  induction ts generalizing n prev with
  | nil => cases n <;> rfl
  | cons t ts ih =>
    have hne := sepOk_ne_nil h.1
    simp only [List.flatMap_cons, List.map_cons] at hn ⊢
    cases hx : t.text ++ ts.flatMap GTok.text with
    | nil => exact absurd (List.append_eq_nil_iff.1 hx).1 hne
    | cons c cs =>
      rw [hx] at hn
      have hlen : (ts.flatMap GTok.text).length < (c :: cs).length := by
        rw [← hx, List.length_append]
        have : 0 < t.text.length := List.length_pos_iff.2 hne
        omega
      cases n with
      | zero => simp at hn
      | succ n =>
        have := lex_step t (ts.flatMap GTok.text) prev (c :: cs).length h.1 hlen
        rw [hx] at this
        rw [finditerAux]
        show (match run geoRe ⟨prev, c :: cs, []⟩ (K (c :: cs).length) with
          | some st => _
          | none => _) = _
        rw [this]
        simp only
        have e : (c :: cs).take ((c :: cs).length - (ts.flatMap GTok.text).length) = t.text := by
          rw [← hx]; exact take_consumed _ _
        rw [e, ih h.2 n _ (by omega)]

theorem lexOk_finditer (ts : List GTok) (h : LexOk ts) :
    finditer geoRe (ts.flatMap GTok.text) = ts.map GTok.text := by
  unfold finditer
  rw [lexOk_finditerAux ts h _ _ (Nat.le_refl _)]
  rw [List.filterMap_map]
  induction ts with
  | nil => rfl
  | cons t ts ih => simp [ih h.2]

/-! ### Printed trees -/

/-- Characters an expression can begin with. -/
def startC (c : Char) : Bool := isDigit c || c == '(' || c == '+' || c == '-' || c == '#'

theorem WF.start {k e} (h : WF k e) : ∃ c cs, e.str = c :: cs ∧ startC c = true := by
  have hnum : ∀ s, isNum s → ∃ c cs, s = c :: cs ∧ startC c = true := by
    intro s hs
    obtain ⟨a, b, hne, ha, _, _, rfl⟩ := isNum_shape hs
    cases a with
    | nil => exact absurd rfl hne
    | cons c cs => exact ⟨c, cs ++ fracText b, rfl, by simp [startC, ha c (by simp)]⟩
  have hop : ∀ (o : GOp) (t : Str), ∃ c cs, o.str ++ t = c :: cs ∧ startC c = true := by
    intro o t; cases o <;> exact ⟨_, t, rfl, by decide⟩
  induction h with
  | digit hs => exact hnum _ hs
  | paren _ _ => exact ⟨'(', _, rfl, by decide⟩
  | unDigit _ => exact hop _ _
  | unParen _ _ => exact hop _ _
  | union hl hr ihl ihr =>
    obtain ⟨c, cs, e, h⟩ := ihl
    exact ⟨c, _, by simp only [Ast.str]; rw [e]; rfl, h⟩
  | inter hl hr ihl ihr =>
    obtain ⟨c, cs, e, h⟩ := ihl
    exact ⟨c, _, by simp only [Ast.str]; rw [e]; rfl, h⟩
  | up0 _ ih => exact ih
  | up1 _ ih => exact ih

theorem startC_props {c : Char} (h : startC c = true) : isSpace c = false ∧ c ≠ ':' := by
  simp only [startC, Bool.or_eq_true, beq_iff_eq] at h
  rcases h with (((h | rfl) | rfl) | rfl) | rfl
  · exact ⟨isDigit_not_space h, digit_ne h (by decide)⟩
  all_goals decide

theorem WF.headNot {k e} (h : WF k e) (rest : Str) :
    HeadNot (fun c => isSpace c || c == ':') (e.str ++ rest) ∧ HeadNot isSpace (e.str ++ rest) := by
  obtain ⟨c, cs, e1, hc⟩ := h.start
  obtain ⟨h1, h2⟩ := startC_props hc
  rw [e1]
  constructor
  · intro a b e; cases e; simp [h1, h2]
  · intro a b e; cases e; exact h1

theorem lexOk_ast {k e} (h : WF k e) (rest : List GTok) (hr : LexOk rest)
    (hh : HeadNot (fun c => isDigit c || c == '.') (rest.flatMap GTok.text)) : LexOk (e.toks ++ rest) := by
  induction h generalizing rest with
  | digit hs => exact ⟨⟨hs, hh⟩, hr⟩
  | @paren e he ih =>
    have hrp : LexOk (.rp :: rest) := ⟨trivial, hr⟩
    have := ih (.rp :: rest) hrp (by intro a b e; cases e; decide)
    simp only [Ast.toks, List.cons_append, List.append_assoc, List.nil_append]
    refine ⟨?_, this⟩
    simp only [List.flatMap_append, Ast.toks_text]
    exact (he.headNot _).2
  | unDigit hs =>
    refine ⟨?_, ⟨hs, hh⟩, hr⟩
    have := (WF.headNot (.digit hs) (rest.flatMap GTok.text)).2
    simpa [Ast.str, GTok.text, sepOk, Ast.toks] using this
  | @unParen o e he ih =>
    have hrp : LexOk (.rp :: rest) := ⟨trivial, hr⟩
    have := ih (.rp :: rest) hrp (by intro a b e; cases e; decide)
    simp only [Ast.toks, List.cons_append, List.append_assoc, List.nil_append]
    refine ⟨?_, ?_, this⟩
    · intro a b e; cases e; decide
    · simp only [List.flatMap_append, Ast.toks_text]
      exact (he.headNot _).2
  | @union l r hl hr' ihl ihr =>
    have h2 := ihr rest hr hh
    simp only [Ast.toks, List.append_assoc, List.cons_append]
    refine ihl (.col :: (r.toks ++ rest)) ⟨?_, h2⟩ (by intro a b e; cases e; decide)
    simp only [List.flatMap_append, Ast.toks_text]
    exact (hr'.headNot _).2
  | @inter l r hl hr' ihl ihr =>
    have h2 := ihr rest hr hh
    simp only [Ast.toks, List.append_assoc, List.cons_append]
    refine ihl (.sp :: (r.toks ++ rest)) ⟨?_, h2⟩ (by intro a b e; cases e; decide)
    simp only [List.flatMap_append, Ast.toks_text]
    exact (hr'.headNot _).1
  | up0 _ ih => exact ih rest hr hh
  | up1 _ ih => exact ih rest hr hh

theorem isNum_chars {s : Str} (h : isNum s) : ∀ c ∈ s, isDigit c = true ∨ c = '.' := by
  obtain ⟨a, b, _, ha, hb, _, rfl⟩ := isNum_shape h
  intro c hc
  rcases List.mem_append.1 hc with hc | hc
  · exact .inl (ha c hc)
  · cases b with
    | none => cases hc
    | some f =>
      rcases List.mem_cons.1 hc with rfl | hc
      · exact .inr rfl
      · exact .inl (hb c hc)

theorem isNum_noSpace {s : Str} (h : isNum s) : NoSpace s := by
  intro c hc
  rcases isNum_chars h c hc with h | rfl
  · exact isDigit_not_space h
  · decide

theorem tokOf_text {t r} (h : sepOk t r) : tokOf (tokStrip t.text) = t := by
  cases t with
  | dig s =>
    have hne : s ≠ [] := sepOk_ne_nil h
    have hs := strip_noSpace s (isNum_noSpace h.1)
    have : tokStrip (GTok.dig s).text = s := by simp [tokStrip, GTok.text, hs, hne]
    rw [this]
    have hx : ∀ x : Char, isDigit x = false → x ≠ '.' → s ≠ [x] := by
      intro x h1 h2 e
      rcases isNum_chars h.1 x (by rw [e]; simp) with h3 | h3
      · rw [h1] at h3; cases h3
      · exact h2 h3
    unfold tokOf
    simp only [hx ':' (by decide) (by decide), hx ' ' (by decide) (by decide), hx '(' (by decide) (by decide),
      hx ')' (by decide) (by decide), hx '+' (by decide) (by decide), hx '-' (by decide) (by decide),
      hx '#' (by decide) (by decide), if_false]
    exact if_pos h.1
  | bad s => exact absurd h id
  | op o => cases o <;> decide
  | col => decide
  | sp => decide
  | lp => decide
  | rp => decide

theorem lexOk_tokOf (ts : List GTok) (h : LexOk ts) : (ts.map GTok.text).map (fun t => tokOf (tokStrip t)) = ts := by
  induction ts with
  | nil => rfl
  | cons t ts ih => simp only [List.map_cons, tokOf_text h.1, ih h.2]

theorem WF.last {k e} (h : WF k e) : ∃ w c, e.str = w ++ [c] ∧ isSpace c = false := by
  have hnum : ∀ s, isNum s → ∃ w c, s = w ++ [c] ∧ isSpace c = false := by
    intro s hs
    rcases List.eq_nil_or_concat s with rfl | ⟨w, c, e⟩
    · obtain ⟨a, b, hne, _, _, _, e⟩ := isNum_shape hs
      exact absurd (List.append_eq_nil_iff.1 e.symm).1 hne
    · rw [List.concat_eq_append] at e
      exact ⟨w, c, e, isNum_noSpace hs c (by rw [e]; simp)⟩
  induction h with
  | digit hs => exact hnum _ hs
  | @paren e _ _ => exact ⟨'(' :: e.str, ')', rfl, by decide⟩
  | @unDigit o s hs =>
    obtain ⟨w, c, e, h⟩ := hnum _ hs
    exact ⟨o.str ++ w, c, by simp [Ast.str, e], h⟩
  | @unParen o e _ _ => exact ⟨o.str ++ '(' :: e.str, ')', by simp [Ast.str], by decide⟩
  | @union l r _ _ _ ih =>
    obtain ⟨w, c, e, h⟩ := ih
    exact ⟨l.str ++ ':' :: w, c, by simp [Ast.str, e], h⟩
  | @inter l r _ _ _ ih =>
    obtain ⟨w, c, e, h⟩ := ih
    exact ⟨l.str ++ ' ' :: w, c, by simp [Ast.str, e], h⟩
  | up0 _ ih => exact ih
  | up1 _ ih => exact ih

theorem geoParse_str {e : Ast} (h : WF 2 e) : geoParse e.str = .ok e := by
  have hl : LexOk e.toks := by
    have := lexOk_ast h [] trivial (by intro a b e; cases e)
    simpa using this
  have hstrip : strip e.str = e.str := by
    obtain ⟨c, cs, e1, hc⟩ := h.start
    obtain ⟨w, d, e2, hd⟩ := h.last
    exact strip_eq_self _ (by intro a hab; rw [e1] at hab; simp at hab; subst hab; exact (startC_props hc).1)
      (by intro a hab; rw [e2] at hab; simp at hab; subst hab; exact hd)
  unfold geoParse
  simp only [hstrip]
  have hf := lexOk_finditer _ hl
  rw [Ast.toks_text] at hf
  have hj : (e.toks.map GTok.text).flatten = e.str := by rw [← Ast.toks_text, List.flatMap_def]
  rw [hf, hj, lexOk_tokOf _ hl, pInter_toks h]
  simp

theorem tokOf_good (l : List Str) : Good (l.map tokOf) := by
  intro s hs
  obtain ⟨t, _, ht⟩ := List.mem_map.1 hs
  unfold tokOf at ht
  repeat' (split at ht)
  all_goals first
    | cases ht; assumption
    | cases ht

theorem geoParse_wf {s : Str} {e : Ast} (h : geoParse s = .ok e) : WF 2 e := by
  unfold geoParse at h
  simp only at h
  split at h
  · cases h
  · split at h
    · cases h
    · cases h
    · rename_i hp
      cases h
      have hg : Good ((finditer geoRe (strip s)).map (fun t => tokOf (tokStrip t))) := by
        have := tokOf_good ((finditer geoRe (strip s)).map tokStrip)
        rwa [List.map_map] at this
      exact ((parse_spec _).1 _ _ _ hg hp).1
    · cases h

end Types
