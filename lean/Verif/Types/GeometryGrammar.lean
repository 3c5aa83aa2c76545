import Verif.Types.GeometryLex
/-! Helper lemmas: the geometry parser on text with arbitrary blanks. -/
namespace Types
open Py

/-- A token with the text it is written as. -/
abbrev PT := Str × GTok

def PT.texts (l : List PT) : Str := l.flatMap Prod.fst
def PT.toks (l : List PT) : List GTok := l.map Prod.snd

/-- Blank text. -/
def Blank (s : Str) : Prop := ∀ c ∈ s, isSpace c = true

instance (s : Str) : Decidable (Blank s) := inferInstanceAs (Decidable (∀ c ∈ s, isSpace c = true))

/-- Derivations: level, written tokens, tree. -/
inductive D : Nat → List PT → Ast → Prop
  | num {s} : isNum s → D 0 [(s, .dig s)] (.digit s)
  | un {o s a} : isNum s → Blank a → D 0 [(o.str ++ a, .op o), (s, .dig s)] (.unary o (.digit s))
  | paren {u e a} : D 2 u e → Blank a → D 0 (('(' :: a, .lp) :: (u ++ [([')'], .rp)])) (.paren e)
  | unParen {o u e a b} : D 2 u e → Blank a → Blank b →
      D 0 ((o.str ++ b, .op o) :: ('(' :: a, .lp) :: (u ++ [([')'], .rp)])) (.unary o (.paren e))
  | union {u v l r a b} : D 1 u l → D 0 v r → Blank a → Blank b →
      D 1 (u ++ (a ++ ':' :: b, .col) :: v) (.union l r)
  | inter {u v l r w} : D 2 u l → D 1 v r → Blank w → w ≠ [] → D 2 (u ++ (w, .sp) :: v) (.inter l r)
  | juxt {u v l r a} : D 2 u l → D 1 (('(' :: a, .lp) :: v) r → D 2 (u ++ ('(' :: a, .lp) :: v) (.inter l r)
  | up0 {u e} : D 0 u e → D 1 u e
  | up1 {u e} : D 1 u e → D 2 u e

theorem D.ne_nil {k u e} (h : D k u e) : u ≠ [] := by
  cases h with
  | up0 h => cases h <;> simp
  | up1 h => cases h with
    | up0 h => cases h <;> simp
    | _ => simp
  | _ => simp

theorem D.cons {k u e} (h : D k u e) (rest : List GTok) : ∃ t ts, PT.toks u ++ rest = t :: ts := by
  cases hu : u with
  | nil => exact absurd hu h.ne_nil
  | cons t ts => exact ⟨t.2, PT.toks ts ++ rest, rfl⟩

def CompD : Nat → List GTok → Ast → Prop
  | 0, u, e => ∀ rest, Ev (fun n => pAtom n (u ++ rest)) (.ok (e, rest))
  | 1, u, e => ∀ rest res, Ev (fun n => loopU n e rest) res → Ev (fun n => pUnion n (u ++ rest)) res
  | _, u, e => ∀ rest res, notCol rest → Ev (fun n => loopI n e rest) res → Ev (fun n => pInter n (u ++ rest)) res

@[simp] theorem PT.toks_append (a b : List PT) : PT.toks (a ++ b) = PT.toks a ++ PT.toks b := by simp [PT.toks]
@[simp] theorem PT.toks_cons (a : PT) (b : List PT) : PT.toks (a :: b) = a.2 :: PT.toks b := rfl
@[simp] theorem PT.toks_nil : PT.toks [] = [] := rfl
@[simp] theorem PT.texts_append (a b : List PT) : PT.texts (a ++ b) = PT.texts a ++ PT.texts b := by simp [PT.texts]
@[simp] theorem PT.texts_cons (a : PT) (b : List PT) : PT.texts (a :: b) = a.1 ++ PT.texts b := rfl
@[simp] theorem PT.texts_nil : PT.texts [] = [] := rfl

theorem compD {k u e} (h : D k u e) : CompD k (PT.toks u) e := by
  induction h with
  | num hs => intro rest; exact Ev.const (fun n => rfl)
  | un hs _ => intro rest; exact Ev.const (fun n => rfl)
  | @paren u e a he _ ih =>
    intro rest
    refine Ev.step (ih (.rp :: rest) _ trivial (loopI_stop e (.rp :: rest) trivial))
      (h := fun _ => .ok (.paren e, rest)) ⟨0, fun _ _ => rfl⟩ ?_
    intro n hn
    simp only [PT.toks_append, PT.toks_cons, PT.toks_nil, List.cons_append, List.append_assoc, List.nil_append]
    show (match pInter n (PT.toks u ++ .rp :: rest) with
      | .error e => .error e
      | .ok (e, .rp :: r) => .ok (.paren e, r)
      | .ok _ => .error .syntaxErr : Res (Ast × List GTok)) = _
    rw [hn]
  | @unParen o u e a b he _ _ ih =>
    intro rest
    refine Ev.step (ih (.rp :: rest) _ trivial (loopI_stop e (.rp :: rest) trivial))
      (h := fun _ => .ok (.unary o (.paren e), rest)) ⟨0, fun _ _ => rfl⟩ ?_
    intro n hn
    simp only [PT.toks_append, PT.toks_cons, PT.toks_nil, List.cons_append, List.append_assoc, List.nil_append]
    show (match pInter n (PT.toks u ++ .rp :: rest) with
      | .error e => .error e
      | .ok (e, .rp :: r) => .ok (.unary o (.paren e), r)
      | .ok _ => .error .syntaxErr : Res (Ast × List GTok)) = _
    rw [hn]
  | @union u v l r a b hl hr _ _ ihl ihr =>
    intro rest res h
    simp only [PT.toks_append, PT.toks_cons, List.cons_append, List.append_assoc]
    apply ihl
    obtain ⟨t, ts, ht⟩ := hr.cons rest
    have := ihr rest
    rw [ht] at this ⊢
    refine Ev.step this h ?_
    intro n hn
    show (match pAtom n (t :: ts) with
      | .error e => .error e
      | .ok (r, ts) => loopU n (.union l r) ts : Res (Ast × List GTok)) = _
    rw [hn]
  | @inter u v l r w hl hr _ _ ihl ihr =>
    intro rest res hc h
    simp only [PT.toks_append, PT.toks_cons, List.cons_append, List.append_assoc]
    refine ihl _ _ trivial ?_
    have := ihr rest _ (loopU_stop r rest hc)
    refine Ev.step this h ?_
    intro n hn
    show (match pUnion n (PT.toks v ++ rest) with
      | .error e => .error e
      | .ok (r, ts) => loopI n (.inter l r) ts : Res (Ast × List GTok)) = _
    rw [hn]
  | @juxt u v l r a hl hr ihl ihr =>
    intro rest res hc h
    simp only [PT.toks_append, PT.toks_cons, List.cons_append, List.append_assoc]
    refine ihl _ _ trivial ?_
    have := ihr rest _ (loopU_stop r rest hc)
    refine Ev.step this h ?_
    intro n hn
    show (match pUnion n (.lp :: (PT.toks v ++ rest)) with
      | .error e => .error e
      | .ok (r, ts) => loopI n (.inter l r) ts : Res (Ast × List GTok)) = _
    simp only [PT.toks_cons, List.cons_append] at hn
    rw [hn]
  | @up0 u e he ih =>
    intro rest res h
    obtain ⟨t, ts, ht⟩ := he.cons rest
    have := ih rest
    rw [ht] at this ⊢
    refine Ev.step this h ?_
    intro n hn
    show (match pAtom n (t :: ts) with
      | .error e => .error e
      | .ok (l, ts) => loopU n l ts : Res (Ast × List GTok)) = _
    rw [hn]
  | @up1 u e he ih =>
    intro rest res hc h
    have := ih rest _ (loopU_stop e rest hc)
    refine Ev.step this h ?_
    intro n hn
    show (match pUnion n (PT.toks u ++ rest) with
      | .error e => .error e
      | .ok (l, ts) => loopI n l ts : Res (Ast × List GTok)) = _
    rw [hn]

theorem pInter_D {u e} (h : D 2 u e) : pInter (4 * (PT.toks u).length + 4) (PT.toks u) = .ok (e, []) := by
  obtain ⟨N, hN⟩ := compD h [] _ trivial (loopI_stop e [] trivial)
  simp only [List.append_nil] at hN
  have hd : Done (pInter (4 * (PT.toks u).length + 4) (PT.toks u)) := ((parse_fuel _).1 _ (by omega)).done
  rw [← pInter_mono (Nat.le_max_left (4 * (PT.toks u).length + 4) N) hd]
  exact hN _ (Nat.le_max_right _ _)

/-! ### Lexing with blanks -/

def padOk : PT → Prop
  | (w, .col) => ∃ a b, Blank a ∧ Blank b ∧ w = a ++ ':' :: b
  | (w, .sp) => w ≠ [] ∧ Blank w
  | (w, .lp) => ∃ a, Blank a ∧ w = '(' :: a
  | (w, .rp) => w = [')']
  | (w, .op o) => ∃ a, Blank a ∧ w = o.str ++ a
  | (w, .dig s) => w = s
  | (_, .bad _) => False

theorem lex_stepP (w : Str) (t : GTok) (r prev : Str) (n : Nat) (hp : padOk (w, t)) (hs : sepOk t r)
    (hn : r.length < n) : run geoRe ⟨prev, w ++ r, []⟩ (K n) = some ⟨w.reverse ++ prev, r, []⟩ := by
  have opP : ∀ (c : Char) (a : Str), Blank a → HeadNot isSpace r → isSpace c = false → c ≠ ':' →
      isDigit c = false → "(+#-".toList.contains c = true →
      run geoRe ⟨prev, c :: a ++ r, []⟩ (K n) = some ⟨(c :: a).reverse ++ prev, r, []⟩ := by
    intro c a ha hr h1 h2 h3 h4
    unfold geoRe
    simp only [List.cons_append]
    rw [run_alt, altA_none _ _ _ _ h1 h2, Option.none_or]
    rw [run_alt, Re.plus, run_seq, Re.space, run_cls_cons, if_neg (by simp [h1]), Option.none_or]
    rw [run_alt, Re.plus, run_seq, run_seq, Re.digit, run_cls_cons, if_neg (by simp [h3]), Option.none_or]
    rw [run_alt, run_seq, Re.oneOf, run_cls_cons, if_pos h4]
    have := run_star_cls_full isSpace a r (c :: prev) [] (K n) ⟨(c :: a).reverse ++ prev, r, []⟩ ha hr (by
      rw [K_ok hn]; simp)
    rw [this, Option.some_or]
  cases t with
  | bad s => exact absurd hp id
  | col =>
    obtain ⟨a, b, ha, hb, rfl⟩ := hp
    unfold geoRe
    have := run_star_cls_full isSpace a (':' :: (b ++ r)) prev []
      (fun st' => run (.seq (.chr ':') (.star true .space)) st' (K n))
      ⟨(a ++ ':' :: b).reverse ++ prev, r, []⟩ ha (by intro c cs e; cases e; decide) (by
        rw [run_seq, Re.chr, run_cls_cons, if_pos (by decide)]
        have h2 := run_star_cls_full isSpace b r (':' :: (a.reverse ++ prev)) [] (K n)
          ⟨(a ++ ':' :: b).reverse ++ prev, r, []⟩ hb hs (by rw [K_ok hn]; simp)
        exact h2)
    rw [run_alt, run_seq]
    simp only [List.append_assoc, List.cons_append]
    rw [Re.space] at *
    rw [this, Option.some_or]
  | sp =>
    obtain ⟨hne, hb⟩ := hp
    have hsp : HeadNot isSpace r := by
      intro c cs e; have := hs c cs e; simp only [Bool.or_eq_false_iff] at this; exact this.1
    have hA : run (.seq (.star true .space) (.seq (.chr ':') (.star true .space))) ⟨prev, w ++ r, []⟩ (K n) = none := by
      apply run_none
      intro st' hst
      obtain ⟨m, h1, h2⟩ := step_seq.1 hst
      obtain ⟨w1, r1, hw1, e1, rfl⟩ := step_star_cls.1 h1
      obtain ⟨m2, h3, _⟩ := step_seq.1 h2
      obtain ⟨c, cs, hc, e2, rfl⟩ := step_cls.1 h3
      simp only [St.adv_rest] at e1 e2
      have : c = ':' := by simpa using hc
      subst this
      have hx := congrArg (List.dropWhile isSpace) e1
      rw [dropWhile_stop w r hb hsp, dropWhile_stop w1 r1 hw1 (by rw [e2]; intro c cs e; cases e; decide), e2] at hx
      have := hs _ _ hx
      simp at this
    unfold geoRe
    rw [run_alt, hA, Option.none_or, run_alt, Re.plus, run_seq, Re.space]
    cases w with
    | nil => exact absurd rfl hne
    | cons c cs =>
      simp only [List.cons_append]
      rw [run_cls_cons, if_pos (hb c (by simp))]
      have := run_star_cls_full isSpace cs r (c :: prev) [] (K n) ⟨(c :: cs).reverse ++ prev, r, []⟩
        (fun x hx => hb x (by simp [hx])) hsp (by rw [K_ok hn]; simp)
      rw [this, Option.some_or]
  | lp =>
    obtain ⟨a, ha, rfl⟩ := hp
    exact opP '(' a ha hs (by decide) (by decide) (by decide) (by decide)
  | rp =>
    have hw : w = [')'] := hp
    subst hw
    exact lex_step .rp r prev n hs hn
  | op o =>
    obtain ⟨a, ha, rfl⟩ := hp
    cases o
    · exact opP '+' a ha hs (by decide) (by decide) (by decide) (by decide)
    · exact opP '-' a ha hs (by decide) (by decide) (by decide) (by decide)
    · exact opP '#' a ha hs (by decide) (by decide) (by decide) (by decide)
  | dig s =>
    have hw : w = s := hp
    subst hw
    exact lex_step (.dig w) r prev n hs hn

def LexP : List PT → Prop
  | [] => True
  | t :: ts => padOk t ∧ sepOk t.2 (PT.texts ts) ∧ LexP ts

theorem padOk_ne_nil {w t r} (hp : padOk (w, t)) (h : sepOk t r) : w ≠ [] := by
  cases t with
  | op o => obtain ⟨a, _, rfl⟩ := hp; cases o <;> simp [GOp.str]
  | dig s => have : w = s := hp; subst this; exact sepOk_ne_nil h
  | bad s => exact absurd h id
  | col => obtain ⟨a, b, _, _, rfl⟩ := hp; simp
  | sp => exact hp.1
  | lp => obtain ⟨a, _, rfl⟩ := hp; simp
  | rp => have : w = [')'] := hp; subst this; simp

theorem lexP_finditerAux (ts : List PT) (h : LexP ts) (n : Nat) (prev : Str) (hn : (PT.texts ts).length ≤ n) :
    finditerAux geoRe n prev (PT.texts ts) = ts.map (fun t => .inr (t.1, [])) := by
  induction ts generalizing n prev with
  | nil => cases n <;> rfl
  | cons t ts ih =>
    obtain ⟨w, t⟩ := t
    have hne := padOk_ne_nil h.1 h.2.1
    simp only [PT.texts_cons, List.map_cons] at hn ⊢
    cases hx : w ++ PT.texts ts with
    | nil => exact absurd (List.append_eq_nil_iff.1 hx).1 hne
    | cons c cs =>
      rw [hx] at hn
      have hlen : (PT.texts ts).length < (c :: cs).length := by
        rw [← hx, List.length_append]
        have : 0 < w.length := List.length_pos_iff.2 hne
        omega
      cases n with
      | zero => simp at hn
      | succ n =>
        have := lex_stepP w t (PT.texts ts) prev (c :: cs).length h.1 h.2.1 hlen
        rw [hx] at this
        rw [finditerAux]
        show (match run geoRe ⟨prev, c :: cs, []⟩ (K (c :: cs).length) with
          | some st => _
          | none => _) = _
        rw [this]
        simp only
        have e : (c :: cs).take ((c :: cs).length - (PT.texts ts).length) = w := by
          rw [← hx]; exact take_consumed _ _
        rw [e, ih h.2.2 n _ (by omega)]

theorem lexP_finditer (ts : List PT) (h : LexP ts) : finditer geoRe (PT.texts ts) = ts.map Prod.fst := by
  unfold finditer
  rw [lexP_finditerAux ts h _ _ (Nat.le_refl _)]
  rw [List.filterMap_map]
  clear h
  induction ts with
  | nil => rfl
  | cons t ts ih => simp [ih]

theorem strip_pad {a b m : Str} (ha : Blank a) (hb : Blank b) (h1 : ∀ c ∈ m.head?, isSpace c = false)
    (h2 : ∀ c ∈ m.getLast?, isSpace c = false) (hne : m ≠ []) : strip (a ++ m ++ b) = m := by
  have e1 : lstrip (a ++ (m ++ b)) = m ++ b := by
    unfold lstrip
    refine dropWhile_stop a (m ++ b) ha ?_
    intro c cs e
    cases m with
    | nil => exact absurd rfl hne
    | cons x xs => cases e; exact h1 _ (by simp)
  unfold strip
  rw [List.append_assoc, e1]
  unfold rstrip
  rw [List.reverse_append, dropWhile_stop b.reverse m.reverse (by intro c hc; exact hb c (by simpa using hc)) (by
    intro c cs e
    exact h2 c (by rw [← List.head?_reverse, e]; simp)), List.reverse_reverse]

theorem strip_pad' {a b : Str} {x : Char} (ha : Blank a) (hb : Blank b) (hx : isSpace x = false) :
    strip (a ++ x :: b) = [x] := by
  have := strip_pad (m := [x]) ha hb (by simpa using hx) (by simpa using hx) (by simp)
  simpa using this

theorem strip_blank {a : Str} (ha : Blank a) : strip a = [] := by
  have : lstrip a = [] := by
    unfold lstrip
    have := dropWhile_stop a [] ha (by intro c cs e; cases e)
    simpa using this
  unfold strip; rw [this]; rfl

theorem tokOf_pad {w t r} (hp : padOk (w, t)) (h : sepOk t r) : tokOf (tokStrip w) = t := by
  cases t with
  | bad s => exact absurd h id
  | dig s => have : w = s := hp; subst this; exact tokOf_text h
  | rp => have : w = [')'] := hp; subst this; decide
  | sp => unfold tokStrip; rw [if_pos (strip_blank hp.2)]; decide
  | col =>
    obtain ⟨a, b, ha, hb, rfl⟩ := hp
    unfold tokStrip; rw [strip_pad' ha hb (by decide)]; decide
  | lp =>
    obtain ⟨a, ha, rfl⟩ := hp
    have := strip_pad' (a := []) (x := '(') (by intro c hc; cases hc) ha (by decide)
    unfold tokStrip; simp only [List.nil_append] at this; rw [this]; decide
  | op o =>
    obtain ⟨a, ha, rfl⟩ := hp
    cases o
    · have := strip_pad' (a := []) (x := '+') (by intro c hc; cases hc) ha (by decide)
      show tokOf (tokStrip ('+' :: a)) = _
      simp only [List.nil_append] at this; unfold tokStrip; rw [this]; decide
    · have := strip_pad' (a := []) (x := '-') (by intro c hc; cases hc) ha (by decide)
      show tokOf (tokStrip ('-' :: a)) = _
      simp only [List.nil_append] at this; unfold tokStrip; rw [this]; decide
    · have := strip_pad' (a := []) (x := '#') (by intro c hc; cases hc) ha (by decide)
      show tokOf (tokStrip ('#' :: a)) = _
      simp only [List.nil_append] at this; unfold tokStrip; rw [this]; decide

theorem lexP_tokOf (ts : List PT) (h : LexP ts) : (ts.map Prod.fst).map (fun t => tokOf (tokStrip t)) = PT.toks ts := by
  induction ts with
  | nil => rfl
  | cons t ts ih =>
    simp only [List.map_cons, PT.toks_cons]
    rw [tokOf_pad h.1 h.2.1, ih h.2.2]

theorem num_start {s} (hs : isNum s) : ∃ c cs, s = c :: cs ∧ startC c = true := by
  obtain ⟨a, b, hne, ha, _, _, rfl⟩ := isNum_shape hs
  cases a with
  | nil => exact absurd rfl hne
  | cons c cs => exact ⟨c, cs ++ fracText b, rfl, by simp [startC, ha c (by simp)]⟩

theorem D.start {k u e} (h : D k u e) : ∃ c cs, PT.texts u = c :: cs ∧ startC c = true := by
  induction h with
  | num hs => obtain ⟨c, cs, rfl, h⟩ := num_start hs; exact ⟨c, cs, by simp, h⟩
  | @un o s a hs _ => cases o <;> exact ⟨_, _, rfl, by decide⟩
  | paren _ _ _ => exact ⟨'(', _, rfl, by decide⟩
  | @unParen o _ _ _ _ _ _ _ _ => cases o <;> exact ⟨_, _, rfl, by decide⟩
  | union _ _ _ _ ih _ =>
    obtain ⟨c, cs, e, h⟩ := ih
    exact ⟨c, _, by rw [PT.texts_append, e]; rfl, h⟩
  | inter _ _ _ _ ih _ =>
    obtain ⟨c, cs, e, h⟩ := ih
    exact ⟨c, _, by rw [PT.texts_append, e]; rfl, h⟩
  | juxt _ _ ih _ =>
    obtain ⟨c, cs, e, h⟩ := ih
    exact ⟨c, _, by rw [PT.texts_append, e]; rfl, h⟩
  | up0 _ ih => exact ih
  | up1 _ ih => exact ih

theorem num_last {s} (hs : isNum s) : ∃ w c, s = w ++ [c] ∧ isSpace c = false := by
  rcases List.eq_nil_or_concat s with rfl | ⟨w, c, e⟩
  · obtain ⟨a, b, hne, _, _, _, e⟩ := isNum_shape hs
    exact absurd (List.append_eq_nil_iff.1 e.symm).1 hne
  · rw [List.concat_eq_append] at e
    exact ⟨w, c, e, isNum_noSpace hs c (by rw [e]; simp)⟩

theorem D.last {k u e} (h : D k u e) : ∃ w c, PT.texts u = w ++ [c] ∧ isSpace c = false := by
  induction h with
  | num hs => obtain ⟨w, c, e, h⟩ := num_last hs; exact ⟨w, c, by simpa using e, h⟩
  | @un o s a hs _ =>
    obtain ⟨w, c, e, h⟩ := num_last hs
    exact ⟨o.str ++ a ++ w, c, by simp [e], h⟩
  | @paren u e a _ _ _ => exact ⟨'(' :: (a ++ PT.texts u), ')', by simp, by decide⟩
  | @unParen o u e a b _ _ _ _ => exact ⟨o.str ++ b ++ '(' :: (a ++ PT.texts u), ')', by simp, by decide⟩
  | @union u v l r a b _ _ _ _ _ ih =>
    obtain ⟨w, c, e, h⟩ := ih
    exact ⟨PT.texts u ++ (a ++ ':' :: b) ++ w, c, by simp [e], h⟩
  | @inter u v l r s _ _ _ _ _ ih =>
    obtain ⟨w, c, e, h⟩ := ih
    exact ⟨PT.texts u ++ s ++ w, c, by simp [e], h⟩
  | @juxt u v l r a _ _ _ ih =>
    obtain ⟨w, c, e, h⟩ := ih
    exact ⟨PT.texts u ++ w, c, by rw [PT.texts_append, e]; simp, h⟩
  | up0 _ ih => exact ih
  | up1 _ ih => exact ih

theorem D.headNot {k u e} (h : D k u e) (rest : Str) :
    HeadNot (fun c => isSpace c || c == ':') (PT.texts u ++ rest) ∧ HeadNot isSpace (PT.texts u ++ rest) := by
  obtain ⟨c, cs, e1, hc⟩ := h.start
  obtain ⟨h1, h2⟩ := startC_props hc
  rw [e1]
  constructor
  · intro a b e; cases e; simp [h1, h2]
  · intro a b e; cases e; exact h1

theorem blank_nil : Blank [] := by intro c hc; cases hc

theorem space_not {c : Char} (h : isSpace c = true) : (isDigit c || c == '.') = false := by
  simp only [Bool.or_eq_false_iff, beq_eq_false_iff_ne]
  constructor
  · cases hd : isDigit c with
    | false => rfl
    | true => rw [isDigit_not_space hd] at h; cases h
  · rintro rfl; revert h; decide

theorem lexP_D {k u e} (h : D k u e) (rest : List PT) (hr : LexP rest)
    (hh : HeadNot (fun c => isDigit c || c == '.') (PT.texts rest)) : LexP (u ++ rest) := by
  induction h generalizing rest with
  | num hs => exact ⟨rfl, ⟨hs, hh⟩, hr⟩
  | @un o s a hs ha =>
    refine ⟨⟨a, ha, rfl⟩, ?_, rfl, ⟨hs, hh⟩, hr⟩
    have := ((D.num hs).headNot (PT.texts rest)).2
    simpa [sepOk] using this
  | @paren u e a he ha ih =>
    have hrp : LexP (([')'], .rp) :: rest) := ⟨rfl, trivial, hr⟩
    have := ih _ hrp (by intro a b e; cases e; decide)
    simp only [List.cons_append, List.append_assoc, List.nil_append]
    refine ⟨⟨a, ha, rfl⟩, ?_, this⟩
    have := (he.headNot (PT.texts (([')'], .rp) :: rest))).2
    simpa [sepOk] using this
  | @unParen o u e a b he ha hb ih =>
    have hrp : LexP (([')'], .rp) :: rest) := ⟨rfl, trivial, hr⟩
    have := ih _ hrp (by intro a b e; cases e; decide)
    simp only [List.cons_append, List.append_assoc, List.nil_append]
    refine ⟨⟨b, hb, rfl⟩, ?_, ⟨a, ha, rfl⟩, ?_, this⟩
    · intro x y e; cases e; decide
    · have := (he.headNot (PT.texts (([')'], .rp) :: rest))).2
      simpa [sepOk] using this
  | @union u v l r a b hl hr' ha hb ihl ihr =>
    have h2 := ihr rest hr hh
    simp only [List.append_assoc, List.cons_append]
    refine ihl _ ⟨⟨a, b, ha, hb, rfl⟩, ?_, h2⟩ ?_
    · have := (hr'.headNot (PT.texts rest)).2
      simpa [sepOk] using this
    · intro c cs e
      cases a with
      | nil => cases e; decide
      | cons x xs => cases e; exact space_not (ha _ (by simp))
  | @inter u v l r w hl hr' hw hne ihl ihr =>
    have h2 := ihr rest hr hh
    simp only [List.append_assoc, List.cons_append]
    refine ihl _ ⟨⟨hne, hw⟩, ?_, h2⟩ ?_
    · have := (hr'.headNot (PT.texts rest)).1
      simpa [sepOk] using this
    · intro c cs e
      cases w with
      | nil => exact absurd rfl hne
      | cons x xs => cases e; exact space_not (hw _ (by simp))
  | @juxt u v l r a hl hr' ihl ihr =>
    have h2 := ihr rest hr hh
    simp only [List.append_assoc]
    refine ihl _ h2 ?_
    intro c cs e; cases e; decide
  | up0 _ ih => exact ih rest hr hh
  | up1 _ ih => exact ih rest hr hh

theorem geoParse_D {u e} (h : D 2 u e) {a b : Str} (ha : Blank a) (hb : Blank b) :
    geoParse (a ++ PT.texts u ++ b) = .ok e := by
  have hl : LexP u := by
    have := lexP_D h [] trivial (by intro a b e; cases e)
    simpa using this
  have hstrip : strip (a ++ PT.texts u ++ b) = PT.texts u := by
    obtain ⟨c, cs, e1, hc⟩ := h.start
    obtain ⟨w, d, e2, hd⟩ := h.last
    exact strip_pad ha hb (by intro a hab; rw [e1] at hab; simp at hab; subst hab; exact (startC_props hc).1)
      (by intro a hab; rw [e2] at hab; simp at hab; subst hab; exact hd) (by rw [e1]; simp)
  unfold geoParse
  simp only [hstrip]
  rw [lexP_finditer _ hl, lexP_tokOf _ hl, pInter_D h]
  have hj : (u.map Prod.fst).flatten = PT.texts u := by rw [PT.texts, List.flatMap_def]
  simp [hj]

theorem isNum_of_shape (a : Str) (b : Option Str) (hne : a ≠ []) (ha : Digits a) (hb : Digits (fracDigits b))
    (hbn : b ≠ some []) : isNum (a ++ fracText b) := by
  have hstep : ∃ st', Step gdigitRe ⟨[], a ++ fracText b, []⟩ st' := by
    unfold gdigitRe
    cases b with
    | none =>
      refine ⟨_, .seq _ _ _ _ _ (.bos _ rfl) (.seq _ _ _ _ _ (.grp _ _ _ _ (.seq _ _ _ _ _
        (step_plus_cls.2 ⟨a, [], hne, ha, by simp [fracText], rfl⟩) (.optNone _ _ _))) (.eos _ rfl))⟩
    | some f =>
      refine ⟨_, .seq _ _ _ _ _ (.bos _ rfl) (.seq _ _ _ _ _ (.grp _ _ _ _ (.seq _ _ _ _ _
        (step_plus_cls.2 ⟨a, '.' :: f, hne, ha, by simp [fracText], rfl⟩) (.optSome _ _ _ _
          (.seq _ _ _ _ _ (.cls _ '.' f _ _ rfl) (step_plus_cls.2 ⟨f, [], by simpa using hbn, hb, by simp, rfl⟩)))))
        (.eos _ rfl))⟩
  obtain ⟨st', hst⟩ := hstep
  unfold isNum
  cases hm : reMatch gdigitRe (a ++ fracText b) with
  | some m => rfl
  | none =>
    have := (run_spec _ _ _).1.1 hm st' hst
    cases this

end Types
