import Verif.Ptrac.HeaderLemmas
import Verif.Inp.HeadLemmas
/-! Lemmas on PTRAC files as sequences of lines. -/
namespace Ptrac
open Py Types Inp

/-! ### Lines -/

/-- Lines, each with its end. -/
def unl (ls : List Str) : Str := (ls.map (· ++ ['\n'])).flatten

theorem unl_cons (l : Str) (ls : List Str) : unl (l :: ls) = l ++ '\n' :: unl ls := by
  simp [unl]

theorem unl_append (a b : List Str) : unl (a ++ b) = unl a ++ unl b := by simp [unl]

/-- A line: a character and text without line ends. -/
def Ln (l : Str) : Prop := ∃ c u, l = c :: u ∧ '\n' ∉ u

theorem Shape.ln {ws : List Nat} {l : Str} (h : Shape ws l) : Ln l := by
  obtain ⟨c, u, h1, -, h3, -⟩ := h
  exact ⟨c, u, h1, h3⟩

theorem Shape.length {ws : List Nat} {l : Str} (h : Shape ws l) : ∃ n ∈ ws, l.length = n + 1 := by
  obtain ⟨c, u, h1, -, h3, h4⟩ := h
  exact ⟨_, h4, by rw [h1]; rfl⟩

theorem ln_split {l l' x y : Str} (h : Ln l) (h' : Ln l') (e : l ++ '\n' :: x = l' ++ '\n' :: y) : l = l' ∧ x = y := by
  obtain ⟨c, u, rfl, hu⟩ := h
  obtain ⟨c', u', rfl, hu'⟩ := h'
  simp only [List.cons_append, List.cons.injEq] at e
  obtain ⟨rfl, e⟩ := e
  obtain ⟨rfl, rfl⟩ := nl_split hu hu' e
  exact ⟨rfl, rfl⟩

theorem ln_of {l : Str} (h0 : l ≠ []) (h : '\n' ∉ l) : Ln l := by
  cases l with
  | nil => exact absurd rfl h0
  | cons c u => exact ⟨c, u, rfl, fun hc => h (List.mem_cons_of_mem _ hc)⟩

/-- A pattern without groups that reads the lines with `P`. -/
structure LineRe (r : Re) (P : Str → Prop) : Prop where
  free : r.free = true
  inv : ∀ w e, Mt r w e → ∃ l, w = l ++ ['\n'] ∧ P l ∧ e = []
  ok : ∀ l, P l → Mt r (l ++ ['\n']) []
  ln : ∀ l, P l → Ln l

theorem LineRe.some {α : Type} {r : Re} {P : Str → Prop} (h : LineRe r P) {l : Str} (hl : P l) (prev s caps)
    (k : St → Option α) (x : α) (hk : k ⟨'\n' :: (l.reverse ++ prev), s, caps⟩ = some x) :
    run r ⟨prev, l ++ '\n' :: s, caps⟩ k = some x := by
  have hs := (h.ok l hl).step prev s caps
  rw [List.append_assoc, List.reverse_append] at hs
  refine run_unique hs (by simpa using hk) ?_
  intro st' hst
  obtain ⟨w, e, h1, h2, h3, h4⟩ := hst.mt h.free
  obtain ⟨l', rfl, hl', rfl⟩ := h.inv _ _ h1
  simp only at h2 h3 h4
  rw [List.append_assoc] at h2
  obtain ⟨rfl, e⟩ := ln_split (h.ln l hl) (h.ln l' hl') h2
  right
  rw [← hk]
  cases st' with
  | mk p q c =>
    simp only at e h3 h4
    subst e h3 h4
    simp

theorem LineRe.none {α : Type} {r : Re} {P : Str → Prop} (h : LineRe r P) {l : Str} (hl : Ln l) (hn : ¬ P l) (prev s caps)
    (k : St → Option α) : run r ⟨prev, l ++ '\n' :: s, caps⟩ k = none := by
  apply run_none
  intro st' hst
  obtain ⟨w, e, h1, h2, h3, h4⟩ := hst.mt h.free
  obtain ⟨l', rfl, hl', rfl⟩ := h.inv _ _ h1
  simp only at h2
  rw [List.append_assoc] at h2
  obtain ⟨rfl, e⟩ := ln_split hl (h.ln l' hl') h2
  exact absurd hl' hn

theorem lineRe_rep (n : Nat) : LineRe (.seq .space (.seq (Re.rep n .dot) (Re.chr '\n'))) (Shape [n]) where
  free := by simp [Re.free, Re.space, Re.chr, free_rep]
  inv := by
    intro w e h
    simp only [mt_seq, Re.space, Re.chr, mt_cls] at h
    obtain ⟨u, v, x, y, ⟨c, hc, rfl, rfl⟩, ⟨u', v', x', y', h1, ⟨c', hc', rfl, rfl⟩, rfl, rfl⟩, rfl, rfl⟩ := h
    obtain ⟨a, b, rfl⟩ := mt_rep h1
    have := eq_of_beq hc'
    subst this
    exact ⟨c :: u', by simp, ⟨c, u', rfl, hc, b, by simp [a]⟩, rfl⟩
  ok := by
    rintro l ⟨c, u, rfl, hc, hn, hl⟩
    simp only [List.mem_singleton] at hl
    subst hl
    exact .seq (u := [c]) (e := []) (f := []) (.cls hc) (.seq (e := []) (f := []) (rep_mt u hn) (.cls (by decide)))
  ln := fun l h => h.ln

/-- A line of an L block. -/
def LShape (l : Str) : Prop := ∃ c u, l = c :: u ∧ isSpace c = true ∧ '\n' ∉ u ∧ u.length % 4 = 0 ∧ u ≠ []

theorem LShape.ln {l : Str} (h : LShape l) : Ln l := by
  obtain ⟨c, u, h1, -, h3, -⟩ := h
  exact ⟨c, u, h1, h3⟩

theorem LShape.length {l : Str} (h : LShape l) : l.length % 4 = 1 := by
  obtain ⟨c, u, h1, -, -, h3, -⟩ := h
  rw [h1, List.length_cons]; omega

theorem mt_star_rep {n : Nat} {v : Str} {e} (h : Mt (.star true (Re.rep n .dot)) v e) : '\n' ∉ v ∧ v.length % n = 0 ∧ e = [] := by
  generalize hr : Re.star true (Re.rep n .dot) = q at h
  induction h with
  | starNil => simp
  | @starCons _ _ u v e f hu h1 h2 _ ih =>
    cases hr
    obtain ⟨a, b, rfl⟩ := ih rfl
    obtain ⟨a', b', rfl⟩ := mt_rep h1
    refine ⟨?_, ?_, rfl⟩
    · rw [List.mem_append, not_or]; exact ⟨b', a⟩
    · rw [List.length_append, a', Nat.add_mod_left]; exact b
  | _ => cases hr

theorem star_rep_mt (n : Nat) (hn : 0 < n) : ∀ (m : Nat) (u : Str), u.length = n * m → '\n' ∉ u → Mt (.star true (Re.rep n .dot)) u [] := by
  intro m
  induction m with
  | zero =>
    intro u hu _
    have : u = [] := List.length_eq_zero_iff.1 (by simpa using hu)
    subst this
    exact .starNil
  | succ m ih =>
    intro u hu hnl
    rw [Nat.mul_succ] at hu
    have h1 : (u.take n).length = n := by rw [List.length_take]; omega
    have h2 := rep_mt (u.take n) (fun h => hnl (List.mem_of_mem_take h))
    rw [h1] at h2
    have h3 := ih (u.drop n) (by rw [List.length_drop]; omega) (fun h => hnl (List.mem_of_mem_drop h))
    have := Mt.starCons (g := true) (by intro e; rw [e] at h1; simp at h1; omega) h2 h3
    rw [List.take_append_drop] at this
    exact this

theorem lineRe_four : LineRe lLine LShape where
  free := by simp [lLine, Re.plus, Re.free, Re.space, Re.chr, free_rep]
  inv := by
    intro w e h
    unfold lLine Re.plus at h
    simp only [mt_seq, Re.space, Re.chr, mt_cls] at h
    obtain ⟨u, v, x, y, ⟨c, hc, rfl, rfl⟩, ⟨u', v', x', y', ⟨p, q, x1, y1, h1, h2, rfl, rfl⟩, ⟨c', hc', rfl, rfl⟩, rfl, rfl⟩, rfl, rfl⟩ := h
    obtain ⟨a, b, rfl⟩ := mt_rep h1
    obtain ⟨a', b', rfl⟩ := mt_star_rep h2
    have := eq_of_beq hc'
    subst this
    refine ⟨c :: (p ++ q), by simp, ⟨c, p ++ q, rfl, hc, ?_, ?_, ?_⟩, rfl⟩
    · rw [List.mem_append, not_or]; exact ⟨b, a'⟩
    · rw [List.length_append, a]; omega
    · intro h
      rw [(List.append_eq_nil_iff.1 h).1] at a
      cases a
  ok := by
    rintro l ⟨c, u, rfl, hc, hn, hl, hne⟩
    have hpos : 0 < u.length := List.length_pos_iff.2 hne
    have h1 : (u.take 4).length = 4 := by rw [List.length_take]; omega
    have h2 := rep_mt (u.take 4) (fun h => hn (List.mem_of_mem_take h))
    rw [h1] at h2
    have h3 := star_rep_mt 4 (by decide) ((u.length - 4) / 4) (u.drop 4) (by rw [List.length_drop]; omega) (fun h => hn (List.mem_of_mem_drop h))
    have h4 := Mt.seq h2 h3
    rw [List.take_append_drop] at h4
    exact .seq (u := [c]) (e := []) (f := []) (.cls hc) (.seq (e := []) (f := []) h4 (.cls (by decide)))
  ln := fun l h => h.ln

/-! ### Repeats of lines -/

theorem greedy_lines {α : Type} {r : Re} {P : Str → Prop} (h : LineRe r P) (R : Str) (k : St → Option α) (x : α)
    (he : ∀ prev caps (k : St → Option α), run r ⟨prev, R, caps⟩ k = .none) (ls : List Str) : ∀ prev caps, (∀ l ∈ ls, P l) →
    k ⟨(unl ls).reverse ++ prev, R, caps⟩ = .some x → run (.star true r) ⟨prev, unl ls ++ R, caps⟩ k = .some x := by
  induction ls with
  | nil =>
    intro prev caps _ hk
    show run (.star true r) ⟨prev, R, caps⟩ k = _
    rw [run_star_greedy, he, Option.none_or]
    exact hk
  | cons l ls ih =>
    intro prev caps hl hk
    rw [run_star_greedy, unl_cons, List.append_assoc, List.cons_append]
    rw [h.some (hl l (by simp)) prev (unl ls ++ R) caps _ x]
    · rfl
    · unfold starNext
      rw [if_pos (by simp only [List.length_append, List.length_cons]; omega)]
      apply ih _ _ (fun y hy => hl y (by simp [hy]))
      rw [unl_cons] at hk
      simpa using hk

theorem greedy_plus {α : Type} {r : Re} {P : Str → Prop} (h : LineRe r P) (R : Str) (k : St → Option α) (x : α)
    (he : ∀ prev caps (k : St → Option α), run r ⟨prev, R, caps⟩ k = .none) (ls : List Str) (prev caps) (hne : ls ≠ []) (hl : ∀ l ∈ ls, P l)
    (hk : k ⟨(unl ls).reverse ++ prev, R, caps⟩ = .some x) : run (Re.plus true r) ⟨prev, unl ls ++ R, caps⟩ k = .some x := by
  cases ls with
  | nil => exact absurd rfl hne
  | cons l ls =>
    rw [unl_cons, List.append_assoc, List.cons_append, Re.plus, run_seq]
    apply h.some (hl l (by simp))
    apply greedy_lines h R k x he ls _ _ (fun y hy => hl y (by simp [hy]))
    rw [unl_cons] at hk
    simpa using hk

theorem lazy_lines {α : Type} {r : Re} {P : Str → Prop} (h : LineRe r P) (R : Str) (k : St → Option α) (x : α) (ls : List Str) :
    ∀ prev caps, (∀ l ∈ ls, P l) →
    (∀ b, b ≠ [] → ∀ a, ls = a ++ b → ∀ prev caps, k ⟨prev, unl b ++ R, caps⟩ = .none) →
    k ⟨(unl ls).reverse ++ prev, R, caps⟩ = .some x → run (.star false r) ⟨prev, unl ls ++ R, caps⟩ k = .some x := by
  induction ls with
  | nil =>
    intro prev caps _ _ hk
    rw [run_star_unfold]
    simp only [Bool.false_eq_true, if_false]
    rw [show k ⟨prev, unl [] ++ R, caps⟩ = .some x from hk]
    rfl
  | cons l ls ih =>
    intro prev caps hl hn hk
    rw [run_star_unfold]
    simp only [Bool.false_eq_true, if_false]
    rw [hn (l :: ls) (by simp) [] rfl prev caps, Option.none_or, unl_cons, List.append_assoc, List.cons_append]
    apply h.some (hl l (by simp))
    simp only
    rw [if_pos (by simp only [List.length_append, List.length_cons]; omega)]
    apply ih _ _ (fun y hy => hl y (by simp [hy])) (fun b hb a e => hn b hb (l :: a) (by rw [e]; rfl))
    rw [unl_cons] at hk
    simpa using hk

theorem lazy_plus {α : Type} {r : Re} {P : Str → Prop} (h : LineRe r P) (R : Str) (k : St → Option α) (x : α) (ls : List Str)
    (prev caps) (hne : ls ≠ []) (hl : ∀ l ∈ ls, P l)
    (hn : ∀ b, b ≠ [] → ∀ a, ls = a ++ b → ∀ prev caps, k ⟨prev, unl b ++ R, caps⟩ = .none)
    (hk : k ⟨(unl ls).reverse ++ prev, R, caps⟩ = .some x) : run (Re.plus false r) ⟨prev, unl ls ++ R, caps⟩ k = .some x := by
  cases ls with
  | nil => exact absurd rfl hne
  | cons l ls =>
    rw [unl_cons, List.append_assoc, List.cons_append, Re.plus, run_seq]
    apply h.some (hl l (by simp))
    apply lazy_lines h R k x ls _ _ (fun y hy => hl y (by simp [hy])) (fun b hb a e => hn b hb (l :: a) (by rw [e]; rfl))
    rw [unl_cons] at hk
    simpa using hk

/-! ### Headers -/

/-- The lines of a header. -/
structure HeadLines where
  fields : List Str
  title : Str
  vs : List Str
  n : Str
  ls : List Str

structure HeadLines.Ok (h : HeadLines) : Prop where
  fields : h.fields.map (·.length) = [8, 25, 9, 18]
  fieldsNl : ∀ f ∈ h.fields, '\n' ∉ f
  title : h.title.length = 80
  titleNl : '\n' ∉ h.title
  vne : h.vs ≠ []
  vs : ∀ l ∈ h.vs, Shape [120] l
  n : Shape [100] h.n
  lne : h.ls ≠ []
  ls : ∀ l ∈ h.ls, LShape l ∧ '\n' ∉ l

def HeadLines.text (h : HeadLines) : Str :=
  c!"   -1\n" ++ (h.fields.flatten ++ '\n' :: (h.title ++ '\n' :: (unl h.vs ++ (h.n ++ '\n' :: unl h.ls))))

theorem vEnd {α : Type} {n : Str} (hn : Shape [100] n) (s : Str) (prev caps) (k : St → Option α) :
    run (.seq .space (.seq (Re.rep 120 .dot) (Re.chr '\n'))) ⟨prev, n ++ '\n' :: s, caps⟩ k = none := by
  apply (lineRe_rep 120).none hn.ln
  intro h
  obtain ⟨a, ha, ha'⟩ := hn.length
  obtain ⟨b, hb, hb'⟩ := h.length
  simp only [List.mem_singleton] at ha hb
  omega

theorem take_app (u s : Str) : (u ++ s).take ((u ++ s).length - s.length) = u := take_consumed u s

theorem headlit {α : Type} (s caps) (k : St → Option α) :
    run (litRe c!"   -1\n") ⟨[], c!"   -1\n" ++ s, caps⟩ k = k ⟨(c!"   -1\n").reverse ++ [], s, caps⟩ := run_lit_ok _ _ rfl ..

theorem header_match (h : HeadLines) (ok : h.Ok) : ∃ m, reMatch headerRe h.text = some m ∧
    (∀ i (hi : i < 4), tok m (i + 1) = h.fields[i]'(by have := congrArg List.length ok.fields; simp at this; omega)) ∧
    tok m 5 = h.title ∧ tok m 6 = unl h.vs ∧ tok m 7 = h.n ++ ['\n'] ∧ tok m 8 = unl h.ls := by
  have hm : reMatch headerRe h.text = some ((0, h.text) :: (8, unl h.ls) :: (7, h.n ++ ['\n']) :: (6, unl h.vs) :: (5, h.title) ::
      capsFrom 1 h.fields []) := by
    unfold reMatch headerRe
    rw [run_seq, run_bos, if_pos rfl, run_seq]
    conv => lhs; arg 2; rw [HeadLines.text]
    rw [headlit, run_seq, ← ok.fields, run_fields 1 h.fields _ _ _ _ ok.fieldsNl, run_seq, Re.chr, run_cls_cons, if_pos (by decide),
      run_seq, fieldsRe, fieldsRe, run_seq, run_grp]
    simp only
    rw [← ok.title, run_rep_dot _ _ _ _ _ ok.titleNl]
    simp only
    rw [take_app, run_eps, run_seq, run_cls_cons, if_pos (by decide), run_seq, run_grp]
    simp only
    apply greedy_plus (lineRe_rep 120) _ _ _ (vEnd ok.n _) h.vs _ _ ok.vne ok.vs
    simp only
    rw [take_app, run_seq, run_grp]
    simp only
    apply (lineRe_rep 100).some ok.n
    simp only
    rw [show h.n ++ '\n' :: unl h.ls = (h.n ++ ['\n']) ++ unl h.ls by simp, take_app, run_seq, run_grp]
    simp only
    rw [← List.append_nil (unl h.ls)]
    apply greedy_plus lineRe_four _ _ _ (fun prev caps k => rfl) h.ls _ _ ok.lne (fun l hl => (ok.ls l hl).1)
    simp only
    rw [run_eos, if_pos rfl]
    simp
  refine ⟨_, hm, ?_, ?_, ?_, ?_, ?_⟩
  · intro i hi
    apply tok_of_cap
    rw [cap_skip (by omega), cap_skip (by omega), cap_skip (by omega), cap_skip (by omega), cap_skip (by omega), Nat.add_comm i 1]
    exact cap_capsFrom 1 h.fields [] i _
  all_goals rfl

/-! ### Files -/

/-- One event of `Ptrac._REGEX`. -/
theorem mt_fileEvent {w : Str} {e} (h : Mt fileEventRe w e) : e = [] ∧
    ((∃ j p, w = evText (j, p) ∧ Shape jWidths j ∧ Shape [39] p) ∨ (∃ p, w = p ++ ['\n'] ∧ Shape [117] p)) := by
  refine ⟨?_, ?_⟩
  · have hg := h.groups (lo := 0) (hi := 0) (by
      simp [fileEventRe, Re.alts, Re.groupsIn, Re.space, Re.chr, groups_rep])
    cases e with
    | nil => rfl
    | cons x xs =>
      have := hg x (by simp)
      omega
  · have hj : ∀ {n w e}, n ∈ jWidths → Mt (.seq .space (Re.rep n .dot)) w e → Shape jWidths w := by
      intro n w e hn h
      simp only [mt_seq, Re.space, mt_cls] at h
      obtain ⟨u, v, x, y, ⟨c, hc, rfl, rfl⟩, h1, rfl, rfl⟩ := h
      obtain ⟨a, b, -⟩ := mt_rep h1
      exact ⟨c, v, rfl, hc, b, by rw [a]; exact hn⟩
    have hp : ∀ {n w e}, Mt (.seq .space (Re.rep n .dot)) w e → Shape [n] w := by
      intro n w e h
      simp only [mt_seq, Re.space, mt_cls] at h
      obtain ⟨u, v, x, y, ⟨c, hc, rfl, rfl⟩, h1, rfl, rfl⟩ := h
      obtain ⟨a, b, -⟩ := mt_rep h1
      exact ⟨c, v, rfl, hc, b, by rw [a]; simp⟩
    unfold fileEventRe at h
    rw [mt_seq] at h
    obtain ⟨u, v, x, y, h1, h2, rfl, -⟩ := h
    rw [Re.chr, mt_cls] at h2
    obtain ⟨c, hc, rfl, -⟩ := h2
    have := eq_of_beq hc
    subst this
    rw [mt_alt] at h1
    rcases h1 with h1 | h1
    · rw [mt_seq] at h1
      obtain ⟨j, v, x1, y1, h1, h2, rfl, -⟩ := h1
      rw [mt_seq] at h2
      obtain ⟨n, p, x2, y2, h2, h3, rfl, -⟩ := h2
      rw [Re.chr, mt_cls] at h2
      obtain ⟨c, hc, rfl, -⟩ := h2
      have := eq_of_beq hc
      subst this
      refine .inl ⟨j, p, by simp [evText], ?_, hp h3⟩
      simp only [Re.alts, List.map, mt_alt] at h1
      rcases h1 with h | h | h | h | h | h | h | h <;> exact hj (by decide) h
    · exact .inr ⟨_, rfl, hp h1⟩

theorem fileEvent_mt {j p : Str} (hj : Shape jWidths j) (hp : Shape [39] p) : Full fileEventRe (evText (j, p)) := by
  have h1 : ∀ {n w}, Shape [n] w → Full (.seq .space (Re.rep n .dot)) w := by
    rintro n w ⟨c, u, rfl, hc, hn, hl⟩
    simp only [List.mem_singleton] at hl
    subst hl
    exact ⟨_, .seq (u := [c]) (.cls hc) (rep_mt u hn)⟩
  have h2 : Full (Re.alts ([50, 60, 60, 70, 60, 70, 70, 80].map fun w => .seq .space (Re.rep w .dot))) j := by
    obtain ⟨c, u, e, hc, hn, hl⟩ := hj
    simp only [Full, Re.alts, List.map, mt_alt]
    simp only [jWidths, List.mem_cons, List.not_mem_nil, or_false] at hl
    rcases hl with hl | hl | hl | hl
    · obtain ⟨x, hx⟩ := h1 (n := 50) (w := j) ⟨c, u, e, hc, hn, by simp [hl]⟩
      exact ⟨x, .inl hx⟩
    · obtain ⟨x, hx⟩ := h1 (n := 60) (w := j) ⟨c, u, e, hc, hn, by simp [hl]⟩
      exact ⟨x, .inr (.inl hx)⟩
    · obtain ⟨x, hx⟩ := h1 (n := 70) (w := j) ⟨c, u, e, hc, hn, by simp [hl]⟩
      exact ⟨x, .inr (.inr (.inr (.inl hx)))⟩
    · obtain ⟨x, hx⟩ := h1 (n := 80) (w := j) ⟨c, u, e, hc, hn, by simp [hl]⟩
      exact ⟨x, .inr (.inr (.inr (.inr (.inr (.inr (.inr hx))))))⟩
  obtain ⟨a, ha⟩ := h2
  obtain ⟨b, hb⟩ := h1 hp
  have := Mt.seq (Mt.altL (b := .seq .space (Re.rep 117 .dot)) (.seq ha (.seq (u := ['\n']) (.cls (p := fun x => x == '\n') (by decide)) hb)))
    (.cls (p := fun x => x == '\n') (c := '\n') (by decide))
  rw [show evText (j, p) = (j ++ (['\n'] ++ p)) ++ ['\n'] by simp [evText]]
  exact ⟨_, this⟩

/-- One history of `Ptrac._REGEX`. -/
def fileHist : Re := .seq (Re.plus true .dot) (.seq (Re.chr '\n') (Re.plus true fileEventRe))

theorem full_star_flatten {g : Bool} {r : Re} (ws : List Str) (hr : ∀ w ∈ ws, w ≠ [] ∧ Full r w) : Full (.star g r) ws.flatten := by
  induction ws with
  | nil => exact ⟨[], .starNil⟩
  | cons w ws ih =>
    obtain ⟨e, he⟩ := ih (fun x hx => hr x (by simp [hx]))
    obtain ⟨h0, f, hf⟩ := hr w (by simp)
    exact ⟨_, .starCons h0 hf he⟩

theorem full_plus_flatten {g : Bool} {r : Re} (ws : List Str) (h0 : ws ≠ []) (hr : ∀ w ∈ ws, w ≠ [] ∧ Full r w) : Full (Re.plus g r) ws.flatten := by
  cases ws with
  | nil => exact absurd rfl h0
  | cons w ws =>
    obtain ⟨e, he⟩ := full_star_flatten (g := g) ws (fun x hx => hr x (by simp [hx]))
    obtain ⟨-, f, hf⟩ := hr w (by simp)
    exact ⟨_, .seq hf he⟩

/-- The lines of a history. -/
structure HistLines where
  i : Str
  es : List (Str × Str)

/-- The lengths of I lines without the blank. -/
def iWidths : List Nat := [20, 30, 33, 43]

structure HistLines.Ok (h : HistLines) : Prop where
  i : Shape iWidths h.i
  inl : '\n' ∉ h.i
  ne : h.es ≠ []
  es : ∀ x ∈ h.es, EvShape x

def HistLines.text (h : HistLines) : Str := h.i ++ '\n' :: (h.es.map evText).flatten

theorem HistLines.Ok.first {h : HistLines} (ok : h.Ok) : ∃ j s, h.text = h.i ++ '\n' :: (j ++ '\n' :: s) ∧ Shape jWidths j := by
  unfold HistLines.text
  obtain ⟨-, -, h3, h4⟩ := ok
  cases he : h.es with
  | nil => exact absurd he h3
  | cons x xs =>
    have hx := h4 x (by rw [he]; simp)
    refine ⟨x.1, x.2 ++ '\n' :: (xs.map evText).flatten, ?_, hx.1⟩
    simp [evText]

theorem full_hist {h : HistLines} (ok : h.Ok) (hp : ∀ x ∈ h.es, Shape [39] x.2) : Full fileHist h.text := by
  have h1 : Full (Re.plus true .dot) h.i := by
    have h0 : h.i ≠ [] := by
      obtain ⟨c, u, e, -⟩ := ok.i
      rw [e]; simp
    cases hi : h.i with
    | nil => exact absurd hi h0
    | cons c cs =>
      have hn := ok.inl
      rw [hi] at hn
      have hc : (c != '\n') = true := by
        simp only [List.mem_cons, not_or] at hn
        simpa using fun e => hn.1 e.symm
      exact ⟨_, .seq (u := [c]) (.cls hc) (star_dot_mt cs (fun hc => hn (List.mem_cons_of_mem _ hc)))⟩
  have h2 : Full (Re.plus true fileEventRe) (h.es.map evText).flatten := by
    apply full_plus_flatten
    · intro e; exact ok.ne (List.map_eq_nil_iff.1 e)
    · intro w hw
      obtain ⟨x, hx, rfl⟩ := List.mem_map.1 hw
      exact ⟨evText_ne x, fileEvent_mt (ok.es x hx).1 (hp x hx)⟩
  exact full_seq h1 (full_seq full_nl h2)

/-- A history cannot start one line early. -/
theorem not_hist {g : Bool} {l1 l2 l3 s : Str} (h1 : '\n' ∉ l1) (h2 : Ln l2) (h3 : Ln l3) (n2 : l2.length ≠ 118) (n3 : l3.length ≠ 40) :
    ¬ Full (Re.plus g fileHist) (l1 ++ '\n' :: (l2 ++ '\n' :: (l3 ++ '\n' :: s))) := by
  rintro ⟨e, he⟩
  unfold Re.plus fileHist at he
  rw [mt_seq] at he
  obtain ⟨u, v, x, y, hu, -, e1, -⟩ := he
  rw [mt_seq] at hu
  obtain ⟨t, u', x1, y1, ht, hu', rfl, -⟩ := hu
  rw [mt_seq] at hu'
  obtain ⟨n, u2, x2, y2, hn, hu2, rfl, -⟩ := hu'
  rw [Re.chr, mt_cls] at hn
  obtain ⟨c, hc, rfl, -⟩ := hn
  have := eq_of_beq hc
  subst this
  unfold Re.plus at hu2
  rw [mt_seq] at hu2
  obtain ⟨ev, r, x3, y3, hev, -, rfl, -⟩ := hu2
  obtain ⟨htn, -⟩ := mt_plus_dot ht
  have e1 : l1 ++ '\n' :: (l2 ++ '\n' :: (l3 ++ '\n' :: s)) = t ++ '\n' :: (ev ++ (r ++ v)) := by
    rw [e1]; simp
  obtain ⟨-, e2⟩ := nl_split h1 htn e1
  obtain ⟨-, ⟨j, p, rfl, hj, hp⟩ | ⟨p, rfl, hp⟩⟩ := mt_fileEvent hev
  · have e2 : l2 ++ '\n' :: (l3 ++ '\n' :: s) = j ++ '\n' :: (p ++ '\n' :: (r ++ v)) := by
      rw [e2]; simp [evText]
    obtain ⟨rfl, e3⟩ := ln_split h2 hj.ln e2
    obtain ⟨rfl, -⟩ := ln_split h3 hp.ln e3
    obtain ⟨a, ha, hb⟩ := hp.length
    simp only [List.mem_singleton] at ha
    omega
  · have e2 : l2 ++ '\n' :: (l3 ++ '\n' :: s) = p ++ '\n' :: (r ++ v) := by
      rw [e2]; simp
    obtain ⟨rfl, -⟩ := ln_split h2 hp.ln e2
    obtain ⟨a, ha, hb⟩ := hp.length
    simp only [List.mem_singleton] at ha
    omega

theorem free_fileHists : (Re.plus true fileHist).free = true := by
  have hd : Re.dot.free = true := rfl
  simp [Re.plus, fileHist, fileEventRe, Re.alts, Re.free, hd, Re.chr, Re.space, free_rep]

theorem groups_fileHists : (Re.plus true fileHist).groupsIn 0 0 := by
  have hd : Re.dot.groupsIn 0 0 := trivial
  simp [Re.plus, fileHist, fileEventRe, Re.alts, Re.groupsIn, hd, Re.chr, Re.space, groups_rep]

/-- The histories of `Ptrac._REGEX` with the end of the text. -/
theorem run_hists {α : Type} (w : Str) (prev caps) (k : St → Option α) (hw : Full (Re.plus true fileHist) w) (x : α)
    (hk : ∀ prev, k ⟨prev, [], (2, w) :: caps⟩ = some x) :
    run (.seq (.grp 2 (Re.plus true fileHist)) .eos) ⟨prev, w, caps⟩ k = some x := by
  have hnil : ∀ {w e}, Mt (Re.plus true fileHist) w e → e = [] := by
    intro w e h
    have hg := h.groups groups_fileHists
    cases e with
    | nil => rfl
    | cons x xs =>
      have := hg x (by simp)
      omega
  obtain ⟨e, he⟩ := hw
  have := hnil he
  subst this
  have hs := (Mt.grp (n := 2) he).step prev [] caps
  rw [List.append_nil] at hs
  refine run_unique (step_seq.2 ⟨_, hs, step_eos.2 ⟨rfl, rfl⟩⟩) (hk _) ?_
  intro st' hst
  obtain ⟨a, ha, hb⟩ := step_seq.1 hst
  obtain ⟨rfl, hend⟩ := step_eos.1 hb
  obtain ⟨u, e, u1, u2, -, u4⟩ := ha.mt free_fileHists
  rw [hend, List.append_nil] at u2
  simp only at u2
  subst u2
  cases u1 with
  | grp u1 =>
    have := hnil u1
    subst this
    right
    cases st' with
    | mk p q c =>
      simp only at hend u4
      subst hend u4
      exact hk p

theorem no_hists {α : Type} (w : Str) (prev caps) (k : St → Option α) (hw : ¬ Full (Re.plus true fileHist) w) :
    run (.seq (.grp 2 (Re.plus true fileHist)) .eos) ⟨prev, w, caps⟩ k = none := by
  apply run_none
  intro st' hst
  obtain ⟨a, ha, hb⟩ := step_seq.1 hst
  obtain ⟨rfl, hend⟩ := step_eos.1 hb
  obtain ⟨u, e, u1, u2, -, u4⟩ := ha.mt free_fileHists
  rw [hend, List.append_nil] at u2
  simp only at u2
  subst u2
  cases u1 with
  | grp u1 => exact absurd ⟨_, u1⟩ hw

theorem file_match (h : HeadLines) (ok : h.Ok) (hs : List HistLines) (hne : hs ≠ []) (hok : ∀ x ∈ hs, x.Ok)
    (hp : ∀ x ∈ hs, ∀ y ∈ x.es, Shape [39] y.2) :
    reMatch fileRe (h.text ++ (hs.map HistLines.text).flatten) =
      some [(0, h.text ++ (hs.map HistLines.text).flatten), (2, (hs.map HistLines.text).flatten), (1, h.text)] := by
  have hf : Full (Re.plus true fileHist) (hs.map HistLines.text).flatten := by
    apply full_plus_flatten
    · intro e; exact hne (List.map_eq_nil_iff.1 e)
    · intro w hw
      obtain ⟨x, hx, rfl⟩ := List.mem_map.1 hw
      exact ⟨by simp [HistLines.text], full_hist (hok x hx) (hp x hx)⟩
  obtain ⟨R, hR⟩ : ∃ R, R = (hs.map HistLines.text).flatten := ⟨_, rfl⟩
  rw [← hR] at hf ⊢
  have hfirst : ∃ i j s, R = i ++ '\n' :: (j ++ '\n' :: s) ∧ Shape iWidths i ∧ Shape jWidths j := by
    cases hs with
    | nil => exact absurd rfl hne
    | cons x xs =>
      obtain ⟨j, s, e, hj⟩ := (hok x (by simp)).first
      refine ⟨x.i, j, s ++ (xs.map HistLines.text).flatten, ?_, (hok x (by simp)).i, hj⟩
      rw [hR, List.map_cons, List.flatten_cons, e]
      simp
  obtain ⟨i, j, s, hRe, hi, hj⟩ := hfirst
  have hflat : h.fields.flatten.length = 60 ∧ '\n' ∉ h.fields.flatten := by
    refine ⟨?_, ?_⟩
    · rw [List.length_flatten, ok.fields]; rfl
    · intro hc
      obtain ⟨f, hf, hc⟩ := List.mem_flatten.1 hc
      exact ok.fieldsNl f hf hc
  have hearly : ∀ b, b ≠ [] → ∀ a, h.ls = a ++ b → ¬ Full (Re.plus true fileHist) (unl b ++ R) := by
    intro b hb a e
    have hall : ∀ l ∈ b, LShape l ∧ '\n' ∉ l := fun l hl => ok.ls l (by rw [e]; simp [hl])
    have hl4 : ∀ l ∈ b, l.length % 4 = 1 := fun l hl => (hall l hl).1.length
    obtain ⟨i0, hi0, hi1⟩ := hi.length
    obtain ⟨j0, hj0, hj1⟩ := hj.length
    have hi2 : i.length ≠ 118 ∧ i.length ≠ 40 := by
      simp only [iWidths, List.mem_cons, List.not_mem_nil, or_false] at hi0
      omega
    have hj2 : j.length ≠ 40 := by
      simp only [jWidths, List.mem_cons, List.not_mem_nil, or_false] at hj0
      omega
    rw [hRe]
    match b, hall, hl4, hb with
    | [a], hall, hl4, _ =>
      rw [unl_cons, List.append_assoc]
      exact not_hist (hall a (by simp)).2 hi.ln hj.ln hi2.1 hj2
    | [a, b], hall, hl4, _ =>
      have := hl4 b (by simp)
      rw [unl_cons, unl_cons, List.append_assoc, List.cons_append, List.append_assoc]
      exact not_hist (hall a (by simp)).2 (hall b (by simp)).1.ln hi.ln (by omega) hi2.2
    | a :: b :: c :: cs, hall, hl4, _ =>
      have := hl4 b (by simp)
      have := hl4 c (by simp)
      rw [unl_cons, unl_cons, unl_cons, List.append_assoc, List.cons_append, List.append_assoc, List.cons_append, List.append_assoc]
      exact not_hist (hall a (by simp)).2 (hall b (by simp)).1.ln (hall c (by simp)).1.ln (by omega) (by omega)
  unfold reMatch fileRe fileHead
  rw [run_seq, run_bos, if_pos rfl, run_seq, run_grp, run_seq]
  conv => lhs; arg 2; rw [HeadLines.text, List.append_assoc]
  simp only
  rw [headlit, run_seq, List.append_assoc, List.cons_append, ← hflat.1, run_rep_dot _ _ _ _ _ hflat.2, run_seq, Re.chr, run_cls_cons,
    if_pos (by decide), run_seq, List.append_assoc, List.cons_append, ← ok.title, run_rep_dot _ _ _ _ _ ok.titleNl, run_seq, run_cls_cons, if_pos (by decide),
    run_seq, List.append_assoc, List.append_assoc, List.cons_append]
  apply greedy_plus (lineRe_rep 120) _ _ _ (vEnd ok.n _) h.vs _ _ ok.vne ok.vs
  rw [run_seq]
  apply (lineRe_rep 100).some ok.n
  apply lazy_plus lineRe_four R _ _ h.ls _ _ ok.lne (fun l hl => (ok.ls l hl).1)
  · intro b hb a e prev caps
    exact no_hists _ _ _ _ (hearly b hb a e)
  · apply run_hists R _ _ _ hf
    intro prev
    simp only [List.length_nil, Nat.sub_zero, List.take_length]
    rw [take_app]

/-! ### Splitting histories -/

theorem no_event {α : Type} (n : Nat) (hs : List HistLines) (hok : ∀ x ∈ hs, x.Ok) (prev caps) (k : St → Option α) :
    run (eventBody n) ⟨prev, (hs.map HistLines.text).flatten, caps⟩ k = none := by
  apply run_none
  intro st' hst
  obtain ⟨w, e, h1, h2, -, -⟩ := hst.mt (free_event n)
  obtain ⟨j, p, eJ, eP, rfl, hj, hp, -, -⟩ := mt_event h1
  simp only at h2
  cases hs with
  | nil => simp at h2
  | cons x xs =>
    obtain ⟨j', s, e, hj'⟩ := (hok x (by simp)).first
    rw [List.map_cons, List.flatten_cons, e] at h2
    have h2 : x.i ++ '\n' :: (j' ++ '\n' :: (s ++ (xs.map HistLines.text).flatten)) = j ++ '\n' :: (p ++ '\n' :: st'.rest) := by
      simpa using h2
    obtain ⟨-, h3⟩ := ln_split (hok x (by simp)).i.ln hj.ln h2
    obtain ⟨rfl, -⟩ := ln_split hj'.ln hp.ln h3
    obtain ⟨a, ha, ha'⟩ := hj'.length
    obtain ⟨b, hb, hb'⟩ := hp.length
    simp only [jWidths, pWidths, List.mem_cons, List.not_mem_nil, or_false] at ha hb
    omega

theorem event_then (n : Nat) (x : Str × Str) (hx : EvShape x) (s R : Str) (f : Str → Str) (k : St → Option St)
    (hk : ∀ prev caps, ∃ c, k ⟨prev, s, caps⟩ = some ⟨f prev, R, c⟩) (prev caps) :
    ∃ c, run (eventBody n) ⟨prev, evText x ++ s, caps⟩ k = some ⟨f ((evText x).reverse ++ prev), R, c⟩ := by
  obtain ⟨e, he⟩ := event_mt n hx.1 hx.2
  have hs : Step (eventBody n) ⟨prev, evText x ++ s, caps⟩ ⟨(evText x).reverse ++ prev, s, e ++ caps⟩ := he.step prev s caps
  cases hr : run (eventBody n) ⟨prev, evText x ++ s, caps⟩ k with
  | none =>
    have := (run_spec (eventBody n) _ _).1.1 hr _ hs
    obtain ⟨c, hc⟩ := hk ((evText x).reverse ++ prev) (e ++ caps)
    rw [hc] at this
    cases this
  | some y =>
    obtain ⟨st, h1, h2⟩ := (run_spec (eventBody n) _ _).2 y hr
    obtain ⟨w, f, g1, g2, g3, g4⟩ := h1.mt (free_event n)
    obtain ⟨j', p', eJ, eP, k1, k2, k3, -, -⟩ := mt_event g1
    simp only at g2 g3 g4
    rw [k1] at g2
    obtain ⟨rfl, rfl, hrest⟩ := event_unique hx.1 hx.2 k2 k3 g2
    cases st with
    | mk a b c =>
      simp only at hrest g3
      subst hrest
      obtain ⟨c', hc⟩ := hk a c
      rw [hc] at h2
      refine ⟨c', ?_⟩
      rw [← h2, g3, k1]
      rfl

theorem events_greedy (n : Nat) (R : Str) (hR : ∀ prev caps (k : St → Option St), run (eventBody n) ⟨prev, R, caps⟩ k = none)
    (k : St → Option St) (hk : ∀ prev caps, ∃ c, k ⟨prev, R, caps⟩ = some ⟨prev, R, c⟩) (xs : List (Str × Str)) :
    ∀ prev caps, (∀ x ∈ xs, EvShape x) →
    ∃ c, run (.star true (eventBody n)) ⟨prev, (xs.map evText).flatten ++ R, caps⟩ k =
      some ⟨(xs.map evText).flatten.reverse ++ prev, R, c⟩ := by
  induction xs with
  | nil =>
    intro prev caps _
    obtain ⟨c, hc⟩ := hk prev caps
    refine ⟨c, ?_⟩
    show run (.star true (eventBody n)) ⟨prev, R, caps⟩ k = _
    rw [run_star_greedy, hR, Option.none_or]
    exact hc
  | cons x xs ih =>
    intro prev caps hx
    have hx1 := hx x (by simp)
    have ih := fun prev caps => ih prev caps (fun y hy => hx y (by simp [hy]))
    rw [List.map_cons, List.flatten_cons, List.append_assoc, run_star_greedy]
    have hlen : ((xs.map evText).flatten ++ R).length < (evText x ++ ((xs.map evText).flatten ++ R)).length := by
      rw [List.length_append (as := evText x)]
      have := List.length_pos_iff.2 (evText_ne x)
      omega
    obtain ⟨c, hc⟩ := event_then n x hx1 ((xs.map evText).flatten ++ R) R (fun p => (xs.map evText).flatten.reverse ++ p)
      (starNext (eventBody n) (evText x ++ ((xs.map evText).flatten ++ R)).length k) (by
        intro prev caps
        unfold starNext
        rw [if_pos hlen]
        exact ih prev caps) prev caps
    refine ⟨c, ?_⟩
    rw [hc]
    simp

theorem hist_lex (hs : List HistLines) (hok : ∀ x ∈ hs, x.Ok) :
    finditer historyBody (hs.map HistLines.text).flatten = hs.map HistLines.text := by
  apply finditer_lexes
  induction hs with
  | nil => trivial
  | cons h hs ih =>
    have hh := hok h (by simp)
    have hno := fun (prev : Str) caps (k : St → Option St) => no_event 3 hs (fun x hx => hok x (by simp [hx])) prev caps k
    refine ⟨by simp [HistLines.text], ?_, ih (fun x hx => hok x (by simp [hx]))⟩
    intro prev m hm
    generalize (hs.map HistLines.text).flatten = R at hm hno
    obtain ⟨x, xs, hes⟩ : ∃ x xs, h.es = x :: xs := by
      cases he : h.es with
      | nil => exact absurd he hh.ne
      | cons x xs => exact ⟨x, xs, rfl⟩
    obtain ⟨a, i', hi⟩ : ∃ a i', h.i = a :: i' := by
      obtain ⟨c, u, e, -⟩ := hh.i
      exact ⟨c, u, e⟩
    have hdot : ∀ c ∈ h.i, (c != '\n') = true := by
      intro c hc
      have : c ≠ '\n' := fun e => hh.inl (e ▸ hc)
      simpa using this
    have htext : h.text ++ R = a :: (i' ++ ('\n' :: ((h.es.map evText).flatten ++ R))) := by
      rw [HistLines.text, hi]; simp
    -- the events
    have hev : ∀ (prev caps) (K : St → Option St), (∀ prev caps, ∃ c, K ⟨prev, R, caps⟩ = some ⟨prev, R, c⟩) →
        ∃ c, run (Re.plus true (eventBody 3)) ⟨prev, (h.es.map evText).flatten ++ R, caps⟩ K =
          some ⟨(h.es.map evText).flatten.reverse ++ prev, R, c⟩ := by
      intro prev caps K hK
      rw [hes, List.map_cons, List.flatten_cons, List.append_assoc, Re.plus, run_seq]
      obtain ⟨c, hc⟩ := event_then 3 x (hh.es x (by simp [hes])) ((xs.map evText).flatten ++ R) R (fun p => (xs.map evText).flatten.reverse ++ p)
        (fun st' => run (.star true (eventBody 3)) st' K)
        (fun prev caps => events_greedy 3 R hno K hK xs prev caps (fun y hy => hh.es y (by simp [hes, hy]))) prev caps
      refine ⟨c, ?_⟩
      rw [hc]
      simp
    -- the first line
    unfold historyBody
    rw [htext, run_seq, run_grp]
    simp only
    rw [Re.plus, run_seq, Re.dot, run_cls_cons, if_pos (hdot a (by rw [hi]; simp))]
    obtain ⟨c, hc⟩ := hev ('\n' :: (i'.reverse ++ a :: prev)) [(1, h.i)]
      (fun st' => findK m { st' with caps := (2, ((h.es.map evText).flatten ++ R).take (((h.es.map evText).flatten ++ R).length - st'.rest.length)) :: st'.caps })
      (fun prev caps => ⟨_, findK_ok hm⟩)
    refine ⟨c, ?_⟩
    apply run_star_cls_full (fun c => c != '\n') i' ('\n' :: ((h.es.map evText).flatten ++ R)) (a :: prev) [] _ _
      (fun c hc => hdot c (by rw [hi]; simp [hc]))
    · intro c cs e
      cases e; decide
    · simp only
      rw [run_seq, Re.chr, run_cls_cons, if_pos (by decide), run_grp]
      simp only
      rw [show (a :: (i' ++ '\n' :: ((h.es.map evText).flatten ++ R))) = h.i ++ '\n' :: ((h.es.map evText).flatten ++ R) by rw [hi]; rfl, take_app]
      rw [hc, HistLines.text, hi]
      simp

/-! ### Blocks as lines -/

theorem vJoin_wide (ts : List Str) : ∀ (i : Nat) (cur : Str), (∀ t ∈ ts, t.length = 11 ∧ '\n' ∉ t) →
    cur.length = 12 * (i % 10) → '\n' ∉ cur → ts ≠ [] → (i + ts.length) % 10 = 0 →
    ∃ ls, ' ' :: (cur ++ vJoin i ts) = unl ls ++ [' '] ∧ ls ≠ [] ∧ ∀ l ∈ ls, Shape [120] l := by
  induction ts with
  | nil => intro i cur _ _ _ h; exact absurd rfl h
  | cons t ts ih =>
    intro i cur hv hc hn _ he
    obtain ⟨v2, v3⟩ := hv t (by simp)
    rw [List.length_cons] at he
    have hnl : '\n' ∉ cur ++ ' ' :: t := by
      simp only [List.mem_append, List.mem_cons, not_or]
      exact ⟨hn, by decide, v3⟩
    rw [vJoin]
    by_cases h : (i + 1) % 10 = 0 ∧ i ≠ 0
    · rw [if_pos h]
      have h1 : Shape [120] (' ' :: (cur ++ ' ' :: t)) :=
        ⟨' ', _, rfl, by decide, hnl, by simp only [List.length_cons, List.length_append, List.mem_singleton]; omega⟩
      by_cases hts : ts = []
      · subst hts
        exact ⟨[' ' :: (cur ++ ' ' :: t)], by simp [vJoin, unl], by simp, fun l hl => by rw [List.mem_singleton.1 hl]; exact h1⟩
      · obtain ⟨ls, e, -, hs⟩ := ih (i + 1) [] (fun x hx => hv x (by simp [hx])) (by simp; omega) (by simp) hts (by omega)
        rw [List.nil_append] at e
        refine ⟨(' ' :: (cur ++ ' ' :: t)) :: ls, ?_, by simp, ?_⟩
        · rw [unl_cons, e]; simp
        · intro l hl
          rcases List.mem_cons.1 hl with rfl | hl
          · exact h1
          · exact hs l hl
    · rw [if_neg h]
      have h3 : (i + 1) % 10 = i % 10 + 1 := by
        by_cases hi : i = 0
        · subst hi; rfl
        · have : (i + 1) % 10 ≠ 0 := fun e => h ⟨e, hi⟩
          omega
      have hts : ts ≠ [] := by
        rintro rfl
        rw [List.length_nil] at he
        omega
      obtain ⟨ls, e, hs⟩ := ih (i + 1) (cur ++ ' ' :: t) (fun x hx => hv x (by simp [hx]))
        (by simp only [List.length_cons, List.length_append]; omega) hnl hts (by omega)
      refine ⟨ls, ?_, hs⟩
      rw [← e]; simp

theorem vtext_wide {d : Dec} {t : Str} (h : VText d t) (h' : d.coeff = 0 ∨ (10 ^ 4 ≤ d.coeff ∧ d.adjusted.natAbs < 100)) : t.length = 11 := by
  obtain ⟨ip, fp, n, ds, hm, he, hf, hv, h1, h2, h3⟩ := realFmt_shape 4 0 d
  have := h.fmt
  rw [hf] at this
  have := Except.ok.inj this
  rw [← this]
  have hs : (blankOf d.neg).length + (sgOf d.neg).text.length = 1 := by cases d.neg <;> rfl
  have hl : fp.length = 4 ∧ ds.length = 2 := by
    by_cases h0 : d.coeff = 0
    · exact h2 h0
    · obtain ⟨a, b⟩ := h3 h0
      rcases h' with h | ⟨h, h'⟩
      · exact absurd h h0
      · have := natStr_length_ge d.coeff 4 h
        refine ⟨by omega, ?_⟩
        rw [b]; exact zfill2_length _ (by simpa using h')
  simp only [List.length_append, mantText, fracText, List.length_cons]
  omega

theorem vblock_lines (ds : List Dec) (h0 : ds ≠ []) (he : ds.length % 10 = 0)
    (h : ∀ d ∈ ds, d.coeff = 0 ∨ (10 ^ 4 ≤ d.coeff ∧ d.adjusted.natAbs < 100)) :
    ∃ ls, vStr (ds.map fun d => .num (.fin d)) = .ok (unl ls) ∧ ls ≠ [] ∧ ∀ l ∈ ls, Shape [120] l := by
  obtain ⟨ts, ht⟩ := vtexts ds
  have hlen := ht.length_eq
  have hall : ∀ t ∈ ts, t.length = 11 ∧ '\n' ∉ t := by
    clear hlen he h0
    induction ht with
    | nil => intro t h; cases h
    | @cons d t ds ts h1 _ ih =>
      intro x hx
      rcases List.mem_cons.1 hx with rfl | hx
      · exact ⟨vtext_wide h1 (h d (by simp)), h1.nl⟩
      · exact ih (fun y hy => h y (by simp [hy])) x hx
  obtain ⟨ls, e, hs⟩ := vJoin_wide ts 0 [] hall (by simp) (by simp) (by
    rintro rfl
    exact h0 (List.length_eq_zero_iff.1 hlen)) (by rw [← hlen]; simpa using he)
  rw [List.nil_append] at e
  refine ⟨ls, ?_, hs⟩
  show (vItems 0 _).bind _ = _
  rw [vItems_join ds ts ht]
  show Except.ok ((' ' :: vJoin 0 ts).dropLast) = _
  rw [e, List.dropLast_concat]

theorem nblock_line (ns : List Int) (hl : ns.length = 20) (h : ∀ n ∈ ns, (intStr n).length ≤ 5) :
    ∃ n, nStr (ns.map .num) = n ++ ['\n'] ∧ Shape [100] n := by
  refine ⟨' ' :: (ns.map IntVal.num).flatMap (fun v => rjust 5 v.str), by simp [nStr], ' ', _, rfl, by decide, ?_, ?_⟩
  · intro hc
    obtain ⟨v, hv, hc⟩ := List.mem_flatMap.1 hc
    obtain ⟨n, hn, rfl⟩ := List.mem_map.1 hv
    exact rjust_nl (plain_int n).nl hc
  · have : ∀ ns : List Int, (∀ n ∈ ns, (intStr n).length ≤ 5) →
        ((ns.map IntVal.num).flatMap (fun v => rjust 5 v.str)).length = 5 * ns.length := by
      intro ns h
      induction ns with
      | nil => rfl
      | cons n ns ih =>
        rw [List.map_cons, List.flatMap_cons, List.length_append, ih (fun x hx => h x (by simp [hx])), List.length_cons,
          show (rjust 5 (IntVal.num n).str).length = 5 from rjust_length (h n (by simp))]
        omega
    rw [this ns h, hl]; simp

theorem lItems_shape (vs : List IntVal) : ∀ (i : Nat) (cur : Str), (∀ v ∈ vs, v.str.length ≤ 4 ∧ '\n' ∉ v.str) →
    cur.length = 4 * (i % 30) → '\n' ∉ cur → (i + vs.length) % 30 ≠ 0 →
    ∃ ls, ' ' :: (cur ++ (lItems i vs ++ ['\n'])) = unl ls ∧ ls ≠ [] ∧ ∀ l ∈ ls, LShape l ∧ '\n' ∉ l := by
  have one : ∀ w : Str, '\n' ∉ w → w.length % 4 = 0 → w ≠ [] → LShape (' ' :: w) ∧ '\n' ∉ ' ' :: w := by
    intro w h1 h2 h3
    refine ⟨⟨' ', w, rfl, by decide, h1, h2, h3⟩, ?_⟩
    simp only [List.mem_cons, not_or]
    exact ⟨by decide, h1⟩
  induction vs with
  | nil =>
    intro i cur _ hc hn he
    rw [List.length_nil, Nat.add_zero] at he
    refine ⟨[' ' :: cur], by simp [lItems, unl], by simp, fun l hl => ?_⟩
    rw [List.mem_singleton.1 hl]
    exact one cur hn (by omega) (by rintro rfl; simp at hc; omega)
  | cons v vs ih =>
    intro i cur hv hc hn he
    obtain ⟨v1, v2⟩ := hv v (by simp)
    rw [List.length_cons] at he
    have hr : (rjust 4 v.str).length = 4 := rjust_length v1
    have hnl : '\n' ∉ cur ++ rjust 4 v.str := by
      rw [List.mem_append, not_or]; exact ⟨hn, rjust_nl v2⟩
    rw [lItems]
    by_cases h : (i + 1) % 30 = 0 ∧ i ≠ 0
    · rw [if_pos h]
      obtain ⟨ls, e, -, hs⟩ := ih (i + 1) [] (fun x hx => hv x (by simp [hx])) (by simp; omega) (by simp) (by omega)
      rw [List.nil_append] at e
      refine ⟨(' ' :: (cur ++ rjust 4 v.str)) :: ls, ?_, by simp, ?_⟩
      · rw [unl_cons, ← e]; simp
      · intro l hl
        rcases List.mem_cons.1 hl with rfl | hl
        · exact one _ hnl (by rw [List.length_append]; omega) (by intro e; have := congrArg List.length e; simp [hr] at this)
        · exact hs l hl
    · rw [if_neg h]
      have h3 : (i + 1) % 30 = i % 30 + 1 := by
        by_cases hi : i = 0
        · subst hi; rfl
        · have : (i + 1) % 30 ≠ 0 := fun e => h ⟨e, hi⟩
          omega
      obtain ⟨ls, e, hs⟩ := ih (i + 1) (cur ++ rjust 4 v.str) (fun x hx => hv x (by simp [hx]))
        (by rw [List.length_append]; omega) hnl (by omega)
      refine ⟨ls, ?_, hs⟩
      rw [← e]; simp

theorem lblock_lines (ns : List Int) (h : ∀ n ∈ ns, (intStr n).length ≤ 3) (he : ns.length % 30 ≠ 0) :
    ∃ ls, lStr (ns.map .num) = unl ls ∧ ls ≠ [] ∧ ∀ l ∈ ls, LShape l ∧ '\n' ∉ l := by
  have := lItems_shape (ns.map .num) 0 [] (by
    intro v hv
    obtain ⟨n, hn, rfl⟩ := List.mem_map.1 hv
    exact ⟨Nat.le_succ_of_le (h n hn), (plain_int n).nl⟩) rfl (by simp) (by simpa using he)
  simpa [lStr] using this

/-- The lines `I.from_mcnp` accepts. -/
theorem iParse_shape {t : Str} {i : ILine} (h : iParse t = .ok i) : Shape iWidths t := by
  unfold iParse at h
  cases hm : reMatch iRe t with
  | none => rw [hm] at h; cases h
  | some m =>
    obtain ⟨st, h1, -⟩ := reMatch_some hm
    unfold iRe at h1
    obtain ⟨a, ha, h1⟩ := step_seq.1 h1
    obtain ⟨rfl, -⟩ := step_bos.1 ha
    obtain ⟨b, hb, h1⟩ := step_seq.1 h1
    rw [Re.space, step_cls] at hb
    obtain ⟨c, cs, hc, e0, rfl⟩ := hb
    obtain ⟨d, hd, h1⟩ := step_seq.1 h1
    obtain ⟨w1, e1, m1, r1, -, -⟩ := hd.mt (by simp [Re.free, free_rep])
    obtain ⟨d2, hd2, h1⟩ := step_seq.1 h1
    obtain ⟨w2, e2, m2, r2, -, -⟩ := hd2.mt (by simp [Re.free, free_rep])
    obtain ⟨d3, hd3, h1⟩ := step_seq.1 h1
    obtain ⟨w3, e3, m3, r3, -, -⟩ := hd3.mt (by simp [Re.free, free_rep])
    obtain ⟨d4, hd4, h1⟩ := step_seq.1 h1
    obtain ⟨w4, e4, m4, r4, -, -⟩ := hd4.mt (by simp [Re.free, free_rep])
    obtain ⟨rfl, hend⟩ := step_eos.1 h1
    rw [mt_grp] at m1 m2
    obtain ⟨_, m1, -⟩ := m1
    obtain ⟨_, m2, -⟩ := m2
    obtain ⟨l1, n1, -⟩ := mt_rep m1
    obtain ⟨l2, n2, -⟩ := mt_rep m2
    have g3 : (w3.length = 0 ∨ w3.length = 10) ∧ '\n' ∉ w3 := by
      cases m3 with
      | optNone => simp
      | optSome m3 =>
        rw [mt_grp] at m3
        obtain ⟨_, m3, -⟩ := m3
        obtain ⟨l3, n3, -⟩ := mt_rep m3
        exact ⟨.inr l3, n3⟩
    have g4 : (w4.length = 0 ∨ w4.length = 13) ∧ '\n' ∉ w4 := by
      cases m4 with
      | optNone => simp
      | optSome m4 =>
        rw [mt_grp] at m4
        obtain ⟨_, m4, -⟩ := m4
        obtain ⟨l4, n4, -⟩ := mt_rep m4
        exact ⟨.inr l4, n4⟩
    simp only at e0 r1
    refine ⟨c, w1 ++ (w2 ++ (w3 ++ w4)), ?_, hc, ?_, ?_⟩
    · rw [e0, r1, r2, r3, r4, hend, List.append_nil]
    · simp only [List.mem_append, not_or]
      exact ⟨n1, n2, g3.2, g4.2⟩
    · simp only [iWidths, List.length_append, List.mem_cons, List.not_mem_nil, or_false]
      omega

end Ptrac
