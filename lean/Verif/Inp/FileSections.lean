import Verif.Inp.FileLemmas
/-! Helper lemmas: the sections of a preprocessed file. -/
namespace Inp
open Py Types

/-- The last line with one more line end. -/
def bump : List Ln → List Ln
  | [] => []
  | [l] => [{ l with n := l.n + 1 }]
  | l :: m :: ls => l :: bump (m :: ls)

/-- The lines of a file whose text ends in a line end. -/
def closeF (ls : List Ln) : Option (Str × List (Str × Str)) → List Ln
  | none => bump ls
  | some (w, l) => ls ++ [⟨w, l, [], 0⟩]

theorem nls_snoc (n : Nat) : nls n ++ ['\n'] = nls (n + 1) := by
  unfold nls; rw [List.replicate_succ']

theorem ft_cons (l : Ln) (ls : List Ln) : ft (l :: ls) = l.text ++ ft ls := rfl
theorem ft_append (a b : List Ln) : ft (a ++ b) = ft a ++ ft b := by simp [ft]

theorem ft_bump (ls : List Ln) (h : ls ≠ []) : ft (bump ls) = ft ls ++ ['\n'] := by
  induction ls with
  | nil => exact absurd rfl h
  | cons l ls ih =>
    cases ls with
    | nil => simp only [bump, ft, List.flatMap_cons, List.flatMap_nil, List.append_nil, Ln.text, List.append_assoc, nls_snoc]
    | cons m ls => rw [bump, ft_cons, ih (by simp), ft_cons l, List.append_assoc]

theorem ft_close (ls : List Ln) (o : Option (Str × List (Str × Str))) (h : ls ≠ [] ∨ o ≠ none) :
    ft (closeF ls o) = ft ls ++ (tl o ++ ['\n']) := by
  cases o with
  | none => simp only [closeF, tl, List.nil_append]; exact ft_bump ls (by simpa using h)
  | some x => simp [closeF, ft, tl, Ln.text, nls]

theorem bump_ok {P Q} (ls : List Ln) (h : ∀ l ∈ ls, Ln.Ok P Q l) : ∀ l ∈ bump ls, Ln.Ok P Q l := by
  induction ls with
  | nil => simpa [bump] using h
  | cons l ls ih =>
    cases ls with
    | nil =>
      intro x hx
      simp only [bump, List.mem_singleton] at hx
      subst hx
      exact h l (by simp)
    | cons m ls =>
      intro x hx
      rw [bump] at hx
      rcases List.mem_cons.1 hx with rfl | hx
      · exact h x (by simp)
      · exact ih (fun x hx => h x (List.mem_cons_of_mem _ hx)) x hx

theorem close_ok {P Q} (ls : List Ln) (h : ∀ l ∈ ls, Ln.Ok P Q l) (o : Option (Str × List (Str × Str)))
    (ho : TlOk P o) (hq : Q []) : ∀ l ∈ closeF ls o, Ln.Ok P Q l := by
  cases o with
  | none => exact bump_ok ls h
  | some x =>
    intro l hl
    rcases List.mem_append.1 hl with hl | hl
    · exact h l hl
    · rw [List.mem_singleton.1 hl]
      exact ⟨ho.1, ho.2, hq⟩

theorem bump_key (a b : List Ln) (h : a.map Ln.key = b.map Ln.key) : (bump a).map Ln.key = (bump b).map Ln.key := by
  induction a generalizing b with
  | nil => cases b with
    | nil => rfl
    | cons => cases h
  | cons x a ih =>
    cases b with
    | nil => cases h
    | cons y b =>
      simp only [List.map_cons, List.cons.injEq] at h
      obtain ⟨h1, h2⟩ := h
      cases a with
      | nil =>
        cases b with
        | nil =>
          simp only [bump, List.map_cons, List.map_nil, Ln.key, Prod.mk.injEq] at h1 ⊢
          simp [h1]
        | cons => cases h2
      | cons x2 a =>
        cases b with
        | nil => cases h2
        | cons y2 b => rw [bump, bump, List.map_cons, List.map_cons, h1, ih _ h2]

theorem close_key (a b : List Ln) (h : a.map Ln.key = b.map Ln.key) (o o' : Option (Str × List (Str × Str)))
    (ho : tlKey o = tlKey o') : (closeF a o).map Ln.key = (closeF b o').map Ln.key := by
  cases o with
  | none => cases o' with
    | none => exact bump_key a b h
    | some => cases ho
  | some x => cases o' with
    | none => cases ho
    | some y =>
      simp only [tlKey, Option.some.injEq, Prod.mk.injEq] at ho
      simp [closeF, h, Ln.key, ho]

theorem file_id {T : Str → Str → Str} {P Q P' Q'} (p : Pass T P Q P' Q') (hT : ∀ prev, T prev [] = []) (ls : List Ln)
    (hl : ∀ l ∈ ls, Ln.Ok P Q l) (prev : Str) :
    ∃ ls', (∀ l ∈ ls', Ln.Ok P' Q' l) ∧ ls'.map Ln.key = ls.map Ln.key ∧ T prev (ft ls) = ft ls' := by
  obtain ⟨ls', o', p', h1, -, h2, h3, e⟩ := p.file ls hl none trivial prev
  cases o' with
  | some => cases h3
  | none =>
    refine ⟨ls', h1, h2, ?_⟩
    simpa [tl, hT] using e

/-- What `Inp._preprocess` does to a file made of lines of entries. -/
theorem filePreprocess_lines (ls : List Ln) (hl : ∀ l ∈ ls, Ln.Ok InG Ig l) (o : Option (Str × List (Str × Str)))
    (ho : TlOk InG o) (hne : ls ≠ [] ∨ o ≠ none) :
    ∃ ls', (∀ l ∈ ls', Ln.Ok One Few l) ∧ ls'.map Ln.key = (closeF ls o).map Ln.key ∧
      filePreprocess (ft ls ++ tl o) = strip (ft ls') := by
  obtain ⟨l1, o1, p1, a1, b1, k1, j1, e1⟩ := pass_blank.file ls hl o ho []
  rw [subFrom_nil, List.append_nil] at e1
  obtain ⟨l2, o2, p2, a2, b2, k2, j2, e2⟩ := pass_amp.file l1 a1 o1 b1 []
  rw [subFrom_nil, List.append_nil] at e2
  obtain ⟨l3, o3, p3, a3, b3, k3, j3, e3⟩ := pass_gather.file l2 a2 o2 b2 []
  rw [gatherText_nil] at e3
  have k : l3.map Ln.key = ls.map Ln.key := by rw [k3, k2, k1]
  have j : tlKey o3 = tlKey o := by rw [j3, j2, j1]
  have hne' : l3 ≠ [] ∨ o3 ≠ none := by
    rcases hne with h | h
    · refine .inl ?_
      rintro rfl
      exact h (by simpa using k.symm)
    · refine .inr ?_
      rintro rfl
      cases o with
      | none => exact h rfl
      | some => cases j
  rw [← ft_close l3 o3 hne'] at e3
  have ck := close_key l3 ls k o3 o j
  have ca := close_ok l3 a3 o3 b3 (Q := Bl) ⟨0, rfl⟩
  obtain ⟨m1, c1, d1, f1⟩ := file_id pass_plus (fun _ => subFrom_nil _ _ _) _ ca []
  obtain ⟨m2, c2, d2, f2⟩ := file_id (pass_open (f := fun _ _ => ['('])) (fun _ => subFrom_nil _ _ _) _ c1 []
  obtain ⟨m3, c3, d3, f3⟩ := file_id (pass_close (f := fun _ _ => [')'])) (fun _ => subFrom_nil _ _ _) _ c2 []
  obtain ⟨m4, c4, d4, f4⟩ := file_id (pass_nlSp (f := fun _ _ => ['\n', '\n'])) (fun _ => subFrom_nil _ _ _) _ c3 []
  obtain ⟨m5, c5, d5, f5⟩ := file_id pass_eq (fun _ => subFrom_nil _ _ _) _ c4 []
  obtain ⟨m6, c6, d6, f6⟩ := file_id (pass_tab (f := fun _ _ => [' ', ' ', ' ', ' '])) (fun _ => subFrom_nil _ _ _) _ c5 []
  refine ⟨m6, c6, by rw [d6, d5, d4, d3, d2, d1, ck], ?_⟩
  have s1 : reSub blankLineRe (fun _ _ => ['\n', '\n']) (ft ls ++ tl o) = ft l1 ++ tl o1 := e1
  have s2 : reSub ampRe (fun _ _ => ['\n', ' ', ' ', ' ', ' ']) (ft l1 ++ tl o1) = ft l2 ++ tl o2 := e2
  have s3 : gatherLines (splitC '\n' (ft l2 ++ tl o2)) = ft (closeF l3 o3) := e3
  have s4 : reSub (.plus true (.chr ' ')) (fun _ _ => [' ']) (ft (closeF l3 o3)) = ft m1 := f1
  have s5 : reSub (.seq (.chr '(') (.chr ' ')) (fun _ _ => ['(']) (ft m1) = ft m2 := f2
  have s6 : reSub (.seq (.chr ' ') (.chr ')')) (fun _ _ => [')']) (ft m2) = ft m3 := f3
  have s7 : reSub (.seq (.chr '\n') (.seq (.chr ' ') (.chr '\n'))) (fun _ _ => ['\n', '\n']) (ft m3) = ft m4 := f4
  have s8 : reSub eqRe (fun _ _ => [' ']) (ft m4) = ft m5 := f5
  have s9 : reSub (.chr '\t') (fun _ _ => [' ', ' ', ' ', ' ']) (ft m5) = ft m6 := f6
  unfold filePreprocess
  simp only [s1, file_vertical l1 a1 o1 b1, s2, s3, s4, s5, s6, s7, s8, s9]

/-- What is left of the space at the end of a line. -/
def pad (b : Bool) : Str := cond b [] [' ']

/-- A line after preprocessing. -/
def keyLine (k : Str × List Str × Bool × Nat) : Str := k.1 ++ (enc k.2.1 ++ pad k.2.2.1)
def keyText (k : Str × List Str × Bool × Nat) : Str := keyLine k ++ nls (k.2.2.2 + 1)

theorem ib_one (l : List (Str × Str)) (h : ∀ x ∈ l, One x.1) : ib l = enc (l.map (·.2)) := by
  induction l with
  | nil => rfl
  | cons x l ih =>
    obtain ⟨g, w⟩ := x
    have : g = [' '] := h _ (List.mem_cons_self ..)
    subst this
    rw [ib, ih (fun x hx => h x (List.mem_cons_of_mem _ hx))]
    simp

theorem text_key (l : Ln) (h : Ln.Ok One Few l) : l.text = keyText l.key := by
  obtain ⟨-, h1, k, h2⟩ := h
  have : l.e = pad l.e.isEmpty := by rw [h2]; cases k <;> rfl
  rw [Ln.text, ib_one _ (fun x hx => (h1 x hx).1)]
  simp only [keyText, keyLine, Ln.key, List.append_assoc]
  rw [← this]

theorem ft_key (ls : List Ln) (h : ∀ l ∈ ls, Ln.Ok One Few l) : ft ls = (ls.map Ln.key).flatMap keyText := by
  induction ls with
  | nil => rfl
  | cons l ls ih =>
    rw [ft_cons, text_key l (h l (by simp)), ih (fun x hx => h x (List.mem_cons_of_mem _ hx))]; rfl

theorem filePreprocess_keys (ls : List Ln) (hl : ∀ l ∈ ls, Ln.Ok InG Ig l) (o : Option (Str × List (Str × Str)))
    (ho : TlOk InG o) (hne : ls ≠ [] ∨ o ≠ none) :
    filePreprocess (ft ls ++ tl o) = strip (((closeF ls o).map Ln.key).flatMap keyText) := by
  obtain ⟨ls', h1, h2, e⟩ := filePreprocess_lines ls hl o ho hne
  rw [e, ft_key ls' h1, h2]

/-! ## The section pattern -/

/-- No empty line in the text, nor at its end. -/
def NoNN : Str → Prop
  | [] => True
  | [c] => c ≠ '\n'
  | c :: d :: cs => ¬ (c = '\n' ∧ d = '\n') ∧ NoNN (d :: cs)

theorem nlnl_run {α : Type} (c d : Char) (prev cs : Str) (caps) (k : St → Option α) (h : ¬ (c = '\n' ∧ d = '\n')) :
    run nlnlRe ⟨prev, c :: d :: cs, caps⟩ k = none := by
  rw [nlnlRe, run_seq, Re.chr, run_cls_cons]
  split
  · rename_i hc
    have hc : c = '\n' := by simpa using hc
    rw [run_cls_cons, if_neg]
    simpa using fun hd => h ⟨hc, hd⟩
  · rfl

theorem nlnl_one {α : Type} (c : Char) (prev : Str) (caps) (k : St → Option α) :
    run nlnlRe ⟨prev, [c], caps⟩ k = none := by
  rw [nlnlRe, run_seq, Re.chr, run_cls_cons]
  split
  · rw [run_cls_nil]
  · rfl

theorem nlnl_nil {α : Type} (prev : Str) (caps) (k : St → Option α) : run nlnlRe ⟨prev, [], caps⟩ k = none := by
  rw [nlnlRe, run_seq, Re.chr, run_cls_nil]

theorem nlnl_hit {α : Type} (prev s : Str) (caps) (k : St → Option α) :
    run nlnlRe ⟨prev, '\n' :: '\n' :: s, caps⟩ k = k ⟨'\n' :: '\n' :: prev, s, caps⟩ := by
  rw [nlnlRe, run_seq, Re.chr, run_cls_cons, if_pos (by decide), run_cls_cons, if_pos (by decide)]

theorem lazy_star {α : Type} (B s prev : Str) (caps) (r : Re) (k : St → Option α) (x : α)
    (hB : NoNN B)
    (hmiss : ∀ (c : Char) (cs prev : Str), (∀ d ds, cs = d :: ds → ¬ (c = '\n' ∧ d = '\n')) → (cs = [] → c ≠ '\n') →
      run r ⟨prev, c :: cs, caps⟩ k = none)
    (hk : run r ⟨B.reverse ++ prev, s, caps⟩ k = some x) :
    run (.star false .any) ⟨prev, B ++ s, caps⟩ (fun st => run r st k) = some x := by
  induction B generalizing prev with
  | nil =>
    rw [List.nil_append]
    rw [List.reverse_nil, List.nil_append] at hk
    cases s with
    | nil => rw [Re.any, run_star_cls_nil]; exact hk
    | cons c cs => rw [Re.any, run_star_cls_cons]; simp only [Bool.false_eq_true, if_false]; rw [hk]; rfl
  | cons c cs ih =>
    rw [List.cons_append, Re.any, run_star_cls_cons]
    simp only [Bool.false_eq_true, if_false, if_true]
    have hc : run r ⟨prev, c :: (cs ++ s), caps⟩ k = none := by
      apply hmiss
      · intro d ds e
        cases cs with
        | nil =>
          have : c ≠ '\n' := hB
          exact fun h => this h.1
        | cons d' ds' => cases e; exact hB.1
      · intro e
        cases cs with
        | nil => exact hB
        | cons => cases e
    rw [hc, Option.none_or]
    refine ih (c :: prev) ?_ (by simpa using hk)
    cases cs with
    | nil => trivial
    | cons d ds => exact hB.2

theorem lazy_plus {α : Type} (B s prev : Str) (caps) (r : Re) (k : St → Option α) (x : α) (hne : B ≠ [])
    (hB : NoNN B)
    (hmiss : ∀ (c : Char) (cs prev : Str), (∀ d ds, cs = d :: ds → ¬ (c = '\n' ∧ d = '\n')) → (cs = [] → c ≠ '\n') →
      run r ⟨prev, c :: cs, caps⟩ k = none)
    (hk : run r ⟨B.reverse ++ prev, s, caps⟩ k = some x) :
    run (.seq (.plus false .any) r) ⟨prev, B ++ s, caps⟩ k = some x := by
  cases B with
  | nil => exact absurd rfl hne
  | cons c cs =>
    rw [run_seq, Re.plus, run_seq, List.cons_append, Re.any, run_cls_cons, if_pos rfl]
    refine lazy_star cs s (c :: prev) caps r k x ?_ hmiss (by simpa using hk)
    cases cs with
    | nil => trivial
    | cons d ds => exact hB.2

theorem nlnl_miss {α : Type} (caps) (k : St → Option α) : ∀ (c : Char) (cs prev : Str),
    (∀ d ds, cs = d :: ds → ¬ (c = '\n' ∧ d = '\n')) → (cs = [] → c ≠ '\n') → run nlnlRe ⟨prev, c :: cs, caps⟩ k = none := by
  intro c cs prev h _
  cases cs with
  | nil => exact nlnl_one _ _ _ _
  | cons d ds => exact nlnl_run _ _ _ _ _ _ (h d ds rfl)

theorem block_hit {α : Type} (n : Nat) (B s prev : Str) (caps) (k : St → Option α) (x : α) (hne : B ≠ [])
    (hB : NoNN B) (hk : k ⟨'\n' :: '\n' :: (B.reverse ++ prev), s, (n, B ++ ['\n', '\n']) :: caps⟩ = some x) :
    run (blockRe n) ⟨prev, B ++ '\n' :: '\n' :: s, caps⟩ k = some x := by
  rw [blockRe, run_grp]
  refine lazy_plus B ('\n' :: '\n' :: s) prev caps nlnlRe _ x hne hB (nlnl_miss _ _) ?_
  rw [nlnl_hit]
  have := take_consumed (B ++ ['\n', '\n']) s
  simp only [List.append_assoc, List.cons_append, List.nil_append] at this
  simp only [this]
  exact hk

/-- Pattern of the data block. -/
def dataRe : Re := .grp 5 (.seq (.plus false .any) (.alt nlnlRe .eos))

theorem data_hit {α : Type} (B s prev : Str) (caps) (k : St → Option α) (x : α) (hne : B ≠ [])
    (hB : NoNN B) (hk : k ⟨'\n' :: '\n' :: (B.reverse ++ prev), s, (5, B ++ ['\n', '\n']) :: caps⟩ = some x) :
    run dataRe ⟨prev, B ++ '\n' :: '\n' :: s, caps⟩ k = some x := by
  rw [dataRe, run_grp]
  refine lazy_plus B ('\n' :: '\n' :: s) prev caps _ _ x hne hB ?_ ?_
  · intro c cs prev h1 h2
    rw [run_alt, nlnl_miss _ _ c cs prev h1 h2, Option.none_or, run_eos, if_neg (by simp)]
  rw [run_alt, nlnl_hit]
  have := take_consumed (B ++ ['\n', '\n']) s
  simp only [List.append_assoc, List.cons_append, List.nil_append] at this
  simp only [this]
  rw [hk]; rfl

theorem data_end {α : Type} (B prev : Str) (caps) (k : St → Option α) (x : α) (hne : B ≠ [])
    (hB : NoNN B) (hk : k ⟨B.reverse ++ prev, [], (5, B) :: caps⟩ = some x) :
    run dataRe ⟨prev, B, caps⟩ k = some x := by
  rw [dataRe, run_grp]
  have := lazy_plus B [] prev caps (.alt nlnlRe .eos)
    (fun st' => k { st' with caps := (5, B.take (B.length - st'.rest.length)) :: st'.caps }) x hne hB (by
      intro c cs prev h1 h2
      rw [run_alt, nlnl_miss _ _ c cs prev h1 h2, Option.none_or, run_eos, if_neg (by simp)]) (by
      rw [run_alt, nlnl_nil, Option.none_or, run_eos, if_pos rfl]
      simpa using hk)
  rwa [List.append_nil] at this

theorem step_cat_chrI (l : Str) (hl : l ≠ []) (st st' : St) (h : Step (.cat (l.map .chrI)) st st') :
    (lower st.rest).take l.length = lower l := by
  induction l generalizing st with
  | nil => exact absurd rfl hl
  | cons x l ih =>
    have one : ∀ st st', Step (.chrI x) st st' → ∃ c, st.rest = c :: st'.rest ∧ lowerC c = lowerC x := by
      intro st st' h
      obtain ⟨c, cs, hc, e, rfl⟩ := step_cls.1 h
      exact ⟨c, e, by simpa using hc⟩
    cases l with
    | nil =>
      obtain ⟨c, e, hc⟩ := one _ _ h
      rw [e]; simp [lower, hc]
    | cons y l =>
      obtain ⟨m, h1, h2⟩ := step_seq.1 (show Step (.seq (.chrI x) (.cat ((y :: l).map .chrI))) st st' from h)
      obtain ⟨c, e, hc⟩ := one _ _ h1
      have := ih (by simp) m h2
      rw [e]
      simp only [lower, List.map_cons, List.length_cons, List.take_succ_cons] at this ⊢
      rw [hc, this]

/-- The text begins with `message:` in any case of letters. -/
def IsMessage (s : Str) : Prop := (lower s).take 8 = c!"message:"

theorem message_miss {α : Type} (s prev : Str) (caps) (k : St → Option α)
    (h : ¬ IsMessage s) : run messageRe ⟨prev, s, caps⟩ k = none := by
  rw [messageRe, run_grp]
  apply run_none
  intro st hst
  obtain ⟨m, h1, -⟩ := step_seq.1 hst
  exact absurd (step_cat_chrI _ (by simp) _ _ h1) h

theorem title_hit {α : Type} (t s prev : Str) (caps) (k : St → Option α) (x : α) (hne : t ≠ []) (ht : '\n' ∉ t)
    (hk : k ⟨'\n' :: (t.reverse ++ prev), s, (2, t) :: caps⟩ = some x) :
    run (.seq (.grp 2 (.plus true .dot)) (.chr '\n')) ⟨prev, t ++ '\n' :: s, caps⟩ k = some x := by
  rw [run_seq, run_grp]
  cases t with
  | nil => exact absurd rfl hne
  | cons c cs =>
    have hd : ∀ y ∈ c :: cs, (y != '\n') = true := by
      intro y hy
      simp only [bne_iff_ne]
      rintro rfl
      exact ht hy
    rw [Re.plus, run_seq, List.cons_append, Re.dot, run_cls_cons, if_pos (hd c (by simp))]
    apply run_star_cls_full _ cs _ _ _ _ _ (fun y hy => hd y (by simp [hy]))
      (by intro c cs e; cases e; decide)
    rw [Re.chr, run_cls_cons, if_pos (by decide)]
    have := take_consumed (c :: cs) ('\n' :: s)
    simp only [List.cons_append] at this
    simp only [List.cons_append, this]
    simpa using hk


theorem not_message {t : Str} (hm : ¬ IsMessage t) (s : Str) : ¬ IsMessage (t ++ '\n' :: s) := by
  intro h
  unfold IsMessage at h hm
  have e : lower (t ++ '\n' :: s) = lower t ++ '\n' :: lower s := by simp [lower]; decide
  rw [e] at h
  by_cases hl : 8 ≤ (lower t).length
  · rw [List.take_append_of_le_length hl] at h
    exact hm h
  · rw [List.take_append, show 8 - (lower t).length = (7 - (lower t).length) + 1 by omega, List.take_succ_cons] at h
    have : '\n' ∈ c!"message:" := by rw [← h]; simp
    exact absurd this (by decide)

/-- Pattern of the trailing text. -/
def otherRe : Re := .seq (.opt true (.grp 6 (.plus true .any))) .eos

theorem other_hit {α : Type} (O prev : Str) (caps) (k : St → Option α) (x : α)
    (hk : k ⟨O.reverse ++ prev, [], if O = [] then caps else (6, O) :: caps⟩ = some x) :
    run otherRe ⟨prev, O, caps⟩ k = some x := by
  rw [otherRe, run_seq, run_opt_greedy, run_grp, Re.plus, run_seq]
  cases O with
  | nil => rw [Re.any, run_cls_nil, Option.none_or, run_eos, if_pos rfl]; simpa using hk
  | cons c cs =>
    rw [Re.any, run_cls_cons, if_pos rfl]
    have := run_star_cls_full (fun _ => true) cs [] (c :: prev) caps
      (fun st' => run .eos { st' with caps := (6, (c :: cs).take ((c :: cs).length - st'.rest.length)) :: st'.caps } k) x
      (by simp) (by simp) (by
        rw [run_eos, if_pos rfl]
        simpa using hk)
    rw [List.append_nil] at this
    rw [this]; rfl

/-- The sections of a preprocessed file without message. -/
theorem file_match (t B1 B2 B3 O : Str) (ht : t ≠ []) (ht' : '\n' ∉ t) (hm : ¬ IsMessage t)
    (h1 : B1 ≠ [] ∧ NoNN B1) (h2 : B2 ≠ [] ∧ NoNN B2) (h3 : B3 ≠ [] ∧ NoNN B3) :
    ∃ m, reMatch fileRe (t ++ '\n' :: (B1 ++ '\n' :: '\n' :: (B2 ++ '\n' :: '\n' :: (B3 ++
        (if O = [] then [] else '\n' :: '\n' :: O))))) = some m ∧
      cap m 1 = none ∧ cap m 2 = some t ∧ cap m 3 = some (B1 ++ ['\n', '\n']) ∧ cap m 4 = some (B2 ++ ['\n', '\n']) ∧
      cap m 5 = some (B3 ++ (if O = [] then [] else ['\n', '\n'])) ∧ cap m 6 = (if O = [] then none else some O) := by
  generalize hS : (t ++ '\n' :: (B1 ++ '\n' :: '\n' :: (B2 ++ '\n' :: '\n' :: (B3 ++
        (if O = [] then [] else '\n' :: '\n' :: O))))) = S
  refine ⟨(0, S) :: ((if O = [] then [] else [(6, O)]) ++ [(5, B3 ++ (if O = [] then [] else ['\n', '\n'])),
    (4, B2 ++ ['\n', '\n']), (3, B1 ++ ['\n', '\n']), (2, t)]), ?_, ?_⟩
  · rw [reMatch, fileRe, run_seq, run_bos, if_pos rfl, run_seq, run_opt_greedy,
      message_miss _ _ _ _ (by rw [← hS]; exact not_message hm _), Option.none_or, ← hS]
    refine title_hit t _ [] [] (fun st => run (.seq (blockRe 3) (.seq (blockRe 4) (.seq dataRe otherRe))) st _) _ ht ht' ?_
    rw [run_seq]
    refine block_hit 3 B1 _ _ _ _ _ h1.1 h1.2 ?_
    rw [run_seq]
    refine block_hit 4 B2 _ _ _ _ _ h2.1 h2.2 ?_
    rw [run_seq]
    by_cases hO : O = []
    · simp only [hO, if_true, List.append_nil]
      refine data_end B3 _ _ _ _ h3.1 h3.2 ?_
      refine other_hit _ _ _ _ _ ?_
      simp only [if_true, List.nil_append, List.length_nil, Nat.sub_zero, List.take_length]
    · simp only [hO, if_false]
      refine data_hit B3 O _ _ _ _ h3.1 h3.2 ?_
      refine other_hit _ _ _ _ _ ?_
      simp only [hO, if_false, List.length_nil, Nat.sub_zero, List.take_length]
      simp
  · by_cases hO : O = []
    · simp only [hO, if_true, List.nil_append, List.append_nil]
      exact ⟨rfl, rfl, rfl, rfl, rfl, rfl⟩
    · simp only [hO, if_false]
      exact ⟨rfl, rfl, rfl, rfl, rfl, rfl⟩
end Inp
