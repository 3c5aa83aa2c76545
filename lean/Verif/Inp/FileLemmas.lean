import Verif.Inp.File
import Verif.Inp.WrapLemmas
/-! Helper lemmas: what `Inp._preprocess` does to files made of lines of entries. -/
namespace Inp
open Py Types

/-- `n` line ends. -/
def nls (n : Nat) : Str := List.replicate n '\n'

theorem nls_succ (n : Nat) : nls (n + 1) = '\n' :: nls n := rfl

/-- Space inside a printed card: blanks and `&` continuations followed by a blank. -/
inductive Ig : Str → Prop
  | nil : Ig []
  | sp {g} : Ig g → Ig (' ' :: g)
  | amp {g} : Ig (' ' :: g) → Ig ('&' :: '\n' :: ' ' :: g)

theorem Ig.of_sp {g : Str} (h : Ig (' ' :: g)) : Ig g := by cases h; assumption

theorem Ig.append {g h : Str} (hg : Ig g) (hh : Ig h) : Ig (g ++ h) := by
  induction hg with
  | nil => exact hh
  | sp _ ih => exact .sp ih
  | amp _ ih => exact .amp ih

theorem Ig.blanks (n : Nat) : Ig (blanks n) := by
  induction n with
  | zero => exact .nil
  | succ n ih => exact .sp ih

theorem Ig.ws {g : Str} (h : Ig g) : Ws g := by
  induction h with
  | nil => exact .nil
  | sp _ ih => exact .sp ih
  | amp _ ih => exact .amp 0 ih

theorem Ig.split {g : Str} (h : Ig g) :
    ∃ k g', g = Inp.blanks k ++ g' ∧ Ig g' ∧ (g' = [] ∨ ∃ r, g' = '&' :: r) := by
  induction h with
  | nil => exact ⟨0, [], rfl, .nil, .inl rfl⟩
  | sp _ ih =>
    obtain ⟨k, g', rfl, h1, h2⟩ := ih
    exact ⟨k + 1, g', rfl, h1, h2⟩
  | amp h _ => exact ⟨0, _, rfl, .amp h, .inr ⟨_, rfl⟩⟩

/-- A line of a file: entries, the space before each further one, the space at its end and the number
of further line ends after it. -/
structure Ln where
  w0 : Str
  rest : List (Str × Str)
  e : Str
  n : Nat

/-- Further entries of a line with the space before them. -/
def ib : List (Str × Str) → Str
  | [] => []
  | (g, w) :: l => g ++ (w ++ ib l)

def Ln.text (l : Ln) : Str := l.w0 ++ (ib l.rest ++ (l.e ++ nls (l.n + 1)))

def ft (ls : List Ln) : Str := ls.flatMap Ln.text

/-- The entries at the start of a line: no vertical format. -/
def Start (w : Str) : Prop := Entry w ∧ w.head? ≠ some '#'

/-- The text after the last line end. -/
def tl : Option (Str × List (Str × Str)) → Str
  | none => []
  | some (w, l) => w ++ ib l

/-- Lines with spaces satisfying `P` inside and `Q` at the end. -/
def Ln.Ok (P Q : Str → Prop) (l : Ln) : Prop := Start l.w0 ∧ (∀ x ∈ l.rest, P x.1 ∧ Entry x.2) ∧ Q l.e

def TlOk (P : Str → Prop) : Option (Str × List (Str × Str)) → Prop
  | none => True
  | some (w, l) => Start w ∧ ∀ x ∈ l, P x.1 ∧ Entry x.2

/-- Everything but the spaces. -/
def Ln.key (l : Ln) : Str × List Str × Bool × Nat := (l.w0, l.rest.map (·.2), l.e.isEmpty, l.n)

def tlKey : Option (Str × List (Str × Str)) → Option (Str × List Str)
  | none => none
  | some (w, l) => some (w, l.map (·.2))

/-- What may follow a line end. -/
def Next (t : Str) : Prop := t = [] ∨ ∃ w u, t = w ++ u ∧ Start w

/-- One pass over the text. -/
structure Pass (T : Str → Str → Str) (P Q P' Q' : Str → Prop) : Prop where
  word : ∀ w, Entry w → ∀ prev t, ∃ prev', T prev (w ++ t) = w ++ T prev' t
  inner : ∀ g, P g → ∀ w, Entry w → ∀ prev t, ∃ g' prev', P' g' ∧ T prev (g ++ (w ++ t)) = g' ++ T prev' (w ++ t)
  last : ∀ g, Q g → ∀ n prev t, Next t → ∃ g' prev', Q' g' ∧
    T prev (g ++ (nls (n + 1) ++ t)) = g' ++ (nls (n + 1) ++ T prev' t) ∧ g'.isEmpty = g.isEmpty

variable {T : Str → Str → Str} {P Q P' Q' : Str → Prop}

theorem Pass.ib (p : Pass T P Q P' Q') (l : List (Str × Str)) (hl : ∀ x ∈ l, P x.1 ∧ Entry x.2) (prev t : Str) :
    ∃ l' prev', (∀ x ∈ l', P' x.1 ∧ Entry x.2) ∧ l'.map (·.2) = l.map (·.2) ∧
      T prev (ib l ++ t) = Inp.ib l' ++ T prev' t := by
  induction l generalizing prev with
  | nil => exact ⟨[], prev, by simp, rfl, rfl⟩
  | cons x l ih =>
    obtain ⟨g, w⟩ := x
    obtain ⟨hg, hw⟩ := hl _ (List.mem_cons_self ..)
    obtain ⟨g', p1, h1, e1⟩ := p.inner g hg w hw prev (Inp.ib l ++ t)
    obtain ⟨p2, e2⟩ := p.word w hw p1 (Inp.ib l ++ t)
    obtain ⟨l', p3, h2, h3, e3⟩ := ih (fun x hx => hl x (List.mem_cons_of_mem _ hx)) p2
    refine ⟨(g', w) :: l', p3, ?_, by simp [h3], ?_⟩
    · intro y hy
      rcases List.mem_cons.1 hy with rfl | hy
      · exact ⟨h1, hw⟩
      · exact h2 y hy
    · simp only [Inp.ib, List.append_assoc]
      rw [e1, e2, e3]

theorem Pass.line (p : Pass T P Q P' Q') (l : Ln) (hl : l.Ok P Q) (prev t : Str) (ht : Next t) :
    ∃ l' prev', Ln.Ok P' Q' l' ∧ l'.key = l.key ∧ T prev (l.text ++ t) = l'.text ++ T prev' t := by
  obtain ⟨h0, h1, h2⟩ := hl
  obtain ⟨p1, e1⟩ := p.word l.w0 h0.1 prev (Inp.ib l.rest ++ (l.e ++ (nls (l.n + 1) ++ t)))
  obtain ⟨r', p2, k1, k2, e2⟩ := p.ib l.rest h1 p1 (l.e ++ (nls (l.n + 1) ++ t))
  obtain ⟨e', p3, k3, e3, k4⟩ := p.last l.e h2 l.n p2 t ht
  refine ⟨⟨l.w0, r', e', l.n⟩, p3, ⟨h0, k1, k3⟩, by simp [Ln.key, k2, k4], ?_⟩
  simp only [Ln.text, List.append_assoc]
  rw [e1, e2, e3]

theorem ln_next {l : Ln} (h : Start l.w0) (t : Str) : Next (l.text ++ t) :=
  .inr ⟨l.w0, Inp.ib l.rest ++ (l.e ++ nls (l.n + 1)) ++ t, by simp [Ln.text], h⟩

theorem file_next (ls : List Ln) (h : ∀ l ∈ ls, Start l.w0) (o : Option (Str × List (Str × Str)))
    (ho : TlOk P o) : Next (ft ls ++ tl o) := by
  cases ls with
  | nil =>
    cases o with
    | none => exact .inl rfl
    | some x => exact .inr ⟨x.1, Inp.ib x.2, rfl, ho.1⟩
  | cons l ls =>
    have := ln_next (h l (by simp)) (ft ls ++ tl o)
    simpa [ft] using this

theorem Pass.file (p : Pass T P Q P' Q') (ls : List Ln) (hl : ∀ l ∈ ls, l.Ok P Q) (o : Option (Str × List (Str × Str)))
    (ho : TlOk P o) (prev : Str) :
    ∃ ls' o' prev', (∀ l ∈ ls', Ln.Ok P' Q' l) ∧ TlOk P' o' ∧ ls'.map Ln.key = ls.map Ln.key ∧ tlKey o' = tlKey o ∧
      T prev (ft ls ++ tl o) = ft ls' ++ (tl o' ++ T prev' []) := by
  induction ls generalizing prev with
  | nil =>
    cases o with
    | none => exact ⟨[], none, prev, by simp, trivial, rfl, rfl, rfl⟩
    | some x =>
      obtain ⟨w, l⟩ := x
      obtain ⟨p1, e1⟩ := p.word w ho.1.1 prev (Inp.ib l)
      obtain ⟨l', p2, k1, k2, e2⟩ := p.ib l ho.2 p1 []
      rw [List.append_nil] at e2
      refine ⟨[], some (w, l'), p2, by simp, ⟨ho.1, k1⟩, rfl, by simp [tlKey, k2], ?_⟩
      simp only [ft, List.flatMap_nil, List.nil_append, tl, List.append_assoc]
      rw [e1, e2]
  | cons l ls ih =>
    have hs := fun x hx => hl x (List.mem_cons_of_mem _ hx)
    obtain ⟨l', p1, k1, k2, e1⟩ := p.line l (hl l (by simp)) prev (ft ls ++ tl o)
      (file_next ls (fun x hx => (hs x hx).1) o ho)
    obtain ⟨ls', o', p2, k3, k4, k5, k6, e2⟩ := ih hs p1
    refine ⟨l' :: ls', o', p2, ?_, k4, by simp [k2, k5], k6, ?_⟩
    · intro y hy
      rcases List.mem_cons.1 hy with rfl | hy
      · exact k1
      · exact k3 y hy
    · show T prev ((l.text ++ ft ls) ++ tl o) = (l'.text ++ ft ls') ++ _
      simp only [List.append_assoc]
      rw [e1, e2]

theorem Entry.stop {w : Str} (h : Entry w) (t : Str) : ∃ c cs, w ++ t = c :: cs ∧ isSpace c = false ∧ c ≠ '&' ∧ c ≠ '=' ∧
    c ≠ '$' ∧ c ≠ ')' := by
  obtain ⟨hne, hsp, ha, he, hd, -, hc⟩ := h
  cases w with
  | nil => exact absurd rfl hne
  | cons c cs =>
    exact ⟨c, cs ++ t, rfl, hsp c (by simp), by rintro rfl; simp at ha, by rintro rfl; simp at he,
      by rintro rfl; simp at hd, by rintro rfl; exact hc rfl⟩

theorem Entry.ne_sp {w : Str} (h : Entry w) : ∀ c ∈ w, c ≠ ' ' := fun c hc e => by
  subst e; exact absurd (h.sp _ hc) (by decide)
theorem Entry.ne_nl {w : Str} (h : Entry w) : ∀ c ∈ w, c ≠ '\n' := fun c hc e => by
  subst e; exact absurd (h.sp _ hc) (by decide)
theorem Entry.ne_tab {w : Str} (h : Entry w) : ∀ c ∈ w, c ≠ '\t' := fun c hc e => by
  subst e; exact absurd (h.sp _ hc) (by decide)

/-- A character that is no blank ends what a line end or a blank can match. -/
theorem Next.head {t : Str} (h : Next t) : ∀ c cs, t = c :: cs → isSpace c = false ∧ c ≠ '#' ∧ c ≠ '=' ∧ c ≠ ')' := by
  intro c cs e
  rcases h with rfl | ⟨w, u, rfl, h⟩
  · cases e
  · obtain ⟨c', cs', e', h1, h2, h3, h4, h5⟩ := h.1.stop u
    rw [e] at e'; cases e'
    refine ⟨h1, ?_, h3, h5⟩
    rintro rfl
    cases w with
    | nil => exact h.1.ne rfl
    | cons x xs => cases e; exact h.2 rfl

theorem Next.ne_sp {t : Str} (h : Next t) : ∀ c cs, t = c :: cs → c ≠ ' ' := by
  rintro c cs e rfl; exact absurd (h.head _ _ e).1 (by decide)
theorem Next.ne_nl {t : Str} (h : Next t) : ∀ c cs, t = c :: cs → c ≠ '\n' := by
  rintro c cs e rfl; exact absurd (h.head _ _ e).1 (by decide)

/-! ### blank lines -/

def nlF : Str → List (Nat × Str) → Str := fun _ _ => ['\n', '\n']

theorem bl_other {α : Type} (prev : Str) (c : Char) (cs : Str) (caps) (k : St → Option α)
    (h1 : c ≠ '\n') : run blankLineRe ⟨prev, c :: cs, caps⟩ k = none := by
  rw [blankLineRe, run_seq, Re.chr, run_cls_cons, if_neg (by simpa using h1)]

theorem blanks_split (n : Nat) (cs : Str) (h : ∀ c t, cs = c :: t → c ≠ ' ') (w r : Str) (hw : ∀ c ∈ w, (c == ' ') = true)
    (hr : ∀ c t, r = c :: t → c ≠ ' ') (e : blanks n ++ cs = w ++ r) : w = blanks n ∧ cs = r := by
  induction n generalizing w with
  | zero =>
    cases w with
    | nil => exact ⟨rfl, e⟩
    | cons x xs => exact absurd (by simpa using hw x (by simp)) (h x _ e)
  | succ n ih =>
    cases w with
    | nil => exact absurd rfl (hr ' ' _ e.symm)
    | cons x xs =>
      rw [blanks_succ, List.cons_append, List.cons_append] at e
      injection e with e1 e2
      obtain ⟨h1, h2⟩ := ih xs (fun c hc => hw c (by simp [hc])) e2
      exact ⟨by rw [← e1, h1]; rfl, h2⟩

/-- A line end that is not followed by a blank line. -/
theorem bl_miss {α : Type} (prev : Str) (n : Nat) (cs : Str) (caps) (k : St → Option α)
    (h : ∀ c t, cs = c :: t → c ≠ ' ' ∧ (0 < n → c ≠ '\n')) :
    run blankLineRe ⟨prev, '\n' :: (blanks n ++ cs), caps⟩ k = none := by
  rw [blankLineRe, run_seq, Re.chr, run_cls_cons, if_pos (by decide)]
  apply run_none
  intro st' hst
  obtain ⟨m, h1, h2⟩ := step_seq.1 hst
  obtain ⟨w, r, hne, hw, e, rfl⟩ := step_plus_cls.1 h1
  obtain ⟨d, s2, hd, e3, -⟩ := step_cls.1 h2
  have hd : d = '\n' := by simpa using hd
  subst hd
  simp only [St.adv] at e e3
  subst e3
  obtain ⟨h3, h4⟩ := blanks_split n cs (fun c t e => (h c t e).1) w _ hw (by intro c t e; cases e; decide) e
  refine ((h _ _ h4).2 ?_ rfl).elim
  cases n with
  | zero => exact absurd h3 hne
  | succ n => omega

theorem bl_hit (prev : Str) (n : Nat) (t : Str) :
    ∃ prev', subFrom blankLineRe nlF prev ('\n' :: (blanks (n + 1) ++ '\n' :: t)) =
      '\n' :: '\n' :: subFrom blankLineRe nlF prev' t := by
  refine ⟨'\n' :: ((blanks (n + 1)).reverse ++ '\n' :: prev), ?_⟩
  have := subFrom_hit blankLineRe nlF prev ('\n' :: (blanks (n + 1) ++ ['\n'])) t
    ('\n' :: ((blanks (n + 1)).reverse ++ '\n' :: prev)) [] (by simp) (by
      rw [blankLineRe, run_seq, Re.chr, List.cons_append, run_cls_cons, if_pos (by decide), run_seq, Re.plus, run_seq]
      rw [blanks_succ, List.cons_append, List.cons_append, Re.chr, run_cls_cons, if_pos (by decide), List.append_assoc]
      apply run_star_cls_full (fun x => x == ' ') (blanks n) (['\n'] ++ t) _ _ _ _
        (fun c hc => by rw [blanks_mem hc]; rfl) (by intro c cs e; cases e; rfl)
      rw [List.singleton_append, run_cls_cons, if_pos (by decide), findK_ok]
      · simp
      · simp only [List.length_cons, List.length_append]; omega)
  simpa [nlF] using this

/-- Space at the end of a line after the first pass. -/
inductive Eg : Str → Prop
  | nil : Eg []
  | sp {g} : Eg g → Eg (' ' :: g)
  | amp {g} : Eg g → Eg ('&' :: '\n' :: g)

theorem bl_blanks (k : Nat) (t prev : Str) :
    subFrom blankLineRe nlF prev (blanks k ++ t) = blanks k ++ subFrom blankLineRe nlF ((blanks k).reverse ++ prev) t :=
  subFrom_skip _ _ _ _ _ (fun c hc _ _ _ => bl_other _ _ _ _ _ (by rw [blanks_mem hc]; decide))

theorem Eg.blanks (k : Nat) {g : Str} (h : Eg g) : Eg (blanks k ++ g) := by
  induction k with
  | zero => exact h
  | succ k ih => exact .sp ih

theorem Ig.cases' {g : Str} (h : Ig g) : (∃ k, g = Inp.blanks k) ∨
    ∃ k j g', g = Inp.blanks k ++ '&' :: '\n' :: (Inp.blanks (j + 1) ++ g') ∧ Ig g' ∧ (g' = [] ∨ ∃ r, g' = '&' :: r) := by
  obtain ⟨k, g', rfl, h1, h2⟩ := h.split
  rcases h2 with rfl | ⟨r, rfl⟩
  · exact .inl ⟨k, by simp⟩
  · cases h1 with
    | amp h1 =>
      rename_i g2
      obtain ⟨j, g3, rfl, h3, h4⟩ := h1.of_sp.split
      exact .inr ⟨k, j, g3, rfl, h3, h4⟩

theorem bl_inner (g : Str) (hg : Ig g) (w t : Str) (hw : Entry w) (prev : Str) :
    ∃ prev', subFrom blankLineRe nlF prev (g ++ (w ++ t)) = g ++ subFrom blankLineRe nlF prev' (w ++ t) := by
  generalize hn : g.length = n
  induction n using Nat.strongRecOn generalizing g prev with
  | ind n ih =>
    rcases hg.cases' with ⟨k, rfl⟩ | ⟨k, j, g', rfl, h1, h2⟩
    · exact ⟨_, bl_blanks k _ _⟩
    · have hmiss : ∀ (prev : Str) caps (m : St → Option St), run blankLineRe ⟨prev, '\n' :: (blanks (j + 1) ++ (g' ++ (w ++ t))), caps⟩ m = none := by
        intro prev caps m
        apply bl_miss
        intro c cs e
        rcases h2 with rfl | ⟨r, rfl⟩
        · obtain ⟨c', cs', e', hs, -⟩ := hw.stop t
          rw [List.nil_append, e'] at e; cases e
          exact ⟨by rintro rfl; exact absurd hs (by decide), fun _ => by rintro rfl; exact absurd hs (by decide)⟩
        · cases e; exact ⟨by decide, fun _ => by decide⟩
      obtain ⟨p, e⟩ := ih g'.length (by simp at hn; omega) g' h1
        ((blanks (j + 1)).reverse ++ '\n' :: '&' :: ((blanks k).reverse ++ prev)) rfl
      refine ⟨p, ?_⟩
      simp only [List.append_assoc, List.cons_append]
      rw [bl_blanks, subFrom_miss _ _ _ _ _ (bl_other _ _ _ _ _ (by decide)), subFrom_miss _ _ _ _ _ (hmiss _ _ _),
        bl_blanks, e]

theorem bl_nls (n : Nat) (t prev : Str) (ht : Next t) :
    ∃ prev', subFrom blankLineRe nlF prev (nls n ++ t) = nls n ++ subFrom blankLineRe nlF prev' t := by
  induction n generalizing prev with
  | zero => exact ⟨prev, rfl⟩
  | succ n ih =>
    obtain ⟨p, e⟩ := ih ('\n' :: prev)
    refine ⟨p, ?_⟩
    rw [nls_succ, List.cons_append, subFrom_miss, e]
    · rfl
    · apply bl_miss _ 0
      intro c cs e
      refine ⟨?_, fun h => absurd h (by omega)⟩
      cases n with
      | zero => exact ht.ne_sp _ _ e
      | succ n => cases e; decide

theorem bl_last (g : Str) (hg : Ig g) (n : Nat) (t : Str) (ht : Next t) (prev : Str) :
    ∃ g' prev', Eg g' ∧ subFrom blankLineRe nlF prev (g ++ (nls (n + 1) ++ t)) =
      g' ++ (nls (n + 1) ++ subFrom blankLineRe nlF prev' t) ∧ g'.isEmpty = g.isEmpty := by
  generalize hn : g.length = m
  induction m using Nat.strongRecOn generalizing g prev with
  | ind m ih =>
    rcases hg.cases' with ⟨k, rfl⟩ | ⟨k, j, g', rfl, h1, h2⟩
    · obtain ⟨p, e⟩ := bl_nls (n + 1) t ((blanks k).reverse ++ prev) ht
      refine ⟨blanks k, p, by simpa using Eg.blanks k .nil, ?_, rfl⟩
      rw [bl_blanks, e]
    · simp only [List.append_assoc, List.cons_append]
      rw [bl_blanks, subFrom_miss _ _ _ _ _ (bl_other _ _ _ _ _ (by decide))]
      rcases h2 with rfl | ⟨r, rfl⟩
      · rw [List.nil_append, nls_succ, List.cons_append]
        obtain ⟨p, e⟩ := bl_hit ('&' :: ((blanks k).reverse ++ prev)) j (nls n ++ t)
        obtain ⟨p2, e2⟩ := bl_nls n t p ht
        refine ⟨blanks k ++ ['&', '\n'], p2, Eg.blanks k (.amp .nil), ?_, by cases k <;> rfl⟩
        rw [e, e2]; simp
      · have hmiss : ∀ (prev : Str) caps (m : St → Option St), run blankLineRe ⟨prev, '\n' :: (blanks (j + 1) ++ ('&' :: r ++ (nls (n + 1) ++ t))), caps⟩ m = none := by
          intro prev caps m
          apply bl_miss
          intro c cs e
          cases e; exact ⟨by decide, fun _ => by decide⟩
        rw [subFrom_miss _ _ _ _ _ (hmiss _ _ _), bl_blanks]
        obtain ⟨g2, p, h3, e, -⟩ := ih (('&' :: r).length) (by simp at hn ⊢; omega) ('&' :: r) h1
          ((blanks (j + 1)).reverse ++ '\n' :: '&' :: ((blanks k).reverse ++ prev)) rfl
        refine ⟨blanks k ++ '&' :: '\n' :: (blanks (j + 1) ++ g2), p, Eg.blanks k (.amp (Eg.blanks _ h3)), ?_, by cases k <;> rfl⟩
        rw [e]; simp

/-- Space between two entries of a printed card. -/
def InG (g : Str) : Prop := Ig g ∧ g ≠ []

theorem pass_blank : Pass (subFrom blankLineRe nlF) InG Ig InG Eg where
  word w hw prev t := ⟨_, subFrom_skip _ _ _ _ _ (fun c hc _ _ _ => bl_other _ _ _ _ _ (hw.ne_nl c hc))⟩
  inner g hg w hw prev t := by
    obtain ⟨p, e⟩ := bl_inner g hg.1 w t hw prev
    exact ⟨g, p, hg, e⟩
  last g hg n prev t ht := bl_last g hg n t ht prev


/-! ### vertical format -/

/-- No line begins with `#`. -/
def NoHash : Str → Prop
  | [] => True
  | c :: cs => (c = '\n' → cs.head? ≠ some '#') ∧ NoHash cs

theorem noHash_skip (w t : Str) (h : '\n' ∉ w) (ht : NoHash t) : NoHash (w ++ t) := by
  induction w with
  | nil => exact ht
  | cons c cs ih =>
    exact ⟨fun e => absurd (by simp [e]) h, ih (fun hc => h (by simp [hc]))⟩

theorem noHash_find (s : Str) (h : NoHash s) (n : Nat) (prev : Str) (hn : s.length ≤ n) :
    finditerAux vSplitRe n prev s = s.map (fun c => .inl [c]) := by
  induction s generalizing n prev with
  | nil => cases n <;> rfl
  | cons c cs ih =>
    cases n with
    | zero => simp at hn
    | succ n =>
      rw [finditerAux]
      have : run vSplitRe ⟨prev, c :: cs, []⟩ (fun st => if st.rest.length < (c :: cs).length then some st else none) = none := by
        rw [vSplitRe, run_seq, Re.chr, run_cls_cons]
        split
        · rename_i hc
          have hc : c = '\n' := by simpa using hc
          rw [run_grp, run_seq]
          cases cs with
          | nil => rw [Re.chr, run_cls_nil]
          | cons d ds =>
            rw [Re.chr, run_cls_cons, if_neg]
            have := h.1 hc
            simpa using this
        · rfl
      rw [this]
      simp only [List.map_cons]
      rw [ih h.2 n _ (by simpa using hn)]

theorem splitPieces_inl (g : Bool) (s cur : Str) : splitPieces g cur (s.map (fun c => .inl [c])) = [cur ++ s] := by
  induction s generalizing cur with
  | nil => simp [splitPieces]
  | cons c cs ih => rw [List.map_cons, splitPieces, ih]; simp

theorem vertical_id (s : Str) (h : NoHash s) (h0 : s.head? ≠ some '#') : vertical s = s := by
  rw [vertical, reSplit, noHash_find s h _ _ (Nat.le_refl _), splitPieces_inl]
  simp only [List.nil_append, List.flatMap_cons, List.flatMap_nil, List.append_nil]
  rw [vToken]
  have : reMatch vBlockRe s = none := by
    rw [reMatch, vBlockRe, run_seq]
    cases s with
    | nil => rw [Re.chr, run_cls_nil]
    | cons c cs => rw [Re.chr, run_cls_cons, if_neg (by simpa using h0)]
  rw [this]

theorem Ig.noHash {g t : Str} (hg : Ig g) (ht : NoHash t) : NoHash (g ++ t) := by
  induction hg with
  | nil => exact ht
  | sp _ ih => exact ⟨fun e => absurd e (by decide), ih⟩
  | amp _ ih => exact ⟨fun e => absurd e (by decide), fun _ => by simp, ih⟩

theorem Eg.noHash {g t : Str} (hg : Eg g) (ht : NoHash t) (hh : t.head? ≠ some '#') : NoHash (g ++ t) := by
  induction hg with
  | nil => exact ht
  | sp _ ih => exact ⟨fun e => absurd e (by decide), ih⟩
  | amp h ih =>
    refine ⟨fun e => absurd e (by decide), fun _ => ?_, ih⟩
    cases h with
    | nil => exact hh
    | sp _ => simp
    | amp _ => simp

theorem nls_noHash (n : Nat) (t : Str) (ht : NoHash t) (hh : t.head? ≠ some '#') : NoHash (nls n ++ t) := by
  induction n with
  | zero => exact ht
  | succ n ih =>
    refine ⟨fun _ => ?_, ih⟩
    cases n with
    | zero => exact hh
    | succ n => show ('\n' :: (nls n ++ t)).head? ≠ _; simp

theorem ib_noHash (l : List (Str × Str)) (hl : ∀ x ∈ l, InG x.1 ∧ Entry x.2) (t : Str) (ht : NoHash t) : NoHash (ib l ++ t) := by
  induction l with
  | nil => exact ht
  | cons x l ih =>
    obtain ⟨g, w⟩ := x
    obtain ⟨hg, hw⟩ := hl _ (List.mem_cons_self ..)
    simp only [ib, List.append_assoc]
    exact hg.1.noHash (noHash_skip _ _ (fun h => hw.ne_nl _ h rfl) (ih (fun x hx => hl x (List.mem_cons_of_mem _ hx))))

theorem Next.noHash {t : Str} (h : Next t) : t.head? ≠ some '#' := by
  intro e
  cases t with
  | nil => cases e
  | cons c cs => exact (h.head c cs rfl).2.1 (by simpa using e)

theorem file_noHash (ls : List Ln) (hl : ∀ l ∈ ls, l.Ok InG Eg) (o : Option (Str × List (Str × Str)))
    (ho : TlOk InG o) : NoHash (ft ls ++ tl o) := by
  induction ls with
  | nil =>
    cases o with
    | none => trivial
    | some x =>
      have := ib_noHash x.2 ho.2 [] trivial
      rw [List.append_nil] at this
      exact noHash_skip x.1 _ (fun h => ho.1.1.ne_nl _ h rfl) this
  | cons l ls ih =>
    obtain ⟨h0, h1, h2⟩ := hl l (by simp)
    have hs := fun x hx => hl x (List.mem_cons_of_mem _ hx)
    have hn := (file_next ls (fun x hx => (hs x hx).1) o ho).noHash
    show NoHash ((l.text ++ ft ls) ++ tl o)
    simp only [Ln.text, List.append_assoc]
    refine noHash_skip _ _ (fun h => h0.1.ne_nl _ h rfl) (ib_noHash _ h1 _ (h2.noHash (nls_noHash _ _ (ih hs) hn) ?_))
    simp [nls_succ]

theorem file_vertical (ls : List Ln) (hl : ∀ l ∈ ls, l.Ok InG Eg) (o : Option (Str × List (Str × Str)))
    (ho : TlOk InG o) : vertical (ft ls ++ tl o) = ft ls ++ tl o :=
  vertical_id _ (file_noHash ls hl o ho) (file_next ls (fun x hx => (hl x hx).1) o ho).noHash

/-! ### `&` continuations -/

def ampF : Str → List (Nat × Str) → Str := fun _ _ => ['\n', ' ', ' ', ' ', ' ']

/-- Space after the `&` pass: blanks and line ends followed by blanks. -/
inductive Ng : Str → Prop
  | nil : Ng []
  | sp {g} : Ng g → Ng (' ' :: g)
  | nl {g} : Ng g → Ng ('\n' :: ' ' :: ' ' :: ' ' :: ' ' :: g)

theorem amp_other {α : Type} (prev : Str) (c : Char) (cs : Str) (caps) (k : St → Option α)
    (h1 : c ≠ '&') : run ampRe ⟨prev, c :: cs, caps⟩ k = none := by
  rw [ampRe, run_seq, Re.chr, run_cls_cons, if_neg (by simpa using h1)]

theorem amp_hit (prev : Str) (k : Nat) (t : Str) (ht : ∀ c cs, t = c :: cs → c ≠ ' ') :
    ∃ prev', subFrom ampRe ampF prev ('&' :: '\n' :: (blanks k ++ t)) =
      '\n' :: ' ' :: ' ' :: ' ' :: ' ' :: subFrom ampRe ampF prev' t := by
  refine ⟨(blanks k).reverse ++ '\n' :: '&' :: prev, ?_⟩
  have := subFrom_hit ampRe ampF prev ('&' :: '\n' :: blanks k) t
    ((blanks k).reverse ++ '\n' :: '&' :: prev) []
    (by simp) (by
      rw [ampRe, run_seq, Re.chr, List.cons_append, run_cls_cons, if_pos (by decide), run_seq, Re.chr]
      rw [List.cons_append]
      show run _ ⟨_, [] ++ '\n' :: (blanks k ++ t), _⟩ _ = _
      rw [run_star_cls_full (fun x => x == ' ') [] ('\n' :: (blanks k ++ t)) _ _ _
        ⟨(blanks k).reverse ++ '\n' :: ('&' :: prev), t, []⟩
        (by simp) (by intro c cs e; cases e; rfl)]
      rw [run_seq, Re.chr, run_cls_cons, if_pos (by decide)]
      apply run_star_cls_full (fun x => x == ' ') (blanks k) t _ _ _ _
        (fun c hc => by rw [blanks_mem hc]; rfl) (head_stop ht)
      rw [findK_ok]
      · rfl
      · simp only [List.length_cons, List.length_append]; omega)
  simpa [ampF] using this

theorem Eg.split {g : Str} (h : Eg g) :
    ∃ k g', g = Inp.blanks k ++ g' ∧ Eg g' ∧ (g' = [] ∨ ∃ r, g' = '&' :: r) := by
  induction h with
  | nil => exact ⟨0, [], rfl, .nil, .inl rfl⟩
  | sp _ ih =>
    obtain ⟨k, g', rfl, h1, h2⟩ := ih
    exact ⟨k + 1, g', rfl, h1, h2⟩
  | amp h _ => exact ⟨0, _, rfl, .amp h, .inr ⟨_, rfl⟩⟩

theorem Ig.eg {g : Str} (h : Ig g) : Eg g := by
  induction h with
  | nil => exact .nil
  | sp _ ih => exact .sp ih
  | amp _ ih => exact .amp ih

theorem amp_gap (g : Str) (hg : Eg g) (t : Str) (ht : ∀ c cs, t = c :: cs → c ≠ ' ') (prev : Str) :
    ∃ g' prev', subFrom ampRe ampF prev (g ++ t) = g' ++ subFrom ampRe ampF prev' t ∧ Ng g' ∧ g'.isEmpty = g.isEmpty := by
  generalize hn : g.length = n
  induction n using Nat.strongRecOn generalizing g prev with
  | ind n ih =>
    cases hg with
    | nil => exact ⟨[], prev, rfl, .nil, rfl⟩
    | sp hg =>
      rename_i g
      rw [List.cons_append, subFrom_miss _ _ _ _ _ (amp_other _ _ _ _ _ (by decide))]
      obtain ⟨g', p, e, h, _⟩ := ih g.length (by simp at hn; omega) g hg (' ' :: prev) rfl
      exact ⟨' ' :: g', p, by rw [e]; rfl, .sp h, by simp⟩
    | amp hg =>
      rename_i g
      obtain ⟨k, g', e, h1, h2⟩ := hg.split
      subst e
      have hstop : ∀ c cs, g' ++ t = c :: cs → c ≠ ' ' := by
        intro c cs e
        rcases h2 with rfl | ⟨r, rfl⟩
        · exact ht c cs e
        · cases e; decide
      obtain ⟨p1, this⟩ := amp_hit prev k (g' ++ t) hstop
      have e2 : '&' :: '\n' :: (blanks k ++ g') ++ t = '&' :: '\n' :: (blanks k ++ (g' ++ t)) := by simp
      rw [e2, this]
      obtain ⟨g2, p, e, h, _⟩ := ih g'.length (by simp at hn; omega) g' h1 p1 rfl
      exact ⟨'\n' :: ' ' :: ' ' :: ' ' :: ' ' :: g2, p, by rw [e]; rfl, .nl h, by simp⟩

theorem Entry.ne_blank {w : Str} (h : Entry w) (t : Str) : ∀ c cs, w ++ t = c :: cs → c ≠ ' ' := by
  rintro c cs e rfl
  obtain ⟨c', cs', e', hs, -⟩ := h.stop t
  rw [e] at e'; cases e'
  exact absurd hs (by decide)

/-- Space between two entries after the `&` pass. -/
def InN (g : Str) : Prop := Ng g ∧ g ≠ []

theorem pass_amp : Pass (subFrom ampRe ampF) InG Eg InN Ng where
  word w hw prev t := ⟨_, subFrom_skip _ _ _ _ _ (fun c hc _ _ _ => amp_other _ _ _ _ _ (by rintro rfl; exact hw.amp hc))⟩
  inner g hg w hw prev t := by
    obtain ⟨g', p, e, h, hne⟩ := amp_gap g hg.1.eg (w ++ t) (hw.ne_blank t) prev
    refine ⟨g', p, ⟨h, ?_⟩, e⟩
    rintro rfl
    exact hg.2 (by simpa using hne.symm)
  last g hg n prev t ht := by
    obtain ⟨g', p, e, h, hne⟩ := amp_gap g hg (nls (n + 1) ++ t) (by rw [nls_succ]; intro c cs e; cases e; decide) prev
    refine ⟨g', (nls (n + 1)).reverse ++ p, h, ?_, hne⟩
    rw [e, subFrom_skip _ _ (nls (n + 1)) t _ (fun c hc _ _ _ => amp_other _ _ _ _ _ (by
      have := (List.mem_replicate.1 hc).2; subst this; decide))]

/-! ### continuation lines -/

theorem isContinued_sp (c : Char) (cs : Str) (h1 : isSpace c = true) (h2 : cs ≠ []) (h3 : '\n' ∉ cs) :
    isContinued (c :: cs) = true := by
  unfold isContinued
  cases hm : reMatch (.seq (.plus true .space) (.plus true .dot)) (c :: cs) with
  | some m => rfl
  | none =>
    exfalso
    have hs : Step (.seq (.plus true .space) (.plus true .dot)) ⟨[], c :: cs, []⟩ ⟨cs.reverse ++ [c], [], []⟩ := by
      refine step_seq.2 ⟨⟨[c], cs, []⟩, ?_, ?_⟩
      · exact step_plus_cls.2 ⟨[c], cs, by simp, by simpa using h1, rfl, rfl⟩
      · refine step_plus_cls.2 ⟨cs, [], h2, ?_, by simp, rfl⟩
        intro x hx
        simp only [bne_iff_ne]
        rintro rfl
        exact h3 hx
    have := (run_spec (α := List (Nat × Str)) _ _ _).1.1 hm _ hs
    cases this

theorem isContinued_not (l : Str) (h : ∀ c cs, l = c :: cs → isSpace c = false) : isContinued l = false := by
  have : reMatch (.seq (.plus true .space) (.plus true .dot)) l = none := by
    rw [reMatch, run_seq, Re.plus, run_seq]
    cases l with
    | nil => rw [Re.space, run_cls_nil]
    | cons c cs => rw [Re.space, run_cls_cons, if_neg (by simp [h c cs rfl])]
  rw [isContinued, this]; rfl

theorem gather_cur (cur : Str) (cs : List Str) (ls : List Str) : gather cur cs ls = cur ++ gather [] cs ls := by
  induction ls generalizing cur cs with
  | nil => simp [gather]
  | cons l ls ih =>
    rw [gather, gather]
    split
    · rw [ih, ih ([] ++ _)]; simp
    · simp

/-- The continuation loop on a text. -/
def gatherText (s : Str) : Str := gatherLines (splitC '\n' s)

theorem splitC_nl (t : Str) : splitC '\n' ('\n' :: t) = [] :: splitC '\n' t := by
  rw [splitC]; simp

theorem splitComment_append (w v : Str) (h : '$' ∉ w) :
    splitComment (w ++ v) = (w ++ (splitComment v).1, (splitComment v).2) := by
  induction w with
  | nil => rfl
  | cons c cs ih =>
    rw [List.cons_append, splitComment, if_neg (by rintro rfl; exact h (by simp)), ih (fun hc => h (by simp [hc]))]
    rfl

theorem gatherText_word (w t : Str) (h1 : '\n' ∉ w) (h2 : '$' ∉ w) : gatherText (w ++ t) = w ++ gatherText t := by
  unfold gatherText
  rw [splitC_append_free _ _ _ h1]
  cases hs : splitC '\n' t with
  | nil => exact absurd hs (splitC_ne_nil _ _)
  | cons v vs =>
    simp only [gatherLines]
    rw [splitComment_append w v h2]
    simp only
    rw [gather_cur, gather_cur (splitComment v).1, List.append_assoc]

theorem gatherText_nil : gatherText [] = ['\n'] := by decide

theorem gatherText_nl (t : Str) : gatherText ('\n' :: t) =
    if isContinued ((splitC '\n' t).headD []) then gatherText t else '\n' :: gatherText t := by
  unfold gatherText
  rw [splitC_nl]
  cases hs : splitC '\n' t with
  | nil => exact absurd hs (splitC_ne_nil _ _)
  | cons v vs =>
    show gather [] [] (v :: vs) = _
    rw [gather]
    simp [gatherLines, commentTail]

theorem headD_word (w t : Str) (h : '\n' ∉ w) : ∃ v, (splitC '\n' (w ++ t)).headD [] = w ++ v ∧ '\n' ∉ v := by
  rw [splitC_append_free _ _ _ h]
  cases hs : splitC '\n' t with
  | nil => exact absurd hs (splitC_ne_nil _ _)
  | cons v vs => exact ⟨v, rfl, splitC_free '\n' t v (by rw [hs]; simp)⟩

theorem gatherText_cont (t : Str) : gatherText ('\n' :: ' ' :: ' ' :: ' ' :: ' ' :: t) =
    ' ' :: ' ' :: ' ' :: ' ' :: gatherText t := by
  rw [gatherText_nl]
  obtain ⟨v, e, hv⟩ := headD_word [' ', ' ', ' ', ' '] t (by decide)
  have e' : (splitC '\n' (' ' :: ' ' :: ' ' :: ' ' :: t)).headD [] = ' ' :: (' ' :: ' ' :: ' ' :: v) := e
  rw [e', isContinued_sp _ _ (by decide) (by simp) (by simpa using hv), if_pos rfl]
  exact gatherText_word [' ', ' ', ' ', ' '] t (by decide) (by decide)

theorem gatherText_end (t : Str) (h : ∀ c cs, t = c :: cs → isSpace c = true → c = '\n') :
    gatherText ('\n' :: t) = '\n' :: gatherText t := by
  rw [gatherText_nl, isContinued_not, if_neg (by simp)]
  intro c cs e
  cases t with
  | nil => simp [splitC] at e
  | cons x xs =>
    by_cases hx : x = '\n'
    · subst hx; rw [splitC_nl] at e; cases e
    · obtain ⟨v, e', -⟩ := headD_word [x] xs (by simpa using fun h => hx h.symm)
      rw [List.singleton_append] at e'
      rw [e'] at e; cases e
      cases hsp : isSpace c with
      | false => rfl
      | true => exact absurd (h _ _ rfl hsp) hx

theorem gather_nls (n : Nat) (t : Str) (ht : Next t) : gatherText (nls n ++ t) = nls n ++ gatherText t := by
  induction n with
  | zero => rfl
  | succ n ih =>
    rw [nls_succ, List.cons_append, gatherText_end, ih]
    · rfl
    · intro c cs e hs
      cases n with
      | zero => exact absurd (ht.head _ _ e).1 (by simp [hs])
      | succ n => cases e; rfl

theorem gather_gap (g : Str) (hg : Ng g) (t : Str) :
    ∃ k, gatherText (g ++ t) = blanks k ++ gatherText t ∧ (blanks k).isEmpty = g.isEmpty := by
  induction hg with
  | nil => exact ⟨0, rfl, rfl⟩
  | @sp g _ ih =>
    obtain ⟨k, e, -⟩ := ih
    refine ⟨k + 1, ?_, rfl⟩
    have := gatherText_word [' '] (g ++ t) (by decide) (by decide)
    rw [List.cons_append]
    rw [List.singleton_append] at this
    rw [this, e]; rfl
  | nl _ ih =>
    obtain ⟨k, e, -⟩ := ih
    refine ⟨k + 4, ?_, rfl⟩
    simp only [List.cons_append]
    rw [gatherText_cont, e]; rfl

/-- Blanks. -/
def Bl (g : Str) : Prop := ∃ k, g = blanks k
def InB (g : Str) : Prop := ∃ k, g = blanks (k + 1)

theorem pass_gather : Pass (fun _ => gatherText) InN Ng InB Bl where
  word w hw prev t := ⟨prev, gatherText_word w t (fun h => hw.ne_nl _ h rfl) hw.dl⟩
  inner g hg w hw prev t := by
    obtain ⟨k, e, h⟩ := gather_gap g hg.1 (w ++ t)
    refine ⟨blanks k, prev, ?_, e⟩
    cases k with
    | zero => exact absurd (by simpa using h.symm) hg.2
    | succ k => exact ⟨k, rfl⟩
  last g hg n prev t ht := by
    obtain ⟨k, e, h⟩ := gather_gap g hg (nls (n + 1) ++ t)
    exact ⟨blanks k, prev, ⟨k, rfl⟩, by rw [e, gather_nls _ _ ht], h⟩

/-! ### the remaining passes -/

/-- One blank, and at most one blank. -/
def One (g : Str) : Prop := g = [' ']
def Few (g : Str) : Prop := ∃ k, g = norm k

theorem nls_skip {r : Re} {f : Str → List (Nat × Str) → Str} (n : Nat) (t prev : Str)
    (h : ∀ (prev cs : Str) n, run r ⟨prev, '\n' :: cs, []⟩ (findK n) = none) :
    subFrom r f prev (nls n ++ t) = nls n ++ subFrom r f ((nls n).reverse ++ prev) t :=
  subFrom_skip _ _ _ _ _ (fun c hc _ _ _ => by
    have := (List.mem_replicate.1 hc).2; subst this; exact h _ _ _)

theorem nls_head (n : Nat) (t : Str) : ∀ c cs, nls (n + 1) ++ t = c :: cs → c = '\n' := by
  rw [nls_succ]; intro c cs e; cases e; rfl

theorem pass_plus : Pass (subFrom plusRe contF) InB Bl One Few where
  word w hw prev t := ⟨_, plus_word w t prev hw.ne_sp⟩
  inner g hg w hw prev t := by
    obtain ⟨k, rfl⟩ := hg
    obtain ⟨p, e⟩ := plus_gap (k + 1) (w ++ t) (hw.ne_blank t) prev
    exact ⟨_, p, rfl, e⟩
  last g hg n prev t ht := by
    obtain ⟨k, rfl⟩ := hg
    obtain ⟨p, e⟩ := plus_gap k (nls (n + 1) ++ t) (fun c cs e => by rw [nls_head _ _ _ _ e]; decide) prev
    refine ⟨_, (nls (n + 1)).reverse ++ p, ⟨k, rfl⟩, ?_, by cases k <;> rfl⟩
    rw [e, nls_skip (n + 1) t p (fun _ _ _ => plus_other _ _ _ _ _ (by decide))]

theorem pass_open {f} : Pass (subFrom (pairRe '(' ' ') f) One Few One Few where
  word w hw prev t := ⟨_, open_word w hw.sp hw.op t prev⟩
  inner g hg w hw prev t := by
    rw [hg]
    exact ⟨_, _, rfl, open_gap _ _ _ (by simp)⟩
  last g hg n prev t ht := by
    obtain ⟨k, rfl⟩ := hg
    refine ⟨_, (nls (n + 1)).reverse ++ ((norm k).reverse ++ prev), ⟨k, rfl⟩, ?_, rfl⟩
    rw [open_gap _ _ _ (fun c hc => .inl (norm_mem hc)), nls_skip (n + 1) t _ (fun _ _ _ => pair_other _ _ _ _ _ _ _ (by decide))]

theorem pass_close {f} : Pass (subFrom (pairRe ' ' ')') f) One Few One Few where
  word w hw prev t := ⟨_, close_word w hw.sp t prev⟩
  inner g hg w hw prev t := by
    rw [hg]
    exact ⟨_, _, rfl, close_norm 1 _ _ (fun c cs e => (hw.clean.head_ne _ c cs e))⟩
  last g hg n prev t ht := by
    obtain ⟨k, rfl⟩ := hg
    refine ⟨_, (nls (n + 1)).reverse ++ ((norm k).reverse ++ prev), ⟨k, rfl⟩, ?_, rfl⟩
    rw [close_norm k _ _ (fun c cs e => by rw [nls_head _ _ _ _ e]; decide),
      nls_skip (n + 1) t _ (fun _ _ _ => pair_other _ _ _ _ _ _ _ (by decide))]

theorem pass_eq : Pass (subFrom eqRe contF) One Few One Few where
  word w hw prev t := ⟨_, eq_word w t prev hw.sp hw.eq⟩
  inner g hg w hw prev t := by
    rw [hg]
    exact ⟨_, _, rfl, eq_norm 1 _ _ (fun c cs e => (hw.clean.head_eq _ c cs e).1)⟩
  last g hg n prev t ht := by
    obtain ⟨k, rfl⟩ := hg
    refine ⟨_, (nls (n + 1)).reverse ++ ((norm k).reverse ++ prev), ⟨k, rfl⟩, ?_, rfl⟩
    rw [eq_norm k _ _ (fun c cs e => by rw [nls_head _ _ _ _ e]; decide),
      nls_skip (n + 1) t _ (fun _ _ _ => eq_other _ _ _ _ _ (by decide) (by decide))]

def nlSpRe : Re := .seq (.chr '\n') (.seq (.chr ' ') (.chr '\n'))

theorem nlSp_other {α : Type} (prev : Str) (c : Char) (cs : Str) (caps) (k : St → Option α) (h : c ≠ '\n') :
    run nlSpRe ⟨prev, c :: cs, caps⟩ k = none := nlnl_other _ _ _ _ _ h

theorem nlSp_nls {f} (n : Nat) (t prev : Str) (ht : Next t) :
    ∃ p, subFrom nlSpRe f prev (nls n ++ t) = nls n ++ subFrom nlSpRe f p t := by
  induction n generalizing prev with
  | zero => exact ⟨prev, rfl⟩
  | succ n ih =>
    obtain ⟨p, e⟩ := ih ('\n' :: prev)
    refine ⟨p, ?_⟩
    rw [nls_succ, List.cons_append, subFrom_miss, e]
    · rfl
    · rw [nlSpRe, run_seq, Re.chr, run_cls_cons, if_pos (by decide), run_seq]
      cases hs : nls n ++ t with
      | nil => rw [Re.chr, run_cls_nil]
      | cons c cs =>
        rw [Re.chr, run_cls_cons, if_neg]
        cases n with
        | zero => simpa using ht.ne_sp _ _ hs
        | succ n => cases hs; decide

theorem pass_nlSp {f} : Pass (subFrom nlSpRe f) One Few One Few where
  word w hw prev t := ⟨_, subFrom_skip _ _ _ _ _ (fun c hc _ _ _ => nlnl_other _ _ _ _ _ (hw.ne_nl c hc))⟩
  inner g hg w hw prev t := by
    rw [hg]
    exact ⟨_, _, rfl, subFrom_skip _ _ _ _ _ (fun c hc _ _ _ => nlnl_other _ _ _ _ _ (by
      have : c = ' ' := by simpa using hc
      subst this; decide))⟩
  last g hg n prev t ht := by
    obtain ⟨k, rfl⟩ := hg
    obtain ⟨p, e⟩ := nlSp_nls (f := f) (n + 1) t ((norm k).reverse ++ prev) ht
    refine ⟨_, p, ⟨k, rfl⟩, ?_, rfl⟩
    rw [subFrom_skip _ _ (norm k) _ _ (fun c hc _ _ _ => nlSp_other _ _ _ _ _ (by rw [norm_mem hc]; decide)), e]

theorem pass_tab {f} : Pass (subFrom (.chr '\t') f) One Few One Few where
  word w hw prev t := ⟨_, subFrom_skip _ _ _ _ _ (fun c hc _ _ _ => tab_other _ _ _ _ _ (hw.ne_tab c hc))⟩
  inner g hg w hw prev t := by
    rw [hg]
    exact ⟨_, _, rfl, subFrom_skip _ _ _ _ _ (fun c hc _ _ _ => tab_other _ _ _ _ _ (by
      have : c = ' ' := by simpa using hc
      subst this; decide))⟩
  last g hg n prev t ht := by
    obtain ⟨k, rfl⟩ := hg
    refine ⟨_, (nls (n + 1)).reverse ++ ((norm k).reverse ++ prev), ⟨k, rfl⟩, ?_, rfl⟩
    rw [subFrom_skip _ _ (norm k) _ _ (fun c hc _ _ _ => tab_other _ _ _ _ _ (by rw [norm_mem hc]; decide)),
      nls_skip (n + 1) t _ (fun _ _ _ => tab_other _ _ _ _ _ (by decide))]

end Inp
