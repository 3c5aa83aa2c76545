import Verif.Inp.Text
import Verif.Py.RegexSub
import Verif.Types.GeometryGrammar
import Verif.Inp.ShortLemmas
/-! Helper lemmas: what the respacing substitutions do to words separated by blank space. -/
namespace Inp
open Py Types

/-- `n` blanks. -/
def blanks (n : Nat) : Str := List.replicate n ' '

@[simp] theorem blanks_zero : blanks 0 = [] := rfl
theorem blanks_succ (n : Nat) : blanks (n + 1) = ' ' :: blanks n := rfl
theorem blanks_mem {n : Nat} {c : Char} (h : c ∈ blanks n) : c = ' ' := (List.mem_replicate.1 h).2

/-- Blank space between entries: blanks, newlines followed by a blank, and `&` line continuations. -/
inductive Ws : Str → Prop
  | nil : Ws []
  | sp {g} : Ws g → Ws (' ' :: g)
  | nl {g} : Ws (' ' :: g) → Ws ('\n' :: ' ' :: g)
  | amp {g} (n : Nat) : Ws g → Ws ('&' :: (blanks n ++ '\n' :: g))

theorem Ws.blanks (n : Nat) : Ws (blanks n) := by
  induction n with
  | zero => exact .nil
  | succ n ih => exact .sp ih

theorem Ws.of_sp {g : Str} (h : Ws (' ' :: g)) : Ws g := by cases h; assumption

theorem Ws.split {g : Str} (h : Ws g) :
    ∃ k g', g = Inp.blanks k ++ g' ∧ Ws g' ∧ (∀ c cs, g' = c :: cs → c ≠ ' ') := by
  induction h with
  | nil => exact ⟨0, [], rfl, .nil, by intro c cs e; cases e⟩
  | sp _ ih =>
    obtain ⟨k, g', rfl, h1, h2⟩ := ih
    exact ⟨k + 1, g', rfl, h1, h2⟩
  | nl h _ => exact ⟨0, _, rfl, .nl h, by intro c cs e; cases e; decide⟩
  | amp n h _ => exact ⟨0, _, rfl, .amp n h, by intro c cs e; cases e; decide⟩

/-! ### stage 1: continuations -/

def contF : Str → List (Nat × Str) → Str := fun _ _ => [' ']

theorem cont_other {α : Type} (prev : Str) (c : Char) (cs : Str) (caps) (k : St → Option α)
    (h1 : c ≠ '\n') (h2 : c ≠ '&') : run contRe ⟨prev, c :: cs, caps⟩ k = none := by
  rw [contRe, run_alt, run_seq, run_seq, Re.chr, run_cls_cons, if_neg (by simpa using h1), Re.chr, run_cls_cons,
    if_neg (by simpa using h2)]
  rfl

theorem head_stop {t : Str} (h : ∀ c cs, t = c :: cs → c ≠ ' ') : ∀ c cs, t = c :: cs → (c == ' ') = false := by
  intro c cs e; simpa using h c cs e

theorem cont_nl (prev : Str) (k : Nat) (t : Str) (ht : ∀ c cs, t = c :: cs → c ≠ ' ') :
    subFrom contRe contF prev ('\n' :: (blanks (k + 1) ++ t)) =
      ' ' :: subFrom contRe contF ((blanks (k + 1)).reverse ++ '\n' :: prev) t := by
  have := subFrom_hit contRe contF prev ('\n' :: blanks (k + 1)) t ((blanks (k + 1)).reverse ++ '\n' :: prev) []
    (by simp) (by
      rw [contRe, run_alt, run_seq, Re.chr, List.cons_append, run_cls_cons, if_pos (by decide), Re.plus, run_seq]
      rw [blanks_succ, List.cons_append, Re.chr, run_cls_cons, if_pos (by decide)]
      rw [run_star_cls_full (fun x => x == ' ') (blanks k) t _ _ _
        ⟨(blanks (k + 1)).reverse ++ '\n' :: prev, t, []⟩
        (fun c hc => by rw [blanks_mem hc]; rfl) (head_stop ht)]
      · simp [blanks_succ]
      · rw [findK_ok]
        · simp [blanks_succ]
        · simp only [List.length_cons, List.length_append]; omega)
  simpa [contF] using this

theorem cont_amp (prev : Str) (n k : Nat) (t : Str) (ht : ∀ c cs, t = c :: cs → c ≠ ' ') :
    ∃ prev', subFrom contRe contF prev ('&' :: (blanks n ++ '\n' :: (blanks k ++ t))) =
      ' ' :: subFrom contRe contF prev' t := by
  refine ⟨(blanks k).reverse ++ '\n' :: ((blanks n).reverse ++ '&' :: prev), ?_⟩
  have := subFrom_hit contRe contF prev ('&' :: (blanks n ++ '\n' :: blanks k)) t
    ((blanks k).reverse ++ '\n' :: ((blanks n).reverse ++ '&' :: prev)) []
    (by simp) (by
      rw [contRe, run_alt, run_seq, Re.chr, List.cons_append, run_cls_cons, if_neg (by decide)]
      rw [run_seq, Re.chr, run_cls_cons, if_pos (by decide), run_seq, Re.chr, List.append_assoc]
      rw [run_star_cls_full (fun x => x == ' ') (blanks n) ('\n' :: blanks k ++ t) _ _ _
        ⟨(blanks k).reverse ++ '\n' :: ((blanks n).reverse ++ '&' :: prev), t, []⟩
        (fun c hc => by rw [blanks_mem hc]; rfl) (by intro c cs e; cases e; rfl)]
      · rfl
      · rw [run_seq, List.cons_append, run_cls_cons, if_pos (by decide)]
        apply run_star_cls_full (fun x => x == ' ') (blanks k) t _ _ _ _
          (fun c hc => by rw [blanks_mem hc]; rfl) (head_stop ht)
        rw [findK_ok]
        simp only [List.length_cons, List.length_append]; omega)
  simpa [contF] using this

theorem cont_gap (g : Str) (hg : Ws g) (t : Str) (ht : ∀ c cs, t = c :: cs → c ≠ ' ') (prev : Str) :
    ∃ prev' m, subFrom contRe contF prev (g ++ t) = blanks m ++ subFrom contRe contF prev' t ∧ (g ≠ [] → 0 < m) := by
  generalize hn : g.length = n
  induction n using Nat.strongRecOn generalizing g prev with
  | ind n ih =>
    cases hg with
    | nil => exact ⟨prev, 0, rfl, by simp⟩
    | sp hg =>
      rename_i g
      rw [List.cons_append, subFrom_miss _ _ _ _ _ (cont_other _ _ _ _ _ (by decide) (by decide))]
      obtain ⟨p, m, e, _⟩ := ih g.length (by simp at hn; omega) g hg (' ' :: prev) rfl
      exact ⟨p, m + 1, by rw [e]; rfl, by simp⟩
    | nl hg =>
      rename_i g
      obtain ⟨k, g', e, h1, h2⟩ := hg.of_sp.split
      subst e
      have hstop : ∀ c cs, g' ++ t = c :: cs → c ≠ ' ' := by
        intro c cs e
        cases g' with
        | nil => exact ht c cs e
        | cons x xs => cases e; exact h2 _ _ rfl
      have := cont_nl prev k (g' ++ t) hstop
      rw [blanks_succ] at this
      have e2 : '\n' :: ' ' :: (blanks k ++ g') ++ t = '\n' :: (' ' :: blanks k ++ (g' ++ t)) := by simp
      rw [e2, this]
      obtain ⟨p, m, e, _⟩ := ih g'.length (by simp at hn; omega) g' h1 _ rfl
      exact ⟨p, m + 1, by rw [e]; rfl, by simp⟩
    | amp b hg =>
      rename_i g
      obtain ⟨k, g', e, h1, h2⟩ := hg.split
      subst e
      have hstop : ∀ c cs, g' ++ t = c :: cs → c ≠ ' ' := by
        intro c cs e
        cases g' with
        | nil => exact ht c cs e
        | cons x xs => cases e; exact h2 _ _ rfl
      obtain ⟨p1, this⟩ := cont_amp prev b k (g' ++ t) hstop
      have e2 : '&' :: (blanks b ++ '\n' :: (blanks k ++ g')) ++ t =
          '&' :: (blanks b ++ '\n' :: (blanks k ++ (g' ++ t))) := by simp
      rw [e2, this]
      obtain ⟨p, m, e, _⟩ := ih g'.length (by simp at hn; omega) g' h1 p1 rfl
      exact ⟨p, m + 1, by rw [e]; rfl, by simp⟩

/-! ### texts made of words and gaps -/

/-- What separates two entries: blank space, or an equals sign in optional blank space. -/
inductive Gap
  | ws (g : Str)
  | eq (g g' : Str)

def Gap.text : Gap → Str
  | .ws g => g
  | .eq g g' => g ++ '=' :: g'

def Gap.Ok : Gap → Prop
  | .ws g => Ws g ∧ g ≠ []
  | .eq g g' => Ws g ∧ Ws g'

def Gap.isWs : Gap → Bool
  | .ws _ => true
  | .eq _ _ => false

/-- Gaps and words, ending in a gap. -/
def body : List (Gap × Str) → Str
  | [] => []
  | (g, w) :: l => g.text ++ (w ++ body l)

/-- Characters that may not occur in words: blanks, line ends and continuation marks. -/
def WordC (w : Str) : Prop := w ≠ [] ∧ ∀ c ∈ w, c ≠ ' ' ∧ c ≠ '\n' ∧ c ≠ '&'

/-- Gaps after stage 1: numbers of blanks. -/
inductive Gap1
  | ws (n : Nat)
  | eq (a b : Nat)

def Gap1.text : Gap1 → Str
  | .ws n => blanks n
  | .eq a b => blanks a ++ '=' :: blanks b

def Gap1.Ok : Gap1 → Prop
  | .ws n => 0 < n
  | .eq _ _ => True

def Gap1.isWs : Gap1 → Bool
  | .ws _ => true
  | .eq _ _ => false

def body1 : List (Gap1 × Str) → Str
  | [] => []
  | (g, w) :: l => g.text ++ (w ++ body1 l)

theorem WordC.stop {w t : Str} (h : WordC w) : ∀ c cs, w ++ t = c :: cs → c ≠ ' ' := by
  intro c cs e
  cases w with
  | nil => exact absurd rfl h.1
  | cons x xs => cases e; exact (h.2 _ (by simp)).1

theorem cont_word (w t prev : Str) (h : ∀ c ∈ w, c ≠ '\n' ∧ c ≠ '&') :
    subFrom contRe contF prev (w ++ t) = w ++ subFrom contRe contF (w.reverse ++ prev) t :=
  subFrom_skip _ _ _ _ _ (fun c hc _ _ _ => cont_other _ _ _ _ _ (h c hc).1 (h c hc).2)

theorem cont_body (l : List (Gap × Str)) (hl : ∀ x ∈ l, x.1.Ok ∧ WordC x.2) (tr : Str) (htr : Ws tr) (prev : Str) :
    ∃ l' m, subFrom contRe contF prev (body l ++ tr) = body1 l' ++ blanks m ∧ (∀ x ∈ l', x.1.Ok ∧ WordC x.2) ∧
      l'.map (·.2) = l.map (·.2) ∧ l'.map (·.1.isWs) = l.map (·.1.isWs) ∧ (tr = [] → m = 0) := by
  induction l generalizing prev with
  | nil =>
    obtain ⟨p, m, e, _⟩ := cont_gap tr htr [] (by intro c cs e; cases e) prev
    rw [List.append_nil, subFrom_nil, List.append_nil] at e
    refine ⟨[], m, by simpa [body, body1] using e, by simp, rfl, rfl, ?_⟩
    rintro rfl
    rw [subFrom_nil] at e
    cases m with
    | zero => rfl
    | succ m => cases e
  | cons x l ih =>
    obtain ⟨gap, w⟩ := x
    obtain ⟨hg, hw⟩ := hl _ (List.mem_cons_self ..)
    have ih := ih (fun x hx => hl x (List.mem_cons_of_mem _ hx))
    cases gap with
    | ws g =>
      obtain ⟨p, m, e, hm⟩ := cont_gap g hg.1 (w ++ (body l ++ tr)) hw.stop prev
      obtain ⟨l', m', e1, h1, h2, h3, h4⟩ := ih (w.reverse ++ p)
      refine ⟨(.ws m, w) :: l', m', ?_, ?_, by simp [h2], (by simp only [List.map_cons]; rw [h3]; rfl), h4⟩
      · show subFrom contRe contF prev (g ++ (w ++ body l) ++ tr) = blanks m ++ (w ++ body1 l') ++ blanks m'
        simp only [List.append_assoc]
        rw [e, cont_word _ _ _ (fun c hc => (hw.2 c hc).2), e1]
      · intro y hy
        rcases List.mem_cons.1 hy with rfl | hy
        · exact ⟨hm hg.2, hw⟩
        · exact h1 y hy
    | eq g g' =>
      obtain ⟨p, m, e, hm⟩ := cont_gap g hg.1 ('=' :: (g' ++ (w ++ (body l ++ tr)))) (by intro c cs e; cases e; decide) prev
      obtain ⟨p2, m2, e2, hm2⟩ := cont_gap g' hg.2 (w ++ (body l ++ tr)) hw.stop ('=' :: p)
      obtain ⟨l', m', e1, h1, h2, h3, h4⟩ := ih (w.reverse ++ p2)
      refine ⟨(.eq m m2, w) :: l', m', ?_, ?_, by simp [h2], (by simp only [List.map_cons]; rw [h3]; rfl), h4⟩
      · show subFrom contRe contF prev (g ++ '=' :: g' ++ (w ++ body l) ++ tr) =
          blanks m ++ '=' :: blanks m2 ++ (w ++ body1 l') ++ blanks m'
        simp only [List.append_assoc, List.cons_append]
        rw [e, subFrom_miss _ _ _ _ _ (cont_other _ _ _ _ _ (by decide) (by decide)), e2,
          cont_word _ _ _ (fun c hc => (hw.2 c hc).2), e1]
      · intro y hy
        rcases List.mem_cons.1 hy with rfl | hy
        · exact ⟨trivial, hw⟩
        · exact h1 y hy

/-! ### stage 2: repeated blanks -/

def plusRe : Re := .plus true (.chr ' ')

/-- Blanks after stage 2. -/
def norm : Nat → Str
  | 0 => []
  | _ + 1 => [' ']

theorem plus_other {α : Type} (prev : Str) (c : Char) (cs : Str) (caps) (k : St → Option α)
    (h1 : c ≠ ' ') : run plusRe ⟨prev, c :: cs, caps⟩ k = none := by
  rw [plusRe, Re.plus, run_seq, Re.chr, run_cls_cons, if_neg (by simpa using h1)]

theorem plus_gap (m : Nat) (t : Str) (ht : ∀ c cs, t = c :: cs → c ≠ ' ') (prev : Str) :
    ∃ prev', subFrom plusRe contF prev (blanks m ++ t) = norm m ++ subFrom plusRe contF prev' t := by
  cases m with
  | zero => exact ⟨prev, rfl⟩
  | succ m =>
    refine ⟨(blanks m).reverse ++ ' ' :: prev, ?_⟩
    have := subFrom_hit plusRe contF prev (blanks (m + 1)) t ((blanks m).reverse ++ ' ' :: prev) []
      (by simp [blanks_succ]) (by
        rw [plusRe, Re.plus, run_seq, blanks_succ, List.cons_append, Re.chr, run_cls_cons, if_pos (by decide)]
        apply run_star_cls_full (fun x => x == ' ') (blanks m) t _ _ _ _
          (fun c hc => by rw [blanks_mem hc]; rfl) (head_stop ht)
        rw [findK_ok]
        simp only [List.length_cons, List.length_append]; omega)
    exact this

/-- Gaps after stage 2. -/
def Gap1.text2 : Gap1 → Str
  | .ws _ => [' ']
  | .eq a b => norm a ++ '=' :: norm b

def body2 : List (Gap1 × Str) → Str
  | [] => []
  | (g, w) :: l => g.text2 ++ (w ++ body2 l)

theorem plus_word (w t prev : Str) (h : ∀ c ∈ w, c ≠ ' ') :
    subFrom plusRe contF prev (w ++ t) = w ++ subFrom plusRe contF (w.reverse ++ prev) t :=
  subFrom_skip _ _ _ _ _ (fun c hc _ _ _ => plus_other _ _ _ _ _ (h c hc))

theorem plus_body (l : List (Gap1 × Str)) (hl : ∀ x ∈ l, x.1.Ok ∧ WordC x.2) (m : Nat) (prev : Str) :
    subFrom plusRe contF prev (body1 l ++ blanks m) = body2 l ++ norm m := by
  induction l generalizing prev with
  | nil =>
    obtain ⟨p, e⟩ := plus_gap m [] (by intro c cs e; cases e) prev
    rw [List.append_nil, subFrom_nil, List.append_nil] at e
    exact e
  | cons x l ih =>
    obtain ⟨gap, w⟩ := x
    obtain ⟨hg, hw⟩ := hl _ (List.mem_cons_self ..)
    have ih := ih (fun x hx => hl x (List.mem_cons_of_mem _ hx))
    cases gap with
    | ws n =>
      obtain ⟨p, e⟩ := plus_gap n (w ++ (body1 l ++ blanks m)) hw.stop prev
      show subFrom plusRe contF prev (blanks n ++ (w ++ body1 l) ++ blanks m) = [' '] ++ (w ++ body2 l) ++ norm m
      simp only [List.append_assoc]
      rw [e, plus_word _ _ _ (fun c hc => (hw.2 c hc).1), ih]
      cases n with
      | zero => exact absurd hg (Nat.lt_irrefl 0)
      | succ n => rfl
    | eq a b =>
      obtain ⟨p, e⟩ := plus_gap a ('=' :: (blanks b ++ (w ++ (body1 l ++ blanks m)))) (by intro c cs e; cases e; decide) prev
      obtain ⟨p2, e2⟩ := plus_gap b (w ++ (body1 l ++ blanks m)) hw.stop ('=' :: p)
      show subFrom plusRe contF prev (blanks a ++ '=' :: blanks b ++ (w ++ body1 l) ++ blanks m) =
        norm a ++ '=' :: norm b ++ (w ++ body2 l) ++ norm m
      simp only [List.append_assoc, List.cons_append]
      rw [e, subFrom_miss _ _ _ _ _ (plus_other _ _ _ _ _ (by decide)), e2,
        plus_word _ _ _ (fun c hc => (hw.2 c hc).1), ih]

/-! ### stages 3 to 8 on clean words -/

structure Clean (w : Str) : Prop where
  ne : w ≠ []
  sp : NoSpace w
  amp : '&' ∉ w
  eq : '=' ∉ w
  op : w.getLast? ≠ some '('
  cl : w.head? ≠ some ')'

theorem Clean.wordC {w : Str} (h : Clean w) : WordC w :=
  ⟨h.ne, fun c hc => ⟨by rintro rfl; exact absurd (h.sp _ hc) (by decide),
    by rintro rfl; exact absurd (h.sp _ hc) (by decide), by rintro rfl; exact h.amp hc⟩⟩

def pairRe (a b : Char) : Re := .seq (.chr a) (.chr b)

theorem pair_other {α : Type} (a b : Char) (prev : Str) (c : Char) (cs : Str) (caps) (k : St → Option α) (h : c ≠ a) :
    run (pairRe a b) ⟨prev, c :: cs, caps⟩ k = none := by
  rw [pairRe, run_seq, Re.chr, run_cls_cons, if_neg (by simpa using h)]

theorem pair_second {α : Type} (a b : Char) (prev : Str) (c d : Char) (cs : Str) (caps) (k : St → Option α) (h : d ≠ b) :
    run (pairRe a b) ⟨prev, c :: d :: cs, caps⟩ k = none := by
  rw [pairRe, run_seq, Re.chr, run_cls_cons]
  split
  · rw [Re.chr, run_cls_cons, if_neg (by simpa using h)]
  · rfl

theorem pair_end {α : Type} (a b : Char) (prev : Str) (c : Char) (caps) (k : St → Option α) :
    run (pairRe a b) ⟨prev, [c], caps⟩ k = none := by
  rw [pairRe, run_seq, Re.chr, run_cls_cons]
  split
  · rw [Re.chr, run_cls_nil]
  · rfl

theorem norm_mem {n : Nat} {c : Char} (h : c ∈ norm n) : c = ' ' := by
  cases n with
  | zero => simp [norm] at h
  | succ n => simpa [norm] using h

theorem gap2_mem {g : Gap1} {c : Char} (h : c ∈ g.text2) : c = ' ' ∨ c = '=' := by
  cases g with
  | ws n => exact .inl (by simpa [Gap1.text2] using h)
  | eq a b =>
    simp only [Gap1.text2, List.mem_append, List.mem_cons] at h
    rcases h with h | rfl | h
    · exact .inl (norm_mem h)
    · exact .inr rfl
    · exact .inl (norm_mem h)

variable {f : Str → List (Nat × Str) → Str}

theorem open_word (w : Str) (hsp : NoSpace w) (hl : w.getLast? ≠ some '(') (t prev : Str) :
    subFrom (pairRe '(' ' ') f prev (w ++ t) = w ++ subFrom (pairRe '(' ' ') f (w.reverse ++ prev) t := by
  induction w generalizing prev with
  | nil => rfl
  | cons c w ih =>
    have hstep : subFrom (pairRe '(' ' ') f prev (c :: (w ++ t)) =
        c :: subFrom (pairRe '(' ' ') f (c :: prev) (w ++ t) := by
      apply subFrom_miss
      cases w with
      | nil => exact pair_other _ _ _ _ _ _ _ (by simpa using hl)
      | cons d w =>
        exact pair_second _ _ _ _ _ _ _ _ (by rintro rfl; exact absurd (hsp ' ' (by simp)) (by decide))
    rw [List.cons_append, hstep, ih (fun x hx => hsp x (by simp [hx])) (by
      cases w with
      | nil => simp
      | cons d w => simpa using hl)]
    simp

theorem open_gap (g t prev : Str) (hg : ∀ c ∈ g, c = ' ' ∨ c = '=') :
    subFrom (pairRe '(' ' ') f prev (g ++ t) = g ++ subFrom (pairRe '(' ' ') f (g.reverse ++ prev) t :=
  subFrom_skip _ _ _ _ _ (fun c hc _ _ _ => pair_other _ _ _ _ _ _ _ (by
    rcases hg c hc with rfl | rfl <;> decide))

theorem open_body (l : List (Gap1 × Str)) (hl : ∀ x ∈ l, Clean x.2) (m : Nat) (prev : Str) :
    subFrom (pairRe '(' ' ') f prev (body2 l ++ norm m) = body2 l ++ norm m := by
  induction l generalizing prev with
  | nil =>
    have := open_gap (f := f) (norm m) [] prev (fun c hc => .inl (norm_mem hc))
    simpa [subFrom_nil, body2] using this
  | cons x l ih =>
    obtain ⟨g, w⟩ := x
    have hw := hl _ (List.mem_cons_self ..)
    simp only [body2, List.append_assoc]
    rw [open_gap _ _ _ (fun c hc => gap2_mem hc), open_word w hw.sp hw.op,
      ih (fun x hx => hl x (List.mem_cons_of_mem _ hx))]

theorem close_word (w : Str) (hsp : NoSpace w) (t prev : Str) :
    subFrom (pairRe ' ' ')') f prev (w ++ t) = w ++ subFrom (pairRe ' ' ')') f (w.reverse ++ prev) t :=
  subFrom_skip _ _ _ _ _ (fun c hc _ _ _ => pair_other _ _ _ _ _ _ _ (sp_ne (hsp c hc)))

theorem close_norm (n : Nat) (t prev : Str) (ht : ∀ c cs, t = c :: cs → c ≠ ')') :
    subFrom (pairRe ' ' ')') f prev (norm n ++ t) = norm n ++ subFrom (pairRe ' ' ')') f ((norm n).reverse ++ prev) t := by
  cases n with
  | zero => rfl
  | succ n =>
    show subFrom (pairRe ' ' ')') f prev (' ' :: t) = ' ' :: _
    apply subFrom_miss
    cases t with
    | nil => exact pair_end _ _ _ _ _ _
    | cons d t => exact pair_second _ _ _ _ _ _ _ _ (ht d t rfl)

theorem Clean.head_ne {w : Str} (h : Clean w) (t : Str) : ∀ c cs, w ++ t = c :: cs → c ≠ ')' := by
  intro c cs e
  cases w with
  | nil => exact absurd rfl h.ne
  | cons x xs => cases e; rintro rfl; exact h.cl rfl

theorem close_gap (g : Gap1) (t prev : Str) (ht : ∀ c cs, t = c :: cs → c ≠ ')') :
    subFrom (pairRe ' ' ')') f prev (g.text2 ++ t) =
      g.text2 ++ subFrom (pairRe ' ' ')') f (g.text2.reverse ++ prev) t := by
  cases g with
  | ws n => exact close_norm 1 t prev ht
  | eq a b =>
    simp only [Gap1.text2, List.append_assoc, List.cons_append]
    rw [close_norm a _ _ (by intro c cs e; cases e; decide)]
    rw [subFrom_miss _ _ _ _ _ (pair_other _ _ _ _ _ _ _ (by decide)), close_norm b t _ ht]
    simp

theorem close_body (l : List (Gap1 × Str)) (hl : ∀ x ∈ l, Clean x.2) (m : Nat) (prev : Str) :
    subFrom (pairRe ' ' ')') f prev (body2 l ++ norm m) = body2 l ++ norm m := by
  induction l generalizing prev with
  | nil =>
    have := close_norm (f := f) m [] prev (by intro c cs e; cases e)
    simpa [subFrom_nil, body2] using this
  | cons x l ih =>
    obtain ⟨g, w⟩ := x
    have hw := hl _ (List.mem_cons_self ..)
    simp only [body2, List.append_assoc]
    rw [close_gap _ _ _ (hw.head_ne _), close_word w hw.sp, ih (fun x hx => hl x (List.mem_cons_of_mem _ hx))]

/-! stage 6 -/

theorem eq_other {α : Type} (prev : Str) (c : Char) (cs : Str) (caps) (k : St → Option α)
    (h1 : c ≠ ' ') (h2 : c ≠ '=') : run eqRe ⟨prev, c :: cs, caps⟩ k = none := by
  simp only [eqRe, run_alt, run_seq, Re.chr, run_cls_cons, beq_iff_eq, h1, h2, if_false, Option.none_or]

theorem eq_sp {α : Type} (prev : Str) (cs : Str) (caps) (k : St → Option α)
    (h : ∀ c t, cs = c :: t → c ≠ '=') : run eqRe ⟨prev, ' ' :: cs, caps⟩ k = none := by
  simp only [eqRe, run_alt, run_seq, Re.chr, run_cls_cons, beq_iff_eq, if_true,
    show ¬ ' ' = '=' from by decide, if_false, Option.none_or]
  cases cs with
  | nil => simp [run_cls_nil]
  | cons c t => simp [run_cls_cons, h c t rfl]

theorem eq_word (w t prev : Str) (hsp : NoSpace w) (he : '=' ∉ w) :
    subFrom eqRe contF prev (w ++ t) = w ++ subFrom eqRe contF (w.reverse ++ prev) t :=
  subFrom_skip _ _ _ _ _ (fun c hc _ _ _ => eq_other _ _ _ _ _ (sp_ne (hsp c hc)) (by rintro rfl; exact he hc))

theorem eq_norm (n : Nat) (t prev : Str) (ht : ∀ c cs, t = c :: cs → c ≠ '=') :
    subFrom eqRe contF prev (norm n ++ t) = norm n ++ subFrom eqRe contF ((norm n).reverse ++ prev) t := by
  cases n with
  | zero => rfl
  | succ n =>
    show subFrom eqRe contF prev (' ' :: t) = ' ' :: _
    exact subFrom_miss _ _ _ _ _ (eq_sp _ _ _ _ ht)

theorem eq_gap (g : Gap1) (t prev : Str) (ht : ∀ c cs, t = c :: cs → c ≠ '=' ∧ c ≠ ' ') :
    ∃ prev', subFrom eqRe contF prev (g.text2 ++ t) = ' ' :: subFrom eqRe contF prev' t := by
  cases g with
  | ws n => exact ⟨_, eq_norm 1 t prev (fun c cs e => (ht c cs e).1)⟩
  | eq a b =>
    refine ⟨(norm a ++ '=' :: norm b).reverse ++ prev, ?_⟩
    have := subFrom_hit eqRe contF prev (norm a ++ '=' :: norm b) t ((norm a ++ '=' :: norm b).reverse ++ prev) []
      (by simp) (by
        have hk : ∀ x : St, x.rest = t → findK (norm a ++ '=' :: norm b ++ t).length x = some x := by
          intro x hx
          apply findK_ok
          rw [hx]
          simp only [List.length_append, List.length_cons]; omega
        have h2 : ∀ c cs, t = c :: cs → (c == ' ') = false := fun c cs e => by simpa using (ht c cs e).2
        generalize findK (norm a ++ '=' :: norm b ++ t).length = kk at hk
        cases a <;> cases b <;>
          simp only [norm, eqRe, run_alt, run_seq, Re.chr, run_cls_cons, List.nil_append, List.cons_append,
            beq_iff_eq, if_true, show ¬ ' ' = '=' from by decide, show ¬ '=' = ' ' from by decide, if_false,
            Option.none_or]
        · cases t with
          | nil => rw [run_cls_nil, Option.none_or, hk _ rfl]; rfl
          | cons c cs => rw [run_cls_cons, h2 c cs rfl, if_neg (by decide), Option.none_or, hk _ rfl]; rfl
        · rw [hk _ rfl]; rfl
        · cases t with
          | nil => rw [run_cls_nil, Option.none_or, hk _ rfl]; rfl
          | cons c cs => rw [run_cls_cons, h2 c cs rfl, if_neg (by decide), Option.none_or, hk _ rfl]; rfl
        · rw [hk _ rfl]; rfl)
    exact this

theorem Clean.head_eq {w : Str} (h : Clean w) (t : Str) : ∀ c cs, w ++ t = c :: cs → c ≠ '=' ∧ c ≠ ' ' := by
  intro c cs e
  cases w with
  | nil => exact absurd rfl h.ne
  | cons x xs =>
    cases e
    exact ⟨by rintro rfl; exact h.eq (by simp), sp_ne (h.sp _ (by simp))⟩

theorem eq_body (l : List (Gap1 × Str)) (hl : ∀ x ∈ l, Clean x.2) (m : Nat) (prev : Str) :
    subFrom eqRe contF prev (body2 l ++ norm m) = enc (l.map (·.2)) ++ norm m := by
  induction l generalizing prev with
  | nil =>
    have := eq_norm m [] prev (by intro c cs e; cases e)
    simpa [subFrom_nil, body2] using this
  | cons x l ih =>
    obtain ⟨g, w⟩ := x
    have hw := hl _ (List.mem_cons_self ..)
    simp only [body2, List.append_assoc]
    obtain ⟨p, e⟩ := eq_gap g (w ++ (body2 l ++ norm m)) prev (hw.head_eq _)
    rw [e, eq_word w _ _ hw.sp hw.eq, ih (fun x hx => hl x (List.mem_cons_of_mem _ hx))]
    simp

theorem body2_mem (l : List (Gap1 × Str)) {c : Char} (h : c ∈ body2 l) :
    c = ' ' ∨ c = '=' ∨ ∃ x ∈ l, c ∈ x.2 := by
  induction l with
  | nil => simp [body2] at h
  | cons x l ih =>
    obtain ⟨g, w⟩ := x
    simp only [body2, List.mem_append] at h
    rcases h with h | h | h
    · rcases gap2_mem h with h | h
      · exact .inl h
      · exact .inr (.inl h)
    · exact .inr (.inr ⟨_, List.mem_cons_self .., h⟩)
    · rcases ih h with h | h | ⟨x, hx, hc⟩
      · exact .inl h
      · exact .inr (.inl h)
      · exact .inr (.inr ⟨x, List.mem_cons_of_mem _ hx, hc⟩)

theorem enc_mem {ws : List Str} {c : Char} (h : c ∈ enc ws) : c = ' ' ∨ ∃ w ∈ ws, c ∈ w := by
  obtain ⟨w, hw, hc⟩ := List.mem_flatMap.1 h
  rcases List.mem_cons.1 hc with rfl | hc
  · exact .inl rfl
  · exact .inr ⟨w, hw, hc⟩

theorem nlnl_other {α : Type} (prev : Str) (c : Char) (cs : Str) (caps) (k : St → Option α) (h : c ≠ '\n') :
    run (.seq (.chr '\n') (.seq (.chr ' ') (.chr '\n'))) ⟨prev, c :: cs, caps⟩ k = none := by
  rw [run_seq, Re.chr, run_cls_cons, if_neg (by simpa using h)]

theorem tab_other {α : Type} (prev : Str) (c : Char) (cs : Str) (caps) (k : St → Option α) (h : c ≠ '\t') :
    run (.chr '\t') ⟨prev, c :: cs, caps⟩ k = none := by
  rw [Re.chr, run_cls_cons, if_neg (by simpa using h)]

/-- Stages 1 and 2 on any words. -/
theorem respace_two (g0 w0 : Str) (l : List (Gap × Str)) (g1 : Str) (h0 : Ws g0) (hw0 : WordC w0)
    (hl : ∀ x ∈ l, x.1.Ok ∧ WordC x.2) (h1 : Ws g1) :
    ∃ m0 l' m1, reSub plusRe contF (reSub contRe contF (g0 ++ (w0 ++ (body l ++ g1)))) =
        norm m0 ++ (w0 ++ (body2 l' ++ norm m1)) ∧ l'.map (·.2) = l.map (·.2) ∧
        l'.map (·.1.isWs) = l.map (·.1.isWs) ∧ (g0 = [] → m0 = 0) ∧ (g1 = [] → m1 = 0) := by
  rw [reSub_eq, reSub_eq]
  obtain ⟨p, m0, e, _⟩ := cont_gap g0 h0 (w0 ++ (body l ++ g1)) hw0.stop []
  obtain ⟨l', m1, e1, k1, k2, k3, k4⟩ := cont_body l hl g1 h1 (w0.reverse ++ p)
  rw [e, cont_word _ _ _ (fun c hc => (hw0.2 c hc).2), e1]
  obtain ⟨p2, e2⟩ := plus_gap m0 (w0 ++ (body1 l' ++ blanks m1)) hw0.stop []
  rw [e2, plus_word _ _ _ (fun c hc => (hw0.2 c hc).1), plus_body l' k1]
  refine ⟨m0, l', m1, rfl, k2, k3, ?_, k4⟩
  rintro rfl
  rw [List.nil_append] at e
  cases m0 with
  | zero => rfl
  | succ m =>
    have hw := cont_word w0 (body l ++ g1) [] (fun c hc => (hw0.2 c hc).2)
    rw [hw] at e
    exact absurd rfl (hw0.stop ' ' _ e)

theorem respace_words (g0 w0 : Str) (l : List (Gap × Str)) (g1 : Str) (h0 : Ws g0) (hw0 : Clean w0)
    (hl : ∀ x ∈ l, x.1.Ok ∧ Clean x.2) (h1 : Ws g1) :
    respace (g0 ++ (w0 ++ (body l ++ g1))) = w0 ++ enc (l.map (·.2)) := by
  obtain ⟨m0, l', m1, e, hm, -, -, -⟩ := respace_two g0 w0 l g1 h0 hw0.wordC
    (fun x hx => ⟨(hl x hx).1, (hl x hx).2.wordC⟩) h1
  have hl' : ∀ x ∈ l', Clean x.2 := by
    intro x hx
    have : x.2 ∈ l.map (·.2) := by rw [← hm]; exact List.mem_map_of_mem hx
    obtain ⟨y, hy, e⟩ := List.mem_map.1 this
    rw [← e]; exact (hl y hy).2
  unfold respace
  have e' : reSub (.plus true (.chr ' ')) (fun _ _ => [' ']) (reSub contRe (fun _ _ => [' '])
      (g0 ++ (w0 ++ (body l ++ g1)))) = norm m0 ++ (w0 ++ (body2 l' ++ norm m1)) := e
  simp only [e']
  have s3 : reSub (.seq (.chr '(') (.chr ' ')) (fun _ _ => ['(']) (norm m0 ++ (w0 ++ (body2 l' ++ norm m1))) =
      norm m0 ++ (w0 ++ (body2 l' ++ norm m1)) := by
    show subFrom (pairRe '(' ' ') _ [] _ = _
    rw [open_gap _ _ _ (fun c hc => .inl (norm_mem hc)), open_word w0 hw0.sp hw0.op, open_body l' hl']
  have s4 : reSub (.seq (.chr ' ') (.chr ')')) (fun _ _ => [')']) (norm m0 ++ (w0 ++ (body2 l' ++ norm m1))) =
      norm m0 ++ (w0 ++ (body2 l' ++ norm m1)) := by
    show subFrom (pairRe ' ' ')') _ [] _ = _
    rw [close_norm _ _ _ (hw0.head_ne _), close_word w0 hw0.sp, close_body l' hl']
  have hch : ∀ c ∈ norm m0 ++ (w0 ++ (body2 l' ++ norm m1)), c ≠ '\n' := by
    rintro c hc rfl
    simp only [List.mem_append] at hc
    rcases hc with hc | hc | hc | hc
    · exact absurd (norm_mem hc) (by decide)
    · exact absurd (hw0.sp _ hc) (by decide)
    · rcases body2_mem l' hc with h | h | ⟨x, hx, h⟩
      · exact absurd h (by decide)
      · exact absurd h (by decide)
      · exact absurd ((hl' x hx).sp _ h) (by decide)
    · exact absurd (norm_mem hc) (by decide)
  have s5 : reSub (.seq (.chr '\n') (.seq (.chr ' ') (.chr '\n'))) (fun _ _ => ['\n', '\n'])
      (norm m0 ++ (w0 ++ (body2 l' ++ norm m1))) = norm m0 ++ (w0 ++ (body2 l' ++ norm m1)) := by
    rw [reSub_eq]
    exact subFrom_id _ _ _ _ (fun c hc _ _ _ => nlnl_other _ _ _ _ _ (hch c hc))
  have s6 : reSub eqRe (fun _ _ => [' ']) (norm m0 ++ (w0 ++ (body2 l' ++ norm m1))) =
      norm m0 ++ (w0 ++ (enc (l.map (·.2)) ++ norm m1)) := by
    show subFrom eqRe contF [] _ = _
    rw [eq_norm _ _ _ (fun c cs e => (hw0.head_eq _ c cs e).1), eq_word w0 _ _ hw0.sp hw0.eq, eq_body l' hl', hm]
  have hch2 : ∀ c ∈ norm m0 ++ (w0 ++ (enc (l.map (·.2)) ++ norm m1)), c ≠ '\t' := by
    rintro c hc rfl
    simp only [List.mem_append] at hc
    rcases hc with hc | hc | hc | hc
    · exact absurd (norm_mem hc) (by decide)
    · exact absurd (hw0.sp _ hc) (by decide)
    · rcases enc_mem hc with h | ⟨x, hx, h⟩
      · exact absurd h (by decide)
      · obtain ⟨y, hy, rfl⟩ := List.mem_map.1 hx
        exact absurd ((hl y hy).2.sp _ h) (by decide)
    · exact absurd (norm_mem hc) (by decide)
  have s7 : reSub (.chr '\t') (fun _ _ => [' ', ' ', ' ', ' ']) (norm m0 ++ (w0 ++ (enc (l.map (·.2)) ++ norm m1))) =
      norm m0 ++ (w0 ++ (enc (l.map (·.2)) ++ norm m1)) := by
    rw [reSub_eq]
    exact subFrom_id _ _ _ _ (fun c hc _ _ _ => tab_other _ _ _ _ _ (hch2 c hc))
  rw [s3, s4, s5, s6, s7]
  have := strip_pad (a := norm m0) (b := norm m1) (m := w0 ++ enc (l.map (·.2)))
    (fun c hc => by rw [norm_mem hc]; decide) (fun c hc => by rw [norm_mem hc]; decide) ?_ ?_ (by simp [hw0.ne])
  · simpa using this
  · intro c hc
    cases w0 with
    | nil => exact absurd rfl hw0.ne
    | cons x xs => simp at hc; subst hc; exact hw0.sp _ (by simp)
  · intro c hc
    have hall : ∀ ws : List Str, (∀ w ∈ ws, w ≠ [] ∧ NoSpace w) → ∀ u : Str, u ≠ [] → NoSpace u →
        ∀ c ∈ (u ++ enc ws).getLast?, isSpace c = false := by
      intro ws
      induction ws with
      | nil => intro _ u _ hu c hc; exact hu c (List.mem_of_getLast? (by simpa using hc))
      | cons w ws ih =>
        intro hws u hu hus c hc
        have : (u ++ enc (w :: ws)).getLast? = (w ++ enc ws).getLast? := by
          rw [enc_cons, show u ++ ' ' :: (w ++ enc ws) = (u ++ [' ']) ++ (w ++ enc ws) by simp,
            List.getLast?_append]
          cases h : (w ++ enc ws).getLast? with
          | none => simp [(hws w (by simp)).1] at h
          | some x => rfl
        rw [this] at hc
        exact ih (fun x hx => hws x (by simp [hx])) w (hws w (by simp)).1 (hws w (by simp)).2 c hc
    refine hall _ ?_ w0 hw0.ne hw0.sp c hc
    intro w hw
    obtain ⟨y, hy, rfl⟩ := List.mem_map.1 hw
    exact ⟨(hl y hy).2.ne, (hl y hy).2.sp⟩

end Inp
