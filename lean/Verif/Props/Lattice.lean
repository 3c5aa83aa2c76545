import Verif.Types.LatticeLemmas
import Verif.Py.Lit
/-!
# Lattice expressions (C16, C17, C53, C54)

Specification side: `Path` is the list of levels an expression names, from the innermost cell
outwards, and `LatText` is the grammar of lattice texts with the tree each denotes, with blanks
wherever MCNP allows them.  Both are written without reference to the parser.
-/
namespace Props
open Py Types

/-- Levels of an expression from the innermost outwards. -/
def Path : Lat → List Lat
  | .emb l r => Path l ++ Path r
  | x => [x]

/-- Left-nested: the right operand of `<` is a single level. -/
def Straight : Lat → Prop
  | .emb l (.emb _ _) => False ∧ Straight l
  | .emb l _ => Straight l
  | _ => True

/-- Text of one index: a number or `lo:hi`; the flag says which. -/
inductive IndexText : Str → Bool → Lat → Prop
  | single {n} : IsInt n → IndexText n false (.digit n)
  | pair {lo hi a b} : IsInt lo → IsInt hi → Blank a → Blank b →
      IndexText (lo ++ a ++ ':' :: b ++ hi) true (.index (.digit lo) (.digit hi))

/-- Lattice texts: level 0 a cell, a lattice element or a parenthesised chain, level 1 chains
`a < b < c`, level 2 chains one after the other.  `all = false` leaves out the elements with a
single second and a range third index. -/
inductive LatText (all : Bool) : Nat → Str → Lat → Prop
  | cell {n} : IsInt n → LatText all 0 n (.digit n)
  | paren {s e a b} : LatText all 1 s e → Blank a → Blank b →
      LatText all 0 ('(' :: a ++ s ++ b ++ [')']) (.paren e)
  | element {c ti tj tk i j k bi bj bk w x a b z} : IsInt c → IndexText ti bi i → IndexText tj bj j →
      IndexText tk bk k → (all = true ∨ bj = true ∨ bk = false) → Blank w → Blank x → Blank a → Blank b → Blank z →
      a ≠ [] → b ≠ [] →
      LatText all 0 (c ++ w ++ '[' :: x ++ ti ++ a ++ tj ++ b ++ tk ++ z ++ [']']) (.range (.digit c) i j k)
  | one {s e} : LatText all 0 s e → LatText all 1 s e
  | within {s t l r a b} : LatText all 1 s l → LatText all 0 t r → Blank a → Blank b →
      LatText all 1 (s ++ a ++ '<' :: b ++ t) (.emb l r)

/-! ### From texts to pieces -/

/-- The text can be cut into pieces the tokenizer finds, in every context. -/
structure Cut (s : Str) (ts : List Str) (ps : List LP) : Prop where
  texts : LP.texts ps = s
  toks : LP.toks ps = ts
  head : ∃ c cs, s = c :: cs ∧ isSpace c = false
  last : ∃ cs c, s = cs ++ [c] ∧ isSpace c = false
  ok : ∀ rest, LP.Wk rest → HeadNot isDigit (LP.texts rest) → LP.Wk (ps ++ rest)

/-- Blanks as a piece. -/
def pad (w : Str) : List LP := if w = [] then [] else [.gap w]

@[simp] theorem pad_texts (w : Str) : LP.texts (pad w) = w := by
  unfold pad; split
  · rename_i h; rw [h]; rfl
  · simp [LP.text]

@[simp] theorem pad_toks (w : Str) : LP.toks (pad w) = [] := by unfold pad; split <;> rfl

theorem pad_ok {w : Str} (hw : Blank w) {rest} (h : LP.Wk rest) : LP.Wk (pad w ++ rest) := by
  unfold pad; split
  · exact h
  · rename_i hne; exact ⟨⟨hne, hw⟩, h⟩

theorem space_notDigit {c : Char} (h : isSpace c = true) : isDigit c = false := by
  have := space_not h
  simp only [Bool.or_eq_false_iff] at this
  exact this.1

theorem pad_head {w : Str} (hw : Blank w) {t : Str} (ht : HeadNot isDigit t) : HeadNot isDigit (w ++ t) := by
  cases w with
  | nil => exact ht
  | cons c cs => intro a b e; cases e; exact space_notDigit (hw _ (by simp))

theorem pad_head' {w : Str} (hw : Blank w) (hne : w ≠ []) {t : Str} : HeadNot isDigit (w ++ t) := by
  cases w with
  | nil => exact absurd rfl hne
  | cons c cs => intro a b e; cases e; exact space_notDigit (hw _ (by simp))

theorem headNot_cons {p : Char → Bool} {c : Char} {s : Str} (h : p c = false) : HeadNot p (c :: s) := by
  intro a b e; cases e; exact h

theorem int_last {n : Str} (h : IsInt n) : ∃ cs c, n = cs ++ [c] ∧ isSpace c = false := by
  have hns := h.noSpace
  obtain ⟨c, cs, e, _⟩ := h.head
  have hne : n ≠ [] := by rw [e]; simp
  exact ⟨n.dropLast, n.getLast hne, (List.dropLast_concat_getLast hne).symm, hns _ (List.getLast_mem hne)⟩

theorem int_head {n : Str} (h : IsInt n) : ∃ c cs, n = c :: cs ∧ isSpace c = false := by
  have hns := h.noSpace
  obtain ⟨c, cs, e, _⟩ := h.head
  exact ⟨c, cs, e, hns c (by rw [e]; simp)⟩

theorem cut_int {n : Str} (h : IsInt n) : Cut n [n] [.num n] where
  texts := by simp [LP.text]
  toks := rfl
  head := int_head h
  last := int_last h
  ok := fun _ hr hd => ⟨⟨h, hd⟩, hr⟩

theorem Cut.join {s t : Str} {xs ys : List Str} {ps qs : List LP} (h1 : Cut s xs ps) (h2 : Cut t ys qs)
    {a b : Str} {c : Char} (hc : c ∈ [':', '<', ')', '(', '[', ']', '|']) (ha : Blank a) (hb : Blank b) :
    Cut (s ++ a ++ c :: b ++ t) (xs ++ [c] :: ys) (ps ++ (pad a ++ (.sym c [] :: (pad b ++ qs)))) := by
  refine ⟨?_, ?_, ?_, ?_, ?_⟩
  · simp [LP.text, h1.texts, h2.texts]
  · simp [h1.toks, h2.toks]
  · obtain ⟨c, cs, rfl, hc⟩ := h1.head
    exact ⟨c, _, rfl, hc⟩
  · obtain ⟨cs, x, rfl, hx⟩ := h2.last
    exact ⟨s ++ a ++ c :: b ++ cs, x, by simp, hx⟩
  · intro rest hr hd
    have hdig : ∀ x ∈ [':', '<', ')', '(', '[', ']', '|'], isDigit x = false := by decide
    have t2 := pad_ok hb (h2.ok rest hr hd)
    have t3 := pad_ok ha (rest := .sym c [] :: (pad b ++ (qs ++ rest))) ⟨⟨hc, blank_nil⟩, t2⟩
    have t4 := h1.ok _ t3 (by
      simp only [LP.texts_append, pad_texts, LP.texts_cons, LP.text, List.cons_append]
      exact pad_head ha (headNot_cons (hdig c hc)))
    simpa using t4

theorem Cut.space {s t : Str} {xs ys : List Str} {ps qs : List LP} (h1 : Cut s xs ps) (h2 : Cut t ys qs)
    {a : Str} (ha : Blank a) (hne : a ≠ []) : Cut (s ++ a ++ t) (xs ++ ys) (ps ++ (pad a ++ qs)) := by
  refine ⟨?_, ?_, ?_, ?_, ?_⟩
  · simp [h1.texts, h2.texts]
  · simp [h1.toks, h2.toks]
  · obtain ⟨c, cs, rfl, hc⟩ := h1.head
    exact ⟨c, _, rfl, hc⟩
  · obtain ⟨cs, x, rfl, hx⟩ := h2.last
    exact ⟨s ++ a ++ cs, x, by simp, hx⟩
  · intro rest hr hd
    have t3 := pad_ok ha (h2.ok rest hr hd)
    have t4 := h1.ok _ t3 (by
      simp only [LP.texts_append, pad_texts]
      exact pad_head' ha hne)
    simpa using t4

/-- An opening symbol before a text. -/
theorem Cut.pre {s : Str} {xs : List Str} {ps : List LP} (h : Cut s xs ps) {a : Str} {c : Char}
    (hc : c ∈ [':', '<', ')', '(', '[', ']', '|']) (ha : Blank a) :
    Cut (c :: a ++ s) ([c] :: xs) (.sym c [] :: (pad a ++ ps)) := by
  have hsp : ∀ x ∈ [':', '<', ')', '(', '[', ']', '|'], isSpace x = false := by decide
  refine ⟨?_, ?_, ?_, ?_, ?_⟩
  · simp [LP.text, h.texts]
  · simp [h.toks]
  · exact ⟨c, _, rfl, hsp c hc⟩
  · obtain ⟨cs, x, rfl, hx⟩ := h.last
    exact ⟨c :: a ++ cs, x, by simp, hx⟩
  · intro rest hr hd
    have := pad_ok ha (h.ok rest hr hd)
    exact ⟨⟨hc, blank_nil⟩, by simpa using this⟩

/-- A closing symbol after a text. -/
theorem Cut.post {s : Str} {xs : List Str} {ps : List LP} (h : Cut s xs ps) {a : Str} {c : Char}
    (hc : c ∈ [':', '<', ')', '(', '[', ']', '|']) (ha : Blank a) :
    Cut (s ++ a ++ [c]) (xs ++ [[c]]) (ps ++ (pad a ++ [.sym c []])) := by
  have hsp : ∀ x ∈ [':', '<', ')', '(', '[', ']', '|'], isSpace x = false := by decide
  have hdig : ∀ x ∈ [':', '<', ')', '(', '[', ']', '|'], isDigit x = false := by decide
  refine ⟨?_, ?_, ?_, ?_, ?_⟩
  · simp [LP.text, h.texts]
  · simp [h.toks]
  · obtain ⟨c, cs, rfl, hc⟩ := h.head
    exact ⟨c, _, rfl, hc⟩
  · exact ⟨s ++ a, c, by simp, hsp c hc⟩
  · intro rest hr _
    have t3 := pad_ok ha (rest := .sym c [] :: rest) ⟨⟨hc, blank_nil⟩, hr⟩
    have t4 := h.ok _ t3 (by
      simp only [LP.texts_append, pad_texts, LP.texts_cons, LP.text, List.cons_append]
      exact pad_head ha (headNot_cons (hdig c hc)))
    simpa using t4

theorem cut_index {s b x} (h : IndexText s b x) : ∃ ps, Cut s x.toks ps := by
  cases h with
  | single hn => exact ⟨_, cut_int hn⟩
  | pair h1 h2 ha hb => exact ⟨_, (cut_int h1).join (cut_int h2) (by decide) ha hb⟩

theorem IndexText.coord {s b x} (h : IndexText s b x) : Coord x b := by
  cases h with
  | single hn => exact .single hn
  | pair h1 h2 ha hb => exact .pair h1 h2

theorem cut_text {all n s x} (h : LatText all n s x) : ∃ ps, Cut s x.toks ps := by
  induction h with
  | cell hn => exact ⟨_, cut_int hn⟩
  | @paren s e a b _ ha hb ih =>
    obtain ⟨ps, h⟩ := ih
    have := (h.pre (c := '(') (by decide) ha).post (c := ')') (by decide) hb
    exact ⟨_, by simpa [Lat.toks] using this⟩
  | @element c ti tj tk i j k bi bj bk w x a b z hc hi hj hk _ hw hx ha hb hz hane hbne =>
    obtain ⟨pi, hi⟩ := cut_index hi
    obtain ⟨pj, hj⟩ := cut_index hj
    obtain ⟨pk, hk⟩ := cut_index hk
    have := ((cut_int hc).join ((hi.space (hj.space hk hb hbne) ha hane).post (c := ']') (by decide) hz)
      (c := '[') (by decide) hw hx)
    exact ⟨_, by simpa [Lat.toks] using this⟩
  | one _ ih => exact ih
  | within _ _ ha hb ih1 ih2 =>
    obtain ⟨ps, h1⟩ := ih1
    obtain ⟨qs, h2⟩ := ih2
    have := h1.join h2 (c := '<') (by decide) ha hb
    exact ⟨_, by simpa [Lat.toks] using this⟩

theorem LatText.wf {n s x} (h : LatText false n s x) : LWf n x := by
  induction h with
  | cell hn => exact .digit hn
  | paren _ _ _ ih => exact .paren ih
  | @element c ti tj tk i j k bi bj bk w x a b z hc hi hj hk hb =>
    refine .range hc hi.coord hj.coord hk.coord ?_
    intro e
    rcases hb with h | h | h
    · cases h
    · exact h
    · rw [e] at h; cases h
  | one _ ih => exact .up ih
  | within _ _ _ _ ih1 ih2 => exact .emb ih1 ih2

theorem Cut.latToks {s ts ps} (h : Cut s ts ps) (a b : Str) (ha : Blank a) (hb : Blank b) :
    latToks (a ++ s ++ b) = some ts := by
  have ok := h.ok [] trivial (by intro a b e; cases e)
  simp only [List.append_nil] at ok
  have hhead := h.head
  have hlast := h.last
  rw [← h.texts] at hhead hlast ⊢
  have := latToks_weak ps ok (by obtain ⟨c, cs, e, _⟩ := hhead; rw [e]; simp)
    (by obtain ⟨c, cs, e, hc⟩ := hhead; rw [e]; simpa using hc)
    (by obtain ⟨cs, c, e, hc⟩ := hlast; rw [e]; simpa using hc) a b ha hb
  rw [this, h.toks]

/-! ### Acceptance of the grammar -/

/-- Every text of the grammar, between blanks, is read as the tree it denotes. -/
theorem lattice_accepts (s : Str) (x : Lat) (h : LatText false 1 s x) (a b : Str) (ha : Blank a) (hb : Blank b) :
    latParse (a ++ s ++ b) = .ok x := by
  obtain ⟨ps, hc⟩ := cut_text h
  have e := lEmb_read h.wf [] ⟨by simp, by simp⟩ (by simp) (2 * x.toks.length + 2) (by omega)
  simp only [List.append_nil] at e
  unfold latParse
  rw [hc.latToks a b ha hb]
  simp only [lAll, e, lTop]
  simp

/-! ### C16 -/

/-- `l < (levels of r)`, left-nested. -/
def attach (l : Lat) : Lat → Lat
  | .emb a b => .emb (attach l a) b
  | x => .emb l x

theorem attach_item (l : Lat) {r} (h : LWf 0 r) : attach l r = .emb l r := by cases h <;> rfl

theorem attach_spec {l r} (hl : LWf 1 l) (hr : LWf 1 r) :
    LWf 1 (attach l r) ∧ (attach l r).str = l.str ++ '<' :: r.str ∧ Path (attach l r) = Path l ++ Path r := by
  match r, hr with
  | .emb a b, .emb ha hb =>
    obtain ⟨h1, h2, h3⟩ := attach_spec hl ha
    exact ⟨.emb h1 hb, by simp [attach, Lat.str, h2], by simp [attach, Path, h3]⟩
  | r, .up h =>
    rw [attach_item l h]
    exact ⟨.emb hl h, rfl, rfl⟩

theorem straight_item {l r} (h : LWf 0 r) : Straight (.emb l r) ↔ Straight l := by cases h <;> simp [Straight]

theorem relin {a} (h : LWf 2 a) : ∃ b, LWf 1 b ∧ b.str = a.str ∧ Path b = Path a ∧ (Straight a → b = a) := by
  match a, h with
  | a, .top h => exact ⟨a, h, rfl, rfl, fun _ => rfl⟩
  | .emb l r, .juxt hl hr =>
    obtain ⟨b, h1, h2, h3, h4⟩ := relin hl
    obtain ⟨g1, g2, g3⟩ := attach_spec h1 hr
    refine ⟨attach b r, g1, by rw [g2, h2]; rfl, by rw [g3, h3]; rfl, ?_⟩
    intro hs
    cases hr with
    | up hr0 =>
      rw [attach_item b hr0, h4 ((straight_item hr0).1 hs)]
    | emb _ _ => exact absurd hs.1 id

theorem coord_text {x b} (h : Coord x b) : IndexText x.str b x := by
  cases h with
  | single hs => exact .single hs
  | pair hs ht =>
    have := IndexText.pair hs ht blank_nil blank_nil
    simpa [Lat.str] using this

theorem wf_text {n x} (h : LWf n x) : n ≤ 1 → LatText false n x.str x := by
  induction h with
  | digit hs => intro _; exact .cell hs
  | paren _ ih =>
    intro _
    have := LatText.paren (ih (by omega)) blank_nil blank_nil
    simpa [Lat.str] using this
  | @range c i j k bi bj bk hc hi hj hk hb =>
    intro _
    have hsp : Blank [' '] := by decide
    have := LatText.element (all := false) hc (coord_text hi) (coord_text hj) (coord_text hk) (by
      cases bk with
      | false => exact .inr (.inr rfl)
      | true => exact .inr (.inl (hb rfl))) blank_nil blank_nil hsp hsp blank_nil (by simp) (by simp)
    simpa [Lat.str] using this
  | up _ ih => intro _; exact .one (ih (by omega))
  | emb _ _ ih1 ih2 =>
    intro _
    have := LatText.within (ih1 (by omega)) (ih2 (by omega)) blank_nil blank_nil
    simpa [Lat.str] using this
  | top _ _ => intro h; omega
  | juxt _ _ _ _ => intro h; omega

/-- **C16 (partial).**  Whatever is read prints to a text that is read again, names the same
levels in the same order and prints identically; the tree itself is the same if it is left-nested.
Missing: for a text such as `1 2<3` (one expression after the other) the tree changes. -/
theorem C16_lattice_stable_partial (s : Str) (a : Lat) (h : latParse s = .ok a) :
    ∃ b, latParse a.str = .ok b ∧ b.str = a.str ∧ Path b = Path a ∧ (Straight a → b = a) := by
  obtain ⟨b, h1, h2, h3, h4⟩ := relin (latParse_wf h)
  have := lattice_accepts b.str b (wf_text h1 (by omega)) [] [] blank_nil blank_nil
  simp only [List.nil_append, List.append_nil] at this
  exact ⟨b, by rw [← h2]; exact this, h2, h3, h4⟩

example : (latParse c!"(1 < 2[0 -1:1 3]) <3").map Lat.str = .ok c!"(1<2[0 -1:1 3])<3" := by decide +kernel

/-- **C16 fails:** `1 2<3` is read as one tree and its printed text `1<2<3` as another. -/
theorem C16_violated : ∃ s a b, latParse s = .ok a ∧ latParse a.str = .ok b ∧ a ≠ b :=
  ⟨c!"1 2<3", .emb (.digit ['1']) (.emb (.digit ['2']) (.digit ['3'])),
    .emb (.emb (.digit ['1']) (.digit ['2'])) (.digit ['3']), by decide +kernel, by decide +kernel, by decide⟩

/-! ### C17 -/

/-- **C17, exactly.**  A lattice element with any indices, any integers and any blanks is read as
that element, except that a single second index before a range third index ends in an
`AssertionError`. -/
theorem C17_exact {c ti tj tk i j k bi bj bk w x a b z} (hc : IsInt c) (hi : IndexText ti bi i)
    (hj : IndexText tj bj j) (hk : IndexText tk bk k) (hw : Blank w) (hx : Blank x) (ha : Blank a)
    (hb : Blank b) (hz : Blank z) (hane : a ≠ []) (hbne : b ≠ []) :
    latParse (c ++ w ++ '[' :: x ++ ti ++ a ++ tj ++ b ++ tk ++ z ++ [']']) =
      if bj = false ∧ bk = true then .error .assertion else .ok (.range (.digit c) i j k) := by
  split
  · rename_i hbad
    obtain ⟨rfl, rfl⟩ := hbad
    obtain ⟨ps, hcut⟩ := cut_text (LatText.element (all := true) hc hi hj hk (.inl rfl) hw hx ha hb hz hane hbne)
    have ht := hcut.latToks [] [] blank_nil blank_nil
    simp only [List.nil_append, List.append_nil] at ht
    unfold latParse
    rw [ht]
    have hci := hi.coord
    cases hj with
    | single hsj =>
      cases hk with
      | @pair lo hi' _ _ hlo hhi _ _ =>
        have hparen : c ≠ ['('] := hc.ne_sym (by decide)
        have hcolon : ∀ s, IsInt s → s ≠ [':'] := fun s hs => hs.ne_sym (by decide)
        have key : ∀ rest, lRange (c :: ['['] :: (i.toks ++ tj :: lo :: [':'] :: hi' :: rest)) = .error .assertion := by
          intro rest
          have h2 : (if colonAhead (['['] :: (i.toks ++ tj :: lo :: [':'] :: hi' :: rest)) then
              lIndex (i.toks ++ tj :: lo :: [':'] :: hi' :: rest) else
              lDigit (i.toks ++ tj :: lo :: [':'] :: hi' :: rest)) = .ok (i, tj :: lo :: [':'] :: hi' :: rest) := by
            cases hci with
            | @single s hs =>
              have : colonAhead (['['] :: ((Lat.digit s).toks ++ tj :: lo :: [':'] :: hi' :: rest)) = false := by
                simp [Lat.toks, colonAhead, hcolon s hs, hcolon tj hsj]
              rw [this]
              exact lDigit_int hs _
            | @pair s t hs ht' =>
              have : colonAhead (['['] :: ((Lat.index (.digit s) (.digit t)).toks ++ tj :: lo :: [':'] :: hi' :: rest)) = true := by
                simp [Lat.toks, colonAhead]
              rw [this]
              simp [Lat.toks, lIndex, lDigit_int hs, lDigit_int ht']
          rw [lRange, lDigit_int hc]
          simp only [List.head?_cons, ne_eq, not_true_eq_false, if_false, List.tail_cons]
          rw [h2]
          simp only
          rw [if_pos (by simp [colonAhead]), lIndex, lDigit_int hsj]
          simp [hcolon lo hlo]
        simp [lAll, Lat.toks, lEmb, lItem, hparen, key]
  · rename_i hgood
    have := lattice_accepts _ _ (LatText.one (LatText.element (all := false) hc hi hj hk (by
      cases bj with
      | true => exact .inr (.inl rfl)
      | false => cases bk with
        | false => exact .inr (.inr rfl)
        | true => exact absurd ⟨rfl, rfl⟩ hgood) hw hx ha hb hz hane hbne)) [] [] blank_nil blank_nil
    simpa using this

example : latParse c!"3[ 1 : 2 -4  5:+6]" = .error .assertion ∧
    latParse c!"3[ 1 : 2 -4:7  5:+6]" = .ok (.range (.digit ['3']) (.index (.digit ['1']) (.digit ['2']))
      (.index (.digit ['-', '4']) (.digit ['7'])) (.index (.digit ['5']) (.digit ['+', '6']))) := by decide +kernel

/-- **C17 (partial).**  Six of the eight mixtures of single indices and ranges are accepted.
Missing: the two with a single second and a range third index. -/
theorem C17_mixtures_partial {c ti tj tk i j k bi bj bk} (hc : IsInt c) (hi : IndexText ti bi i)
    (hj : IndexText tj bj j) (hk : IndexText tk bk k) (hb : bk = true → bj = true) :
    latParse (c ++ '[' :: ti ++ ' ' :: tj ++ ' ' :: tk ++ [']']) = .ok (.range (.digit c) i j k) := by
  have hsp : Blank [' '] := by decide
  have := C17_exact hc hi hj hk blank_nil blank_nil hsp hsp blank_nil (by simp) (by simp)
  rw [if_neg (by rintro ⟨h1, h2⟩; rw [hb h2] at h1; cases h1)] at this
  simpa using this

/-- **C17 fails** for every element with a single second and a range third index. -/
theorem C17_violated {c ti n tk i k bi} (hc : IsInt c) (hi : IndexText ti bi i) (hn : IsInt n)
    (hk : IndexText tk true k) : latParse (c ++ '[' :: ti ++ ' ' :: n ++ ' ' :: tk ++ [']']) = .error .assertion := by
  have hsp : Blank [' '] := by decide
  have := C17_exact hc hi (.single hn) hk blank_nil blank_nil hsp hsp blank_nil (by simp) (by simp)
  rw [if_pos ⟨rfl, rfl⟩] at this
  simpa using this

/-! ### C53 -/

/-- **C53 (partial).**  Reading a lattice text returns an expression or fails with `TypesError`
when the text has no parenthesis and no bracket; otherwise the only other failures are
`AssertionError` and `IndexError`. -/
theorem C53_errors_partial (s : Str) (e : Err) (h : latParse s = .error e) :
    (e = .types ∨ e = .assertion ∨ e = .index) ∧ ('(' ∉ s → '[' ∉ s → e = .types) := by
  unfold latParse at h
  cases h1 : latToks s with
  | none => rw [h1] at h; cases h; exact ⟨.inl rfl, fun _ _ => rfl⟩
  | some ts =>
    rw [h1] at h
    simp only at h
    split at h
    · cases h; exact ⟨.inl rfl, fun _ _ => rfl⟩
    · rename_i hne
      rcases lAll_err ts e h with rfl | he
      · exact absurd h hne
      · refine ⟨.inr he, fun hp hb => ?_⟩
        have := plain_all ts (fun hm => hp (latToks_mem h1 _ hm '(' (by simp)))
          (fun hm => hb (latToks_mem h1 _ hm '[' (by simp))) h
        rw [this] at h
        exact absurd h hne

example : latParse c!"1 < < 2" = .error .types := by decide +kernel

/-- **C53 fails:** a parenthesised group of cells, which MCNP allows, ends in an `AssertionError`,
and an unclosed parenthesis in an `IndexError`. -/
theorem C53_violated : latParse c!"(1 2)<3" = .error .assertion ∧ latParse c!"(1<2" = .error .index := by
  constructor <;> decide +kernel

/-! ### C54 -/

/-- **C54 fails always:** two expressions one after the other are read as one expression, in
which the first is inside the second, and printed with `<` between them. -/
theorem C54_violated (s t : Str) (x y : Lat) (hs : LatText false 1 s x) (ht : LatText false 1 t y) (w : Str)
    (hw : Blank w) (hne : w ≠ []) :
    latParse (s ++ w ++ t) = .ok (.emb x y) ∧ (Lat.emb x y).str = x.str ++ '<' :: y.str ∧
      Path (.emb x y) = Path x ++ Path y := by
  refine ⟨?_, rfl, rfl⟩
  obtain ⟨ps, h1⟩ := cut_text hs
  obtain ⟨qs, h2⟩ := cut_text ht
  have hk := (h1.space h2 hw hne).latToks [] [] blank_nil blank_nil
  simp only [List.nil_append, List.append_nil] at hk
  obtain ⟨f, fs, ef, hf⟩ := ht.wf.first []
  simp only [List.append_nil] at ef
  have hsym : ∀ c ∈ [':', '<', '['], f ≠ [c] := by
    intro c hc
    rcases hf with rfl | hf
    · simp at hc; rcases hc with rfl | rfl | rfl <;> simp
    · refine hf.ne_sym ?_
      simp at hc; rcases hc with rfl | rfl | rfl <;> simp
  have e1 := lEmb_read hs.wf y.toks ⟨by rw [ef]; simpa using hsym ':' (by simp), by rw [ef]; simpa using hsym '[' (by simp)⟩
    (by rw [ef]; simpa using hsym '<' (by simp)) (2 * (x.toks ++ y.toks).length + 2) (by simp; omega)
  have e2 := lEmb_read ht.wf [] ⟨by simp, by simp⟩ (by simp) (2 * y.toks.length + 2) (by omega)
  simp only [List.append_nil] at e2
  have hy : y.toks ≠ [] := by rw [ef]; simp
  have hlen : ∃ n, y.toks.length = n + 1 := ⟨fs.length, by rw [ef]; rfl⟩
  obtain ⟨n, hn⟩ := hlen
  unfold latParse
  rw [hk]
  simp only [lAll, e1]
  rw [hn, lTop, if_neg hy, e2]
  simp [lTop]

example : (latParse c!"1<2 3<4").map Lat.str = .ok c!"1<2<3<4" := by decide +kernel

end Props
