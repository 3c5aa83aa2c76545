import Verif.Types.GeometryGrammar
/-!
# Geometry expressions (C11–C15)

Specification side: `Region` is the Boolean function a geometry expression
denotes, given for every surface/facet number whether the point has positive
sense and for every cell number whether the point is in that cell; `Meaning`
gives the region of a tree and `Mcnp` is the MCNP grammar of geometry texts
with their regions, both written without reference to the parser.
-/
namespace Props
open Py Types

/-- Environment: sense with respect to surfaces, membership in cells. -/
structure Env where
  surf : Str → Bool
  cell : Str → Bool

abbrev Region := Env → Bool

/-- Region of an expression tree: juxtaposition is intersection, `:` union,
`-`/`+` the sense, `#` the complement of a cell or of a parenthesised region. -/
def Meaning : Ast → Region
  | .inter l r => fun v => Meaning l v && Meaning r v
  | .union l r => fun v => Meaning l v || Meaning r v
  | .unary .plus e => Meaning e
  | .unary .minus e => fun v => !Meaning e v
  | .unary .hash (.digit n) => fun v => !v.cell n
  | .unary .hash e => fun v => !Meaning e v
  | .paren e => Meaning e
  | .digit n => fun v => v.surf n

/-- Surface, facet or cell number text: `n` or `n.m`. -/
def IsNumber (s : Str) : Prop :=
  ∃ a b, a ≠ [] ∧ Digits a ∧ (s = a ∨ (b ≠ [] ∧ Digits b ∧ s = a ++ '.' :: b))

theorem isNum_iff (s : Str) : isNum s ↔ IsNumber s := by
  constructor
  · intro h
    obtain ⟨a, b, hne, ha, hb, hbn, rfl⟩ := isNum_shape h
    cases b with
    | none => exact ⟨a, [], hne, ha, .inl (by simp [fracText])⟩
    | some f => exact ⟨a, f, hne, ha, .inr ⟨by simpa using hbn, hb, rfl⟩⟩
  · rintro ⟨a, b, hne, ha, rfl | ⟨hbn, hb, rfl⟩⟩
    · have := isNum_of_shape s none hne ha (by intro c hc; cases hc) (by simp)
      simpa [fracText] using this
    · exact isNum_of_shape a (some b) hne ha hb (by simpa using hbn)

/-! ### C11 -/

/-- **C11.**  Any accepted geometry prints to a text that is accepted again and
gives the identical expression tree (and hence prints identically). -/
theorem C11_geometry_stable (s : Str) (g : Ast) (h : geoParse s = .ok g) : geoParse g.str = .ok g :=
  geoParse_str (geoParse_wf h)

example : geoParse "-1 2:3 #(4  -5.1)".toList = .ok
    (.inter (.inter (.unary .minus (.digit ['1'])) (.union (.digit ['2']) (.digit ['3'])))
      (.unary .hash (.paren (.inter (.digit ['4']) (.unary .minus (.digit ['5','.','1'])))))) := by decide +kernel

/-! ### C12 -/

/-- Grammar levels: atoms, `:`-lists of atoms, juxtapositions, whole texts. -/
inductive Lv where | atom | alts | inter | top

/-- MCNP geometry texts with the region they denote.  `mix = true` is the full
MCNP grammar (union is looser than juxtaposition); `mix = false` restricts it
to texts in which, at each parenthesis level, `:` and juxtaposition are not
mixed. -/
inductive Mcnp (mix : Bool) : Lv → Str → Region → Prop
  | surface {n} : IsNumber n → Mcnp mix .atom n (fun v => v.surf n)
  | plus {n} : IsNumber n → Mcnp mix .atom ('+' :: n) (fun v => v.surf n)
  | minus {n} : IsNumber n → Mcnp mix .atom ('-' :: n) (fun v => !v.surf n)
  | notCell {n} : IsNumber n → Mcnp mix .atom ('#' :: n) (fun v => !v.cell n)
  | paren {s b p} : Mcnp mix .top s b → Blank p → Mcnp mix .atom ('(' :: p ++ s ++ [')']) b
  | notRegion {s b p} : Mcnp mix .top s b → Blank p →
      Mcnp mix .atom ('#' :: '(' :: p ++ s ++ [')']) (fun v => !b v)
  | oneAlt {s b} : Mcnp mix .atom s b → Mcnp mix .alts s b
  | moreAlt {s b t c p q} : Mcnp mix .alts s b → Mcnp mix .atom t c → Blank p → Blank q →
      Mcnp mix .alts (s ++ p ++ ':' :: q ++ t) (fun v => b v || c v)
  | oneInter {s b} : Mcnp mix .atom s b → Mcnp mix .inter s b
  | moreInter {s b t c p} : Mcnp mix .inter s b → Mcnp mix .atom t c → Blank p → p ≠ [] →
      Mcnp mix .inter (s ++ p ++ t) (fun v => b v && c v)
  | nextParen {s b t c} : Mcnp mix .inter s b → Mcnp mix .atom ('(' :: t) c →
      Mcnp mix .inter (s ++ '(' :: t) (fun v => b v && c v)
  | ofAlts {s b} : Mcnp mix .alts s b → Mcnp mix .top s b
  | ofInter {s b} : Mcnp mix .inter s b → Mcnp mix .top s b
  | mixed {s b t c p q} : mix = true → Mcnp mix .top s b → Mcnp mix .inter t c → Blank p → Blank q →
      Mcnp mix .top (s ++ p ++ ':' :: q ++ t) (fun v => b v || c v)

/-- Parser level of a grammar level. -/
def Lv.lvl : Lv → Nat
  | .atom => 0
  | .alts => 1
  | .inter => 2
  | .top => 2

theorem mcnp_D {l s b} (h : Mcnp false l s b) : ∃ u e, D l.lvl u e ∧ PT.texts u = s ∧ Meaning e = b := by
  induction h with
  | @surface n hn => exact ⟨_, _, .num ((isNum_iff n).2 hn), by simp, rfl⟩
  | @plus n hn => exact ⟨_, _, .un (o := .plus) ((isNum_iff n).2 hn) blank_nil, by simp [GOp.str], rfl⟩
  | @minus n hn => exact ⟨_, _, .un (o := .minus) ((isNum_iff n).2 hn) blank_nil, by simp [GOp.str], rfl⟩
  | @notCell n hn => exact ⟨_, _, .un (o := .hash) ((isNum_iff n).2 hn) blank_nil, by simp [GOp.str], rfl⟩
  | paren _ hp ih =>
    obtain ⟨u, e, hd, rfl, rfl⟩ := ih
    exact ⟨_, _, .paren hd hp, by simp, rfl⟩
  | notRegion _ hp ih =>
    obtain ⟨u, e, hd, rfl, rfl⟩ := ih
    exact ⟨_, _, .unParen (o := .hash) hd hp blank_nil, by simp [GOp.str], rfl⟩
  | oneAlt _ ih =>
    obtain ⟨u, e, hd, rfl, rfl⟩ := ih
    exact ⟨_, _, .up0 hd, rfl, rfl⟩
  | moreAlt _ _ hp hq ih1 ih2 =>
    obtain ⟨u, e, hd, rfl, rfl⟩ := ih1
    obtain ⟨u', e', hd', rfl, rfl⟩ := ih2
    exact ⟨_, _, .union hd hd' hp hq, by simp, rfl⟩
  | oneInter _ ih =>
    obtain ⟨u, e, hd, rfl, rfl⟩ := ih
    exact ⟨_, _, .up1 (.up0 hd), rfl, rfl⟩
  | moreInter _ _ hp hq ih1 ih2 =>
    obtain ⟨u, e, hd, rfl, rfl⟩ := ih1
    obtain ⟨u', e', hd', rfl, rfl⟩ := ih2
    exact ⟨_, _, .inter hd (.up0 hd') hp hq, by simp, rfl⟩
  | nextParen _ _ ih1 ih2 =>
    obtain ⟨u, e, hd, rfl, rfl⟩ := ih1
    obtain ⟨u', e', hd', ht, rfl⟩ := ih2
    cases hd' with
    | num hs =>
      obtain ⟨c, cs, e1, hc⟩ := isNum_shape hs
      obtain ⟨ha, _, _, e2⟩ := hc.2
      simp only [PT.texts_cons, PT.texts_nil, List.append_nil] at ht
      have := isNum_chars hs '(' (by rw [ht]; simp)
      rcases this with h | h <;> exact absurd h (by decide)
    | @un o _ _ _ _ => cases o <;> exact absurd (List.cons.inj ht).1 (by decide)
    | @paren v e a h1 h2 =>
      exact ⟨_, _, .juxt hd (.up0 (.paren h1 h2)), by rw [PT.texts_append, ht], rfl⟩
    | @unParen o _ _ _ _ _ _ _ => cases o <;> exact absurd (List.cons.inj ht).1 (by decide)
  | ofAlts _ ih =>
    obtain ⟨u, e, hd, rfl, rfl⟩ := ih
    exact ⟨_, _, .up1 hd, rfl, rfl⟩
  | ofInter _ ih =>
    obtain ⟨u, e, hd, rfl, rfl⟩ := ih
    exact ⟨_, _, hd, rfl, rfl⟩
  | mixed h => cases h

/-- **C12, partial.**  For every MCNP geometry text (with any blanks MCNP
allows around the operators) in which `:` and juxtaposition are not mixed at
one parenthesis level, parsing succeeds and the parsed geometry denotes
exactly the region MCNP assigns to the text.

Missing: texts that mix the two operators without parentheses, for which the
claim is false (`C12_violated`). -/
theorem C12_precedence_partial (s : Str) (b : Region) (h : Mcnp false .top s b) (pre post : Str)
    (h1 : Blank pre) (h2 : Blank post) :
    ∃ g, geoParse (pre ++ s ++ post) = .ok g ∧ Meaning g = b := by
  obtain ⟨u, e, hd, rfl, rfl⟩ := mcnp_D h
  exact ⟨e, geoParse_D hd h1 h2, rfl⟩

private theorem num1 (c : Char) (h : isDigit c = true) : IsNumber [c] :=
  ⟨[c], [], by simp, by intro x hx; simp at hx; subst hx; exact h, .inl rfl⟩

/-- "-1 (2 : #(3 4))" is such a text. -/
example : Mcnp false .top "-1 (2 : #(3 4))".toList
    (fun v => (!v.surf ['1']) && (v.surf ['2'] || !(v.surf ['3'] && v.surf ['4']))) :=
  .ofInter (.moreInter (p := [' ']) (.oneInter (.minus (num1 '1' (by decide))))
    (.paren (p := []) (.ofAlts (.moreAlt (p := [' ']) (q := [' ']) (.oneAlt (.surface (num1 '2' (by decide))))
      (.notRegion (p := []) (.ofInter (.moreInter (p := [' ']) (.oneInter (.surface (num1 '3' (by decide))))
        (.surface (num1 '4' (by decide))) (by decide) (by decide))) (by decide)) (by decide) (by decide)))
      (by decide)) (by decide) (by decide))

/-- The full C12 claim is false: for "1 2:3" MCNP's region is (1∩2)∪3, but the
parsed geometry denotes 1∩(2∪3). -/
theorem C12_violated : ∃ s b, Mcnp true .top s b ∧ ∃ g, geoParse s = .ok g ∧ ∃ v, Meaning g v ≠ b v := by
  refine ⟨"1 2:3".toList, fun v => (v.surf ['1'] && v.surf ['2']) || v.surf ['3'], ?_, ?_⟩
  · exact .mixed (p := []) (q := []) rfl (.ofInter (.moreInter (p := [' ']) (.oneInter (.surface (num1 '1' (by decide))))
      (.surface (num1 '2' (by decide))) (by decide) (by decide))) (.oneInter (.surface (num1 '3' (by decide))))
      (by decide) (by decide)
  · exact ⟨.inter (.digit ['1']) (.union (.digit ['2']) (.digit ['3'])), by decide +kernel,
      ⟨fun s => decide (s = ['3']), fun _ => false⟩, by decide⟩

/-- The defect is uniform: for all surfaces `a b c`, the text "a b:c" is parsed
as the intersection of `a` with the union of `b` and `c`. -/
theorem C12_mixed_exact (a b c : Str) (ha : IsNumber a) (hb : IsNumber b) (hc : IsNumber c) :
    ∃ g, geoParse (a ++ ' ' :: b ++ ':' :: c) = .ok g ∧
      Meaning g = fun v => v.surf a && (v.surf b || v.surf c) := by
  have hd := D.inter (w := [' ']) (.up1 (.up0 (.num ((isNum_iff a).2 ha))))
    (.union (a := []) (b := []) (.up0 (.num ((isNum_iff b).2 hb))) (.num ((isNum_iff c).2 hc)) blank_nil blank_nil)
    (by decide) (by decide)
  have := geoParse_D hd blank_nil blank_nil
  refine ⟨.inter (.digit a) (.union (.digit b) (.digit c)), ?_, rfl⟩
  simpa using this

/-! ### C13 -/

/-- Geometries a user can build from accepted texts with `|`, and with `&` and
the unary operators where the printed text needs no parentheses.  `Built 1`:
no top-level juxtaposition. -/
inductive Built : Nat → Ast → Prop
  | parsed {s g} : geoParse s = .ok g → Built 2 g
  | parsed1 {s g} : geoParse s = .ok g → (∀ l r, g ≠ .inter l r) → Built 1 g
  | weaken {g} : Built 1 g → Built 2 g
  | or {a b} : Built 2 a → Built 2 b → Built 2 (a.or b)
  | and {a b} : Built 1 a → Built 1 b → Built 1 (a.and b)
  | negNumber {s d} : geoParse s = .ok (.digit d) → Built 1 (Ast.neg (.digit d))
  | posNumber {s d} : geoParse s = .ok (.digit d) → Built 1 (Ast.pos (.digit d))
  | invNumber {s d} : geoParse s = .ok (.digit d) → Built 1 (Ast.invert (.digit d))
  | negParen {s g} : geoParse s = .ok (.paren g) → Built 1 (Ast.neg (.paren g))
  | posParen {s g} : geoParse s = .ok (.paren g) → Built 1 (Ast.pos (.paren g))
  | invParen {s g} : geoParse s = .ok (.paren g) → Built 1 (Ast.invert (.paren g))

theorem union_wf {a b : Ast} (ha : WF 1 a) (hb : WF 1 b) :
    ∃ c, WF 1 c ∧ c.str = a.str ++ ':' :: b.str ∧ Meaning c = fun v => Meaning a v || Meaning b v := by
  generalize hk : 1 = k at hb
  induction hb with
  | @union l r hl hr ihl _ =>
    obtain ⟨c, hc, e1, e2⟩ := ihl rfl
    refine ⟨.union c r, .union hc hr, by simp [Ast.str, e1], ?_⟩
    simp only [Meaning, e2, Bool.or_assoc]
  | @up0 e he _ => exact ⟨.union a e, .union ha he, rfl, rfl⟩
  | _ => cases hk

theorem inter_wf {a b : Ast} (ha : WF 2 a) (hb : WF 2 b) :
    ∃ c, WF 2 c ∧ c.str = a.str ++ ' ' :: b.str ∧ Meaning c = fun v => Meaning a v && Meaning b v := by
  generalize hk : 2 = k at hb
  induction hb with
  | @inter l r hl hr ihl _ =>
    obtain ⟨c, hc, e1, e2⟩ := ihl rfl
    refine ⟨.inter c r, .inter hc hr, by simp [Ast.str, e1], ?_⟩
    simp only [Meaning, e2, Bool.and_assoc]
  | @up1 e he _ => exact ⟨.inter a e, .inter ha he, rfl, rfl⟩
  | _ => cases hk

theorem _root_.Types.WF.isNum' {k s} (h : WF k (.digit s)) : isNum s := by
  cases h with
  | digit h => exact h
  | up0 h => cases h with | digit h => exact h
  | up1 h => cases h with | up0 h => cases h with | digit h => exact h

theorem _root_.Types.WF.inParen {k e} (h : WF k (.paren e)) : WF 2 e := by
  cases h with
  | paren h => exact h
  | up0 h => cases h with | paren h => exact h
  | up1 h => cases h with | up0 h => cases h with | paren h => exact h

theorem built_wf {k a} (h : Built k a) :
    ∃ c, WF k c ∧ c.str = a.str ∧ Meaning c = Meaning a := by
  induction h with
  | parsed h => exact ⟨_, geoParse_wf h, rfl, rfl⟩
  | @parsed1 s g h hn =>
    have := geoParse_wf h
    cases this with
    | inter _ _ => exact absurd rfl (hn _ _)
    | up1 h => exact ⟨_, h, rfl, rfl⟩
  | weaken _ ih => obtain ⟨c, hc, e⟩ := ih; exact ⟨c, .up1 hc, e⟩
  | or _ _ iha ihb =>
    obtain ⟨a', ha, e1, e2⟩ := iha
    obtain ⟨b', hb, e3, e4⟩ := ihb
    obtain ⟨c, hc, e5, e6⟩ := inter_wf ha hb
    exact ⟨c, hc, by rw [e5, e1, e3]; rfl, by rw [e6, e2, e4]; rfl⟩
  | and _ _ iha ihb =>
    obtain ⟨a', ha, e1, e2⟩ := iha
    obtain ⟨b', hb, e3, e4⟩ := ihb
    obtain ⟨c, hc, e5, e6⟩ := union_wf ha hb
    exact ⟨c, hc, by rw [e5, e1, e3]; rfl, by rw [e6, e2, e4]; rfl⟩
  | negNumber h => exact ⟨_, .up0 (.unDigit (geoParse_wf h).isNum'), rfl, rfl⟩
  | posNumber h => exact ⟨_, .up0 (.unDigit (geoParse_wf h).isNum'), rfl, rfl⟩
  | invNumber h => exact ⟨_, .up0 (.unDigit (geoParse_wf h).isNum'), rfl, rfl⟩
  | negParen h => exact ⟨_, .up0 (.unParen (geoParse_wf h).inParen), rfl, rfl⟩
  | posParen h => exact ⟨_, .up0 (.unParen (geoParse_wf h).inParen), rfl, rfl⟩
  | invParen h => exact ⟨_, .up0 (.unParen (geoParse_wf h).inParen), rfl, rfl⟩

/-- **C13, partial.**  For every geometry built by any number of compositions
from accepted texts — `|` on any operands, `&` on operands without top-level
juxtaposition, the unary operators on single numbers and on parenthesised
geometries — the printed text is accepted and, read back, denotes the region
of the composition.

Missing: `&` on juxtapositions and unary operators on other compounds, for
which the claim is false (`C13_violated`). -/
theorem C13_compose_partial (k : Nat) (a : Ast) (h : Built k a) :
    ∃ g, geoParse a.str = .ok g ∧ Meaning g = Meaning a := by
  obtain ⟨c, hc, e1, e2⟩ := built_wf h
  refine ⟨c, ?_, e2⟩
  rw [← e1]
  cases h with
  | parsed | weaken | or => exact geoParse_str hc
  | _ => exact geoParse_str (.up1 hc)

/-- **C13, partial** (documented operation): the text printed for `a | b`
("Intersects"), read back, denotes the intersection of the regions of `a` and
`b`, whatever accepted texts `a` and `b` come from. Missing: the other operators, see below and `C13_violated`. -/
theorem C13_intersect_partial (s t : Str) (a b : Ast) (ha : geoParse s = .ok a) (hb : geoParse t = .ok b) :
    ∃ g, geoParse (a.or b).str = .ok g ∧ ∀ v, Meaning g v = (Meaning a v && Meaning b v) := by
  obtain ⟨g, h1, h2⟩ := C13_compose_partial 2 _ (.or (.parsed ha) (.parsed hb))
  exact ⟨g, h1, fun v => by rw [h2]; rfl⟩

/-- **C13, partial** (documented operation): the text printed for `a & b`
("Unites"), read back, denotes the union, when neither operand is a top-level
juxtaposition. Missing: operands that are a juxtaposition at their top level, for which no parentheses are printed and the
claim is false (`C13_violated`). -/
theorem C13_unite_partial (s t : Str) (a b : Ast) (ha : geoParse s = .ok a) (hb : geoParse t = .ok b)
    (na : ∀ l r, a ≠ .inter l r) (nb : ∀ l r, b ≠ .inter l r) :
    ∃ g, geoParse (a.and b).str = .ok g ∧ ∀ v, Meaning g v = (Meaning a v || Meaning b v) := by
  obtain ⟨g, h1, h2⟩ := C13_compose_partial 1 _ (.and (.parsed1 ha na) (.parsed1 hb nb))
  exact ⟨g, h1, fun v => by rw [h2]; rfl⟩

example : ∃ a b, geoParse "1:(2 3)".toList = .ok a ∧ geoParse "-4:5".toList = .ok b ∧
    (a.and b).str = "1:(2 3):-4:5".toList :=
  ⟨.union (.digit ['1']) (.paren (.inter (.digit ['2']) (.digit ['3']))),
   .union (.unary .minus (.digit ['4'])) (.digit ['5']), by decide +kernel, by decide +kernel, by decide⟩

/-- The full C13 claim is false: `Geometry("1 2") & Geometry("3")` prints "1 2:3", which reads
back as another region, and `-Geometry("1 2")` prints "-1 2" likewise. -/
theorem C13_violated :
    (∃ s t a b, geoParse s = .ok a ∧ geoParse t = .ok b ∧
      ∃ g v, geoParse (a.and b).str = .ok g ∧ Meaning g v ≠ (Meaning a v || Meaning b v)) ∧
    (∃ s a, geoParse s = .ok a ∧ ∃ g v, geoParse a.neg.str = .ok g ∧ Meaning g v ≠ !Meaning a v) ∧
    (∃ s a, geoParse s = .ok a ∧ geoParse a.neg.str = .error .assertion) := by
  refine ⟨⟨"1 2".toList, "3".toList, .inter (.digit ['1']) (.digit ['2']), .digit ['3'], by decide +kernel,
      by decide +kernel, .inter (.digit ['1']) (.union (.digit ['2']) (.digit ['3'])),
      ⟨fun s => decide (s = ['3']), fun _ => false⟩, by decide +kernel, by decide⟩,
    ⟨"1 2".toList, .inter (.digit ['1']) (.digit ['2']), by decide +kernel,
      .inter (.unary .minus (.digit ['1'])) (.digit ['2']), ⟨fun _ => false, fun _ => false⟩, by decide +kernel, by decide⟩,
    ⟨"-1".toList, .unary .minus (.digit ['1']), by decide +kernel, by decide +kernel⟩⟩

/-! ### C14 -/

/-- The tree contains no complement of a cell number. -/
def NoCellComplement : Ast → Prop
  | .inter l r => NoCellComplement l ∧ NoCellComplement r
  | .union l r => NoCellComplement l ∧ NoCellComplement r
  | .unary .hash (.digit _) => False
  | .unary _ e => NoCellComplement e
  | .paren e => NoCellComplement e
  | .digit _ => True

/-- Numbers occurring in a tree. -/
def Numbers : Ast → List Str
  | .inter l r => Numbers l ++ Numbers r
  | .union l r => Numbers l ++ Numbers r
  | .unary _ e => Numbers e
  | .paren e => Numbers e
  | .digit d => [d]

/-- **C14, partial.**  For every geometry without a complemented cell number,
and every assignment of shapes to its surfaces, visualising succeeds and the
shape contains exactly the points at which the expression is true.

Missing: `#n` for a cell number `n`, where the claim is false (`C14_violated`). -/
theorem C14_show_partial {P : Type} (g : Ast) (h : NoCellComplement g) (surf : Str → (P → Bool))
    (known : Str → Bool) (hk : ∀ d ∈ Numbers g, known d = true) (cells : Str → Option (P → Bool)) (cellIn : P → Str → Bool) :
    ∃ f, g.show (fun d => if known d then some (surf d) else none) cells = .ok f ∧
      ∀ p, f p = Meaning g ⟨fun d => surf d p, cellIn p⟩ := by
  induction g with
  | inter l r ihl ihr =>
    obtain ⟨a, h1, h2⟩ := ihl h.1 (fun d hd => hk d (by simp [Numbers, hd]))
    obtain ⟨b, h3, h4⟩ := ihr h.2 (fun d hd => hk d (by simp [Numbers, hd]))
    exact ⟨fun p => a p && b p, by simp [Ast.show, h1, h3], fun p => by simp [Meaning, h2, h4]⟩
  | union l r ihl ihr =>
    obtain ⟨a, h1, h2⟩ := ihl h.1 (fun d hd => hk d (by simp [Numbers, hd]))
    obtain ⟨b, h3, h4⟩ := ihr h.2 (fun d hd => hk d (by simp [Numbers, hd]))
    exact ⟨fun p => a p || b p, by simp [Ast.show, h1, h3], fun p => by simp [Meaning, h2, h4]⟩
  | paren e ih =>
    obtain ⟨a, h1, h2⟩ := ih h (fun d hd => hk d (by simp [Numbers, hd]))
    exact ⟨a, by simp [Ast.show, h1], fun p => by simp [Meaning, h2]⟩
  | digit d =>
    have := hk d (by simp [Numbers])
    exact ⟨surf d, by simp [Ast.show, this], fun p => by simp [Meaning]⟩
  | unary o e ih =>
    have hk' : ∀ d ∈ Numbers e, known d = true := fun d hd => hk d (by simpa [Numbers] using hd)
    cases o with
    | plus =>
      obtain ⟨a, h1, h2⟩ := ih (by cases e <;> exact h) hk'
      exact ⟨a, by simp [Ast.show, h1], fun p => by simp [Meaning, h2]⟩
    | minus =>
      obtain ⟨a, h1, h2⟩ := ih (by cases e <;> exact h) hk'
      exact ⟨fun p => !a p, by simp [Ast.show, h1], fun p => by simp [Meaning, h2]⟩
    | hash =>
      cases e with
      | digit d => exact absurd h id
      | _ =>
        obtain ⟨a, h1, h2⟩ := ih h hk'
        exact ⟨fun p => !a p, by simp only [Ast.show] at h1 ⊢; rw [h1], fun p => by simp only [Meaning] at h2 ⊢; rw [h2]⟩

/-- Surfaces without a shape make visualising fail with the documented error,
never with a wrong shape. -/
theorem C14_show_missing {P : Type} (g : Ast) (h : NoCellComplement g) (surf cells : Str → Option (P → Bool))
    (d : Str) (hd : d ∈ Numbers g) (hs : surf d = none) : g.show surf cells = .error .types := by
  have key : ∀ g : Ast, (∃ f, g.show surf cells = .ok f) ∨ g.show surf cells = .error .types := by
    intro g
    induction g with
    | inter l r ihl ihr =>
      rcases ihl with ⟨a, h1⟩ | h1
      · rcases ihr with ⟨b, h2⟩ | h2
        · exact .inl ⟨_, by simp only [Ast.show, h1, h2]; rfl⟩
        · exact .inr (by simp [Ast.show, h1, h2])
      · exact .inr (by simp [Ast.show, h1])
    | union l r ihl ihr =>
      rcases ihl with ⟨a, h1⟩ | h1
      · rcases ihr with ⟨b, h2⟩ | h2
        · exact .inl ⟨_, by simp only [Ast.show, h1, h2]; rfl⟩
        · exact .inr (by simp [Ast.show, h1, h2])
      · exact .inr (by simp [Ast.show, h1])
    | paren e ih => exact ih
    | digit d => cases h : surf d with
      | some f => exact .inl ⟨f, by simp [Ast.show, h]⟩
      | none => exact .inr (by simp [Ast.show, h])
    | unary o e ih =>
      cases o with
      | plus => exact ih
      | minus =>
        rcases ih with ⟨a, h1⟩ | h1
        · exact .inl ⟨_, by simp only [Ast.show, h1]; rfl⟩
        · exact .inr (by simp [Ast.show, h1])
      | hash =>
        cases e with
        | digit d =>
          cases h1 : cells d with
          | some f => exact .inl ⟨f, by simp [Ast.show, h1]⟩
          | none => cases h2 : surf d with
            | some f => exact .inl ⟨f, by simp [Ast.show, h1, h2]⟩
            | none => exact .inr (by simp [Ast.show, h1, h2])
        | _ =>
          rcases ih with ⟨a, h1⟩ | h1
          · exact .inl ⟨fun p => !a p, by simp only [Ast.show] at h1 ⊢; rw [h1]⟩
          · exact .inr (by simp only [Ast.show] at h1 ⊢; rw [h1])
  induction g with
  | inter l r ihl ihr =>
    simp only [Numbers, List.mem_append] at hd
    rcases hd with hd | hd
    · simp [Ast.show, ihl h.1 hd]
    · rcases key l with ⟨a, h1⟩ | h1 <;> simp [Ast.show, h1, ihr h.2 hd]
  | union l r ihl ihr =>
    simp only [Numbers, List.mem_append] at hd
    rcases hd with hd | hd
    · simp [Ast.show, ihl h.1 hd]
    · rcases key l with ⟨a, h1⟩ | h1 <;> simp [Ast.show, h1, ihr h.2 hd]
  | paren e ih => exact ih h hd
  | digit d' => simp only [Numbers, List.mem_singleton] at hd; subst hd; simp [Ast.show, hs]
  | unary o e ih =>
    cases o with
    | plus => exact ih (by cases e <;> exact h) hd
    | minus => have := ih (by cases e <;> exact h) hd; simp [Ast.show, this]
    | hash =>
      cases e with
      | digit d => exact absurd h id
      | _ => have := ih h hd; simp only [Ast.show] at this ⊢; rw [this]

example : NoCellComplement (.inter (.unary .minus (.digit ['1'])) (.unary .hash (.paren (.union (.digit ['2']) (.digit ['3']))))) :=
  ⟨trivial, trivial, trivial⟩

/-- The full C14 claim is false: the shape of `#n` for a cell number `n` is the
cell itself — for every number, every cell shape and every point the opposite
of the expression's value. -/
theorem C14_violated {P : Type} (n : Str) (cells : Str → Option (P → Bool)) (f : P → Bool) (hc : cells n = some f)
    (surf : Str → Option (P → Bool)) (sense : P → Str → Bool) :
    ∃ shape, (Ast.unary .hash (.digit n)).show surf cells = .ok shape ∧
      ∀ p (cellIn : Str → Bool), cellIn n = f p → shape p ≠ Meaning (.unary .hash (.digit n)) ⟨sense p, cellIn⟩ := by
  refine ⟨f, by simp [Ast.show, hc], fun p cellIn h => ?_⟩
  simp [Meaning, h]

/-! ### C15 -/

/-- Characters of geometry texts. -/
def geoChar (c : Char) : Bool := isSpace c || isDigit c || c == ':' || c == '.' || "(+#-".toList.contains c || c == ')'

theorem finditer_mem {r : Re} {s t : Str} (h : t ∈ finditer r s) :
    ∃ st st', Step r st st' ∧ t = st.rest.take (st.rest.length - st'.rest.length) := by
  unfold finditer at h
  have key : ∀ (n : Nat) (prev rest : Str) (x : Str × List (Nat × Str)), .inr x ∈ finditerAux r n prev rest →
      ∃ st st', Step r st st' ∧ x.1 = st.rest.take (st.rest.length - st'.rest.length) := by
    intro n
    induction n with
    | zero => intro prev rest x hx; simp [finditerAux] at hx
    | succ n ih =>
      intro prev rest x hx
      cases rest with
      | nil => simp [finditerAux] at hx
      | cons c cs =>
        rw [finditerAux] at hx
        split at hx
        · rename_i st hrun
          rcases List.mem_cons.1 hx with hx | hx
          · obtain ⟨st', hst, hk⟩ := (run_spec r _ _).2 _ hrun
            split at hk
            · cases hk; cases hx; exact ⟨_, _, hst, rfl⟩
            · cases hk
          · exact ih _ _ _ hx
        · rcases List.mem_cons.1 hx with hx | hx
          · cases hx
          · exact ih _ _ _ hx
  obtain ⟨x, hx, he⟩ := List.mem_filterMap.1 h
  cases x with
  | inl _ => cases he
  | inr x =>
    obtain ⟨st, st', hs, e⟩ := key _ _ _ _ hx
    cases he
    exact ⟨st, st', hs, e⟩

theorem step_geoRe {st st'} (h : Step geoRe st st') :
    ∃ w, st.rest = w ++ st'.rest ∧ ∀ c ∈ w, geoChar c = true := by
  have sp : ∀ {c}, isSpace c = true → geoChar c = true := by intro c h; simp [geoChar, h]
  have dg : ∀ {c}, isDigit c = true → geoChar c = true := by intro c h; simp [geoChar, h]
  unfold geoRe at h
  rcases step_alt.1 h with h | h
  · obtain ⟨m1, h1, h⟩ := step_seq.1 h
    obtain ⟨m2, h2, h3⟩ := step_seq.1 h
    obtain ⟨w, r, hw, e1, rfl⟩ := step_star_cls.1 h1
    obtain ⟨c, cs, hc, e2, rfl⟩ := step_cls.1 h2
    obtain ⟨w', r', hw', e3, rfl⟩ := step_star_cls.1 h3
    simp only [St.adv_rest] at e1 e2 e3 ⊢
    refine ⟨w ++ c :: w', by rw [e1, e2, e3]; simp, ?_⟩
    intro x hx
    simp only [List.mem_append, List.mem_cons] at hx
    rcases hx with hx | rfl | hx
    · exact sp (hw x hx)
    · have : x = ':' := by simpa using hc
      subst this; decide
    · exact sp (hw' x hx)
  rcases step_alt.1 h with h | h
  · obtain ⟨w, r, _, hw, e1, rfl⟩ := step_plus_cls.1 h
    exact ⟨w, e1, fun c hc => sp (hw c hc)⟩
  rcases step_alt.1 h with h | h
  · obtain ⟨m1, h1, h⟩ := step_seq.1 h
    obtain ⟨w, r, _, hw, e1, rfl⟩ := step_plus_cls.1 h1
    rcases step_opt.1 h with rfl | h
    · exact ⟨w, e1, fun c hc => dg (hw c hc)⟩
    · obtain ⟨m2, h2, h3⟩ := step_seq.1 h
      obtain ⟨c, cs, hc, e2, rfl⟩ := step_cls.1 h2
      obtain ⟨w', r', _, hw', e3, rfl⟩ := step_plus_cls.1 h3
      simp only [St.adv_rest] at e1 e2 e3 ⊢
      refine ⟨w ++ c :: w', by rw [e1, e2, e3]; simp, ?_⟩
      intro x hx
      simp only [List.mem_append, List.mem_cons] at hx
      rcases hx with hx | rfl | hx
      · exact dg (hw x hx)
      · have : x = '.' := by simpa using hc
        subst this; decide
      · exact dg (hw' x hx)
  rcases step_alt.1 h with h | h
  · obtain ⟨m2, h2, h3⟩ := step_seq.1 h
    obtain ⟨c, cs, hc, e2, rfl⟩ := step_cls.1 h2
    obtain ⟨w', r', hw', e3, rfl⟩ := step_star_cls.1 h3
    simp only [St.adv_rest] at e2 e3 ⊢
    refine ⟨c :: w', by rw [e2, e3]; simp, ?_⟩
    intro x hx
    rcases List.mem_cons.1 hx with rfl | hx
    · simp only [geoChar, hc, Bool.or_true, Bool.true_or]
    · exact sp (hw' x hx)
  · obtain ⟨m1, h1, h2⟩ := step_seq.1 h
    obtain ⟨w, r, hw, e1, rfl⟩ := step_star_cls.1 h1
    obtain ⟨c, cs, hc, e2, rfl⟩ := step_cls.1 h2
    simp only [St.adv_rest] at e1 e2 ⊢
    refine ⟨w ++ [c], by rw [e1, e2]; simp, ?_⟩
    intro x hx
    simp only [List.mem_append, List.mem_singleton] at hx
    rcases hx with hx | rfl
    · exact sp (hw x hx)
    · have : x = ')' := by simpa using hc
      subst this; decide

/-- **C15, partial.**  Parsing any text returns a geometry or fails with
`TypesError`, `AssertionError` or `IndexError` (never anything else, and it
always terminates); any text containing a character that cannot occur in a
geometry fails with the documented `TypesError`.

Missing: the two undocumented errors do occur (`C15_violated`). -/
theorem C15_errors_partial (s : Str) :
    ((∃ g, geoParse s = .ok g) ∨ geoParse s = .error .types ∨ geoParse s = .error .assertion ∨
      geoParse s = .error .index) ∧
    (∀ c ∈ strip s, geoChar c = false → geoParse s = .error .types) := by
  constructor
  · unfold geoParse
    simp only
    split
    · exact .inr (.inl rfl)
    · have hf := (parse_fuel (4 * ((finditer geoRe (strip s)).map (fun t => tokOf (tokStrip t))).length + 4)).1
        ((finditer geoRe (strip s)).map (fun t => tokOf (tokStrip t))) (by omega)
      split
      · exact .inr (.inl rfl)
      · rename_i e he hp
        rcases hf _ hp with rfl | rfl | rfl
        · exact absurd rfl he
        · exact .inr (.inr (.inl rfl))
        · exact .inr (.inr (.inr rfl))
      · exact .inl ⟨_, rfl⟩
      · exact .inr (.inr (.inl rfl))
  · intro c hc hbad
    unfold geoParse
    simp only
    rw [if_pos]
    intro heq
    rw [← heq] at hc
    obtain ⟨t, ht, hct⟩ := List.mem_flatten.1 hc
    obtain ⟨st, st', hs, e⟩ := finditer_mem ht
    obtain ⟨w, e1, hw⟩ := step_geoRe hs
    rw [e1, take_consumed] at e
    subst e
    rw [hw c hct] at hbad
    cases hbad

example : geoChar 'x' = false ∧ 'x' ∈ strip "1 x".toList := by decide

/-- The full C15 claim is false: "1 )" and "--1" escape with an
`AssertionError`, "1:" with an `IndexError`. -/
theorem C15_violated : geoParse "1 )".toList = .error .assertion ∧ geoParse "--1".toList = .error .assertion ∧
    geoParse "1:".toList = .error .index := by
  refine ⟨by decide +kernel, by decide +kernel, by decide +kernel⟩

end Props
