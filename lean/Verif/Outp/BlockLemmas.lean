import Verif.Outp.Block
import Verif.Py.TmplLemmas
/-!
Lemmas on blocks.  The pattern and the f-string of a class are compared character by character: both become lists of
symbols, a symbol being a character or the number of an attribute.  What the pattern reads without keeping it (a field that is
not a group) is printed from something else; `σ` says from what.
-/
namespace Outp
open Py Ptrac

/-- A character or an attribute. -/
abbrev Sym := Char ⊕ Nat

def Sym.text (v : Nat → Str) : Sym → Str
  | .inl c => [c]
  | .inr n => v n

def render (v : Nat → Str) (l : List Sym) : Str := l.flatMap (Sym.text v)

/-- The attribute of a field, or what is printed in the place of a field that is not kept. -/
def slotSyms (G : Nat) (σ : Nat → List Sym) (n : Nat) : List Sym := if n ≤ G then [.inr n] else σ n

def itemSyms (G : Nat) (σ : Nat → List Sym) : Item → List Sym
  | .lit s => s.map .inl
  | .ilit s => s.map .inl
  | .sp => [.inl ' ']
  | .fix _ n _ => slotSyms G σ n
  | .line _ n _ => slotSyms G σ n ++ [.inl '\n']
  | .many _ n _ => slotSyms G σ n ++ [.inl '\n']
  | .gen _ n _ => slotSyms G σ n

/-- The width of a field, when it is fixed. -/
def width (T : List Item) (n : Nat) : Option Nat :=
  T.findSome? fun i => match i with | .fix true m w => if m = n then some w else none | _ => none

def partSyms (T : List Item) : List Part → Option (List Sym)
  | [] => some []
  | .text s :: ps => (partSyms T ps).map (s.map .inl ++ ·)
  | .field n 0 :: ps => (partSyms T ps).map (.inr n :: ·)
  | .field n w :: ps =>
    match width T n, partSyms T ps with
    | some k, some l => some (.inr n :: (List.replicate (w - k) (.inl ' ') ++ l))
    | _, _ => none

/-- The number of characters, when every attribute has a fixed width and there is no line end. -/
def symsWidth (T : List Item) : List Sym → Option Nat
  | [] => some 0
  | .inl c :: l => if c = '\n' then none else (symsWidth T l).map (1 + ·)
  | .inr n :: l => match width T n, symsWidth T l with | some k, some j => some (k + j) | _, _ => none

/-- The fields: a field that is kept is a group, another one is printed with the right width. -/
def okSlot (T : List Item) (G : Nat) (σ : Nat → List Sym) : Item → Bool
  | .fix g n w => if n ≤ G then g && decide (1 ≤ n) else !g && decide (symsWidth T (σ n) = some w)
  | .line g n _ => decide (n ≤ G) && g && decide (1 ≤ n)
  | .many g n _ => decide (n ≤ G) && g && decide (1 ≤ n)
  | .gen g n _ => decide (n ≤ G) && g && decide (1 ≤ n)
  | _ => true

/-- No anchors and no groups. -/
def plainB : Re → Bool
  | .eps => true
  | .cls _ => true
  | .seq a b => plainB a && plainB b
  | .alt a b => plainB a && plainB b
  | .opt _ a => plainB a
  | .star _ a => plainB a
  | _ => false

def innerB : Item → Bool
  | .many _ _ r => plainB r
  | .gen _ _ r => plainB r
  | .ilit _ => false
  | .sp => false
  | _ => true

theorem plainB_spec {r : Re} (h : plainB r = true) : r.free = true ∧ r.groupsIn 0 0 := by
  induction r with
  | seq a b iha ihb =>
    simp only [plainB, Bool.and_eq_true] at h
    simp [Re.free, Re.groupsIn, iha h.1, ihb h.2]
  | alt a b iha ihb =>
    simp only [plainB, Bool.and_eq_true] at h
    simp [Re.free, Re.groupsIn, iha h.1, ihb h.2]
  | opt g a iha => exact iha h
  | star g a iha => exact iha h
  | eps => exact ⟨rfl, trivial⟩
  | cls p => exact ⟨rfl, trivial⟩
  | grp => cases h
  | bos => cases h
  | eos => cases h
  | behind => cases h

theorem innerB_spec {T : List Item} (h : T.all innerB = true) : ∀ i ∈ T, i.Inner := by
  intro i hi
  have := List.all_eq_true.1 h i hi
  cases i <;> first | exact plainB_spec this | trivial | cases this

/-- The tables of a class agree. -/
structure Agree (T : List Item) (parts : List Part) (G : Nat) (σ : Nat → List Sym) : Prop where
  inner : T.all innerB = true
  nodup : (T.filterMap Item.slot).Nodup
  slots : T.all (okSlot T G σ) = true
  groups : ∀ i : Fin G, i.val + 1 ∈ T.filterMap Item.group
  same : partSyms T parts = some (T.flatMap (itemSyms G σ))

instance (T parts G σ) : Decidable (Agree T parts G σ) :=
  decidable_of_iff (T.all innerB = true ∧ (T.filterMap Item.slot).Nodup ∧ T.all (okSlot T G σ) = true ∧
      (∀ i : Fin G, i.val + 1 ∈ T.filterMap Item.group) ∧ partSyms T parts = some (T.flatMap (itemSyms G σ)))
    ⟨fun ⟨a, b, c, d, e⟩ => ⟨a, b, c, d, e⟩, fun ⟨a, b, c, d, e⟩ => ⟨a, b, c, d, e⟩⟩

/-- The contents of the fields when these attributes are printed. -/
def filled (G : Nat) (σ : Nat → List Sym) (v : Nat → Str) (n : Nat) : Str := if n ≤ G then v n else render v (σ n)

theorem render_append (v : Nat → Str) (a b : List Sym) : render v (a ++ b) = render v a ++ render v b := by simp [render]

theorem render_inl (v : Nat → Str) (s : Str) : render v (s.map .inl) = s := by
  induction s with
  | nil => rfl
  | cons c s ih => simpa [render, Sym.text] using ih

theorem render_slot (G σ v n) : render v (slotSyms G σ n) = filled G σ v n := by
  unfold slotSyms filled
  by_cases h : n ≤ G
  · simp [h, render, Sym.text]
  · simp [h]

theorem render_items (G σ v) (T : List Item) : render v (T.flatMap (itemSyms G σ)) = tmplText (filled G σ v) T := by
  induction T with
  | nil => rfl
  | cons i T ih =>
    rw [List.flatMap_cons, render_append, ih, tmplText]
    congr 1
    have hn : render v [Sum.inl '\n'] = ['\n'] := rfl
    cases i <;> simp only [itemSyms, Item.text, render_inl, render_slot, render_append, hn]
    rfl

theorem width_slot {T : List Item} {n k : Nat} (hw : width T n = some k) : Item.fix true n k ∈ T := by
  obtain ⟨i, hi, e⟩ := List.exists_of_findSome?_eq_some hw
  cases i with
  | fix g m w =>
    cases g with
    | false => cases e
    | true =>
      simp only at e
      by_cases hm : m = n
      · subst hm; rw [if_pos rfl] at e; cases e; exact hi
      · rw [if_neg hm] at e; cases e
  | _ => cases e

theorem width_shape {T : List Item} {v : Nat → Str} (h : ∀ i ∈ T, i.Shape v) {n k : Nat} (hw : width T n = some k) :
    (v n).length = k ∧ '\n' ∉ v n := h _ (width_slot hw)

theorem render_parts {T : List Item} {b : List Str} (hw : ∀ n k, width T n = some k → (b.getD (n - 1) []).length = k) :
    ∀ (ps : List Part) {l}, partSyms T ps = some l → partsText b ps = render (fun n => b.getD (n - 1) []) l
  | [], l, h => by cases h; rfl
  | .text s :: ps, l, h => by
    simp only [partSyms, Option.map_eq_some_iff] at h
    obtain ⟨l', h1, rfl⟩ := h
    rw [partsText, render_parts hw ps h1, render_append, render_inl]
  | .field n 0 :: ps, l, h => by
    simp only [partSyms, Option.map_eq_some_iff] at h
    obtain ⟨l', h1, rfl⟩ := h
    rw [partsText, render_parts hw ps h1]
    simp [pad, render, Sym.text]
  | .field n (w + 1) :: ps, l, h => by
    rw [partSyms] at h
    · cases h1 : width T n with
      | none => rw [h1] at h; simp at h
      | some k =>
        cases h2 : partSyms T ps with
        | none => rw [h1, h2] at h; simp at h
        | some l' =>
          rw [h1, h2] at h
          simp only [Option.some.injEq] at h
          subst h
          rw [partsText, render_parts hw ps h2]
          have e1 : ∀ m, render (fun n => b.getD (n - 1) []) (List.replicate m (Sum.inl ' ')) = List.replicate m ' ' := by
            intro m
            have := render_inl (fun n => b.getD (n - 1) []) (List.replicate m ' ')
            rwa [List.map_replicate] at this
          rw [show ∀ l : List Sym, (Sum.inr n :: l : List Sym) = [Sum.inr n] ++ l from fun _ => rfl, render_append, render_append, e1]
          have : render (fun n => b.getD (n - 1) []) [Sum.inr n] = b.getD (n - 1) [] := by simp [render, Sym.text]
          rw [this, pad, hw n k h1, List.append_assoc]
    · omega

/-- The values of the attributes 1, ..., `G`. -/
def valsOf (G : Nat) (v : Nat → Str) : List Str := (List.range G).map fun i => v (i + 1)

theorem valsOf_getD {G : Nat} {v : Nat → Str} {n : Nat} (h1 : 1 ≤ n) (h2 : n ≤ G) : (valsOf G v).getD (n - 1) [] = v n := by
  have : n - 1 < G := by omega
  simp [valsOf, List.getD, this, show n - 1 + 1 = n by omega]

theorem valsOf_congr {G : Nat} {v v' : Nat → Str} (h : ∀ n, 1 ≤ n → n ≤ G → v n = v' n) : valsOf G v = valsOf G v' := by
  unfold valsOf
  apply List.map_congr_left
  intro i hi
  have : i < G := by simpa using hi
  exact h (i + 1) (by omega) (by omega)

theorem groupTexts_tmpl {T : List Item} {G : Nat} (hg : ∀ i : Fin G, i.val + 1 ∈ T.filterMap Item.group) (v : Nat → Str) (s : Str) :
    groupTexts ((0, s) :: tmplCaps v T) G = valsOf G v := by
  unfold groupTexts valsOf
  apply List.map_congr_left
  intro i hi
  unfold tok
  rw [cap_tmpl (hg ⟨i, by simpa using hi⟩) s (by omega)]
  rfl

section
variable {T : List Item} {parts : List Part} {G : Nat} {σ : Nat → List Sym}

theorem slot_cases (h : Agree T parts G σ) {i : Item} (hi : i ∈ T) {n : Nat} (hn : i.slot = some n) :
    (1 ≤ n ∧ n ≤ G) ∨ (G < n ∧ ∃ w, i = .fix false n w ∧ symsWidth T (σ n) = some w) := by
  have := List.all_eq_true.1 h.slots i hi
  cases i <;> simp only [Item.slot, Option.some.injEq, reduceCtorEq] at hn <;> subst hn
  case fix g m w =>
    simp only [okSlot] at this
    by_cases hm : m ≤ G
    · rw [if_pos hm] at this
      simp only [Bool.and_eq_true, decide_eq_true_eq] at this
      exact .inl ⟨this.2, hm⟩
    · rw [if_neg hm] at this
      simp only [Bool.and_eq_true, decide_eq_true_eq, Bool.not_eq_true'] at this
      obtain ⟨rfl, h2⟩ := this
      exact .inr ⟨by omega, w, rfl, h2⟩
  all_goals
    simp only [okSlot, Bool.and_eq_true, decide_eq_true_eq] at this
    exact .inl ⟨this.2, this.1.1⟩

theorem symsWidth_render {v : Nat → Str} (hs : ∀ n k, width T n = some k → (v n).length = k ∧ '\n' ∉ v n) :
    ∀ (l : List Sym) {w}, symsWidth T l = some w → (render v l).length = w ∧ '\n' ∉ render v l
  | [], w, h => by cases h; exact ⟨rfl, by simp [render]⟩
  | .inl c :: l, w, h => by
    simp only [symsWidth] at h
    by_cases hc : c = '\n'
    · rw [if_pos hc] at h; cases h
    · rw [if_neg hc] at h
      obtain ⟨j, h1, rfl⟩ := Option.map_eq_some_iff.1 h
      obtain ⟨a, b⟩ := symsWidth_render hs l h1
      rw [show (Sum.inl c :: l : List Sym) = [Sum.inl c] ++ l from rfl, render_append]
      have e : render v [Sum.inl c] = [c] := rfl
      rw [e]
      refine ⟨by simp [a]; omega, ?_⟩
      simp only [List.singleton_append, List.mem_cons, not_or]
      exact ⟨fun e => hc e.symm, b⟩
  | .inr n :: l, w, h => by
    simp only [symsWidth] at h
    cases h1 : width T n with
    | none => rw [h1] at h; simp at h
    | some k =>
      cases h2 : symsWidth T l with
      | none => rw [h1, h2] at h; simp at h
      | some j =>
        rw [h1, h2] at h
        simp only [Option.some.injEq] at h
        subst h
        obtain ⟨a, b⟩ := symsWidth_render hs l h2
        obtain ⟨a', b'⟩ := hs n k h1
        rw [show (Sum.inr n :: l : List Sym) = [Sum.inr n] ++ l from rfl, render_append]
        have e : render v [Sum.inr n] = v n := by simp [render, Sym.text]
        rw [e]
        exact ⟨by simp [a, a'], by simp [b, b']⟩

/-- The attributes, as a function of their number. -/
def attr (b : List Str) (n : Nat) : Str := b.getD (n - 1) []

theorem width_attr (h : Agree T parts G σ) {v : Nat → Str} (hs : ∀ i ∈ T, i.Shape v) {n k : Nat} (hw : width T n = some k) :
    (attr (valsOf G v) n).length = k ∧ '\n' ∉ attr (valsOf G v) n := by
  have hi := width_slot hw
  rcases slot_cases h hi rfl with hn | ⟨hn, w, e, h2⟩
  · rw [attr, valsOf_getD hn.1 hn.2]
    exact hs _ hi
  · cases e

/-- What is printed is the text of the pattern. -/
theorem print_eq (h : Agree T parts G σ) {v : Nat → Str} (hs : ∀ i ∈ T, i.Shape v) :
    partsText (valsOf G v) parts = tmplText (filled G σ (attr (valsOf G v))) T := by
  rw [← render_items]
  exact render_parts (fun n k hw => (width_attr h hs hw).1) _ h.same

/-- The contents of the fields when the attributes are printed. -/
theorem filled_shape (h : Agree T parts G σ) {v : Nat → Str} (hs : ∀ i ∈ T, i.Shape v) :
    ∀ i ∈ T, i.Shape (filled G σ (attr (valsOf G v))) := by
  intro i hi
  by_cases hf : ∃ n w, i = .fix false n w ∧ G < n ∧ symsWidth T (σ n) = some w
  · obtain ⟨n, w, rfl, hn, hw⟩ := hf
    have := symsWidth_render (T := T) (v := attr (valsOf G v)) (fun n k hw => width_attr h hs hw) _ hw
    show (filled G σ _ n).length = w ∧ _
    unfold filled
    rw [if_neg (by omega)]
    exact this
  · apply Item.shape_congr _ (hs i hi)
    intro n hn
    rcases slot_cases h hi hn with h1 | ⟨h1, w, rfl, h3⟩
    · unfold filled
      rw [if_pos h1.2, attr, valsOf_getD h1.1 h1.2]
    · exact absurd ⟨n, w, rfl, h1, h3⟩ hf

theorem filled_vals (b : List Str) (hb : b.length = G) : valsOf G (filled G σ (attr b)) = b := by
  subst hb
  apply List.ext_getElem
  · simp [valsOf]
  · intro i h1 h2
    simp [valsOf, filled, attr, show i + 1 ≤ b.length from h2, List.getD, h2]

theorem valsOf_length (G : Nat) (v : Nat → Str) : (valsOf G v).length = G := by simp [valsOf]

/-- When every field is kept, what is printed is what was read. -/
theorem print_exact (h : Agree T parts G σ) (hall : ∀ n ∈ T.filterMap Item.slot, n ≤ G) {v : Nat → Str} (hs : ∀ i ∈ T, i.Shape v) :
    partsText (valsOf G v) parts = tmplText v T := by
  rw [print_eq h hs]
  apply (tmpl_congr _).1
  intro n hn
  obtain ⟨i, hi, hsl⟩ := List.mem_filterMap.1 hn
  rcases slot_cases h hi hsl with h1 | ⟨h1, _⟩
  · unfold filled
    rw [if_pos h1.2, attr, valsOf_getD h1.1 h1.2]
  · exact absurd (hall n hn) (by omega)

end

/-! ## Lines -/

theorem mt_dotLine {w e} (h : Mt dotLine w e) : e = [] ∧ ∃ u : Str, u ≠ [] ∧ '\n' ∉ u ∧ w = u ++ ['\n'] := by
  cases h with
  | seq h1 h2 =>
    obtain ⟨rfl, rfl⟩ := mt_chr h2
    obtain ⟨rfl, a, b⟩ := mt_dot_plus h1
    exact ⟨rfl, _, a, b, rfl⟩

theorem runsTo_dotLine {u : Str} (h0 : u ≠ []) (hu : '\n' ∉ u) : RunsTo dotLine (u ++ ['\n']) [] := by
  have := runsTo_many (words_dot h0 hu) true false 0
  rw [flatten_chars] at this
  exact this

theorem words_dotLine {ws : List Str} (h0 : ws ≠ []) (h : ∀ w ∈ ws, Mt dotLine w []) : Words dotLine ws := by
  refine ⟨h0, ?_, ?_⟩
  · intro w hw
    obtain ⟨_, u, a, b, rfl⟩ := mt_dotLine (h w hw)
    refine ⟨runsTo_dotLine a b, ?_⟩
    cases u with
    | nil => exact absurd rfl a
    | cons x xs => exact ⟨x, xs ++ ['\n'], rfl, fun e => b (by simp [e])⟩
  · intro α prev s caps k
    rw [dotLine, run_seq, Re.plus, run_seq, Re.dot, run_cls_cons, if_neg (by simp)]

/-- The items every match of which is read in one way. -/
def detItem : Item → Prop
  | .gen _ _ _ => False
  | .many _ _ r => r = dotLine
  | _ => True

theorem fit_of_shape {v : Nat → Str} {i : Item} (hd : detItem i) (hs : i.Shape v) : i.Fit v := by
  cases i with
  | gen g n r => exact absurd hd (by simp [detItem])
  | many g n r =>
    have : r = dotLine := hd
    subst this
    obtain ⟨ws, a, b, c⟩ := hs
    exact ⟨ws, words_dotLine a b, c⟩
  | lit s => trivial
  | ilit s => trivial
  | sp => trivial
  | fix g n w => exact hs
  | line g n pre => exact hs

/-! ## Blocks -/

section
variable {d : BlockDef} {σ : Nat → List Sym}

/-- What a block read from a text is. -/
theorem block_read (h : Agree d.items d.parts d.groups σ) {s : Str} {b : List Str} (hb : blockParse d s = .ok b) :
    ∃ v : Nat → Str, (∀ i ∈ d.items, i.Shape v) ∧ s = tmplText v d.items ∧ b = valsOf d.groups v := by
  unfold blockParse at hb
  cases hm : reMatch (whole (tmplRe d.items)) s with
  | none => rw [hm] at hb; cases hb
  | some m =>
    rw [hm] at hb
    simp only [Except.ok.injEq] at hb
    obtain ⟨v, a, c, rfl⟩ := tmpl_read (innerB_spec h.inner) h.nodup hm
    refine ⟨v, a, c, ?_⟩
    rw [← hb, groupTexts_tmpl h.groups]

theorem block_exact (h : Agree d.items d.parts d.groups σ) (hall : ∀ n ∈ d.items.filterMap Item.slot, n ≤ d.groups) {s : Str}
    {b : List Str} (hb : blockParse d s = .ok b) : blockStr d b = s := by
  obtain ⟨v, a, rfl, rfl⟩ := block_read h hb
  exact print_exact h hall a

theorem block_reread (h : Agree d.items d.parts d.groups σ) (hd : ∀ i ∈ d.items, detItem i) {s : Str} {b : List Str}
    (hb : blockParse d s = .ok b) : blockParse d (blockStr d b) = .ok b := by
  obtain ⟨v, a, rfl, rfl⟩ := block_read h hb
  have h1 := filled_shape h a
  unfold blockParse blockStr
  rw [print_eq h a, whole, tmpl_match fun i hi => fit_of_shape (hd i hi) (h1 i hi)]
  simp only [groupTexts_tmpl h.groups, filled_vals _ (valsOf_length _ _)]

theorem block_reread_last (h : Agree d.items d.parts d.groups σ) {T : List Item} {g n r} (he : d.items = T ++ [.gen g n r])
    (hd : ∀ i ∈ T, detItem i) {s : Str} {b : List Str} (hb : blockParse d s = .ok b) : blockParse d (blockStr d b) = .ok b := by
  obtain ⟨v, a, rfl, rfl⟩ := block_read h hb
  have h1 := filled_shape h a
  have h2 : Item.Inner (.gen g n r) := innerB_spec h.inner _ (by rw [he]; simp)
  unfold blockParse blockStr
  rw [print_eq h a, whole]
  have h3 := tmpl_match_last (v := filled d.groups σ (attr (valsOf d.groups v))) (T := T) (g := g) (n := n) (r := r)
    (fun i hi => fit_of_shape (hd i hi) (h1 i (by rw [he]; simp [hi]))) h2.1 h2.2 (h1 (.gen g n r) (by rw [he]; simp))
  rw [← he] at h3
  rw [h3]
  simp only [groupTexts_tmpl h.groups, filled_vals _ (valsOf_length _ _)]

end
end Outp
