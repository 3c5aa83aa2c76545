import Mathlib.Tactic.Linarith
import Mathlib.Tactic.NormNum
import Mathlib.Tactic.Ring
import Mathlib.Tactic.FieldSimp
import Mathlib.Tactic.LinearCombination
import Mathlib.Tactic.Positivity
import Verif.Inp.Formula
/-!
# Materials from formulas: C80
-/
namespace Props
open Py Elements Formula

/-! ## Specification -/

/-- What `molmass` promises of a formula: the mass is the sum of the masses of the elements, all positive; the fraction of an element is its part
of the mass. -/
structure Weighed (c : Compound) : Prop where
  mass : c.mass = (c.parts.map (·.mass)).sum
  positive : ∀ p ∈ c.parts, 0 < p.mass
  fraction : ∀ p ∈ c.parts, p.fraction = p.mass / c.mass

/-- The element of a part, by the table. -/
def IsElement (p : Part) (e : Element) : Prop := e ∈ table ∧ e.symbol = p.symbol

/-- The part of the number of atoms of an element that an isotope makes up. -/
def atomShare (i : Nat × Nat × Nat) : ℚ := i.2.1 / 10 ^ 9

/-- The mean mass of the atoms of an element, in units of 10⁻¹². -/
def meanMass (e : Element) : ℚ := (e.isotopes.map fun i => atomShare i * i.2.2).sum

/-- The part of the mass of an element that an isotope makes up. -/
def weightShare (e : Element) (i : Nat × Nat × Nat) : ℚ := atomShare i * i.2.2 / meanMass e

/-- The part of the atoms of a compound that are of this element. -/
def atomFraction (c : Compound) (p : Part) : ℚ := p.count / (c.parts.map fun q => (q.count : ℚ)).sum

/-! ## C80 – the fractions of materials from formulas -/

set_option maxRecDepth 100000 in
/-- **C80, the table:** every element has one entry and an atomic number from 1 to 118; the isotopes of an element that has any have positive abundances
with the sum one, distinct mass numbers, and masses within 0.2 of them. -/
theorem C80_table : (table.map (·.symbol)).Nodup ∧ ∀ e ∈ table, (1 ≤ e.z ∧ e.z ≤ 118) ∧ (e.isotopes.map (·.1)).Nodup ∧
    (e.isotopes = [] ∨ (e.isotopes.map (·.2.1)).sum = 10 ^ 9) ∧
    ∀ i ∈ e.isotopes, 0 < i.2.1 ∧ i.1 * 10 ^ 12 ≤ i.2.2 + 2 * 10 ^ 11 ∧ i.2.2 ≤ i.1 * 10 ^ 12 + 2 * 10 ^ 11 := by
  decide +kernel

theorem lookup_of {p : Part} {e : Element} (h : IsElement p e) : lookup p.symbol = some e := by
  unfold lookup
  have : ∀ l : List Element, (l.map (·.symbol)).Nodup → e ∈ l → l.find? (fun x => x.symbol == p.symbol) = some e := by
    intro l
    induction l with
    | nil => simp
    | cons x l ih =>
      intro hn hm
      rw [List.map_cons, List.nodup_cons] at hn
      rcases List.mem_cons.1 hm with rfl | hm
      · rw [List.find?_cons_of_pos (by simpa using h.2)]
      · rw [List.find?_cons_of_neg, ih hn.2 hm]
        simp only [beq_iff_eq]
        intro hx
        exact hn.1 (by rw [hx, ← h.2]; exact List.mem_map.2 ⟨e, hm, rfl⟩)
  exact this table C80_table.1 h.1

theorem of_lookup {s : Str} {e : Element} (h : lookup s = some e) : e ∈ table ∧ e.symbol = s := by
  unfold lookup at h
  exact ⟨List.mem_of_find?_eq_some h, by simpa using List.find?_some h⟩

/-- What an entry for an isotope of an element of a formula is, in either mode. -/
theorem mem_part {b : Bool} {cutoff w : ℚ} {c : Compound} (hc : Weighed c) {p : Part} (hp : p ∈ c.parts) {e : Element} (he : IsElement p e) :
    ∃ l, partEntries b cutoff w c p = .ok l ∧ ∀ x, x ∈ l ↔ ∃ i ∈ e.isotopes, w * (p.mass / c.mass) * atomShare i > cutoff ∧
      x = ⟨e.z, i.1, (if b then -1 else 1) * (w * (p.mass / c.mass) * atomShare i)⟩ := by
  have hf : (if b then p.fraction else p.mass / c.mass) = p.mass / c.mass := by
    cases b
    · rfl
    · exact hc.fraction p hp
  refine ⟨_, by simp only [partEntries, lookup_of he]; rfl, fun x => ?_⟩
  simp only [hf, List.mem_map, List.mem_filter, decide_eq_true_eq, abundance, atomShare, and_assoc]
  constructor
  · rintro ⟨i, hi, h1, rfl⟩
    exact ⟨i, hi, h1, by congr 1; ring⟩
  · rintro ⟨i, hi, h1, rfl⟩
    exact ⟨i, hi, h1, by congr 1; ring⟩

theorem mem_compound {b : Bool} {cutoff w : ℚ} {c : Compound} (hc : Weighed c) : ∀ ps : List Part, (∀ p ∈ ps, p ∈ c.parts) →
    (∀ p ∈ ps, ∃ e, IsElement p e) →
    ∃ l, compoundEntries b cutoff w c ps = .ok l ∧ ∀ x, x ∈ l ↔ ∃ p ∈ ps, ∃ e, IsElement p e ∧ ∃ i ∈ e.isotopes,
      w * (p.mass / c.mass) * atomShare i > cutoff ∧ x = ⟨e.z, i.1, (if b then -1 else 1) * (w * (p.mass / c.mass) * atomShare i)⟩ := by
  intro ps
  induction ps with
  | nil => intro _ _; exact ⟨[], rfl, by simp⟩
  | cons p ps ih =>
    intro hps hel
    obtain ⟨e, he⟩ := hel p List.mem_cons_self
    obtain ⟨l, h1, h2⟩ := mem_part (b := b) (cutoff := cutoff) (w := w) hc (hps p List.mem_cons_self) he
    obtain ⟨l', h3, h4⟩ := ih (fun q hq => hps q (List.mem_cons_of_mem _ hq)) (fun q hq => hel q (List.mem_cons_of_mem _ hq))
    refine ⟨l ++ l', by simp only [compoundEntries, h1, h3], fun x => ?_⟩
    rw [List.mem_append, h2, h4]
    constructor
    · rintro (⟨i, hi, h⟩ | ⟨q, hq, h⟩)
      · exact ⟨p, List.mem_cons_self, e, he, i, hi, h⟩
      · exact ⟨q, List.mem_cons_of_mem _ hq, h⟩
    · rintro ⟨q, hq, e', he', i, hi, h⟩
      rcases List.mem_cons.1 hq with rfl | hq
      · have : e' = e := by have := (lookup_of he').symm.trans (lookup_of he); cases this; rfl
        subst this
        exact .inl ⟨i, hi, h⟩
      · exact .inr ⟨q, hq, e', he', i, hi, h⟩

/-- **C80, entries:** in either mode the material has exactly these entries: for every formula, every element in it and every natural isotope of
the element whose product of fractions is above the cutoff, that product, with a minus sign for weights.  The fraction of the element is that of its mass, in
both modes, and the share of the isotope is that of the number of atoms, in both modes. -/
theorem C80_entries (b : Bool) (cutoff : ℚ) (l : List (Compound × ℚ)) (hc : ∀ x ∈ l, Weighed x.1)
    (hel : ∀ x ∈ l, ∀ p ∈ x.1.parts, ∃ e, IsElement p e) :
    ∃ out, fromFormula b cutoff l = .ok out ∧ ∀ x, x ∈ out ↔ ∃ y ∈ l, ∃ p ∈ y.1.parts, ∃ e, IsElement p e ∧ ∃ i ∈ e.isotopes,
      y.2 * (p.mass / y.1.mass) * atomShare i > cutoff ∧
        x = ⟨e.z, i.1, (if b then -1 else 1) * (y.2 * (p.mass / y.1.mass) * atomShare i)⟩ := by
  induction l with
  | nil => exact ⟨[], rfl, by simp⟩
  | cons y l ih =>
    obtain ⟨c, w⟩ := y
    obtain ⟨o, h1, h2⟩ := mem_compound (b := b) (cutoff := cutoff) (w := w) (hc _ List.mem_cons_self) c.parts (fun _ h => h)
      (hel _ List.mem_cons_self)
    obtain ⟨o', h3, h4⟩ := ih (fun x hx => hc x (List.mem_cons_of_mem _ hx)) (fun x hx => hel x (List.mem_cons_of_mem _ hx))
    refine ⟨o ++ o', by simp only [fromFormula, h1, h3], fun x => ?_⟩
    rw [List.mem_append, h2, h4]
    simp only [List.mem_cons, exists_eq_or_imp]

/-- **C80, part:** with weights, an element with a single natural isotope gets the fraction of its mass, unless that is cut
off. Missing: elements with several isotopes and fractions of atoms, for which the claim is false (`C80_atoms_violated`,
`C80_isotopes_violated`). -/
theorem C80_single_partial (cutoff : ℚ) (l : List (Compound × ℚ)) (hc : ∀ x ∈ l, Weighed x.1)
    (hel : ∀ x ∈ l, ∀ p ∈ x.1.parts, ∃ e, IsElement p e) (y : Compound × ℚ) (hy : y ∈ l) (p : Part) (hp : p ∈ y.1.parts) (e : Element)
    (he : IsElement p e) (i : Nat × Nat × Nat) (hi : e.isotopes = [i]) (hcut : y.2 * (p.mass / y.1.mass) > cutoff) :
    ∃ out, fromFormula true cutoff l = .ok out ∧ ⟨e.z, i.1, -(y.2 * (p.mass / y.1.mass))⟩ ∈ out := by
  obtain ⟨out, h1, h2⟩ := C80_entries true cutoff l hc hel
  have hs : i.2.1 = 10 ^ 9 := by
    have := (C80_table.2 e he.1).2.2.1
    simpa [hi] using this
  have ha : atomShare i = 1 := by unfold atomShare; rw [hs]; norm_num
  refine ⟨out, h1, (h2 _).2 ⟨y, hy, p, hp, e, he, i, by simp [hi], by rw [ha, mul_one]; exact hcut, ?_⟩⟩
  simp only [ha, if_true]
  congr 1; ring

/-- Aluminium. -/
def aluminium : Compound := ⟨[⟨c!"Al", 1, 27, 27 / 27⟩], 27⟩

example : ∃ out, fromFormula true (1 / 100) [(aluminium, 1 / 2)] = .ok out ∧ (⟨13, 27, -(1 / 2 * (27 / 27))⟩ : Entry) ∈ out :=
  C80_single_partial (1 / 100) [(aluminium, 1 / 2)]
    (by
      intro x hx
      simp only [List.mem_singleton] at hx; subst hx
      exact ⟨by norm_num [aluminium], by simp [aluminium], by simp [aluminium]⟩)
    (by
      intro x hx p hp
      simp only [List.mem_singleton] at hx; subst hx
      simp only [aluminium, List.mem_singleton] at hp; subst hp
      exact ⟨⟨c!"Al", 13, [(27, 1000000000, 26981538530000)]⟩, by simp [table, table0], rfl⟩)
    _ List.mem_cons_self ⟨c!"Al", 1, 27, 27 / 27⟩ List.mem_cons_self ⟨c!"Al", 13, [(27, 1000000000, 26981538530000)]⟩
    ⟨by simp [table, table0], rfl⟩ (27, 1000000000, 26981538530000) rfl (by norm_num [aluminium])

theorem sum_entries (e : Element) (k : ℚ) (h : (e.isotopes.map (·.2.1)).sum = 10 ^ 9) :
    (e.isotopes.map fun i => k * abundance i.2.1).sum = k := by
  have : ∀ l : List (Nat × Nat × Nat), (l.map fun i => k * abundance i.2.1).sum = k * ((l.map (·.2.1)).sum : Nat) / 10 ^ 9 := by
    intro l
    induction l with
    | nil => simp
    | cons i l ih => rw [List.map_cons, List.sum_cons, ih, List.map_cons, List.sum_cons, Nat.cast_add]; unfold abundance; ring
  rw [this, h]; norm_num

/-- The sum of the entries with this atomic number. -/
def elementSum (z : Nat) (l : List Entry) : ℚ := ((l.filter fun x => x.z == z).map (·.ratio)).sum

theorem elementSum_append (z : Nat) (l l' : List Entry) : elementSum z (l ++ l') = elementSum z l + elementSum z l' := by
  simp [elementSum]

open Classical in
/-- The fraction by mass of the elements with this atomic number in a formula. -/
noncomputable def massFraction (z : Nat) (c : Compound) (ps : List Part) : ℚ :=
  (ps.map fun p => if ∃ e, IsElement p e ∧ e.z = z then p.mass / c.mass else 0).sum

/-- **C80, part:** with weights and nothing cut off, the entries of an element have its fraction of the mass of the mixture as their sum, if all elements
occur in nature. Missing: the isotopes of an element, and elements that do not occur in nature, for which the claim is false
(`C80_unnatural_violated`). -/
theorem C80_elements_partial (l : List (Compound × ℚ)) (hc : ∀ x ∈ l, Weighed x.1) (hw : ∀ x ∈ l, 0 < x.2)
    (hel : ∀ x ∈ l, ∀ p ∈ x.1.parts, ∃ e, IsElement p e ∧ e.isotopes ≠ []) :
    ∃ out, fromFormula true 0 l = .ok out ∧ ∀ z, elementSum z out = -(l.map fun y => y.2 * massFraction z y.1 y.1.parts).sum := by
  have part : ∀ (c : Compound) (w : ℚ), Weighed c → 0 < w → ∀ p ∈ c.parts, (∃ e, IsElement p e ∧ e.isotopes ≠ []) →
      ∃ o, partEntries true 0 w c p = .ok o ∧ ∀ z, elementSum z o = -(w * massFraction z c [p]) := by
    intro c w hcw hw0 p hp hpe
    obtain ⟨e, he, hne⟩ := hpe
    have hm : 0 < c.mass := by
      rw [hcw.mass]
      have : ∀ ps : List Part, (∀ q ∈ ps, 0 < q.mass) → 0 ≤ (ps.map (·.mass)).sum := by
        intro ps
        induction ps with
        | nil => simp
        | cons q qs ih =>
          intro h
          simp only [List.map_cons, List.sum_cons]
          have := h q List.mem_cons_self
          have := ih fun r hr => h r (List.mem_cons_of_mem _ hr)
          linarith
      have hpos : ∀ ps : List Part, (∀ q ∈ ps, 0 < q.mass) → p ∈ ps → 0 < (ps.map (·.mass)).sum := by
        intro ps
        induction ps with
        | nil => simp
        | cons q qs ih =>
          intro h hpq
          simp only [List.map_cons, List.sum_cons]
          have h1 := h q List.mem_cons_self
          have h2 := this qs fun r hr => h r (List.mem_cons_of_mem _ hr)
          linarith
      exact hpos c.parts hcw.positive hp
    have hsum : (e.isotopes.map (·.2.1)).sum = 10 ^ 9 := ((C80_table.2 e he.1).2.2.1).resolve_left hne
    have hk : 0 < w * (p.mass / c.mass) := mul_pos hw0 (div_pos (hcw.positive p hp) hm)
    have hfil : (e.isotopes.filter fun i => decide (w * p.fraction * abundance i.2.1 > 0)) = e.isotopes := by
      rw [List.filter_eq_self]
      intro i hi
      have h0 : 0 < i.2.1 := ((C80_table.2 e he.1).2.2.2 i hi).1
      have h1 : (0 : ℚ) < abundance i.2.1 := by unfold abundance; positivity
      rw [hcw.fraction p hp]
      simpa using mul_pos hk h1
    refine ⟨_, by simp only [partEntries, lookup_of he, if_true, hfil]; rfl, fun z => ?_⟩
    have huniq : (∃ e', IsElement p e' ∧ e'.z = z) ↔ e.z = z := by
      constructor
      · rintro ⟨e', he', hz⟩
        have := (lookup_of he').symm.trans (lookup_of he)
        cases this; exact hz
      · intro h; exact ⟨e, he, h⟩
    simp only [massFraction, List.map_cons, List.map_nil, List.sum_cons, List.sum_nil, add_zero, huniq]
    by_cases hz : e.z = z
    · rw [if_pos hz]
      have := sum_entries e (-1 * w * p.fraction) hsum
      simp only [elementSum]
      rw [List.filter_eq_self.2 (by intro x hx; obtain ⟨i, -, rfl⟩ := List.mem_map.1 hx; simpa using hz), List.map_map]
      rw [← hcw.fraction p hp]
      calc _ = (e.isotopes.map fun i => -1 * w * p.fraction * abundance i.2.1).sum := rfl
        _ = _ := by rw [this]; ring
    · rw [if_neg hz]
      simp only [elementSum]
      rw [List.filter_eq_nil_iff.2 (by intro x hx; obtain ⟨i, -, rfl⟩ := List.mem_map.1 hx; simpa using hz)]
      simp
  have comp : ∀ (c : Compound) (w : ℚ), Weighed c → 0 < w → ∀ ps : List Part, (∀ p ∈ ps, p ∈ c.parts) →
      (∀ p ∈ ps, ∃ e, IsElement p e ∧ e.isotopes ≠ []) →
      ∃ o, compoundEntries true 0 w c ps = .ok o ∧ ∀ z, elementSum z o = -(w * massFraction z c ps) := by
    intro c w hcw hw0 ps
    induction ps with
    | nil => intro _ _; exact ⟨[], rfl, fun z => by simp [elementSum, massFraction]⟩
    | cons p ps ih =>
      intro h1 h2
      obtain ⟨o, e1, e2⟩ := part c w hcw hw0 p (h1 p List.mem_cons_self) (h2 p List.mem_cons_self)
      obtain ⟨o', e3, e4⟩ := ih (fun q hq => h1 q (List.mem_cons_of_mem _ hq)) (fun q hq => h2 q (List.mem_cons_of_mem _ hq))
      refine ⟨o ++ o', by simp only [compoundEntries, e1, e3], fun z => ?_⟩
      rw [elementSum_append, e2, e4]
      simp only [massFraction, List.map_cons, List.map_nil, List.sum_cons, List.sum_nil]
      ring
  induction l with
  | nil => exact ⟨[], rfl, fun z => by simp [elementSum]⟩
  | cons y l ih =>
    obtain ⟨c, w⟩ := y
    obtain ⟨o, e1, e2⟩ := comp c w (hc _ List.mem_cons_self) (hw _ List.mem_cons_self) c.parts (fun _ h => h) (hel _ List.mem_cons_self)
    obtain ⟨o', e3, e4⟩ := ih (fun x hx => hc x (List.mem_cons_of_mem _ hx)) (fun x hx => hw x (List.mem_cons_of_mem _ hx))
      (fun x hx => hel x (List.mem_cons_of_mem _ hx))
    refine ⟨o ++ o', by simp only [fromFormula, e1, e3], fun z => ?_⟩
    rw [elementSum_append, e2, e4]
    simp only [List.map_cons, List.sum_cons]
    ring

/-- **C80, unknown elements:** a formula with a symbol that is not in the table raises `KeyError`, whatever else there is. -/
theorem C80_unknown (b : Bool) (cutoff : ℚ) (l : List (Compound × ℚ)) (y : Compound × ℚ) (hy : y ∈ l) (p : Part) (hp : p ∈ y.1.parts)
    (h : ¬ ∃ e, IsElement p e) : fromFormula b cutoff l = .error .key := by
  have part : ∀ w c q, (∃ o, partEntries b cutoff w c q = .ok o) ∨ partEntries b cutoff w c q = .error .key := by
    intro w c q
    unfold partEntries
    cases lookup q.symbol with
    | none => exact .inr rfl
    | some e => exact .inl ⟨_, rfl⟩
  have hbad : ∀ w c, partEntries b cutoff w c p = .error .key := by
    intro w c
    unfold partEntries
    cases hl : lookup p.symbol with
    | none => rfl
    | some e => exact absurd ⟨e, of_lookup hl⟩ h
  have comp : ∀ w c ps, (∃ o, compoundEntries b cutoff w c ps = .ok o) ∨ compoundEntries b cutoff w c ps = .error .key := by
    intro w c ps
    induction ps with
    | nil => exact .inl ⟨_, rfl⟩
    | cons q ps ih =>
      simp only [compoundEntries]
      rcases part w c q with ⟨o, e1⟩ | e1
      · rcases ih with ⟨o', e2⟩ | e2
        · exact .inl ⟨_, by rw [e1, e2]⟩
        · exact .inr (by rw [e1, e2])
      · exact .inr (by rw [e1])
  have cbad : ∀ w c ps, p ∈ ps → compoundEntries b cutoff w c ps = .error .key := by
    intro w c ps
    induction ps with
    | nil => simp
    | cons q ps ih =>
      intro hm
      simp only [compoundEntries]
      rcases List.mem_cons.1 hm with rfl | hm
      · rw [hbad]
      · rcases part w c q with ⟨o, e1⟩ | e1
        · rw [e1, ih hm]
        · rw [e1]
  induction l with
  | nil => simp at hy
  | cons x l ih =>
    obtain ⟨c, w⟩ := x
    simp only [fromFormula]
    rcases List.mem_cons.1 hy with rfl | hy
    · rw [cbad w c c.parts hp]
    · rcases comp w c c.parts with ⟨o, e1⟩ | e1
      · rw [e1, ih hy]
      · rw [e1]

/-- Water, with 1.008 and 15.999 for the masses. -/
def water : Compound := ⟨[⟨c!"H", 2, 2016 / 1000, (2016 / 1000) / (18015 / 1000)⟩, ⟨c!"O", 1, 15999 / 1000, (15999 / 1000) / (18015 / 1000)⟩], 18015 / 1000⟩

theorem water_weighed : Weighed water := by
  refine ⟨by norm_num [water], ?_, ?_⟩ <;>
  · intro p hp
    simp only [water, List.mem_cons, List.not_mem_nil, or_false] at hp
    rcases hp with rfl | rfl <;> norm_num [water]

theorem water_elements : ∀ p ∈ water.parts, ∃ e, IsElement p e ∧ e.isotopes ≠ [] := by
  intro p hp
  simp only [water, List.mem_cons, List.not_mem_nil, or_false] at hp
  rcases hp with rfl | rfl
  · exact ⟨⟨c!"H", 1, [(1, 999885000, 1007825032230), (2, 115000, 2014101778120)]⟩, ⟨by simp [table, table0], rfl⟩, by simp⟩
  · exact ⟨⟨c!"O", 8, [(16, 997570000, 15994914619570), (17, 380000, 16999131756500), (18, 2050000, 17999159612860)]⟩,
      ⟨by simp [table, table0], rfl⟩, by simp⟩

example : ∃ out, fromFormula true 0 [(water, 1)] = .ok out ∧ ∀ z, elementSum z out = -([(water, (1 : ℚ))].map fun y => y.2 * massFraction z y.1 y.1.parts).sum :=
  C80_elements_partial _ (by simp [water_weighed]) (by simp) (by intro x hx; simp only [List.mem_singleton] at hx; subst hx; exact water_elements)

/-- **C80 is violated:** for atomic fractions the very numbers of the weights are given, without the sign. -/
theorem C80_atoms (cutoff : ℚ) (l : List (Compound × ℚ)) (hc : ∀ x ∈ l, Weighed x.1) :
    fromFormula false cutoff l = (fromFormula true cutoff l).map fun o => o.map fun x => { x with ratio := -x.ratio } := by
  have part : ∀ (c : Compound) (w : ℚ), Weighed c → ∀ p ∈ c.parts, partEntries false cutoff w c p =
      (partEntries true cutoff w c p).map fun o => o.map fun x => { x with ratio := -x.ratio } := by
    intro c w hcw p hp
    simp only [partEntries, if_true, Bool.false_eq_true, if_false, hcw.fraction p hp]
    cases lookup p.symbol with
    | none => rfl
    | some e =>
      simp only [Except.map, List.map_map]
      congr 1
      apply List.map_congr_left
      intro i _
      simp only [Function.comp_apply]
      congr 1; ring
  have comp : ∀ (c : Compound) (w : ℚ), Weighed c → ∀ ps : List Part, (∀ p ∈ ps, p ∈ c.parts) → compoundEntries false cutoff w c ps =
      (compoundEntries true cutoff w c ps).map fun o => o.map fun x => { x with ratio := -x.ratio } := by
    intro c w hcw ps
    induction ps with
    | nil => intro _; rfl
    | cons p ps ih =>
      intro h
      simp only [compoundEntries, part c w hcw p (h p List.mem_cons_self), ih fun q hq => h q (List.mem_cons_of_mem _ hq)]
      cases partEntries true cutoff w c p with
      | error e => rfl
      | ok o => cases compoundEntries true cutoff w c ps with
        | error e => rfl
        | ok o' => simp [Except.map]
  induction l with
  | nil => rfl
  | cons y l ih =>
    obtain ⟨c, w⟩ := y
    simp only [fromFormula, comp c w (hc _ List.mem_cons_self) c.parts (fun _ h => h), ih fun x hx => hc x (List.mem_cons_of_mem _ hx)]
    cases compoundEntries true cutoff w c c.parts with
    | error e => rfl
    | ok o => cases fromFormula true cutoff l with
      | error e => rfl
      | ok o' => simp [Except.map]

/-- Two of three atoms of water are hydrogen, but less than an eighth is entered. -/
theorem C80_atoms_violated : ∃ out p, p ∈ water.parts ∧ p.symbol = c!"H" ∧ atomFraction water p = 2 / 3 ∧
    fromFormula false 0 [(water, 1)] = .ok out ∧ elementSum 1 out < 1 / 8 := by
  refine ⟨_, _, List.mem_cons_self, rfl, by norm_num [atomFraction, water], rfl, by decide +kernel⟩

theorem share_iff (e : Element) (he : e ∈ table) (i : Nat × Nat × Nat) (hi : i ∈ e.isotopes) (k : ℚ) (hk : k ≠ 0) (hm : meanMass e ≠ 0) :
    k * atomShare i = k * weightShare e i ↔ (i.2.2 : ℚ) = meanMass e := by
  have h0 : 0 < i.2.1 := ((C80_table.2 e he).2.2.2 i hi).1
  have h1 : atomShare i ≠ 0 := by
    have : (0 : ℚ) < atomShare i := by unfold atomShare; positivity
    exact this.ne'
  unfold weightShare
  constructor
  · intro h
    have h2 := mul_left_cancel₀ hk h
    field_simp at h2
    linarith
  · intro h
    rw [h]; field_simp

/-- **C80 is violated:** with weights, an isotope in a pure element gets its part of the mass exactly if its mass is the mean mass of the element. -/
theorem C80_isotopes (cutoff w : ℚ) (c : Compound) (hc : Weighed c) (p : Part) (hp : c.parts = [p]) (e : Element) (he : IsElement p e)
    (i : Nat × Nat × Nat) (hi : i ∈ e.isotopes) (hw : w ≠ 0) (hm : meanMass e ≠ 0) (hcut : w * atomShare i > cutoff) :
    ∃ out, fromFormula true cutoff [(c, w)] = .ok out ∧ (⟨e.z, i.1, -(w * weightShare e i)⟩ ∈ out ↔ (i.2.2 : ℚ) = meanMass e) := by
  have hp1 : p.mass / c.mass = 1 := by
    have h1 := hc.mass
    have h2 := hc.positive p (by simp [hp])
    simp only [hp, List.map_cons, List.map_nil, List.sum_cons, List.sum_nil, add_zero] at h1
    rw [h1, div_self h2.ne']
  obtain ⟨out, h1, h2⟩ := C80_entries true cutoff [(c, w)] (by simpa using hc) (by
    intro x hx q hq
    simp only [List.mem_singleton] at hx
    subst hx
    simp only [hp, List.mem_singleton] at hq
    subst hq
    exact ⟨e, he⟩)
  refine ⟨out, h1, ?_⟩
  rw [h2, ← share_iff e he.1 i hi w hw hm]
  constructor
  · rintro ⟨y, hy, q, hq, e', he', j, hj, -, hx⟩
    simp only [List.mem_singleton] at hy
    subst hy
    simp only [hp, List.mem_singleton] at hq
    subst hq
    have : e' = e := by have := (lookup_of he').symm.trans (lookup_of he); cases this; rfl
    subst this
    simp only [Entry.mk.injEq, if_true, hp1] at hx
    have hij : i = j := by
      have hn := (C80_table.2 e' he.1).2.1
      have : ∀ l : List (Nat × Nat × Nat), (l.map (·.1)).Nodup → i ∈ l → j ∈ l → i = j := by
        intro l
        induction l with
        | nil => simp
        | cons x l ih =>
          intro hl h1 h2
          rw [List.map_cons, List.nodup_cons] at hl
          rcases List.mem_cons.1 h1 with h1' | h1' <;> rcases List.mem_cons.1 h2 with h2' | h2'
          · rw [h1', h2']
          · exact absurd (List.mem_map.2 ⟨j, h2', by rw [← hx.2.1, h1']⟩) hl.1
          · exact absurd (List.mem_map.2 ⟨i, h1', by rw [hx.2.1, h2']⟩) hl.1
          · exact ih hl.2 h1' h2'
      exact this _ hn hi hj
    subst hij
    linarith [hx.2.2]
  · intro h
    refine ⟨_, List.mem_singleton.2 rfl, p, by simp [hp], e, he, i, hi, by simp only [hp1]; linarith, ?_⟩
    simp only [hp1, if_true]
    congr 1
    linarith

/-- Lithium 6 gets 7.59 % of the mass of lithium; it makes up less than 6.6 %. -/
theorem C80_isotopes_violated : ∃ e ∈ table, ∃ i ∈ e.isotopes, e.symbol = c!"Li" ∧ i.1 = 6 ∧ atomShare i = 759 / 10000 ∧
    weightShare e i < 66 / 1000 := by
  refine ⟨⟨c!"Li", 3, [(6, 75900000, 6015122887400), (7, 924100000, 7016003436600)]⟩, by simp [table, table0], _, List.mem_cons_self, rfl, rfl,
    by norm_num [atomShare], by norm_num [weightShare, meanMass, atomShare]⟩

/-- **C80 is violated:** elements without natural isotopes are left out, with no error. -/
theorem C80_unnatural_violated (b : Bool) (cutoff w : ℚ) (c : Compound) (p : Part) (e : Element) (he : IsElement p e) (hi : e.isotopes = []) :
    partEntries b cutoff w c p = .ok [] := by
  simp [partEntries, lookup_of he, hi]

set_option maxRecDepth 100000 in
example : ∃ e ∈ table, e.symbol = c!"Pu" ∧ e.isotopes = [] :=
  ⟨⟨c!"Pu", 94, []⟩, by simp [table, table0, table1, table2], rfl, rfl⟩

/-- Heavy water, as `molmass` writes it. -/
example : ¬ ∃ e, IsElement ⟨c!"2H", 2, 4, 4 / 20⟩ e := by
  rintro ⟨e, h⟩
  have := lookup_of h
  revert this
  have : lookup c!"2H" = none := by
    unfold lookup
    rw [List.find?_eq_none]
    decide +kernel
  simp [this]

end Props
