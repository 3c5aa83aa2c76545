import Verif.Ptrac.RoundLemmas
/-!
# Properties of the lines of PTRAC histories (C37, C38, C39, C50)

Specification: numbers are integers and decimals; how many digits a printed decimal keeps is stated
with divisions by powers of ten, not with texts.
-/
namespace Props
open Py Types Ptrac

/-! ## C50: event codes -/

/-- C50. A text is read as an event type exactly if it is the code the event type prints. -/
theorem C50_event_codes (s : Str) (e : EventType) : eventType s = .ok e ↔ s = e.code :=
  ⟨eventType_ok, fun h => by rw [h]; exact (codes_ok e).2.2.2⟩

/-- C50. A text that is no code is refused with the library error. -/
theorem C50_event_codes_refuse (s : Str) (h : ∀ e : EventType, s ≠ e.code) : eventType s = .error .ptrac := by
  cases hs : eventType s with
  | ok e => exact absurd (eventType_ok hs) (h e)
  | error x =>
    unfold eventType at hs
    split at hs
    · cases hs
    · exact hs.symm

set_option maxRecDepth 20000 in
example : (∃ e : EventType, e.code = c!"-2033" ∧ eventType c!"-2033" = .ok e) ∧
    (∀ e : EventType, c!"2027" ≠ e.code) := by decide +kernel

/-! ## C38: J lines -/

/-- The values that fit the columns of a layout: integers and decimals of at most ten characters in the
order of the constructor. -/
inductive FitsJ : List NumTy → List Num → Prop where
  | nil : FitsJ [] []
  | int {n ts vs} : (intStr n).length ≤ 10 → FitsJ ts vs → FitsJ (.int :: ts) (.int (.num n) :: vs)
  | real {d ts vs} : (Dec.str d).length ≤ 10 → FitsJ ts vs → FitsJ (.real :: ts) (.real (.num (.fin d)) :: vs)

theorem FitsJ.ok {ts vs} (h : FitsJ ts vs) : NumsOk ts vs := by
  induction h with
  | nil => exact .nil
  | int h _ ih => exact .cons (show NumOk .int (.int (.num _)) from h) ih
  | real h _ ih => exact .cons (show NumOk .real (.real (.num (.fin _))) from h) ih

/-- The parameters of the constructors after the event type (J_k.py, signature of `__init__`): all integers, but the
second of `J_1`, `J_2`, `J_4` and `J_6` is a decimal. -/
def jColumns : Fin 8 → List NumTy
  | 0 => List.replicate 4 .int
  | 1 | 2 | 4 => .int :: .real :: List.replicate 3 .int
  | 6 => .int :: .real :: List.replicate 4 .int
  | 3 | 5 => List.replicate 6 .int
  | 7 => List.replicate 7 .int

theorem jColumns_eq : ∀ k, jColumns k = jTys k := by decide

/-- C38 for the classes `J_0` … `J_7`: what a layout prints is read back by the same layout as the same event
type and the same values. -/
theorem C38_j_line (k : Fin 8) (e : EventType) (vs : List Num) (h : FitsJ (jColumns k) vs) :
    jParse k (JLine.str ⟨k, e, vs⟩) = .ok ⟨k, e, vs⟩ := jline_round ⟨k, e, vs⟩ (jColumns_eq k ▸ h.ok)

/-- A surface crossing (layout 1): node 5, surface 1.1, angle 20. -/
def exampleJ : JLine :=
  ⟨1, ⟨63, by decide⟩, [.int (.num 5), .real (.num (.fin ⟨false, 11, -1⟩)), .int (.num (-20)), .int (.num 7), .int (.num 1)]⟩

example : FitsJ (jColumns exampleJ.layout) exampleJ.nums :=
  .int (by decide) (.real (by decide) (.int (by decide) (.int (by decide) (.int (by decide) .nil))))
example : exampleJ.str = c!"       3000         5       1.1       -20         7         1" := by decide +kernel

/-! ## Decimals to the printed precision -/

/-- The decimal `d'` is `d` with digits cut off the right, keeping at least `sig` digits if any is cut. -/
def Kept (sig : Nat) (d d' : Dec) : Prop :=
  d'.neg = d.neg ∧ ((d.coeff = 0 ∧ d'.coeff = 0) ∨
    ∃ k : Nat, d'.coeff = d.coeff / 10 ^ k ∧ d'.exp = d.exp + k ∧ (k = 0 ∨ 10 ^ (sig - 1) ≤ d'.coeff))

/-- Decimals of exactly `sig` digits are kept as they are. -/
theorem Kept.exact {sig : Nat} {d d' : Dec} (h : Kept sig d d') (h0 : d.coeff ≠ 0) (h1 : d.coeff < 10 ^ sig)
    (hs : 0 < sig) : d' = d := by
  obtain ⟨a, h | ⟨k, b, c, e⟩⟩ := h
  · exact absurd h.1 h0
  · have hk : k = 0 := by
      rcases e with e | e
      · exact e
      · cases k with
        | zero => rfl
        | succ k =>
          exfalso
          rw [b, Nat.pow_succ, Nat.mul_comm, ← Nat.div_div_eq_div_mul] at e
          have : d.coeff / 10 < 10 ^ (sig - 1) := by
            apply Nat.div_lt_of_lt_mul
            rw [Nat.mul_comm, ← Nat.pow_succ]
            rwa [Nat.succ_eq_add_one, show sig - 1 + 1 = sig by omega]
          have := Nat.div_le_self (d.coeff / 10) (10 ^ k)
          omega
    subst hk
    cases d; cases d'
    simp_all

theorem kept_printed (w p : Nat) (d : Dec) : Kept (w - p + 1) d (printed w p d) := by
  unfold printed
  split
  · rename_i h; exact ⟨rfl, .inl ⟨h, rfl⟩⟩
  · rename_i h
    refine ⟨rfl, .inr ⟨_, rfl, rfl, ?_⟩⟩
    by_cases hk : (natStr d.coeff).length - (w - p + 1) = 0
    · exact .inl hk
    · right
      simp only [Nat.add_sub_cancel]
      obtain ⟨c, cs, e, hc⟩ := natStr_head_ne_zero d.coeff (by omega)
      have h1 := pow_le_strNat c cs (e ▸ natStr_digits d.coeff) hc
      rw [← e, strNat_natStr] at h1
      have hl : (natStr d.coeff).length = cs.length + 1 := by rw [e]; rfl
      rw [Nat.le_div_iff_mul_le (Nat.pow_pos (by decide)), ← Nat.pow_add]
      exact Nat.le_trans (Nat.pow_le_pow_right (by decide) (by omega)) h1

/-- A decimal with at least `sig` digits (or zero) and an exponent of at most two digits. -/
def FitsE (sig p : Nat) (d : Dec) : Prop :=
  d.coeff = 0 ∨ (10 ^ (sig - 1) ≤ d.coeff ∧ -100 < d.adjusted + p ∧ d.adjusted + p < 100)

theorem FitsE.col {p : Nat} {d : Dec} (h : FitsE (5 - p + 1) p d) : Col p d := by
  rcases h with h | ⟨h1, h2, h3⟩
  · exact .inl h
  · refine .inr ⟨?_, by omega⟩
    have := natStr_length_ge d.coeff (5 - p + 1 - 1) h1
    omega

/-! ## C39: P lines -/

/-- Three coordinates, or position, direction, energy, weight and time. -/
def pCount : Fin 2 → Nat
  | 0 => 3
  | 1 => 9

theorem pCount_eq : ∀ k, pCount k = pSize k := by decide

/-- C39, numbers. A P line of decimals of five or more digits (or zero) is printed, read back by the same
layout, and every number is kept to five digits.  Missing: decimals of fewer digits (`C39_short_violated`),
infinity (`C39_infinite_violated`). -/
theorem C39_values_partial (k : Fin 2) (ds : List Dec) (hl : ds.length = pCount k)
    (h : ∀ d ∈ ds, FitsE 5 1 d) :
    ∃ s ds', PLine.str ⟨k, ds.map fun d => .num (.fin d)⟩ = .ok s ∧
      pParse k s = .ok ⟨k, List.map (fun d => .num (.fin d)) ds'⟩ ∧
      ds'.length = ds.length ∧ ∀ i (h : i < ds.length) (h' : i < ds'.length), Kept 5 ds[i] ds'[i] := by
  rw [pCount_eq] at hl
  obtain ⟨s, h1, h2⟩ := pline_round k ds hl (fun d hd => FitsE.col (p := 1) (h d hd))
  refine ⟨s, ds.map (printed 5 1), h1, h2, by simp, ?_⟩
  intro i hi hi'
  rw [List.getElem_map]
  exact kept_printed 5 1 _

example : ∀ d ∈ [⟨true, 1234567, -3⟩, ⟨false, 0, 4⟩, ⟨false, 10000, -100⟩], FitsE 5 1 d := by
  unfold FitsE; decide

/-- A column as MCNP writes it: two blanks or a blank and a minus sign, `0.`, five digits, the first not zero
unless all are, and an exponent of two digits. -/
structure Column where
  neg : Bool
  digits : Str
  eneg : Bool
  exp : Str

def Column.text (c : Column) : Str :=
  ' ' :: (if c.neg then '-' else ' ') :: '0' :: '.' :: (c.digits ++ 'E' :: (if c.eneg then '-' else '+') :: c.exp)

structure Column.Normal (c : Column) : Prop where
  digits : (∀ x ∈ c.digits, isDigit x = true) ∧ c.digits.length = 5
  exp : (∀ x ∈ c.exp, isDigit x = true) ∧ c.exp.length = 2
  lead : (∃ x xs, c.digits = x :: xs ∧ x ≠ '0') ∨ (c.digits = c!"00000" ∧ c.eneg = false ∧ c.exp = c!"00")
  nozero : c.eneg = true → c.exp ≠ c!"00"

/-- C39, text. A P line written by MCNP is read, and what is read prints the line again. Missing: decimals that MCNP does not
write, for which the claim is false (`C39_short_violated`, `C39_infinite_violated`). -/
theorem C39_text_partial (k : Fin 2) (cs : List Column) (hl : cs.length = pCount k)
    (h : ∀ c ∈ cs, c.Normal) :
    ∃ l, pParse k (' ' :: cs.flatMap Column.text) = .ok l ∧ l.str = .ok (' ' :: cs.flatMap Column.text) := by
  rw [pCount_eq] at hl
  have key : ∀ c : Column, c.Normal → ∃ d : Dec, realParse c.text = .ok (.num (.fin d)) ∧
      realFmt 5 1 (.num (.fin d)) = .ok (c.text.drop 1) := by
    intro c hc
    have := column_round c.neg c.digits c.eneg c.exp hc.digits.1 hc.digits.2 hc.lead hc.exp.1 hc.exp.2 (by
      intro hn he
      have h0 := hc.nozero hn
      match hx : c.exp, hc.exp.2 with
      | [a, b], _ =>
        have hd := hc.exp.1
        rw [hx] at he hd h0
        rw [strNat_cons, strNat_singleton] at he
        have ha : digitVal a = 0 := by
          rcases Nat.eq_zero_or_pos (digitVal a) with h | h
          · exact h
          · exfalso; simp at he; omega
        have hb : digitVal b = 0 := by omega
        have e1 := digitChar_digitVal (hd a (by simp))
        have e2 := digitChar_digitVal (hd b (by simp))
        rw [ha] at e1
        rw [hb] at e2
        rw [← e1, ← e2] at h0
        exact h0 (by decide))
    exact this
  have all : ∀ cs : List Column, (∀ c ∈ cs, c.Normal) → ∃ ds : List Dec, ds.length = cs.length ∧
      (∀ i (h : i < cs.length) (h' : i < ds.length), realParse cs[i].text = .ok (.num (.fin ds[i]))) ∧
      fmtAll 5 1 (ds.map fun d => .num (.fin d)) = .ok (cs.map fun c => c.text.drop 1) := by
    intro cs hcs
    induction cs with
    | nil => exact ⟨[], rfl, by simp, rfl⟩
    | cons c cs ih =>
      obtain ⟨ds, a1, a2, a3⟩ := ih (fun x hx => hcs x (List.mem_cons_of_mem _ hx))
      obtain ⟨d, b1, b2⟩ := key c (hcs c (by simp))
      refine ⟨d :: ds, by simp [a1], ?_, ?_⟩
      · intro i hi hi'
        cases i with
        | zero => exact b1
        | succ i => exact a2 i (by simpa using hi) (by simpa using hi')
      · rw [List.map_cons, fmtAll, b2]
        show (fmtAll 5 1 _).bind _ = _
        rw [a3]; rfl
  obtain ⟨ds, d1, d2, d3⟩ := all cs h
  have hne : cs ≠ [] := by
    rintro rfl
    revert hl; revert k; decide
  refine ⟨⟨k, ds.map fun d => .num (.fin d)⟩, ?_, ?_⟩
  · have := pline_read k (cs.map Column.text) (ds.map fun d => .num (.fin d)) (by simp [hl]) (by simp [d1]) (by
      intro f hf
      obtain ⟨c, hc, rfl⟩ := List.mem_map.1 hf
      have hn := h c hc
      refine ⟨?_, ?_⟩
      · simp only [Column.text, List.length_cons, List.length_append, hn.digits.2, hn.exp.2]
      · intro hx
        simp only [Column.text, List.mem_cons, List.mem_append] at hx
        rcases hx with hx | hx | hx | hx | hx | hx | hx | hx
        · exact absurd hx (by decide)
        · split at hx <;> exact absurd hx (by decide)
        · exact absurd hx (by decide)
        · exact absurd hx (by decide)
        · exact absurd (hn.digits.1 _ hx) (by decide)
        · exact absurd hx (by decide)
        · split at hx <;> exact absurd hx (by decide)
        · exact absurd (hn.exp.1 _ hx) (by decide)) (by
      intro i hi hi'
      have := d2 i (by simpa using hi) (by simpa using hi')
      simpa using this)
    rw [List.flatMap]
    exact this
  · show (fmtAll 5 1 (ds.map fun d => .num (.fin d))).bind _ = _
    rw [d3]
    show Except.ok (' ' :: ' ' :: join [' '] (cs.map fun c => c.text.drop 1)) = _
    rw [join_blank _ (by simpa using hne), List.map_map, List.flatMap]
    rfl

example : (⟨true, c!"10000", true, c!"05"⟩ : Column).Normal := ⟨by decide, by decide, .inl ⟨'1', c!"0000", by decide⟩, by decide⟩
example : (⟨true, c!"10000", true, c!"05"⟩ : Column).text = c!" -0.10000E-05" := by decide

/-- C39 fails for decimals of fewer than five digits: the line printed for (1.5, 2, 3) is not a P line. -/
theorem C39_short_violated : ∃ s, PLine.str ⟨0, [.num (.fin ⟨false, 15, -1⟩), .num (.fin ⟨false, 2, 0⟩), .num (.fin ⟨false, 3, 0⟩)]⟩ = .ok s ∧
    pParse 0 s = .error .ptrac := ⟨c!"   0.15E+01  0.2E+01  0.3E+01", by decide +kernel⟩

/-- C39 fails for infinity: it is printed as zero. -/
theorem C39_infinite_violated : ∃ s l, PLine.str ⟨0, [.num (.inf false), .num (.inf true), .num (.inf false)]⟩ = .ok s ∧
    pParse 0 s = .ok l ∧ l.nums = [.num (.fin ⟨false, 0, -5⟩), .num (.fin ⟨true, 0, -5⟩), .num (.fin ⟨false, 0, -5⟩)] :=
  ⟨c!"   0.00000E+00 -0.00000E+00  0.00000E+00",
    ⟨0, [.num (.fin ⟨false, 0, -5⟩), .num (.fin ⟨true, 0, -5⟩), .num (.fin ⟨false, 0, -5⟩)]⟩, by decide +kernel⟩

/-! ## C37: I lines -/

/-- C37. An I line whose optional values are not zero is read back with the same values, the last one to six
digits (the same if it has six).  Missing: zero values (`C37_zero_violated`) and a last value of fewer than
six digits (`C37_short_violated`). -/
theorem C37_i_line_partial (nps : Int) (e : EventType) (number : Option Int) (tfc : Option Dec)
    (h1 : (intStr nps).length ≤ 10) (h2 : ∀ n ∈ number, n ≠ 0 ∧ (intStr n).length ≤ 10)
    (h3 : ∀ d ∈ tfc, d.coeff ≠ 0 ∧ FitsE 6 0 d) :
    ∃ s tfc', ILine.str ⟨.num nps, e, number.map .num, tfc.map fun d => .num (.fin d)⟩ = .ok s ∧
      iParse s = .ok ⟨.num nps, e, number.map .num, Option.map (fun d => .num (.fin d)) tfc'⟩ ∧
      (tfc'.isSome = tfc.isSome) ∧ (∀ d ∈ tfc, ∀ d' ∈ tfc', Kept 6 d d') ∧
      ((∀ d ∈ tfc, d.coeff < 10 ^ 6) → tfc' = tfc) := by
  obtain ⟨s, a, b⟩ := iline_round nps e number tfc h1 h2 (fun d hd => ⟨(h3 d hd).1, FitsE.col (p := 0) (h3 d hd).2⟩)
  have hk : ∀ d ∈ tfc, ∀ d' ∈ tfc.map (printed 5 0), Kept 6 d d' := by
    intro d hd d' hd'
    cases hd
    cases hd'
    exact kept_printed 5 0 d
  refine ⟨s, tfc.map (printed 5 0), a, b, by simp, hk, ?_⟩
  intro hs
  cases tfc with
  | none => rfl
  | some d =>
    have := (hk d rfl _ rfl).exact (h3 d rfl).1 (hs d rfl) (by decide)
    rw [Option.map_some, this]

/-- A history header with and without optional columns. -/
example : (∀ n ∈ some (-12 : Int), n ≠ 0 ∧ (intStr n).length ≤ 10) ∧
    (∀ d ∈ some (⟨false, 123456, -2⟩ : Dec), d.coeff ≠ 0 ∧ FitsE 6 0 d) := by unfold FitsE; decide

/-- C37 fails for zero: a header with number 0 and figure-of-merit 0 is read back without them. -/
theorem C37_zero_violated (e : EventType) : ∃ s, ILine.str ⟨.num 1, e, some (.num 0), some (.num (.fin ⟨false, 0, 0⟩))⟩ = .ok s ∧
    iParse s = .ok ⟨.num 1, e, none, none⟩ := by
  obtain ⟨s, a, b⟩ := iline_round 1 e none none (by decide) (by simp) (by simp)
  exact ⟨s, a, b⟩

/-- C37 fails for short decimals: the header printed with 1.5 is not an I line. -/
theorem C37_short_violated : ∃ s, ILine.str ⟨.num 1, ⟨0, by decide⟩, some (.num 4), some (.num (.fin ⟨false, 15, -1⟩))⟩ = .ok s ∧
    iParse s = .error .ptrac := ⟨c!"          1      1000         4  1.5E+00", by decide +kernel⟩

end Props
