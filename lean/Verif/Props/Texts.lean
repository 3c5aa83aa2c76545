import Verif.Types.Text
import Verif.Props.Operators
import Verif.Types.ScalarLemmas
/-!
# Texts and tuples behave as containers: C99
-/
namespace Props
open Py Types

/-! ## Specification -/

/-- The text of an operand. -/
def textOf : TextArg → Option Str
  | .string s => some s
  | .str s => some s
  | _ => none

/-- Alphabetical order by code points: one text goes on where the other ends, or has the smaller character at the first difference. -/
def Before (s t : Str) : Prop :=
  (∃ c u, t = s ++ c :: u) ∨ ∃ p a u b v, s = p ++ a :: u ∧ t = p ++ b :: v ∧ a.toNat < b.toNat

/-- What a comparison of two texts means. -/
def TextRel : Rel → Str → Str → Prop
  | .lt, s, t => Before s t
  | .le, s, t => s = t ∨ Before s t
  | .eq, s, t => s = t
  | .ne, s, t => s ≠ t
  | .gt, s, t => Before t s
  | .ge, s, t => s = t ∨ Before t s

/-- The number of an operand of a product or of a position. -/
def countOfArg : TextArg → Option Int
  | .integer (.num n) => some n
  | .int n => some n
  | _ => none

/-! ## Helper lemmas -/

theorem before_cons (a : Char) (s t : Str) : Before (a :: s) (a :: t) ↔ Before s t := by
  constructor
  · rintro (⟨c, u, h⟩ | ⟨p, x, u, y, v, h1, h2, h3⟩)
    · simp only [List.cons_append, List.cons.injEq, true_and] at h; exact .inl ⟨c, u, h⟩
    · cases p with
      | nil =>
        simp only [List.nil_append, List.cons.injEq] at h1 h2
        rw [← h1.1, ← h2.1] at h3; omega
      | cons q p =>
        simp only [List.cons_append, List.cons.injEq] at h1 h2
        exact .inr ⟨p, x, u, y, v, h1.2, h2.2, h3⟩
  · rintro (⟨c, u, rfl⟩ | ⟨p, x, u, y, v, rfl, rfl, h3⟩)
    · exact .inl ⟨c, u, rfl⟩
    · exact .inr ⟨a :: p, x, u, y, v, rfl, rfl, h3⟩

theorem before_diff {a b : Char} (h : a ≠ b) (s t : Str) : Before (a :: s) (b :: t) ↔ a.toNat < b.toNat := by
  constructor
  · rintro (⟨c, u, e⟩ | ⟨p, x, u, y, v, h1, h2, h3⟩)
    · simp only [List.cons_append, List.cons.injEq] at e; exact absurd e.1.symm h
    · cases p with
      | nil =>
        simp only [List.nil_append, List.cons.injEq] at h1 h2
        rw [h1.1, h2.1]; exact h3
      | cons q p =>
        simp only [List.cons_append, List.cons.injEq] at h1 h2
        exact absurd (h1.1.trans h2.1.symm) h
  · intro h; exact .inr ⟨[], a, s, b, t, rfl, rfl, h⟩

theorem not_before_nil (s : Str) : ¬ Before s [] := by
  rintro (⟨c, u, h⟩ | ⟨p, x, u, y, v, -, h, -⟩)
  · have := congrArg List.length h; simp at this
  · have := congrArg List.length h; simp at this

theorem char_toNat_inj {a b : Char} (h : a.toNat = b.toNat) : a = b := by
  apply Char.ext
  exact UInt32.toNat_inj.1 h

theorem order_spec (s t : Str) : (strOrder s t = .lt ↔ Before s t) ∧ (strOrder s t = .eq ↔ s = t) ∧ (strOrder s t = .gt ↔ Before t s) := by
  induction s generalizing t with
  | nil =>
    cases t with
    | nil => simp [strOrder, not_before_nil]
    | cons b t =>
      have h : Before [] (b :: t) := Or.inl ⟨b, t, rfl⟩
      simp [strOrder, not_before_nil, h]
  | cons a s ih =>
    cases t with
    | nil =>
      have h : Before [] (a :: s) := Or.inl ⟨a, s, rfl⟩
      simp [strOrder, not_before_nil, h]
    | cons b t =>
      by_cases h : a = b
      · subst h
        simp only [strOrder, if_true, before_cons, List.cons.injEq, true_and]
        exact ih t
      · rw [before_diff h, before_diff (fun e => h e.symm)]
        have hn : a.toNat ≠ b.toNat := fun e => h (char_toNat_inj e)
        simp only [strOrder, List.cons.injEq, h, false_and, iff_false]
        by_cases hl : a.toNat < b.toNat
        · simp [hl]; omega
        · simp [hl]; omega

theorem holds_text (r : Rel) (s t : Str) : r.holds (strOrder s t) = true ↔ TextRel r s t := by
  obtain ⟨h1, h2, h3⟩ := order_spec s t
  cases r <;> simp only [Rel.holds, TextRel, beq_iff_eq, bne_iff_ne, ne_eq]
  · exact h1
  · rw [← h1, ← h2]; cases strOrder s t <;> simp
  · exact h2
  · exact not_congr h2
  · exact h3
  · rw [← h2, ← h3]; cases strOrder s t <;> simp

theorem text_swap (r : Rel) (s t : Str) : TextRel r.swap t s ↔ TextRel r s t := by
  cases r <;> simp [Rel.swap, TextRel, eq_comm]

theorem repeated_length (s : Str) (n : Nat) : (repeated s n).length = n * s.length := by
  induction n with
  | zero => simp [repeated]
  | succ n ih => rw [repeated, List.length_append, ih, Nat.succ_mul]; omega

/-- The text of shorthand ends in a letter. -/
theorem hor_not_int (h : Horiz) (n : Int) : h.str ≠ intStr n := by
  intro e
  have : ∃ c ∈ h.str, c = 'r' ∨ c = 'i' ∨ c = 'm' ∨ c = 'j' ∨ c = 'g' := by
    cases h with
    | rep n => exact ⟨'r', by simp [Horiz.str], by simp⟩
    | ins n => exact ⟨'i', by simp [Horiz.str], by simp⟩
    | mul n => exact ⟨'m', by simp [Horiz.str], by simp⟩
    | jump n => exact ⟨'j', by simp [Horiz.str], by simp⟩
    | log n => exact ⟨'g', by simp [Horiz.str], by simp⟩
  obtain ⟨c, hc, h⟩ := this
  rw [e] at hc
  rcases intStr_chars n c hc with h' | rfl
  · rcases h with rfl | rfl | rfl | rfl | rfl <;> exact absurd h' (by decide)
  · rcases h with h | h | h | h | h <;> cases h

theorem hasPart_iff (t s : Str) : hasPart t s = true ↔ ∃ p q, s = p ++ t ++ q := by
  induction s with
  | nil =>
    simp only [hasPart, List.isEmpty_iff]
    constructor
    · rintro rfl; exact ⟨[], [], rfl⟩
    · rintro ⟨p, q, h⟩
      have := congrArg List.length h
      simp only [List.length_nil, List.length_append] at this
      exact List.eq_nil_of_length_eq_zero (by omega)
  | cons c s ih =>
    simp only [hasPart, Bool.or_eq_true, ih, List.isPrefixOf_iff_prefix]
    constructor
    · rintro (⟨q, h⟩ | ⟨p, q, rfl⟩)
      · exact ⟨[], q, h.symm⟩
      · exact ⟨c :: p, q, rfl⟩
    · rintro ⟨p, q, h⟩
      cases p with
      | nil => exact .inl ⟨q, h.symm⟩
      | cons d p =>
        simp only [List.cons_append, List.cons.injEq] at h
        exact .inr ⟨p, q, h.2⟩

/-! ## C99 – texts compare, join and are searched like the characters they hold -/

/-- Every comparison of two texts, either of which may be a `String` or a `str`, decides by the alphabetical order of the code points. -/
theorem C99_compare (r : Rel) (a b : TextArg) (s t : Str) (ha : textOf a = some s) (hb : textOf b = some t) :
    ∃ x, textRel r a b = .ok (some x) ∧ (x = true ↔ TextRel r s t) := by
  match a, b with
  | .string _, .string _ | .string _, .str _ | .str _, .str _ =>
    cases ha; cases hb
    exact ⟨_, rfl, holds_text r s t⟩
  | .str _, .string _ =>
    cases ha; cases hb
    exact ⟨_, rfl, (holds_text r.swap t s).trans (text_swap r s t)⟩
  | .integer _, _ | .int _, _ => cases ha
  | .string _, .integer _ | .string _, .int _ | .str _, .integer _ | .str _, .int _ => cases hb

/-- `'ab' < String('abc')`, `String('b') > 'abc'`, `String('A') < String('a')`. -/
example : textRel .lt (.str ['a', 'b']) (.string ['a', 'b', 'c']) = .ok (some true) ∧
    textRel .gt (.string ['b']) (.str ['a', 'b', 'c']) = .ok (some true) ∧ textRel .lt (.string ['A']) (.string ['a']) = .ok (some true) := by decide

/-- The order is total: exactly one of `a < b`, `a == b` and `b < a` holds, and `a < b < c` implies `a < c`; so texts can be sorted. -/
theorem C99_order (s t u : Str) :
    (Before s t ∨ s = t ∨ Before t s) ∧ ¬ (Before s t ∧ s = t) ∧ ¬ (Before s t ∧ Before t s) ∧ (Before s t → Before t u → Before s u) := by
  obtain ⟨h1, h2, h3⟩ := order_spec s t
  refine ⟨?_, ?_, ?_, ?_⟩
  · rw [← h1, ← h2, ← h3]; cases strOrder s t <;> simp
  · rw [← h1, ← h2]; rintro ⟨a, b⟩; rw [a] at b; cases b
  · rw [← h1, ← h3]; rintro ⟨a, b⟩; rw [a] at b; cases b
  · clear h1 h2 h3
    induction s generalizing t u with
    | nil =>
      intro _ h
      cases u with
      | nil => exact absurd h (not_before_nil t)
      | cons c u => exact .inl ⟨c, u, rfl⟩
    | cons a s ih =>
      intro h h'
      cases t with
      | nil => exact absurd h (not_before_nil _)
      | cons b t =>
        cases u with
        | nil => exact absurd h' (not_before_nil _)
        | cons c u =>
          by_cases e1 : a = b
          · subst e1
            by_cases e2 : a = c
            · subst e2
              rw [before_cons] at h h' ⊢
              exact ih t u h h'
            · rw [before_diff e2] at h' ⊢; exact h'
          · rw [before_diff e1] at h
            by_cases e2 : b = c
            · subst e2; rw [before_diff e1]; exact h
            · rw [before_diff e2] at h'
              have : a ≠ c := by rintro rfl; omega
              rw [before_diff this]; omega

/-- `String + String` and `String + str` put the texts after each other: the lengths add up, every character and every part of either is there. -/
theorem C99_join (s : Str) (b : TextArg) (t : Str) (hb : textOf b = some t) :
    ∃ w, textAdd (.string s) b = .ok (some w) ∧ stringLen w = stringLen s + stringLen t ∧
      (∀ i : Nat, i < s.length → stringItem w (.int i) = stringItem s (.int i)) ∧
      (∀ i : Nat, i < t.length → stringItem w (.int (s.length + i : Nat)) = stringItem t (.int i)) := by
  refine ⟨s ++ t, ?_, by simp [stringLen], ?_, ?_⟩
  · match b with
    | .string _ | .str _ => cases hb; rfl
    | .integer _ | .int _ => cases hb
  · intro i hi
    have e : ¬ ((i : Int) < 0) := by omega
    simp [stringItem, itemAt, e, List.getElem?_append_left hi]
  · intro i hi
    have e : ¬ ((i : Int) < 0) := by omega
    have e' : ¬ (((s.length + i : Nat) : Int) < 0) := by omega
    simp only [stringItem, itemAt, if_neg e, if_neg e', Int.toNat_natCast]
    rw [List.getElem?_append_right (by omega), Nat.add_sub_cancel_left]

/-- `String('ab') + 'c'`. -/
example : textAdd (.string ['a', 'b']) (.str ['c']) = .ok (some ['a', 'b', 'c']) := by decide

/-- `String * n` and, for an `int`, `n * String` repeat the text `n` times: the length is multiplied, and the character at `i` is that at `i` modulo the length;
nothing is left for negative numbers. -/
theorem C99_repeat (s : Str) (b : TextArg) (n : Int) (hb : countOfArg b = some n) :
    ∃ w, textMul (.string s) b = .ok (some w) ∧ (b = .int n → textMul b (.string s) = .ok (some w)) ∧ stringLen w = n.toNat * stringLen s ∧
      ∀ i : Nat, i < w.length → stringItem w (.int i) = stringItem s (.int (i % s.length : Nat)) := by
  refine ⟨repeated s n.toNat, ?_, ?_, repeated_length s _, ?_⟩
  · match b with
    | .integer (.num _) | .int _ => cases hb; rfl
    | .integer (.hor _) | .string _ | .str _ => cases hb
  · rintro rfl; rfl
  · intro i hi
    have key : ∀ m i : Nat, i < (repeated s m).length → (repeated s m)[i]? = s[i % s.length]? := by
      intro m
      induction m with
      | zero => intro i h; simp [repeated] at h
      | succ m ih =>
        intro i h
        rw [repeated]
        by_cases hl : i < s.length
        · rw [List.getElem?_append_left hl, Nat.mod_eq_of_lt hl]
        · rw [List.getElem?_append_right (by omega), ih _ (by rw [repeated, List.length_append] at h; omega), ← Nat.mod_eq_sub_mod (by omega)]
    have e : ¬ ((i : Int) < 0) := by omega
    have e' : ¬ (((i % s.length : Nat) : Int) < 0) := by omega
    simp only [stringItem, itemAt, if_neg e, if_neg e', Int.toNat_natCast, key _ i hi]

/-- `String('ab') * Integer(2)` and `2 * String('ab')`. -/
example : textMul (.string ['a', 'b']) (.integer (.num 2)) = .ok (some ['a', 'b', 'a', 'b']) ∧
    textMul (.int 2) (.string ['a', 'b']) = .ok (some ['a', 'b', 'a', 'b']) := by decide

/-- `x[i]` of a text with an `int` or `Integer` and of a tuple with an `int`: the element that as many others precede as the position says, or follow it if the
position is negative (`-1` is the last); a position that is not there raises IndexError. -/
theorem C99_item (s : Str) (b : TextArg) (n : Int) (hb : countOfArg b = some n) :
    (∀ p c q, s = p ++ c :: q → (n = p.length ∨ n = -(q.length + 1 : Nat)) → stringItem s b = .ok [c]) ∧
    ((n < -(s.length : Int) ∨ (s.length : Int) ≤ n) → stringItem s b = .error .index) := by
  have hs : stringItem s b = (itemAt s n).map ([·]) := by
    match b with
    | .integer (.num _) | .int _ => cases hb; rfl
    | .integer (.hor _) | .string _ | .str _ => cases hb
  rw [hs]
  constructor
  · rintro p c q rfl h
    have : itemAt (p ++ c :: q) n = .ok c := by
      unfold itemAt
      rcases h with rfl | rfl
      · have e : ¬ ((p.length : Int) < 0) := by omega
        simp only [if_neg e, Int.toNat_natCast]
        rw [List.getElem?_append_right (by omega)]
        simp
      · have e : (-((q.length + 1 : Nat) : Int)) < 0 := by omega
        have e1 : (-((q.length + 1 : Nat) : Int)) + ((p ++ c :: q).length : Nat) = (p.length : Nat) := by
          simp only [List.length_append, List.length_cons]; omega
        have e2 : ¬ ((p.length : Int) < 0) := by omega
        simp only [if_pos e, e1, if_neg e2, Int.toNat_natCast]
        rw [List.getElem?_append_right (by omega)]
        simp
    rw [this]; rfl
  · intro h
    have : itemAt s n = .error .index := by
      unfold itemAt
      by_cases h0 : n < 0
      · simp only [if_pos h0]
        rw [if_pos (by omega)]
      · simp only [if_neg h0]
        rw [List.getElem?_eq_none (by omega)]
    rw [this]; rfl

/-- … and of tuples. -/
theorem C99_tuple_item {α : Type} (l : List α) (n : Int) :
    (∀ p c q, l = p ++ c :: q → (n = p.length ∨ n = -(q.length + 1 : Nat)) → tupleItem l (.int n) = .ok c) ∧
    ((n < -(l.length : Int) ∨ (l.length : Int) ≤ n) → tupleItem l (.int n) = .error .index) := by
  constructor
  · rintro p c q rfl h
    show itemAt (p ++ c :: q) n = .ok c
    unfold itemAt
    rcases h with rfl | rfl
    · have e : ¬ ((p.length : Int) < 0) := by omega
      simp only [if_neg e, Int.toNat_natCast]
      rw [List.getElem?_append_right (by omega)]
      simp
    · have e : (-((q.length + 1 : Nat) : Int)) < 0 := by omega
      have e1 : (-((q.length + 1 : Nat) : Int)) + ((p ++ c :: q).length : Nat) = (p.length : Nat) := by
        simp only [List.length_append, List.length_cons]; omega
      have e2 : ¬ ((p.length : Int) < 0) := by omega
      simp only [if_pos e, e1, if_neg e2, Int.toNat_natCast]
      rw [List.getElem?_append_right (by omega)]
      simp
  · intro h
    show itemAt l n = .error .index
    unfold itemAt
    by_cases h0 : n < 0
    · simp only [if_pos h0]
      rw [if_pos (by omega)]
    · simp only [if_neg h0]
      rw [List.getElem?_eq_none (by omega)]

/-- The second and the last character, and a position that is not there. -/
example : stringItem ['a', 'b', 'c'] (.integer (.num 1)) = .ok ['b'] ∧ stringItem ['a', 'b', 'c'] (.int (-1)) = .ok ['c'] ∧
    stringItem ['a', 'b', 'c'] (.int 3) = .error .index := by decide

/-- `t in s`: whether `t` is a part of `s` without gaps. -/
theorem C99_part (s : Str) (b : TextArg) (t : Str) (hb : textOf b = some t) :
    ∃ x, stringHas s b = .ok x ∧ (x = true ↔ ∃ p q, s = p ++ t ++ q) := by
  match b with
  | .string _ | .str _ => cases hb; exact ⟨_, rfl, hasPart_iff t s⟩
  | .integer _ | .int _ => cases hb

/-- `'bc' in String('abcd')`. -/
example : stringHas ['a', 'b', 'c', 'd'] (.str ['b', 'c']) = .ok true ∧ stringHas ['a', 'b', 'c', 'd'] (.str ['b', 'd']) = .ok false := by decide

/-- `n in tuple` for a tuple of whole numbers and shorthand and a whole number: whether one of its entries is that number. -/
theorem C99_member_whole (l : List IntVal) (e : Operand) (n : Int) (he : wholeOf e = some n) :
    tupleHas (l.map .integer) e = .ok (decide (IntVal.num n ∈ l)) := by
  induction l with
  | nil => rfl
  | cons x l ih =>
    cases x with
    | hor h =>
      have : pyRel .eq (.integer (.hor h)) e = .ok (some false) := by
        have hk : integerRel .eq (.hor h) e = .val false := by
          have h0 : horRel .eq h (intText n) = .val false := by
            simp only [horRel, intText]
            split
            · rfl
            · have := hor_not_int h n
              simp [this]
          match e with
          | .integer (.num _) | .int _ => cases he; exact h0
          | .integer (.hor _) | .real _ | .dec _ => cases he
        simp only [pyRel, relMethod, hk]
      rw [List.map_cons, tupleHas, this]
      simp [ih]
    | num m =>
      rw [List.map_cons, tupleHas, C75_integer .eq (.integer (.num m)) e m n rfl he]
      by_cases hm : m = n
      · subst hm; simp [decides]
      · have : decide (decides .eq m n) = false := by simp [decides, hm]
        simp only [this, ih]
        have : IntVal.num n ≠ IntVal.num m := by simpa using fun e => hm e.symm
        simp [this]

/-- `5 in tuple` of `1 2j 5`. -/
example : tupleHas ([.num 1, .hor (.jump (some 2)), .num 5].map .integer) (.int 5) = .ok true := by decide

/-- `x in tuple` for a tuple of finite decimals and a decimal or whole number: whether one of its entries denotes that number, however it is written. -/
theorem C99_member_decimal (l : List Dec) (e : Operand) (y : Dec) (he : decOf e = some y) :
    ∃ x, tupleHas (l.map (fun d => .real (.num (.fin d)))) e = .ok x ∧
      (x = true ↔ ∃ d ∈ l, ∃ k : Nat, 0 ≤ d.exp + k ∧ 0 ≤ y.exp + k ∧ scaled d k = scaled y k) := by
  induction l with
  | nil => exact ⟨false, rfl, by simp⟩
  | cons d l ih =>
    obtain ⟨x, h1, h2⟩ := ih
    rw [List.map_cons, tupleHas]
    obtain ⟨k, hk1, hk2⟩ : ∃ k : Nat, 0 ≤ d.exp + k ∧ 0 ≤ y.exp + k := ⟨(-d.exp).toNat + (-y.exp).toNat, by omega⟩
    have hp : ∀ k : Nat, 0 ≤ d.exp + k → 0 ≤ y.exp + k →
        pyRel .eq (.real (.num (.fin d))) e = .ok (some (decide (scaled d k = scaled y k))) := fun k a b =>
      C75_real .eq _ e d y rfl he (by rintro ⟨_, _, h, _⟩; cases h) k a b
    by_cases heq : scaled d k = scaled y k
    · rw [hp k hk1 hk2, decide_eq_true heq]
      exact ⟨true, rfl, by simp only [true_iff]; exact ⟨d, by simp, k, hk1, hk2, heq⟩⟩
    · rw [hp k hk1 hk2, decide_eq_false heq]
      refine ⟨x, h1, h2.trans ?_⟩
      constructor
      · rintro ⟨d', hd', h⟩; exact ⟨d', by simp [hd'], h⟩
      · rintro ⟨d', hd', k', a, b, c⟩
        rcases List.mem_cons.1 hd' with rfl | hd'
        · have := (hp k' a b).symm.trans (hp k hk1 hk2)
          simp [c, heq] at this
        · exact ⟨d', hd', k', a, b, c⟩

/-- `2.50 in tuple` of `1 2.5 3`. -/
example : tupleHas ([⟨false, 1, 0⟩, ⟨false, 25, -1⟩, ⟨false, 3, 0⟩].map (fun d => .real (.num (.fin d)))) (.dec (.fin ⟨false, 250, -2⟩)) = .ok true := by decide

/-- The code is not symmetric: for all texts `str + String` raises TypeError and `Integer * String` is `None`, although `String + str` and `String * Integer` are
texts; no `Integer` is ever found in a tuple of reals, and an `Integer` is no position in a tuple. -/
theorem C99_violated (s t : Str) (v : IntVal) (l : List RealVal) :
    textAdd (.str t) (.string s) = .error .typeErr ∧ textMul (.integer v) (.string s) = .ok none ∧
    tupleHas (l.map .real) (.integer v) = .ok false ∧ tupleItem (l.map Operand.real) (.integer v) = .error .typeErr := by
  refine ⟨rfl, rfl, ?_, rfl⟩
  induction l with
  | nil => rfl
  | cons x l ih => exact ih

end Props
