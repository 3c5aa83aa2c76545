import Verif.Types.Operators
/-!
# Comparison and arithmetic of numbers: C75
-/
namespace Props
open Py Types

/-! ## Specification -/

/-- The number that a whole-number operand stands for. -/
def wholeOf : Operand → Option Int
  | .integer (.num n) => some n
  | .int n => some n
  | _ => none

/-- The finite decimal that an operand stands for, unless it is an `Integer`. -/
def decOf : Operand → Option Dec
  | .real (.num (.fin d)) => some d
  | .dec (.fin d) => some d
  | .int n => some ⟨decide (n < 0), n.natAbs, 0⟩
  | _ => none

/-- Where an operand lies: −1 for −∞, 1 for ∞, 0 for finite numbers; nothing for `Integer`, shorthand and NaN. -/
def rankOf : Operand → Option Int
  | .real (.num (.fin _)) | .dec (.fin _) | .int _ => some 0
  | .real (.num (.inf b)) | .dec (.inf b) => some (if b then -1 else 1)
  | _ => none

/-- `x` times `10^k` as an integer, for `k` large enough. -/
def scaled (x : Dec) (k : Nat) : Int := (if x.neg then -(x.coeff : Int) else x.coeff) * 10 ^ (x.exp + k).toNat

/-- The order of two integers decides an operator. -/
def decides : Rel → Int → Int → Prop
  | .lt, x, y => x < y
  | .le, x, y => x ≤ y
  | .eq, x, y => x = y
  | .ne, x, y => x ≠ y
  | .gt, x, y => y < x
  | .ge, x, y => y ≤ x

instance (r : Rel) (x y : Int) : Decidable (decides r x y) := by
  cases r <;> simp only [decides] <;> infer_instance

/-! ## Helper lemmas -/

theorem holds_decides (r : Rel) (x y : Int) : r.holds (compare x y) = decide (decides r x y) := by
  rw [Bool.eq_iff_iff, decide_eq_true_iff]
  cases r <;> simp only [Rel.holds, decides, beq_iff_eq, bne_iff_ne, ne_eq, Int.compare_eq_lt, Int.compare_eq_gt, Int.compare_eq_eq] <;> omega

theorem decides_scale (r : Rel) (x y c : Int) (hc : 0 < c) : decides r (x * c) (y * c) ↔ decides r x y := by
  cases r <;> simp only [decides]
  · exact Int.mul_lt_mul_right hc
  · exact Int.mul_le_mul_right hc
  · exact Int.mul_eq_mul_right_iff (by omega)
  · exact not_congr (Int.mul_eq_mul_right_iff (by omega))
  · exact Int.mul_lt_mul_right hc
  · exact Int.mul_le_mul_right hc

/-- The order of decimals does not depend on the power of ten they are brought to. -/
theorem order_scaled (r : Rel) (x y : Dec) (k : Nat) (hx : 0 ≤ x.exp + k) (hy : 0 ≤ y.exp + k) :
    r.holds (Dec.order x y) = decide (decides r (scaled x k) (scaled y k)) := by
  unfold Dec.order
  rw [holds_decides]
  have hm : 0 ≤ min x.exp y.exp + k := by omega
  have e : ∀ z : Dec, min x.exp y.exp ≤ z.exp →
      scaled z k = (Dec.signed z * 10 ^ (z.exp - min x.exp y.exp).toNat) * 10 ^ (min x.exp y.exp + k).toNat := by
    intro z hz
    have : (z.exp + k).toNat = (z.exp - min x.exp y.exp).toNat + (min x.exp y.exp + k).toNat := by omega
    rw [scaled, this, Int.pow_add, ← Int.mul_assoc]
    rfl
  rw [e x (by omega), e y (by omega)]
  refine decide_eq_decide.2 (decides_scale r _ _ _ (Int.pow_pos (by omega))).symm

theorem decides_swap (r : Rel) (x y : Int) : decides r.swap y x ↔ decides r x y := by
  cases r <;> simp only [Rel.swap, decides] <;> omega

theorem order_swap (r : Rel) (x y : Dec) : r.swap.holds (Dec.order y x) = r.holds (Dec.order x y) := by
  have hk : ∃ k : Nat, 0 ≤ x.exp + k ∧ 0 ≤ y.exp + k := ⟨(-x.exp).toNat + (-y.exp).toNat, by omega⟩
  obtain ⟨k, h1, h2⟩ := hk
  rw [order_scaled _ _ _ k h2 h1, order_scaled _ _ _ k h1 h2]
  exact decide_eq_decide.2 (decides_swap r _ _)

/-! ## C75 – numbers compare and calculate as numbers -/

/-- Whole numbers: every comparison of `Integer` objects with one another or with `int`, on either side, decides as the
numbers do. -/
theorem C75_integer (r : Rel) (a b : Operand) (x y : Int) (ha : wholeOf a = some x) (hb : wholeOf b = some y) :
    pyRel r a b = .ok (some (decide (decides r x y))) := by
  match a, b with
  | .integer (.num _), .integer (.num _) | .integer (.num _), .int _ | .int _, .int _ =>
    cases ha; cases hb
    simp only [pyRel, relMethod, integerRel, intRaw, holds_decides]
  | .int _, .integer (.num _) =>
    cases ha; cases hb
    simp only [pyRel, relMethod, integerRel, intRaw, holds_decides]
    congr 3
    exact propext (decides_swap r _ _)
  | .integer (.hor _), _ => cases ha
  | .real _, _ => cases ha
  | .dec _, _ => cases ha
  | .integer (.num _), .integer (.hor _) | .int _, .integer (.hor _) => cases hb
  | .integer (.num _), .real _ | .int _, .real _ => cases hb
  | .integer (.num _), .dec _ | .int _, .dec _ => cases hb

/-- `2 < Integer(3)`, `Integer(3) == Integer(3)`. -/
example : pyRel .lt (.int 2) (.integer (.num 3)) = .ok (some true) ∧ pyRel .eq (.integer (.num 3)) (.integer (.num 3)) = .ok (some true) := by
  decide

/-- Decimals: every comparison of `Real` objects with one another, with `Decimal` or with `int`, on either side, decides as the
numbers do, whatever power of ten they are written with. -/
theorem C75_real (r : Rel) (a b : Operand) (x y : Dec) (ha : decOf a = some x) (hb : decOf b = some y)
    (hab : ¬ ∃ m n, a = .int m ∧ b = .int n) (k : Nat) (hx : 0 ≤ x.exp + k) (hy : 0 ≤ y.exp + k) :
    pyRel r a b = .ok (some (decide (decides r (scaled x k) (scaled y k)))) := by
  rw [← order_scaled r x y k hx hy]
  match a, b with
  | .real (.num (.fin _)), .real (.num (.fin _)) | .real (.num (.fin _)), .dec (.fin _) | .real (.num (.fin _)), .int _ =>
    cases ha; cases hb; rfl
  | .dec (.fin _), .dec (.fin _) | .dec (.fin _), .int _ | .int _, .dec (.fin _) =>
    cases ha; cases hb; rfl
  | .dec (.fin _), .real (.num (.fin _)) | .int _, .real (.num (.fin _)) =>
    cases ha; cases hb
    rw [← order_swap]; rfl
  | .int m, .int n => exact absurd ⟨m, n, rfl, rfl⟩ hab
  | .integer _, _ => cases ha
  | .real (.hor _), _ => cases ha
  | .real (.num (.inf _)), _ => cases ha
  | .real (.num (.nan ..)), _ => cases ha
  | .dec (.inf _), _ => cases ha
  | .dec (.nan ..), _ => cases ha
  | .real (.num (.fin _)), .integer _ | .dec (.fin _), .integer _ | .int _, .integer _ => cases hb
  | .real (.num (.fin _)), .real (.hor _) | .dec (.fin _), .real (.hor _) | .int _, .real (.hor _) => cases hb
  | .real (.num (.fin _)), .real (.num (.inf _)) | .dec (.fin _), .real (.num (.inf _)) | .int _, .real (.num (.inf _)) => cases hb
  | .real (.num (.fin _)), .real (.num (.nan ..)) | .dec (.fin _), .real (.num (.nan ..)) | .int _, .real (.num (.nan ..)) => cases hb
  | .real (.num (.fin _)), .dec (.inf _) | .dec (.fin _), .dec (.inf _) | .int _, .dec (.inf _) => cases hb
  | .real (.num (.fin _)), .dec (.nan ..) | .dec (.fin _), .dec (.nan ..) | .int _, .dec (.nan ..) => cases hb

/-- `Real('2.50') == Decimal('2.5')`, `1 < Real('1e3')`. -/
example : pyRel .eq (.real (.num (.fin ⟨false, 250, -2⟩))) (.dec (.fin ⟨false, 25, -1⟩)) = .ok (some true) ∧
    pyRel .lt (.int 1) (.real (.num (.fin ⟨false, 1, 3⟩))) = .ok (some true) := by decide

/-- Infinities: −∞ is smaller than every finite number and than ∞, and ∞ greater than every finite number; each equals itself. -/
theorem C75_infinite (r : Rel) (a b : Operand) (p q : Int) (ha : rankOf a = some p) (hb : rankOf b = some q) (hpq : ¬ (p = 0 ∧ q = 0)) :
    pyRel r a b = .ok (some (decide (decides r p q))) := by
  match a, b with
  | .real (.num (.fin _)), .real (.num (.fin _)) | .real (.num (.fin _)), .dec (.fin _) | .real (.num (.fin _)), .int _
  | .dec (.fin _), .dec (.fin _) | .dec (.fin _), .int _ | .int _, .dec (.fin _)
  | .dec (.fin _), .real (.num (.fin _)) | .int _, .real (.num (.fin _)) | .int _, .int _ =>
    cases ha; cases hb; exact absurd ⟨rfl, rfl⟩ hpq
  | .real (.num (.inf u)), .real (.num (.fin _)) | .real (.num (.inf u)), .dec (.fin _) | .real (.num (.inf u)), .int _
  | .dec (.inf u), .dec (.fin _) | .dec (.inf u), .int _ | .dec (.inf u), .real (.num (.fin _)) =>
    cases ha; cases hb; cases u <;> cases r <;> rfl
  | .real (.num (.fin _)), .real (.num (.inf u)) | .dec (.fin _), .real (.num (.inf u)) | .int _, .real (.num (.inf u))
  | .real (.num (.fin _)), .dec (.inf u) | .dec (.fin _), .dec (.inf u) | .int _, .dec (.inf u) =>
    cases ha; cases hb; cases u <;> cases r <;> rfl
  | .real (.num (.inf u)), .real (.num (.inf v)) | .real (.num (.inf u)), .dec (.inf v) | .dec (.inf u), .real (.num (.inf v))
  | .dec (.inf u), .dec (.inf v) =>
    cases ha; cases hb; cases u <;> cases v <;> cases r <;> rfl
  | .integer _, _ => cases ha
  | .real (.hor _), _ => cases ha
  | .real (.num (.nan ..)), _ => cases ha
  | .dec (.nan ..), _ => cases ha
  | .real (.num (.fin _)), .integer _ | .dec (.fin _), .integer _ | .int _, .integer _ => cases hb
  | .real (.num (.inf _)), .integer _ | .dec (.inf _), .integer _ => cases hb
  | .real (.num (.fin _)), .real (.hor _) | .dec (.fin _), .real (.hor _) | .int _, .real (.hor _) => cases hb
  | .real (.num (.inf _)), .real (.hor _) | .dec (.inf _), .real (.hor _) => cases hb
  | .real (.num (.fin _)), .real (.num (.nan ..)) | .dec (.fin _), .real (.num (.nan ..)) | .int _, .real (.num (.nan ..)) => cases hb
  | .real (.num (.inf _)), .real (.num (.nan ..)) | .dec (.inf _), .real (.num (.nan ..)) => cases hb
  | .real (.num (.fin _)), .dec (.nan ..) | .dec (.fin _), .dec (.nan ..) | .int _, .dec (.nan ..) => cases hb
  | .real (.num (.inf _)), .dec (.nan ..) | .dec (.inf _), .dec (.nan ..) => cases hb

/-- `5 < Real('inf')`. -/
example : pyRel .lt (.int 5) (.real (.num (.inf false))) = .ok (some true) := by decide

/-- Whole numbers are added, subtracted, multiplied and divided as such, on either side; only division by zero fails.  The
quotient is rounded down and the remainder has the sign of the divisor. -/
theorem C75_arithmetic (a b : Operand) (x y : Int) (ha : wholeOf a = some x) (hb : wholeOf b = some y) :
    pyAri .add a b = .ok (some (x + y)) ∧ pyAri .sub a b = .ok (some (x - y)) ∧ pyAri .mul a b = .ok (some (x * y)) ∧
    (y ≠ 0 → ∃ q m, pyAri .floordiv a b = .ok (some q) ∧ pyAri .mod a b = .ok (some m) ∧ x = q * y + m ∧
      (0 < y → 0 ≤ m ∧ m < y) ∧ (y < 0 → y < m ∧ m ≤ 0)) ∧
    (y = 0 → pyAri .floordiv a b = .error .value ∧ pyAri .mod a b = .error .value) := by
  have key : ∀ o, pyAri o a b = (o.eval x y).map some := by
    intro o
    match a, b with
    | .int _, .int _ => cases ha; cases hb; rfl
    | .integer (.num _), .integer (.num _) | .integer (.num _), .int _ | .int _, .integer (.num _) =>
      cases ha; cases hb
      simp only [pyAri, integerAri, if_true, Bool.false_eq_true, if_false]
      cases o.eval x y <;> rfl
    | .integer (.hor _), _ => cases ha
    | .real _, _ => cases ha
    | .dec _, _ => cases ha
    | .integer (.num _), .integer (.hor _) | .int _, .integer (.hor _) => cases hb
    | .integer (.num _), .real _ | .int _, .real _ => cases hb
    | .integer (.num _), .dec _ | .int _, .dec _ => cases hb
  simp only [key]
  refine ⟨rfl, rfl, rfl, fun hy => ?_, fun hy => ?_⟩
  · refine ⟨x.fdiv y, x.fmod y, by simp only [Ari.eval, if_neg hy]; rfl, by simp only [Ari.eval, if_neg hy]; rfl, ?_, ?_, ?_⟩
    · have := Int.mul_fdiv_add_fmod x y
      rw [Int.mul_comm]; exact this.symm
    · intro h
      exact ⟨Int.fmod_nonneg_of_pos x h, Int.fmod_lt_of_pos x h⟩
    · intro h
      have h1 := Int.fmod_nonneg_of_pos (-x) (show 0 < -y by omega)
      have h2 := Int.fmod_lt_of_pos (-x) (show 0 < -y by omega)
      rw [Int.neg_fmod_neg] at h1 h2
      omega
  · subst hy
    exact ⟨rfl, rfl⟩

/-- `Integer(-7) // 2`, `7 % Integer(-2)`. -/
example : pyAri .floordiv (.integer (.num (-7))) (.int 2) = .ok (some (-4)) ∧ pyAri .mod (.int 7) (.integer (.num (-2))) = .ok (some (-1)) := by
  decide

/-- An `Integer` and a `Real` (or a `Decimal`) are neither equal nor different, neither smaller nor greater: every comparison,
and every sum, difference, product or quotient, is `None`, whatever the numbers are. -/
theorem C75_violated (r : Rel) (n : Int) (v : RealVal) (d : DecVal) :
    pyRel r (.integer (.num n)) (.real v) = .ok none ∧ pyRel r (.real v) (.integer (.num n)) = .ok none ∧
    pyRel r (.integer (.num n)) (.dec d) = .ok none ∧ pyRel r (.dec d) (.integer (.num n)) = .ok none ∧
    ∀ o, pyAri o (.integer (.num n)) (.real v) = .ok none := by
  refine ⟨rfl, rfl, rfl, rfl, fun o => rfl⟩

end Props
