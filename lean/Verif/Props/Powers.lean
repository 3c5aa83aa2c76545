import Verif.Types.Powers
import Verif.Props.Operators
/-!
# C75 – powers and quotients of whole numbers
-/
namespace Props
open Py Types

/-- The product of `n` factors `x`. -/
def product (x : Int) : Nat → Int
  | 0 => 1
  | n + 1 => x * product x n

theorem product_add (x : Int) (m n : Nat) : product x (m + n) = product x m * product x n := by
  induction m with
  | zero => simp [product]
  | succ m ih => rw [show m + 1 + n = (m + n) + 1 by omega, product, product, ih, Int.mul_assoc]

theorem product_square (x : Int) (n : Nat) : product (x * x) n = product x (n + n) := by
  induction n with
  | zero => rfl
  | succ n ih =>
    rw [show n + 1 + (n + 1) = (n + n) + 1 + 1 by omega, product, product, product, ih, Int.mul_assoc]

theorem powBits_product (n : Nat) : ∀ x : Int, powBits x n = product x n := by
  induction n using Nat.strongRecOn with
  | ind n ih =>
    intro x
    rw [powBits]
    by_cases h : n = 0
    · subst h; rfl
    · rw [dif_neg h, ih (n / 2) (by omega), product_square]
      by_cases h2 : n % 2 = 1
      · rw [if_pos h2]
        have e : n = (n / 2 + n / 2) + 1 := by omega
        conv => rhs; rw [e, product]
      · rw [if_neg h2]
        have e : n = n / 2 + n / 2 := by omega
        conv => rhs; rw [e]

/-- Powers of whole numbers with an exponent that is not negative are whole and exact, on either side; a negative exponent gives
the reciprocal as a `float`, and fails for zero.  The quotient and the remainder come together as one by one, and the true
quotient is a `float` near the fraction; only division by zero fails. -/
theorem C75_power (a b : Operand) (x y : Int) (ha : wholeOf a = some x) (hb : wholeOf b = some y) :
    (∀ n : Nat, y = n → pyAri2 .pow a b = .ok (some (.whole (product x n)))) ∧
    (∀ n : Nat, y = -(n : Int) → 0 < n → pyAri2 .pow a b = if x = 0 then .error .value else .ok (some (.near 1 (product x n)))) ∧
    (∀ q m, pyAri2 .divmod a b = .ok (some (.pair q m)) ↔ pyAri .floordiv a b = .ok (some q) ∧ pyAri .mod a b = .ok (some m)) ∧
    (y ≠ 0 → (∃ q m, pyAri2 .divmod a b = .ok (some (.pair q m))) ∧ pyAri2 .truediv a b = .ok (some (.near x y))) ∧
    (y = 0 → pyAri2 .divmod a b = .error .value ∧ pyAri2 .truediv a b = .error .value) := by
  have key : ∀ o, pyAri2 o a b = (o.eval x y).map some := by
    intro o
    match a, b with
    | .int _, .int _ => cases ha; cases hb; rfl
    | .integer (.num _), .integer (.num _) | .integer (.num _), .int _ | .int _, .integer (.num _) =>
      cases ha; cases hb
      simp only [pyAri2, integerAri2, if_true, Bool.false_eq_true, if_false]
      cases o.eval x y <;> rfl
    | .integer (.hor _), _ => cases ha
    | .real _, _ => cases ha
    | .dec _, _ => cases ha
    | .integer (.num _), .integer (.hor _) | .int _, .integer (.hor _) => cases hb
    | .integer (.num _), .real _ | .int _, .real _ => cases hb
    | .integer (.num _), .dec _ | .int _, .dec _ => cases hb
  have key1 : ∀ o, pyAri o a b = (o.eval x y).map some := by
    intro o
    match a, b with
    | .int _, .int _ => cases ha; cases hb; rfl
    | .integer (.num _), .integer (.num _) | .integer (.num _), .int _ | .int _, .integer (.num _) =>
      cases ha; cases hb
      simp only [pyAri, integerAri, if_true, Bool.false_eq_true, if_false]
      cases o.eval x y <;> rfl
    | .integer (.hor _), _ => cases ha
    | .real _, _ => cases ha
    | .dec _, _ => cases ha
    | .integer (.num _), .integer (.hor _) | .int _, .integer (.hor _) => cases hb
    | .integer (.num _), .real _ | .int _, .real _ => cases hb
    | .integer (.num _), .dec _ | .int _, .dec _ => cases hb
  simp only [key, key1]
  refine ⟨fun n hn => ?_, fun n hn h0 => ?_, fun q m => ?_, fun hy => ?_, fun hy => ?_⟩
  · subst hn
    simp only [Ari2.eval, if_pos (Int.natCast_nonneg n), powBits_product]
    rfl
  · subst hn
    have h1 : ¬ (0 ≤ -(n : Int)) := by omega
    simp only [Ari2.eval, if_neg h1, powBits_product]
    split
    · rfl
    · simp only [Except.map, Int.neg_neg, Int.toNat_natCast]
  · simp only [Ari2.eval, Ari.eval]
    by_cases hy : y = 0
    · simp [if_pos hy, Except.map]
    · simp [if_neg hy, Except.map]
  · simp only [Ari2.eval, if_neg hy]
    exact ⟨⟨_, _, rfl⟩, rfl⟩
  · subst hy
    exact ⟨rfl, rfl⟩

/-- `Integer(-3) ** 3`, `2 ** Integer(-4)`, `divmod(Integer(-7), 2)`. -/
example : pyAri2 .pow (.integer (.num (-3))) (.int 3) = .ok (some (.whole (-27))) ∧
    pyAri2 .pow (.int 2) (.integer (.num (-4))) = .ok (some (.near 1 16)) ∧
    pyAri2 .divmod (.integer (.num (-7))) (.int 2) = .ok (some (.pair (-4) 1)) := by
  refine ⟨?_, ?_, ?_⟩
  · exact (C75_power (.integer (.num (-3))) (.int 3) (-3) 3 rfl rfl).1 3 rfl
  · exact (C75_power (.int 2) (.integer (.num (-4))) 2 (-4) rfl rfl).2.1 4 rfl (by decide)
  · decide

/-- With a `Real` or a `Decimal` the result is `None`. -/
theorem C75_power_violated (o : Ari2) (n : Int) (v : RealVal) (d : DecVal) :
    pyAri2 o (.integer (.num n)) (.real v) = .ok none ∧ pyAri2 o (.integer (.num n)) (.dec d) = .ok none := ⟨rfl, rfl⟩

end Props
