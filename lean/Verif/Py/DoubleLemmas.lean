import Verif.Py.Double
import Verif.Py.StrLemmas
/-! Helper lemmas: arithmetic of doubles that is exact. -/
namespace Py

/-- The whole number `k` as a double. -/
def whole (k : Int) : Dbl := .fin (k * 2 ^ 1074)

theorem round_exact (neg : Bool) (c t d : Nat) (hd : 0 < d) (hc : c < 2 ^ 53) (hb : c * 2 ^ t < 2 ^ 2098) :
    roundDbl neg (c * 2 ^ t * d) d = .fin (if neg then -((c * 2 ^ t : Nat) : Int) else (c * 2 ^ t : Nat)) := by
  have hs : Nat.log2 (c * 2 ^ t) + 1 - 53 ≤ t := by
    rcases Nat.eq_zero_or_pos c with rfl | hp
    · simp
    · have : c * 2 ^ t < 2 ^ (t + 53) := by
        rw [Nat.pow_add, Nat.mul_comm (2 ^ t)]
        exact Nat.mul_lt_mul_of_pos_right hc (Nat.two_pow_pos t)
      have := Nat.log2_lt (by have := Nat.mul_pos hp (Nat.two_pow_pos t); omega) |>.2 this
      omega
  unfold roundDbl
  simp only [Nat.mul_div_cancel _ hd]
  generalize hS : Nat.log2 (c * 2 ^ t) + 1 - 53 = s at hs
  have hsplit : c * 2 ^ t = c * 2 ^ (t - s) * 2 ^ s := by
    rw [Nat.mul_assoc, ← Nat.pow_add]; congr 2; omega
  have hr : roundHalf (c * 2 ^ t * d) (d * 2 ^ s) = c * 2 ^ (t - s) := by
    have hpos : 0 < d * 2 ^ s := Nat.mul_pos hd (Nat.two_pow_pos s)
    have e1 : c * 2 ^ t * d = c * 2 ^ (t - s) * (d * 2 ^ s) := by
      rw [hsplit, Nat.mul_assoc, Nat.mul_comm (2 ^ s) d]
    unfold roundHalf
    rw [e1]
    simp only [Nat.mul_div_cancel _ hpos, Nat.mul_mod_left, Nat.mul_zero]
    rw [if_pos hpos]
  rw [hr, ← hsplit, if_pos hb]

theorem round_whole (k : Int) (d : Nat) (hd : 0 < d) (hk : k.natAbs < 2 ^ 53) :
    roundDbl (decide (k < 0)) (k.natAbs * 2 ^ 1074 * d) d = whole k := by
  have hb : k.natAbs * 2 ^ 1074 < 2 ^ 2098 := by
    calc k.natAbs * 2 ^ 1074 < 2 ^ 53 * 2 ^ 1074 := Nat.mul_lt_mul_of_pos_right hk (Nat.two_pow_pos _)
      _ = 2 ^ 1127 := by rw [← Nat.pow_add]
      _ < 2 ^ 2098 := Nat.pow_lt_pow_right (by omega) (by omega)
  rw [round_exact _ _ _ _ hd hk hb]
  unfold whole
  by_cases h : k < 0
  · simp only [h, decide_true, if_true, Int.natCast_mul, Int.natCast_pow, Int.ofNat_natAbs_of_nonpos (by omega : k ≤ 0), Int.neg_mul, Int.neg_neg]
    rfl
  · simp only [h, decide_false, Int.natCast_mul, Int.natCast_pow, Int.natAbs_of_nonneg (by omega : 0 ≤ k)]
    rfl

theorem two1074_pos : (0 : Int) < 2 ^ 1074 := Int.pow_pos (by decide)

theorem mul_fin (a b : Int) : (Dbl.fin a).mul (.fin b) = roundDbl (decide (a * b < 0)) (a * b).natAbs (2 ^ 1074) := rfl

theorem sub_fin (a b : Int) : (Dbl.fin a).sub (.fin b) = roundDbl (decide (a - b < 0)) (a - b).natAbs 1 := rfl

theorem truth_fin (a : Int) : (Dbl.fin a).truth = (a != 0) := rfl

theorem cast1074 : (2 : Int) ^ 1074 = ((2 ^ 1074 : Nat) : Int) := (Int.natCast_pow 2 1074).symm

theorem neg_scale (k : Int) (P : Nat) (hP : 0 < P) : decide (k * (P : Int) < 0) = decide (k < 0) := by
  congr 1
  apply propext
  constructor
  · intro h; exact Int.neg_of_mul_neg_left h (by omega)
  · intro h; exact Int.mul_neg_of_neg_of_pos h (by omega)

theorem mul_whole (a b : Int) (h : (a * b).natAbs < 2 ^ 53) : (whole a).mul (whole b) = whole (a * b) := by
  rw [← round_whole (a * b) (2 ^ 1074) (Nat.two_pow_pos _) h]
  unfold whole
  rw [mul_fin, cast1074]
  have hP := Nat.two_pow_pos 1074
  generalize 2 ^ 1074 = P at *
  have e : a * (P : Int) * (b * (P : Int)) = a * b * ((P * P : Nat) : Int) := by
    rw [Int.natCast_mul, Int.mul_assoc, Int.mul_assoc, Int.mul_left_comm (P : Int)]
  rw [e, neg_scale _ _ (Nat.mul_pos hP hP), Int.natAbs_mul, Int.natAbs_natCast, Nat.mul_assoc]

theorem sub_whole (a b : Int) (h : (a - b).natAbs < 2 ^ 53) : (whole a).sub (whole b) = whole (a - b) := by
  rw [← round_whole (a - b) 1 (by omega) h]
  unfold whole
  rw [sub_fin, cast1074]
  have hP := Nat.two_pow_pos 1074
  generalize 2 ^ 1074 = P at *
  rw [← Int.sub_mul, neg_scale _ _ hP, Int.natAbs_mul, Int.natAbs_natCast, Nat.mul_one]

theorem truth_whole (k : Int) : (whole k).truth = decide (k ≠ 0) := by
  have hp := two1074_pos
  unfold whole
  rw [truth_fin]
  generalize (2 : Int) ^ 1074 = P at *
  by_cases h : k = 0
  · subst h; simp
  · have : k * P ≠ 0 := Int.mul_ne_zero h (by omega)
    simp [h, this]

/-- The whole number `k` as a decimal (`Decimal(str(k))`). -/
def wholeDec (k : Int) : DecVal := .fin ⟨decide (k < 0), k.natAbs, 0⟩

theorem dec_sub_whole (a b : Int) (h : (a - b).natAbs < 2 ^ 53) : decSub (wholeDec a) (wholeDec b) = .ok (whole (a - b)) := by
  have hval : ∀ k : Int, (if decide (k < 0) = true then -((k.natAbs : Nat) : Int) else (k.natAbs : Nat)) = k := by
    intro k
    by_cases hk : k < 0 <;> simp [hk] <;> omega
  have hlen : (natStr (a - b).natAbs).length - 28 = 0 := by
    have := natStr_length_le (a - b).natAbs 28 (by omega) (by omega)
    omega
  have hlen' : (natStr (a - b).natAbs).length ≤ 28 := by omega
  have hr : roundHalf (a - b).natAbs (10 ^ 0) = (a - b).natAbs := by simp [roundHalf, Nat.mod_one]
  unfold decSub wholeDec
  simp only [Int.min_self, Int.sub_self, Int.toNat_zero, Int.pow_zero, Int.mul_one, hval, hlen, hr]
  rw [if_neg (by omega)]
  have hv : (if a - b < 0 then -((a - b).natAbs : Int) else ((a - b).natAbs : Int)) = a - b := by split <;> omega
  rw [hv]
  have key : decDbl (a - b) (0 + ((0 : Nat) : Int)) = whole (a - b) := by
    rw [← round_whole (a - b) 1 (by omega) h]
    unfold decDbl
    generalize 2 ^ 1074 = P
    simp only [Int.natCast_zero, Int.add_zero, Int.toNat_zero, Int.neg_zero, Nat.pow_zero, Nat.mul_one]
  rw [key]

end Py
