import Verif.Types.Rounding
import Verif.Props.RealOps
/-!
# C96: converting numbers of cards
-/
namespace Props
open Py Types

/-! ## Specification -/

/-- `n` is the fraction `a/b` (`0 < b`) made whole: cut off, rounded down, rounded up, or rounded to the nearest whole number, of two the even one. -/
def Whole (a : Int) (b : Nat) : ToInt → Int → Prop
  | .trunc, n => n.natAbs * b ≤ a.natAbs ∧ a.natAbs < (n.natAbs + 1) * b ∧ (n < 0 → a < 0) ∧ (0 < n → 0 < a)
  | .floor, n => n * b ≤ a ∧ a < (n + 1) * b
  | .ceil, n => (n - 1) * b < a ∧ a ≤ n * b
  | .round, n => 2 * (a - n * b).natAbs ≤ b ∧ (2 * (a - n * b).natAbs = b → n % 2 = 0)

/-- The whole multiples `k` of 2^-1074 that are floats. -/
def IsDouble (k : Int) : Prop := k.natAbs < 2 ^ 2098 ∧ ∃ c t : Nat, c < 2 ^ 53 ∧ k.natAbs = c * 2 ^ t

/-- `k`, in units of 2^-1074, is the float next to `a/b`; of two the one whose last binary digit is zero. -/
structure NextDouble (a : Int) (b : Nat) (k : Int) : Prop where
  double : IsDouble k
  near : ∀ j, IsDouble j → (k * b - a * 2 ^ 1074).natAbs ≤ (j * b - a * 2 ^ 1074).natAbs
  even : ∀ j, IsDouble j → j ≠ k → (k * b - a * 2 ^ 1074).natAbs = (j * b - a * 2 ^ 1074).natAbs → 2 * (j - k).natAbs ∣ k.natAbs

/-- `a/b` is so large that no float is next to it: at least half a unit of the last digit above the largest float. -/
def TooLarge (a : Int) (b : Nat) : Prop := (2 ^ 54 - 1) * 2 ^ 970 * b ≤ a.natAbs

/-- What `-x`, `+x` and `abs(x)` mean. -/
def signOf : SignOp → Int → Int
  | .neg, n => -n
  | .pos, n => n
  | .abs, n => if n < 0 then -n else n

/-! ## Helper lemmas -/

theorem roundHalf_even (n d : Nat) (hd : 0 < d) (h : 2 * ((roundHalf n d * d : Nat) - (n : Int)).natAbs = d) : roundHalf n d % 2 = 0 := by
  have hdm := Nat.div_add_mod n d
  have hr := Nat.mod_lt n hd
  unfold roundHalf at h ⊢
  simp only at h ⊢
  generalize n / d = q at *
  generalize n % d = r at *
  have e1 : q * d = d * q := Nat.mul_comm _ _
  have e2 : (q + 1) * d = d * q + d := by rw [Nat.add_mul, Nat.one_mul, e1]
  by_cases h1 : 2 * r < d
  · rw [if_pos h1, e1] at h; omega
  · rw [if_neg h1] at h ⊢
    by_cases h2 : 2 * r > d
    · rw [if_pos h2, e2] at h; omega
    · rw [if_neg h2]
      split <;> omega

/-- Making whole a fraction with a sign. -/
theorem whole_signed (o : ToInt) (neg : Bool) (n p : Nat) (hp : 0 < p) :
    Whole (if neg then -(n : Int) else n) p o (if neg then -(wholeAbs o neg n p : Int) else wholeAbs o neg n p) := by
  have hdm := Nat.div_add_mod n p
  have hr := Nat.mod_lt n hp
  have e1 : p * (n / p) = n / p * p := Nat.mul_comm _ _
  have e2 : (n / p + 1) * p = n / p * p + p := by rw [Nat.add_mul, Nat.one_mul]
  have pos : 0 < n / p → 0 < n := by
    intro h
    rcases Nat.eq_zero_or_pos n with h0 | h0
    · subst h0; simp at h
    · exact h0
  cases o with
  | trunc =>
    show _ ∧ _ ∧ _ ∧ _
    simp only [wholeAbs]
    generalize n / p = q at *
    refine ⟨?_, ?_, ?_, ?_⟩
    · rw [natAbs_signed, natAbs_signed]; omega
    · rw [natAbs_signed, natAbs_signed]; omega
    · cases neg <;> simp <;> omega
    · cases neg <;> simp <;> omega
  | floor =>
    show _ ∧ _
    simp only [wholeAbs]
    generalize n / p = q at *
    generalize n % p = r at *
    cases neg
    · simp only [Bool.false_eq_true, false_and, if_false]
      have h1 : ((q : Int) + 1) * p = ((q + 1) * p : Nat) := by simp
      have h2 : (q : Int) * p = (q * p : Nat) := by simp
      rw [h1, h2]; omega
    · simp only [true_and, if_true]
      by_cases h0 : r = 0
      · have h1 : (-(q : Int) + 1) * p = (p : Int) - (q * p : Nat) := by rw [Int.add_mul, Int.neg_mul, Int.natCast_mul]; omega
        have h2 : -(q : Int) * p = -(q * p : Nat) := by rw [Int.neg_mul, Int.natCast_mul]
        rw [if_neg (by simpa using h0), h1, h2]; omega
      · have h1 : (-((q + 1 : Nat) : Int) + 1) * p = -(q * p : Nat) := by
          rw [Int.natCast_mul, ← Int.neg_mul]; congr 1; omega
        have h2 : -((q + 1 : Nat) : Int) * p = -((q + 1) * p : Nat) := by rw [Int.neg_mul, Int.natCast_mul]
        rw [if_pos h0, h1, h2]; omega
  | ceil =>
    show _ ∧ _
    simp only [wholeAbs]
    generalize n / p = q at *
    generalize n % p = r at *
    cases neg
    · simp only [true_and, Bool.false_eq_true, if_false]
      by_cases h0 : r = 0
      · have h1 : ((q : Int) - 1) * p = (q * p : Nat) - (p : Int) := by rw [Int.sub_mul, Int.natCast_mul]; omega
        have h2 : (q : Int) * p = (q * p : Nat) := by rw [Int.natCast_mul]
        rw [if_neg (by simpa using h0), h1, h2]; omega
      · have h1 : (((q + 1 : Nat) : Int) - 1) * p = (q * p : Nat) := by
          rw [Int.natCast_mul]; congr 1; omega
        have h2 : ((q + 1 : Nat) : Int) * p = ((q + 1) * p : Nat) := by rw [Int.natCast_mul]
        rw [if_pos h0, h1, h2]; omega
    · simp only [Bool.true_eq_false, false_and, if_false, if_true]
      have h1 : (-(q : Int) - 1) * p = -((q + 1) * p : Nat) := by
        rw [Int.natCast_mul, ← Int.neg_mul]; congr 1; omega
      have h2 : -(q : Int) * p = -(q * p : Nat) := by rw [Int.neg_mul, Int.natCast_mul]
      rw [h1, h2]; omega
  | round =>
    show _ ∧ _
    simp only [wholeAbs]
    have near := roundHalf_near n p hp
    have even := roundHalf_even n p hp
    generalize roundHalf n p = q at *
    have : ((if neg then -(n : Int) else n) - (if neg then -(q : Int) else q) * p).natAbs = ((q * p : Nat) - (n : Int)).natAbs := by
      have h2 : -(q : Int) * p = -(q * p : Nat) := by rw [Int.neg_mul, Int.natCast_mul]
      have h3 : (q : Int) * p = (q * p : Nat) := by rw [Int.natCast_mul]
      cases neg
      · simp only [Bool.false_eq_true, if_false]; rw [h3]; omega
      · simp only [if_true]; rw [h2]; omega
    rw [this]
    refine ⟨near, fun h => ?_⟩
    have := even h
    cases neg <;> simp <;> omega

/-- Whole numbers are whole. -/
theorem whole_int (o : ToInt) (n : Int) : Whole n 1 o n := by
  cases o with
  | trunc => exact ⟨by omega, by omega, id, id⟩
  | floor => exact ⟨by omega, by omega⟩
  | ceil => exact ⟨by omega, by omega⟩
  | round => exact ⟨by omega, by omega⟩

theorem whole_flt (o : ToInt) (k : Int) : Whole k (2 ^ 1074) o (fltWhole o k) := by
  have hp : 0 < 2 ^ 1074 := Nat.pow_pos (by decide)
  have sgn : (if decide (k < 0) = true then -(k.natAbs : Int) else k.natAbs) = k := by
    by_cases h : k < 0 <;> simp [h] <;> omega
  have key := whole_signed o (decide (k < 0)) k.natAbs (2 ^ 1074) hp
  rw [sgn] at key
  have cast : ((2 ^ 1074 : Nat) : Int) = 2 ^ 1074 := Int.natCast_pow 2 1074
  have hp' : (0 : Int) < 2 ^ 1074 := by rw [← cast]; omega
  cases o with
  | trunc =>
    have : fltWhole .trunc k = (if decide (k < 0) = true then -(wholeAbs .trunc (decide (k < 0)) k.natAbs (2 ^ 1074) : Int) else wholeAbs .trunc (decide (k < 0)) k.natAbs (2 ^ 1074)) := by
      by_cases h : k < 0 <;> simp only [fltWhole, wholeAbs, h, decide_true, decide_false, if_true, if_false, Bool.false_eq_true]
    rw [this]; exact key
  | floor =>
    show _ ∧ _
    simp only [fltWhole]
    rw [cast]
    generalize (2 : Int) ^ 1074 = P at *
    have h1 := Int.emod_add_mul_ediv k P
    have h2 := Int.emod_nonneg k (Int.ne_of_gt hp')
    have h3 := Int.emod_lt_of_pos k hp'
    have h4 : P * (k / P) = k / P * P := Int.mul_comm _ _
    rw [Int.add_mul, Int.one_mul]
    omega
  | ceil =>
    show _ ∧ _
    simp only [fltWhole]
    rw [cast]
    generalize (2 : Int) ^ 1074 = P at *
    have h1 := Int.emod_add_mul_ediv (-k) P
    have h2 := Int.emod_nonneg (-k) (Int.ne_of_gt hp')
    have h3 := Int.emod_lt_of_pos (-k) hp'
    have h4 : P * (-k / P) = -k / P * P := Int.mul_comm _ _
    rw [Int.sub_mul, Int.one_mul, Int.neg_mul]
    omega
  | round =>
    have : fltWhole .round k = (if decide (k < 0) = true then -(wholeAbs .round (decide (k < 0)) k.natAbs (2 ^ 1074) : Int) else wholeAbs .round (decide (k < 0)) k.natAbs (2 ^ 1074)) := by
      by_cases h : k < 0 <;> simp only [fltWhole, wholeAbs, h, decide_true, decide_false, if_true, if_false, Bool.false_eq_true]
    rw [this]; exact key

/-! ### The nearest float -/

/-- Numbers with at most 53 binary digits between the first and the last that is not zero. -/
def Fits (j : Nat) : Prop := ∃ c t : Nat, c < 2 ^ 53 ∧ j = c * 2 ^ t

/-- The distance between `j` and `n/d`, in units of `1/d`. -/
def gap (j n d : Nat) : Nat := ((j * d : Nat) - (n : Int)).natAbs

theorem roundHalf_best (n d i : Nat) (hd : 0 < d) : gap (roundHalf n d) n d ≤ gap i n d := by
  have near := roundHalf_near n d hd
  unfold gap
  generalize roundHalf n d = q at *
  rcases Nat.lt_trichotomy i q with h | h | h
  · have : i * d + d ≤ q * d := by rw [← Nat.succ_mul]; exact Nat.mul_le_mul_right _ h
    omega
  · subst h; exact Nat.le_refl _
  · have : q * d + d ≤ i * d := by rw [← Nat.succ_mul]; exact Nat.mul_le_mul_right _ h
    omega

/-- How many binary digits are dropped. -/
def drop (n d : Nat) : Nat := Nat.log2 (n / d) + 1 - 53

/-- The number `roundDbl` computes before looking whether it is too large. -/
def nearest (n d : Nat) : Nat := roundHalf n (d * 2 ^ drop n d) * 2 ^ drop n d

theorem gap_mul (i p n d : Nat) : gap (i * p) n d = gap i n (d * p) := by
  unfold gap
  have : i * p * d = i * (d * p) := by rw [Nat.mul_assoc, Nat.mul_comm p d]
  rw [this]

theorem low_le (n d : Nat) (h : 0 < drop n d) : 2 ^ (52 + drop n d) * d ≤ n := by
  have hz : n / d ≠ 0 := by
    intro h0
    unfold drop at h
    rw [h0] at h
    have : Nat.log2 0 = 0 := by decide
    omega
  have h1 := Nat.log2_self_le hz
  have h2 : Nat.log2 (n / d) = 52 + drop n d := by unfold drop at h ⊢; omega
  rw [h2] at h1
  exact Nat.le_trans (Nat.mul_le_mul_right d h1) (Nat.div_mul_le_self n d)

theorem fits_cases (n d j : Nat) (hj : Fits j) :
    (∃ i, j = i * 2 ^ drop n d) ∨ (0 < drop n d ∧ j < 2 ^ (52 + drop n d)) := by
  obtain ⟨c, t, hc, rfl⟩ := hj
  by_cases h : drop n d ≤ t
  · refine .inl ⟨c * 2 ^ (t - drop n d), ?_⟩
    rw [Nat.mul_assoc, ← Nat.pow_add]
    congr 2; omega
  · refine .inr ⟨by omega, ?_⟩
    refine Nat.lt_of_lt_of_le ((Nat.mul_lt_mul_right (Nat.pow_pos (by decide))).2 hc) ?_
    rw [← Nat.pow_add]
    exact Nat.pow_le_pow_right (by decide) (by omega)

theorem pow_gap (n d j : Nat) (hd : 0 < d) (h : 0 < drop n d) (hj : j < 2 ^ (52 + drop n d)) :
    gap (nearest n d) n d < gap j n d := by
  have h1 : gap (nearest n d) n d ≤ gap (2 ^ (52 + drop n d)) n d := by
    unfold nearest
    rw [gap_mul, Nat.pow_add, gap_mul]
    exact roundHalf_best _ _ _ (Nat.mul_pos hd (Nat.pow_pos (by decide)))
  have h2 := low_le n d h
  have h3 : j * d + d ≤ 2 ^ (52 + drop n d) * d := by rw [← Nat.succ_mul]; exact Nat.mul_le_mul_right _ hj
  refine Nat.lt_of_le_of_lt h1 ?_
  unfold gap
  generalize 2 ^ (52 + drop n d) * d = P at *
  omega

theorem nearest_best (n d j : Nat) (hd : 0 < d) (hj : Fits j) : gap (nearest n d) n d ≤ gap j n d := by
  rcases fits_cases n d j hj with ⟨i, rfl⟩ | ⟨h, hlt⟩
  · unfold nearest
    rw [gap_mul, gap_mul]
    exact roundHalf_best _ _ _ (Nat.mul_pos hd (Nat.pow_pos (by decide)))
  · exact Nat.le_of_lt (pow_gap n d j hd h hlt)

theorem nearest_even (n d j : Nat) (hd : 0 < d) (hj : Fits j) (hne : j ≠ nearest n d) (h : gap (nearest n d) n d = gap j n d) :
    2 * ((j : Int) - nearest n d).natAbs ∣ nearest n d := by
  rcases fits_cases n d j hj with ⟨i, rfl⟩ | ⟨h0, hlt⟩
  · have hD : 0 < d * 2 ^ drop n d := Nat.mul_pos hd (Nat.pow_pos (by decide))
    unfold nearest at h hne ⊢
    have near := roundHalf_near n _ hD
    have even := roundHalf_even n _ hD
    rw [gap_mul, gap_mul] at h
    generalize drop n d = s at *
    generalize d * 2 ^ s = D at *
    generalize roundHalf n D = q at *
    have hqi : i ≠ q := fun e => hne (by rw [e])
    unfold gap at h
    have key : 2 * ((q * D : Nat) - (n : Int)).natAbs = D ∧ ((i : Int) - q).natAbs = 1 := by
      rcases Nat.lt_or_gt_of_ne hqi with hl | hl
      · obtain ⟨m, rfl⟩ : ∃ m, q = i + 1 + m := ⟨q - (i + 1), by omega⟩
        have e : (i + 1 + m) * D = i * D + D + m * D := by rw [Nat.add_mul, Nat.add_mul, Nat.one_mul]
        rw [e] at near h ⊢
        have hm : m = 0 := by
          rcases Nat.eq_zero_or_pos m with h0 | h0
          · exact h0
          · have : D ≤ m * D := Nat.le_mul_of_pos_left _ h0
            omega
        subst hm
        rw [Nat.zero_mul] at near h ⊢
        omega
      · obtain ⟨m, rfl⟩ : ∃ m, i = q + 1 + m := ⟨i - (q + 1), by omega⟩
        have e : (q + 1 + m) * D = q * D + D + m * D := by rw [Nat.add_mul, Nat.add_mul, Nat.one_mul]
        rw [e] at h
        have hm : m = 0 := by
          rcases Nat.eq_zero_or_pos m with h0 | h0
          · exact h0
          · have : D ≤ m * D := Nat.le_mul_of_pos_left _ h0
            omega
        subst hm
        rw [Nat.zero_mul] at h
        omega
    have hq := even key.1
    have e3 : (((i * 2 ^ s : Nat) : Int) - ((q * 2 ^ s : Nat) : Int)).natAbs = 2 ^ s := by
      have : ((i * 2 ^ s : Nat) : Int) - ((q * 2 ^ s : Nat) : Int) = ((i : Int) - q) * ((2 ^ s : Nat) : Int) := by
        rw [Int.natCast_mul, Int.natCast_mul, Int.sub_mul]
      rw [this, Int.natAbs_mul, key.2, Int.natAbs_natCast, Nat.one_mul]
    rw [e3]
    obtain ⟨r, hr⟩ : ∃ r, q = 2 * r := ⟨q / 2, by omega⟩
    exact ⟨r, by rw [hr, Nat.mul_assoc, Nat.mul_assoc, Nat.mul_comm r]⟩
  · exact absurd h (Nat.ne_of_lt (pow_gap n d j hd h0 hlt))

theorem nearest_fits (n d : Nat) (hd : 0 < d) : Fits (nearest n d) := by
  have hD : 0 < d * 2 ^ drop n d := Nat.mul_pos hd (Nat.pow_pos (by decide))
  have hq : roundHalf n (d * 2 ^ drop n d) ≤ 2 ^ 53 := by
    refine roundHalf_le n _ hD _ ?_
    have h1 : n / d < 2 ^ (53 + drop n d) := by
      refine Nat.lt_of_lt_of_le Nat.lt_log2_self (Nat.pow_le_pow_right (by decide) ?_)
      unfold drop; omega
    have h2 := (Nat.div_lt_iff_lt_mul hd).1 h1
    have h3 : 2 ^ (53 + drop n d) * d = 2 ^ 53 * (d * 2 ^ drop n d) := by
      rw [Nat.pow_add, Nat.mul_assoc, Nat.mul_comm d]
    omega
  unfold nearest
  rcases Nat.lt_or_ge (roundHalf n (d * 2 ^ drop n d)) (2 ^ 53) with h | h
  · exact ⟨_, _, h, rfl⟩
  · have : roundHalf n (d * 2 ^ drop n d) = 2 ^ 53 := Nat.le_antisymm hq h
    rw [this]
    exact ⟨2 ^ 52, drop n d + 1, by decide, by rw [Nat.pow_succ 2 (drop n d), ← Nat.mul_assoc, Nat.mul_right_comm]⟩

/-- Numbers with 53 binary digits below `2^(53 + e)` are at most the largest. -/
theorem fits_le (e k : Nat) (hk : Fits k) (h : k < 2 ^ (53 + e)) : k ≤ (2 ^ 53 - 1) * 2 ^ e := by
  obtain ⟨c, t, hc, rfl⟩ := hk
  by_cases ht : e ≤ t
  · obtain ⟨u, rfl⟩ : ∃ u, t = e + u := ⟨t - e, by omega⟩
    rw [Nat.pow_add 2 53 e] at h
    have e1 : c * 2 ^ (e + u) = c * 2 ^ u * 2 ^ e := by rw [Nat.pow_add, Nat.mul_comm (2 ^ e), Nat.mul_assoc]
    rw [e1] at h ⊢
    have : c * 2 ^ u < 2 ^ 53 := Nat.lt_of_mul_lt_mul_right h
    exact Nat.mul_le_mul_right _ (by omega)
  · exact Nat.mul_le_mul (by omega) (Nat.pow_le_pow_right (by decide) (by omega))

theorem nearest_large (e n d : Nat) (hd : 0 < d) : 2 ^ (53 + (e + 1)) ≤ nearest n d ↔ (2 ^ 54 - 1) * 2 ^ e * d ≤ n := by
  have hM : Fits ((2 ^ 53 - 1) * 2 ^ (e + 1)) := ⟨_, _, by decide, rfl⟩
  have hT : Fits (2 ^ (53 + (e + 1))) := ⟨1, _, by decide, (Nat.one_mul _).symm⟩
  have bM := nearest_best n d _ hd hM
  have bT := nearest_best n d _ hd hT
  have eT := nearest_even n d _ hd hT
  have le := fits_le (e + 1) _ (nearest_fits n d hd)
  have t1 : 2 ^ (53 + (e + 1)) = 2 ^ 54 * 2 ^ e := by rw [← Nat.pow_add]; congr 1; omega
  have t2 : (2 ^ 53 - 1) * 2 ^ (e + 1) = (2 ^ 54 - 2) * 2 ^ e := by
    rw [Nat.add_comm e 1, Nat.pow_add 2 1 e, ← Nat.mul_assoc]
  rw [t2] at bM le
  rw [t1] at bT eT le ⊢
  clear hM hT t1 t2
  have hB : 0 < 2 ^ e := Nat.pow_pos (by decide)
  generalize 2 ^ e = B at *
  have hP : 0 < B * d := Nat.mul_pos hB hd
  generalize nearest n d = k at *
  unfold gap at *
  have m1 : (2 ^ 54 - 2) * B * d = (2 ^ 54 - 2) * (B * d) := Nat.mul_assoc _ _ _
  have m2 : 2 ^ 54 * B * d = 2 ^ 54 * (B * d) := Nat.mul_assoc _ _ _
  have m3 : (2 ^ 54 - 1) * B * d = (2 ^ 54 - 1) * (B * d) := Nat.mul_assoc _ _ _
  rw [m1] at bM
  rw [m2] at bT eT
  rw [m3]
  constructor
  · intro h
    have hk := Nat.mul_le_mul_right d h
    rw [m2] at hk
    generalize B * d = P at *
    omega
  · intro h
    rcases Nat.lt_or_ge k (2 ^ 54 * B) with hlt | hge
    · exfalso
      have hk := Nat.mul_le_mul_right d (le hlt)
      rw [m1] at hk
      have tie : ((k * d : Nat) - (n : Int)).natAbs = ((2 ^ 54 * (B * d) : Nat) - (n : Int)).natAbs ∧ k * d = (2 ^ 54 - 2) * (B * d) := by
        generalize B * d = P at *
        omega
      have hkM : k = (2 ^ 54 - 2) * B := by
        have := tie.2
        rw [← m1] at this
        exact Nat.eq_of_mul_eq_mul_right hd this
      have hdvd := eT (by omega) tie.1
      have h5 : (((2 ^ 54 * B : Nat) : Int) - (k : Int)).natAbs = 2 * B := by omega
      rw [h5, hkM] at hdvd
      obtain ⟨r, hr⟩ := hdvd
      have h6 : (2 * (2 * B)) * r = (4 * r) * B := by rw [← Nat.mul_assoc, Nat.mul_right_comm]
      rw [h6] at hr
      have := Nat.eq_of_mul_eq_mul_right hB hr
      omega
    · exact hge

theorem roundDbl_eq (neg : Bool) (n d : Nat) :
    roundDbl neg n d = if nearest n d < 2 ^ 2098 then .fin (if neg then -(nearest n d : Int) else nearest n d) else .inf neg := rfl

theorem signed_gap (neg : Bool) (a b : Nat) : (((if neg then -(a : Int) else a)) - (if neg then -(b : Int) else b)).natAbs = ((a : Int) - b).natAbs := by
  cases neg <;> simp <;> omega

theorem isDouble_fits (k : Int) : IsDouble k ↔ k.natAbs < 2 ^ 2098 ∧ Fits k.natAbs := Iff.rfl

/-- `roundDbl` yields the next float. -/
theorem next_scaled (neg : Bool) (m b Q : Nat) (hb : 0 < b) (a k : Int) (ha : a = if neg then -(m : Int) else m)
    (hk : k = if neg then -(nearest (m * Q) b : Int) else nearest (m * Q) b) :
    (∀ j : Int, Fits j.natAbs → (k * b - a * Q).natAbs ≤ (j * b - a * Q).natAbs)
    ∧ ∀ j : Int, Fits j.natAbs → j ≠ k → (k * b - a * Q).natAbs = (j * b - a * Q).natAbs → 2 * (j - k).natAbs ∣ k.natAbs := by
  subst ha hk
  have best := fun j => nearest_best (m * Q) b j hb
  have even := fun j => nearest_even (m * Q) b j hb
  have fits := nearest_fits (m * Q) b hb
  have own : ((if neg then -(nearest (m * Q) b : Int) else nearest (m * Q) b) * b - (if neg then -(m : Int) else m) * Q).natAbs
      = gap (nearest (m * Q) b) (m * Q) b := by
    unfold gap
    cases neg
    · simp only [Bool.false_eq_true, if_false]
      rw [Int.natCast_mul, Int.natCast_mul]
    · simp only [if_true]
      rw [Int.natCast_mul, Int.natCast_mul, Int.neg_mul, Int.neg_mul]; omega
  -- a float on the same side, or one on the other side, which is farther away
  have other : ∀ j : Int, (j = (if neg then -(j.natAbs : Int) else j.natAbs)
        ∧ (j * b - (if neg then -(m : Int) else m) * Q).natAbs = gap j.natAbs (m * Q) b)
      ∨ gap 0 (m * Q) b < (j * b - (if neg then -(m : Int) else m) * Q).natAbs := by
    intro j
    have z : gap 0 (m * Q) b = m * Q := by
      unfold gap
      generalize m * Q = M
      omega
    by_cases hs : j = (if neg then -(j.natAbs : Int) else j.natAbs)
    · refine .inl ⟨hs, ?_⟩
      unfold gap
      cases neg
      · simp only [Bool.false_eq_true, if_false] at hs ⊢
        rw [Int.natCast_mul, Int.natCast_mul, ← hs]
      · simp only [if_true] at hs ⊢
        have : j * (b : Int) = -((j.natAbs * b : Nat) : Int) := by rw [Int.natCast_mul, ← Int.neg_mul, ← hs]
        rw [this, Int.neg_mul, ← Int.natCast_mul]; omega
    · refine .inr ?_
      rw [z]
      cases neg
      · simp only [Bool.false_eq_true, if_false] at hs ⊢
        have hp : 0 < j.natAbs * b := Nat.mul_pos (by omega) hb
        have : j * (b : Int) = -((j.natAbs * b : Nat) : Int) := by
          rw [Int.natCast_mul, ← Int.neg_mul]; congr 1; omega
        rw [this, ← Int.natCast_mul]; generalize j.natAbs * b = J at *; generalize m * Q = M at *; omega
      · simp only [if_true] at hs ⊢
        have hp : 0 < j.natAbs * b := Nat.mul_pos (by omega) hb
        have : j * (b : Int) = ((j.natAbs * b : Nat) : Int) := by
          rw [Int.natCast_mul]; congr 1; omega
        rw [this, Int.neg_mul, ← Int.natCast_mul]; generalize j.natAbs * b = J at *; generalize m * Q = M at *; omega
  have zero := best 0 ⟨0, 0, by decide, by decide⟩
  refine ⟨?_, ?_⟩
  · intro j hj
    rw [own]
    rcases other j with ⟨_, h⟩ | h
    · rw [h]; exact best _ hj
    · exact Nat.le_of_lt (Nat.lt_of_le_of_lt zero h)
  · intro j hj hne heq
    rw [own] at heq
    rcases other j with ⟨hs, h⟩ | h
    · rw [h] at heq
      rw [hs, signed_gap, natAbs_signed]
      refine even _ hj (fun e => hne ?_) heq
      rw [hs, e]
    · exact absurd heq (Nat.ne_of_lt (Nat.lt_of_le_of_lt zero h))

/-- `roundDbl` yields the next float. -/
theorem roundDbl_next (neg : Bool) (m b : Nat) (hb : 0 < b) (hlt : nearest (m * 2 ^ 1074) b < 2 ^ 2098) :
    NextDouble (if neg then -(m : Int) else m) b (if neg then -(nearest (m * 2 ^ 1074) b : Int) else nearest (m * 2 ^ 1074) b) := by
  have cast : ((2 ^ 1074 : Nat) : Int) = 2 ^ 1074 := Int.natCast_pow 2 1074
  obtain ⟨h1, h2⟩ := next_scaled neg m b (2 ^ 1074) hb _ _ rfl rfl
  rw [cast] at h1 h2
  refine ⟨⟨?_, ?_⟩, fun j hj => h1 j hj.2, fun j hj => h2 j hj.2⟩
  · rw [natAbs_signed]; exact hlt
  · rw [natAbs_signed]; exact nearest_fits _ b hb

theorem large_iff (m b : Nat) (hb : 0 < b) : 2 ^ 2098 ≤ nearest (m * 2 ^ 1074) b ↔ (2 ^ 54 - 1) * 2 ^ 970 * b ≤ m := by
  have h := nearest_large 2044 (m * 2 ^ 1074) b hb
  have e1 : (2 : Nat) ^ (53 + (2044 + 1)) = 2 ^ 2098 := congrArg (fun i => 2 ^ i) (by decide)
  rw [e1] at h
  rw [h]
  have e2 : (2 ^ 54 - 1) * 2 ^ 2044 * b = (2 ^ 54 - 1) * 2 ^ 970 * b * 2 ^ 1074 := by
    have e3 : (2 : Nat) ^ 2044 = 2 ^ 970 * 2 ^ 1074 := by rw [← Nat.pow_add]
    rw [e3]
    generalize (2 : Nat) ^ 970 = P
    generalize (2 : Nat) ^ 1074 = Q
    rw [Nat.mul_assoc _ b Q, Nat.mul_comm b Q, ← Nat.mul_assoc, ← Nat.mul_assoc]
  rw [e2]
  exact ⟨fun h => Nat.le_of_mul_le_mul_right h (Nat.pow_pos (by decide)), Nat.mul_le_mul_right _⟩

theorem frac_dec (d : Dec) : Dec.signed d * 10 ^ d.exp.toNat = if d.neg then -((d.coeff * 10 ^ d.exp.toNat : Nat) : Int) else (d.coeff * 10 ^ d.exp.toNat : Nat) := by
  unfold Dec.signed
  cases d.neg
  · simp
  · simp [Int.neg_mul]

/-! ## C96 -/

/-- `int(x)`, `math.trunc(x)`, `math.floor(x)`, `math.ceil(x)` and `round(x)` of an object that holds a finite number are what their names say, whatever the number. -/
theorem C96_whole (x : PyNum) (a : Int) (b : Nat) (h : x.frac = some (a, b)) (o : ToInt) :
    ∃ n, (Held.num x).toInt o = .ok n ∧ Whole a b o n := by
  rcases x with d | n | ⟨v, w⟩
  · rcases d with d | _ | _
    · simp only [PyNum.frac, Option.some.injEq, Prod.mk.injEq] at h
      obtain ⟨rfl, rfl⟩ := h
      refine ⟨_, rfl, ?_⟩
      unfold decWhole
      by_cases he : 0 ≤ d.exp
      · rw [if_pos he]
        have : (-d.exp).toNat = 0 := by omega
        rw [this]
        exact whole_int o _
      · rw [if_neg he]
        have : d.exp.toNat = 0 := by omega
        rw [this, Int.pow_zero, Int.mul_one]
        exact whole_signed o d.neg d.coeff _ (Nat.pow_pos (by decide))
    · simp [PyNum.frac] at h
    · simp [PyNum.frac] at h
  · simp only [PyNum.frac, Option.some.injEq, Prod.mk.injEq] at h
    obtain ⟨rfl, rfl⟩ := h
    exact ⟨_, rfl, whole_int o n⟩
  · rcases v with k | _ | _
    · simp only [PyNum.frac, Option.some.injEq, Prod.mk.injEq] at h
      obtain ⟨rfl, rfl⟩ := h
      exact ⟨_, rfl, whole_flt o k⟩
    · simp [PyNum.frac] at h
    · simp [PyNum.frac] at h

/-- Two and a half is cut off and rounded down to 2, rounded up to 3, and rounded to 2; minus two and a half is rounded down to -3. -/
example : (Held.num (.dec (.fin ⟨false, 25, -1⟩))).toInt .trunc = .ok 2 ∧ (Held.num (.dec (.fin ⟨false, 25, -1⟩))).toInt .floor = .ok 2
    ∧ (Held.num (.dec (.fin ⟨false, 25, -1⟩))).toInt .ceil = .ok 3 ∧ (Held.num (.dec (.fin ⟨false, 25, -1⟩))).toInt .round = .ok 2
    ∧ (Held.num (.dec (.fin ⟨true, 25, -1⟩))).toInt .trunc = .ok (-2) ∧ (Held.num (.dec (.fin ⟨true, 25, -1⟩))).toInt .floor = .ok (-3)
    ∧ (PyNum.dec (.fin ⟨true, 25, -1⟩)).frac = some (-25, 10) := by decide +kernel

/-- Everything else raises: infinity `OverflowError`, NaN `ValueError`, shorthand `AttributeError`. -/
theorem C96_refused (x : Held) (o : ToInt) (e : Err) : x.toInt o = .error e ↔
    (e = .attribute ∧ ∃ f, x = .hor f)
    ∨ (e = .overflow ∧ ((∃ n, x = .num (.dec (.inf n))) ∨ ∃ n t, x = .num (.flt ⟨.inf n, t⟩)))
    ∨ (e = .value ∧ ((∃ n s d, x = .num (.dec (.nan n s d))) ∨ ∃ t, x = .num (.flt ⟨.nan, t⟩))) := by
  rcases x with ((_ | _ | _) | _ | ⟨_ | _ | _, _⟩) | _ <;>
    simp [Held.toInt, PyNum.toInt, eq_comm (a := e)]

example : (Held.num (.dec (.inf true))).toInt .round = .error .overflow ∧ (Held.num (.dec (.nan false false []))).toInt .floor = .error .value := by
  decide +kernel

/-- `float(x)` of an object that holds a finite number is the float next to it.  Numbers for which there is none become infinite, except for
whole numbers, which raise `OverflowError`. -/
theorem C96_float (x : PyNum) (a : Int) (b : Nat) (h : x.frac = some (a, b)) (hx : ∀ k t, x = .flt ⟨.fin k, t⟩ → IsDouble k) :
    (¬ TooLarge a b → ∃ k, (Held.num x).toFloat = .ok (.fin k) ∧ NextDouble a b k)
    ∧ (TooLarge a b → ((∃ n, x = .int n) ∧ (Held.num x).toFloat = .error .overflow)
      ∨ ((∀ n, x ≠ .int n) ∧ (Held.num x).toFloat = .ok (.inf (decide (a < 0))))) := by
  unfold TooLarge
  rcases x with d | n | ⟨v, w⟩
  · rcases d with d | _ | _
    · simp only [PyNum.frac, Option.some.injEq, Prod.mk.injEq] at h
      obtain ⟨rfl, rfl⟩ := h
      have hb : 0 < 10 ^ (-d.exp).toNat := Nat.pow_pos (by decide)
      have hn := roundDbl_next d.neg (d.coeff * 10 ^ d.exp.toNat) _ hb
      have hl := large_iff (d.coeff * 10 ^ d.exp.toNat) _ hb
      rw [frac_dec, natAbs_signed]
      have hf : (Held.num (.dec (.fin d))).toFloat = .ok (roundDbl d.neg (d.coeff * 10 ^ d.exp.toNat * 2 ^ 1074) (10 ^ (-d.exp).toNat)) := rfl
      rw [hf, roundDbl_eq]
      generalize nearest (d.coeff * 10 ^ d.exp.toNat * 2 ^ 1074) (10 ^ (-d.exp).toNat) = k at *
      constructor
      · intro hs
        have hlt : k < 2 ^ 2098 := Nat.lt_of_not_le (fun h => hs (hl.1 h))
        rw [if_pos hlt]
        exact ⟨_, rfl, hn hlt⟩
      · intro hs
        have hge : ¬ k < 2 ^ 2098 := Nat.not_lt.2 (hl.2 hs)
        have hpos : 0 < d.coeff * 10 ^ d.exp.toNat :=
          Nat.lt_of_lt_of_le (Nat.mul_pos (Nat.mul_pos (by decide) (Nat.pow_pos (by decide))) hb) hs
        refine .inr ⟨by simp, ?_⟩
        rw [if_neg hge]
        generalize d.coeff * 10 ^ d.exp.toNat = c at *
        cases d.neg <;> simp <;> omega
    · simp [PyNum.frac] at h
    · simp [PyNum.frac] at h
  · simp only [PyNum.frac, Option.some.injEq, Prod.mk.injEq] at h
    obtain ⟨rfl, rfl⟩ := h
    have hn := roundDbl_next (decide (n < 0)) n.natAbs 1 (by decide)
    have hl := large_iff n.natAbs 1 (by decide)
    have sgn : (if decide (n < 0) = true then -(n.natAbs : Int) else n.natAbs) = n := by
      by_cases h : n < 0 <;> simp [h] <;> omega
    rw [sgn] at hn
    have hf : (Held.num (.int n)).toFloat = finite (roundDbl (decide (n < 0)) (n.natAbs * 2 ^ 1074) 1) := by
      simp only [Held.toFloat, PyNum.toFloat]
    rw [hf, roundDbl_eq]
    generalize nearest (n.natAbs * 2 ^ 1074) 1 = k at *
    constructor
    · intro hs
      have hlt : k < 2 ^ 2098 := Nat.lt_of_not_le (fun h => hs (hl.1 h))
      rw [if_pos hlt]
      exact ⟨_, rfl, hn hlt⟩
    · intro hs
      have hge : ¬ k < 2 ^ 2098 := Nat.not_lt.2 (hl.2 hs)
      rw [if_neg hge]
      exact .inl ⟨⟨n, rfl⟩, rfl⟩
  · rcases v with k | _ | _
    · simp only [PyNum.frac, Option.some.injEq, Prod.mk.injEq] at h
      obtain ⟨rfl, rfl⟩ := h
      have hk := hx k w rfl
      have cast : ((2 ^ 1074 : Nat) : Int) = 2 ^ 1074 := Int.natCast_pow 2 1074
      constructor
      · intro _
        have z : (k * ((2 ^ 1074 : Nat) : Int) - k * 2 ^ 1074).natAbs = 0 := by rw [cast, Int.sub_self]; rfl
        refine ⟨k, rfl, hk, fun j _ => by rw [z]; exact Nat.zero_le _, fun j _ hne h => absurd ?_ hne⟩
        rw [z, cast] at h
        have h1 : j * 2 ^ 1074 - k * 2 ^ 1074 = 0 := Int.natAbs_eq_zero.1 h.symm
        have h2 : j * 2 ^ 1074 = k * 2 ^ 1074 := Int.sub_eq_zero.1 h1
        exact Int.eq_of_mul_eq_mul_right (Int.ne_of_gt (Int.pow_pos (by decide))) h2
      · intro hl
        exfalso
        have e1 : (2 : Nat) ^ 2098 = 2 ^ (53 + 2045) := congrArg (fun i => 2 ^ i) (by decide)
        have hle := fits_le 2045 _ hk.2 (e1 ▸ hk.1)
        have e2 : (2 ^ 54 - 1) * 2 ^ 970 * 2 ^ 1074 = (2 ^ 54 - 1) * 2 ^ 2044 := by
          have e3 : (2 : Nat) ^ 2044 = 2 ^ 970 * 2 ^ 1074 := by rw [← Nat.pow_add]
          rw [e3, Nat.mul_assoc]
        have e4 : (2 : Nat) ^ 2045 = 2 * 2 ^ 2044 := by rw [Nat.mul_comm, ← Nat.pow_succ]
        rw [e2] at hl
        rw [e4] at hle
        have hp : 0 < 2 ^ 2044 := Nat.pow_pos (by decide)
        generalize 2 ^ 2044 = P at *
        omega
    · simp [PyNum.frac] at h
    · simp [PyNum.frac] at h

/-- A tenth becomes 3602879701896397 / 2^55; a whole number of 310 digits cannot be converted, the same number as a decimal becomes infinite. -/
example : (Held.num (.dec (.fin ⟨false, 1, -1⟩))).toFloat = .ok (.fin (3602879701896397 * 2 ^ 1019)) ∧ (PyNum.dec (.fin ⟨false, 1, -1⟩)).frac = some (1, 10)
    ∧ (¬ (2 ^ 54 - 1) * 2 ^ 970 * 10 ≤ (1 : Int).natAbs)
    ∧ (Held.num (.int (10 ^ 309))).toFloat = .error .overflow ∧ (Held.num (.dec (.fin ⟨true, 1, 309⟩))).toFloat = .ok (.inf true)
    ∧ (2 ^ 54 - 1) * 2 ^ 970 * 1 ≤ (10 ^ 309 : Int).natAbs := by decide +kernel

/-- `bool(x)` is false for zero only; shorthand has no truth. -/
theorem C96_bool (x : Held) :
    (x.toBool = .ok false ↔ ∃ y b, x = .num y ∧ y.frac = some (0, b)) ∧ (x.toBool = .error .attribute ↔ ∃ f, x = .hor f)
    ∧ (x.toBool = .ok true ↔ ∃ y, x = .num y ∧ ∀ b, y.frac ≠ some (0, b)) := by
  rcases x with ((d | _ | _) | _ | ⟨_ | _ | _, _⟩) | _
  case num.dec.fin =>
    have : Dec.signed d * 10 ^ d.exp.toNat = 0 ↔ d.coeff = 0 := by
      rw [Int.mul_eq_zero]
      have hp : (10 : Int) ^ d.exp.toNat ≠ 0 := Int.ne_of_gt (Int.pow_pos (by decide))
      unfold Dec.signed
      cases d.neg <;> simp [hp]
    simp [Held.toBool, PyNum.frac, this]
  all_goals simp [Held.toBool, PyNum.frac, Dbl.truth]

example : (Held.num (.dec (.fin ⟨true, 0, -3⟩))).toBool = .ok false ∧ (Held.num (.dec (.fin ⟨true, 1, -300⟩))).toBool = .ok true := by
  decide +kernel

/-- `-x`, `+x` and `abs(x)` of whole numbers are exact; of decimals of ordinary size they have 28 digits and are exact for numbers of up to 28 digits.
Missing: decimals of more digits (`C96_violated`) and numbers near the limits of `decimal`. -/
theorem C96_sign_partial (o : SignOp) :
    (∀ n, (Held.num (.int n)).signed o = .ok (.int (signOf o n)))
    ∧ ∀ d, Moderate d → ∃ r, (Held.num (.dec (.fin d))).signed o = .ok (.dec (.fin r)) ∧ To28 (signOf o (Dec.signed d)) d.exp r := by
  refine ⟨fun n => ?_, fun d hd => ?_⟩
  · cases o
    · rfl
    · rfl
    · simp only [Held.signed, signOf]
      congr 2
      split <;> omega
  · obtain ⟨h1, h2, h3⟩ := hd
    have hb : d.coeff < 10 ^ (900000 - d.exp).toNat := Nat.lt_of_lt_of_le h3 (Nat.pow_le_pow_right (by decide) (by omega))
    obtain ⟨r, hr, hs⟩ := fix_spec (if d.coeff = 0 then false else o.sign d.neg) d.coeff d.exp (by omega) (by omega) hb
    refine ⟨r, ?_, ?_⟩
    · show (decSign o (.fin d)).map RealRes.dec = _
      unfold decSign
      simp only [hr]
      rfl
    · have : (if (if d.coeff = 0 then false else o.sign d.neg) = true then -(d.coeff : Int) else d.coeff) = signOf o (Dec.signed d) := by
        unfold Dec.signed
        by_cases h0 : d.coeff = 0
        · rw [h0]; cases o <;> cases d.neg <;> simp [signOf]
        · rw [if_neg h0]
          cases o <;> cases d.neg <;> simp [signOf, SignOp.sign] <;> omega
      rw [this] at hs
      exact hs

example : (Held.num (.dec (.fin ⟨false, 25, -1⟩))).signed .neg = .ok (.dec (.fin ⟨true, 25, -1⟩))
    ∧ (Held.num (.dec (.fin ⟨true, 25, -1⟩))).signed .abs = .ok (.dec (.fin ⟨false, 25, -1⟩)) := by decide +kernel

/-- A decimal of 29 digits is not what negating it twice yields, nor `+x` or `abs(x)`. -/
theorem C96_violated : ∃ d r s : Dec, Moderate d ∧ d.neg = false ∧ (Held.num (.dec (.fin d))).signed .neg = .ok (.dec (.fin r))
    ∧ (Held.num (.dec (.fin r))).signed .neg = .ok (.dec (.fin s)) ∧ (Held.num (.dec (.fin d))).signed .pos = .ok (.dec (.fin s))
    ∧ (Held.num (.dec (.fin d))).signed .abs = .ok (.dec (.fin s)) ∧ units d.exp s ≠ units d.exp d := by
  refine ⟨⟨false, 10 ^ 28 + 1, 0⟩, ⟨true, 10 ^ 27, 1⟩, ⟨false, 10 ^ 27, 1⟩, ⟨by decide, by decide, ?_⟩, rfl, by decide +kernel, by decide +kernel, by decide +kernel,
    by decide +kernel, by decide +kernel⟩
  exact Nat.lt_of_lt_of_le (m := 10 ^ 29) (by decide) (Nat.pow_le_pow_right (by decide) (by decide))

end Props
