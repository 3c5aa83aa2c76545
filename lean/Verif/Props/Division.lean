import Verif.Types.Division
import Verif.Props.RealOps
import Verif.Props.Operators
/-!
# C93: quotients and remainders of reals
-/
namespace Props
open Py Types

/-! ## Specification -/

/-- `q` and `r` are the quotient, cut off, and the remainder of `X` by `Y`. -/
structure CutOff (X Y q r : Int) : Prop where
  sum : X = q * Y + r
  small : r.natAbs < Y.natAbs
  sign : r ≠ 0 → (r < 0 ↔ X < 0)

/-- `r` is the quotient `x / y` to 28 digits: to half a unit of its last digit, with all 28 digits unless it is exact, and exact if
any decimal of 28 digits is. -/
structure Quot28 (x y r : Dec) : Prop where
  digits : r.coeff < 10 ^ 28
  sign : r.neg = (x.neg != y.neg)
  near : 2 * ((r.coeff * y.coeff * 10 ^ (r.exp + y.exp - x.exp).toNat : Nat) - (x.coeff * 10 ^ (x.exp - r.exp - y.exp).toNat : Nat) : Int).natAbs ≤
    y.coeff * 10 ^ (r.exp + y.exp - x.exp).toNat
  full : 10 ^ 27 ≤ r.coeff ∨ r.coeff * y.coeff * 10 ^ (r.exp + y.exp - x.exp).toNat = x.coeff * 10 ^ (x.exp - r.exp - y.exp).toNat
  exact : ∀ z : Dec, z.coeff < 10 ^ 28 → z.coeff * y.coeff * 10 ^ (z.exp + y.exp - x.exp).toNat = x.coeff * 10 ^ (x.exp - z.exp - y.exp).toNat →
    r.coeff * y.coeff * 10 ^ (r.exp + y.exp - x.exp).toNat = x.coeff * 10 ^ (x.exp - r.exp - y.exp).toNat

/-! ## Helper lemmas -/

theorem units_abs (e : Int) (x : Dec) : (units e x).natAbs = x.coeff * 10 ^ (x.exp - e).toNat := by
  obtain ⟨neg, c, y⟩ := x
  rw [units_signed, natAbs_signed]

theorem pow_mul_le {a b p q : Nat} (h : a < 10 ^ p) (hq : p ≤ q) (hb : 10 ^ q ≤ b) : a < b :=
  Nat.lt_of_lt_of_le h (Nat.le_trans (Nat.pow_le_pow_right (by decide) hq) hb)

theorem sized {n : Nat} (hn : 0 < n) (k : Nat) : 10 ^ ((natStr n).length - 1 + k) ≤ n * 10 ^ k ∧ n * 10 ^ k < 10 ^ ((natStr n).length + k) := by
  obtain ⟨lo, hi⟩ := len_bounds n hn
  rw [Nat.pow_add, Nat.pow_add]
  exact ⟨Nat.mul_le_mul_right _ lo, Nat.mul_lt_mul_of_pos_right hi (Nat.pow_pos (by decide))⟩

theorem len_pos (n : Nat) : 1 ≤ (natStr n).length := by
  rcases Nat.eq_zero_or_pos n with rfl | hn
  · decide
  · have := (len_bounds n hn).2
    rcases Nat.eq_zero_or_pos (natStr n).length with h | h
    · rw [h, Nat.pow_zero] at this; omega
    · exact h

theorem divide_spec (x y : Dec) (hy : y.coeff ≠ 0) :
    decDivide x y = if x.coeff * 10 ^ (x.exp - min x.exp y.exp).toNat / (y.coeff * 10 ^ (y.exp - min x.exp y.exp).toNat) < 10 ^ 28
      then .ok (x.coeff * 10 ^ (x.exp - min x.exp y.exp).toNat / (y.coeff * 10 ^ (y.exp - min x.exp y.exp).toNat),
        x.coeff * 10 ^ (x.exp - min x.exp y.exp).toNat % (y.coeff * 10 ^ (y.exp - min x.exp y.exp).toNat))
      else .error .arith := by
  obtain ⟨yl, yh⟩ := sized (Nat.pos_of_ne_zero hy) (y.exp - min x.exp y.exp).toNat
  have ly := len_pos y.coeff
  have lx := len_pos x.coeff
  unfold decDivide Dec.adjusted
  simp only
  by_cases h0 : x.coeff = 0
  · rw [if_pos (.inl h0), h0, Nat.zero_mul, Nat.zero_div, Nat.zero_mod, if_pos (Nat.pow_pos (by decide))]
  · obtain ⟨xl, xh⟩ := sized (Nat.pos_of_ne_zero h0) (x.exp - min x.exp y.exp).toNat
    by_cases hd : x.exp + ((natStr x.coeff).length : Int) - 1 - (y.exp + (natStr y.coeff).length - 1) ≤ -2
    · have hlt := pow_mul_le xh (q := (natStr y.coeff).length - 1 + (y.exp - min x.exp y.exp).toNat) (by omega) yl
      rw [if_pos (.inr hd), Nat.div_eq_of_lt hlt, Nat.mod_eq_of_lt hlt, if_pos (Nat.pow_pos (by decide))]
    · rw [if_neg (not_or.2 ⟨h0, hd⟩)]
      by_cases hd' : x.exp + ((natStr x.coeff).length : Int) - 1 - (y.exp + (natStr y.coeff).length - 1) ≤ 28
      · simp only [hd', true_and]
      · have hge : 10 ^ 28 ≤ x.coeff * 10 ^ (x.exp - min x.exp y.exp).toNat / (y.coeff * 10 ^ (y.exp - min x.exp y.exp).toNat) := by
          rw [Nat.le_div_iff_mul_le (Nat.mul_pos (Nat.pos_of_ne_zero hy) (Nat.pow_pos (by decide)))]
          refine Nat.le_trans (Nat.mul_le_mul_left _ (Nat.le_of_lt yh)) (Nat.le_trans ?_ xl)
          rw [← Nat.pow_add]
          exact Nat.pow_le_pow_right (by decide) (by omega)
        rw [if_neg (fun h => hd' h.1), if_neg (by omega)]

/-- The operation on decimals that a division with a `Real` object read from a text comes down to. -/
theorem reduce_div (o : DivOp) (a b : RealArg) (x y : Dec) (ha : plainOf a = some x) (hb : plainOf b = some y)
    (h : (∃ v, a = .real v) ∨ ∃ v, b = .real v) : pyDivide o a b = (decDiv o (.fin x) (.fin y)).map .dec := by
  have num : ∀ (n : PyNum) (y : Dec), plainOf (.num n) = some y → n.toDec = .fin y := by
    intro n y hn
    match n with
    | .dec (.fin d) => cases hn; rfl
    | .int k => cases hn; rfl
    | .flt ⟨_, .fin d⟩ => cases hn; rfl
    | .dec (.inf _) | .dec (.nan ..) => cases hn
    | .flt ⟨_, .inf _⟩ | .flt ⟨_, .nan ..⟩ => cases hn
  have real : ∀ (v : Held) (x : Dec), plainOf (.real v) = some x → v = .num (.dec (.fin x)) := by
    intro v x hv
    match v with
    | .num (.dec (.fin d)) => cases hv; rfl
    | .num (.dec (.inf _)) | .num (.dec (.nan ..)) | .num (.int _) | .num (.flt _) | .hor _ => cases hv
  cases a with
  | real v =>
    rw [real v x ha]
    cases b with
    | real w =>
      rw [real w y hb]
      simp only [pyDivide, realDivide, heldDivide, numDivide]
      cases decDiv o (.fin x) (.fin y) <;> rfl
    | num n =>
      simp only [pyDivide, realDivide, heldDivide, numDivide, num n y hb]
      cases decDiv o (.fin x) (.fin y) <;> rfl
  | num n =>
    cases b with
    | num m => rcases h with ⟨v, h⟩ | ⟨v, h⟩ <;> cases h
    | real w =>
      rw [real w y hb]
      simp only [pyDivide, realDivide, heldDivide, numDivide, num n x ha]
      cases decDiv o (.fin x) (.fin y) <;> rfl

/-- The signed quotient and remainder. -/
theorem cut_off (x y : Dec) (e : Int) (hy : y.coeff ≠ 0) (m n : Nat) (hm : m = x.coeff * 10 ^ (x.exp - e).toNat)
    (hn : n = y.coeff * 10 ^ (y.exp - e).toNat) :
    CutOff (units e x) (units e y) (if (x.neg != y.neg) then -((m / n : Nat) : Int) else (m / n : Nat))
      (if x.neg then -((m % n : Nat) : Int) else (m % n : Nat)) := by
  have hpos : 0 < n := by rw [hn]; exact Nat.mul_pos (Nat.pos_of_ne_zero hy) (Nat.pow_pos (by decide))
  have hx : units e x = if x.neg then -(m : Int) else m := by
    obtain ⟨neg, c, z⟩ := x
    rw [units_signed, hm]
  have hy' : units e y = if y.neg then -(n : Int) else n := by
    obtain ⟨neg, c, z⟩ := y
    rw [units_signed, hn]
  have hdm : (m : Int) = (n : Int) * (m / n : Nat) + (m % n : Nat) := by
    rw [← Int.natCast_mul, ← Int.natCast_add, Nat.div_add_mod]
  have hr := Nat.mod_lt m hpos
  rw [hx, hy']
  constructor
  · clear hr hx hy'
    generalize m / n = q at *
    generalize m % n = r at *
    rw [hdm]
    cases x.neg <;> cases y.neg <;> simp [Int.neg_mul, Int.mul_neg, Int.mul_comm, Int.neg_add] 
  · rw [natAbs_signed, natAbs_signed]; exact hr
  · intro h
    have hm0 : 0 < m := by
      rcases Nat.eq_zero_or_pos m with h0 | h0
      · rw [h0, Nat.zero_mod] at h; simp at h
      · exact h0
    cases x.neg <;> simp at h ⊢
    · omega
    · omega

theorem pow_split (a b : Nat) (h : b ≤ a) : (10 : Nat) ^ a = 10 ^ (a - b) * 10 ^ b := by
  rw [← Nat.pow_add]; congr 1; omega

/-- Rounding to 28 digits, in detail. -/
theorem fix_full (neg : Bool) (n : Nat) (hn : 0 < n) (e : Int) (hlo : -900000 ≤ e) (he : e ≤ 900000) (hhi : n < 10 ^ (900000 - e).toNat) :
    ∃ c j : Nat, decFix neg n e = .ok (.fin ⟨neg, c, e + j⟩) ∧ c < 10 ^ 28 ∧ (natStr n).length - 28 ≤ j ∧
      c * 10 ^ j = roundHalf n (10 ^ ((natStr n).length - 28)) * 10 ^ ((natStr n).length - 28) ∧
      (10 ^ 27 ≤ c ∨ (natStr n).length ≤ 28) ∧ (∀ t z, n = z * 10 ^ t → z < 10 ^ 28 → c * 10 ^ j = n) := by
  have hk : max ((natStr n).length - 28) (-1000026 - e).toNat = (natStr n).length - 28 := by
    have : (-1000026 - e).toNat = 0 := by omega
    rw [this]; omega
  obtain ⟨c, j, hc0, hc, hj, hcj, hif⟩ := round28 n hn
  obtain ⟨lo, hi⟩ := len_bounds n hn
  have hL := pow_lt_le lo hhi
  have hfix : decFix neg n e = .ok (.fin ⟨neg, c, e + j⟩) := by
    unfold decFix
    simp only [hk]
    have hlen : (natStr c).length ≤ 28 := natStr_length_le c 28 (by decide) hc
    by_cases h28 : roundHalf n (10 ^ ((natStr n).length - 28)) = 10 ^ 28
    · rw [if_pos h28] at hif
      simp only [if_pos h28]
      obtain ⟨rfl, rfl⟩ := hif
      rw [if_neg (by omega), if_neg (by omega)]
      congr 3
      omega
    · rw [if_neg h28] at hif
      simp only [if_neg h28]
      rw [← hif.1, ← hif.2, if_neg (by omega), if_neg (by omega)]
  have hkj : (natStr n).length - 28 ≤ j := by
    split at hif
    · omega
    · omega
  refine ⟨c, j, hfix, hc, hkj, hcj, ?_, ?_⟩
  · by_cases hs : (natStr n).length ≤ 28
    · exact .inr hs
    · left
      split at hif
      · omega
      · rw [hif.1]
        have h1 : 10 ^ 27 ≤ n / 10 ^ ((natStr n).length - 28) := by
          rw [Nat.le_div_iff_mul_le (Nat.pow_pos (by decide)), ← Nat.pow_add]
          exact Nat.le_trans (Nat.pow_le_pow_right (by decide) (by omega)) lo
        refine Nat.le_trans h1 ?_
        unfold roundHalf
        simp only
        repeat' split
        all_goals omega
  · intro t z hz hz28
    have ht : (natStr n).length - 28 ≤ t := by
      have : n < 10 ^ (28 + t) := by
        rw [hz, Nat.pow_add]
        exact Nat.mul_lt_mul_of_pos_right hz28 (Nat.pow_pos (by decide))
      have := natStr_length_le n (28 + t) (by omega) this
      omega
    rw [hcj]
    have hd : n = z * 10 ^ (t - ((natStr n).length - 28)) * 10 ^ ((natStr n).length - 28) := by
      rw [Nat.mul_assoc, ← pow_split _ _ ht]; exact hz
    generalize (natStr n).length - 28 = k at *
    generalize z * 10 ^ (t - k) = w at *
    have hp : 0 < 10 ^ k := Nat.pow_pos (by decide)
    have : roundHalf n (10 ^ k) = w := by
      unfold roundHalf
      simp only
      rw [hd, Nat.mul_mod_left, Nat.mul_div_cancel _ hp, if_pos (by omega)]
    rw [this, ← hd]

theorem dropZeros_spec : ∀ (k c : Nat) (e : Int), ∃ i : Nat, i ≤ k ∧ (dropZeros k c e).2 = e + i ∧ (dropZeros k c e).1 * 10 ^ i = c
  | 0, c, e => ⟨0, Nat.le_refl _, by simp [dropZeros], by simp [dropZeros]⟩
  | k + 1, c, e => by
    unfold dropZeros
    split
    · rename_i h
      obtain ⟨i, h1, h2, h3⟩ := dropZeros_spec k (c / 10) (e + 1)
      refine ⟨i + 1, by omega, by rw [h2]; push_cast; omega, ?_⟩
      rw [Nat.pow_succ, ← Nat.mul_assoc, h3]
      omega
    · exact ⟨0, by omega, by simp, by simp⟩

/-- The double rounding of the quotient does no harm. -/
theorem sticky (m n k : Nat) (hn : 0 < n) (hk : k = 1 ∨ k = 2) (hr : m % n ≠ 0) (q : Nat) (hq : q = if m / n % 5 = 0 then m / n + 1 else m / n) :
    2 * ((roundHalf q (10 ^ k) * 10 ^ k * n : Nat) - (m : Int)).natAbs ≤ 10 ^ k * n := by
  have hdm := Nat.div_add_mod m n
  have hlt := Nat.mod_lt m hn
  generalize m / n = c at *
  generalize m % n = r at *
  -- the quotient lies strictly between c and c + 1
  have hd : ∃ d, 10 ^ k = d ∧ (d = 10 ∨ d = 100) := by
    rcases hk with rfl | rfl
    · exact ⟨10, by decide, .inl rfl⟩
    · exact ⟨100, by decide, .inr rfl⟩
  obtain ⟨d, hd, hd2⟩ := hd
  rw [hd]
  have hw : ∃ w, roundHalf q d = w ∧ 2 * w * d ≤ 2 * c + d ∧ 2 * (c + 1) ≤ 2 * w * d + d := by
    refine ⟨_, rfl, ?_⟩
    have hqd := Nat.div_add_mod q d
    have hql := Nat.mod_lt q (show 0 < d by omega)
    unfold roundHalf
    simp only
    generalize q / d = u at *
    generalize q % d = v at *
    rcases hd2 with rfl | rfl
    · repeat' split
      all_goals split at hq <;> omega
    · repeat' split
      all_goals split at hq <;> omega
  obtain ⟨w, hw0, hw1, hw2⟩ := hw
  rw [hw0]
  have e1 : 2 * (w * d * n) = 2 * w * d * n := by rw [Nat.mul_assoc 2 w d, Nat.mul_assoc 2 (w * d) n]
  have b1 : 2 * w * d * n ≤ 2 * (n * c) + d * n := by
    have := Nat.mul_le_mul_right n hw1
    rw [Nat.add_mul, Nat.mul_assoc 2 c n, Nat.mul_comm c n] at this
    exact this
  have b2 : 2 * (n * c) + 2 * n ≤ 2 * w * d * n + d * n := by
    have := Nat.mul_le_mul_right n hw2
    rw [Nat.add_mul, Nat.mul_assoc 2 (c + 1) n, Nat.add_mul, Nat.one_mul, Nat.mul_comm c n] at this
    omega
  rw [← e1] at b1 b2
  generalize w * d * n = A at *
  generalize d * n = B at *
  generalize n * c = C at *
  omega

theorem shift_pow (s : Int) (j : Nat) : ∃ t, 10 ^ j * 10 ^ (-s).toNat = 10 ^ (j - s).toNat * 10 ^ t ∧ 10 ^ s.toNat = 10 ^ (s - j).toNat * 10 ^ t := by
  refine ⟨s.toNat - (s - j).toNat, ?_, ?_⟩
  · rw [← Nat.pow_add, ← Nat.pow_add]; congr 1; omega
  · rw [← Nat.pow_add]; congr 1; omega

/-- A quotient of scaled numbers, and what it says of the numbers. -/
theorem unscale (x y r : Dec) (s : Int) (j : Nat) (he : r.exp = x.exp - y.exp - s + j) :
    (2 * ((r.coeff * 10 ^ j * (y.coeff * 10 ^ (-s).toNat) : Nat) - (x.coeff * 10 ^ s.toNat : Nat) : Int).natAbs ≤ 10 ^ j * (y.coeff * 10 ^ (-s).toNat) →
      2 * ((r.coeff * y.coeff * 10 ^ (r.exp + y.exp - x.exp).toNat : Nat) - (x.coeff * 10 ^ (x.exp - r.exp - y.exp).toNat : Nat) : Int).natAbs ≤
        y.coeff * 10 ^ (r.exp + y.exp - x.exp).toNat) ∧
    (r.coeff * 10 ^ j * (y.coeff * 10 ^ (-s).toNat) = x.coeff * 10 ^ s.toNat →
      r.coeff * y.coeff * 10 ^ (r.exp + y.exp - x.exp).toNat = x.coeff * 10 ^ (x.exp - r.exp - y.exp).toNat) := by
  obtain ⟨t, h1, h2⟩ := shift_pow s j
  have hp : 0 < 10 ^ t := Nat.pow_pos (by decide)
  rw [show r.exp + y.exp - x.exp = j - s from by omega, show x.exp - r.exp - y.exp = s - j from by omega]
  have e1 : r.coeff * 10 ^ j * (y.coeff * 10 ^ (-s).toNat) = r.coeff * y.coeff * 10 ^ (j - s).toNat * 10 ^ t := by
    rw [Nat.mul_assoc _ _ (10 ^ t), ← h1]; ac_rfl
  have e2 : 10 ^ j * (y.coeff * 10 ^ (-s).toNat) = y.coeff * 10 ^ (j - s).toNat * 10 ^ t := by
    rw [Nat.mul_assoc _ _ (10 ^ t), ← h1]; ac_rfl
  have e3 : x.coeff * 10 ^ s.toNat = x.coeff * 10 ^ (s - j).toNat * 10 ^ t := by
    rw [h2, Nat.mul_assoc]
  rw [e1, e2, e3]
  generalize r.coeff * y.coeff * 10 ^ (j - s).toNat = A
  generalize y.coeff * 10 ^ (j - s).toNat = B
  generalize x.coeff * 10 ^ (s - j).toNat = C
  generalize 10 ^ t = T at *
  refine ⟨fun h => ?_, fun h => Nat.eq_of_mul_eq_mul_right hp h⟩
  rw [Int.natCast_mul, Int.natCast_mul, ← Int.sub_mul, Int.natAbs_mul, ← Nat.mul_assoc, Int.natAbs_natCast] at h
  exact Nat.le_of_mul_le_mul_right h hp

/-- If a decimal of 28 digits is the quotient, then the scaled division has no remainder. -/
theorem exact_quot (x y z : Dec) (hx : x.coeff ≠ 0) (hy : y.coeff ≠ 0) (s : Int)
    (hs : s = ((natStr y.coeff).length : Int) - (natStr x.coeff).length + 29) (hz : z.coeff < 10 ^ 28)
    (h : z.coeff * y.coeff * 10 ^ (z.exp + y.exp - x.exp).toNat = x.coeff * 10 ^ (x.exp - z.exp - y.exp).toNat) :
    ∃ t, x.coeff * 10 ^ s.toNat = y.coeff * 10 ^ (-s).toNat * (z.coeff * 10 ^ t) := by
  obtain ⟨g, hg⟩ : ∃ g, g = z.exp + y.exp - x.exp := ⟨_, rfl⟩
  rw [← hg, show x.exp - z.exp - y.exp = -g from by omega] at h
  have hgs : 0 ≤ g + s := by
    have h1 := (sized (Nat.pos_of_ne_zero hx) (-g).toNat).1
    have h2 := (sized (Nat.pos_of_ne_zero hy) g.toNat).2
    have h3 : z.coeff * (y.coeff * 10 ^ g.toNat) < 10 ^ (28 + ((natStr y.coeff).length + g.toNat)) := by
      rw [Nat.pow_add 10 28]
      exact Nat.mul_lt_mul_of_lt_of_le hz (Nat.le_of_lt h2) (Nat.pow_pos (by decide))
    rw [← Nat.mul_assoc, h] at h3
    have := (Nat.pow_lt_pow_iff_right (a := 10) (by decide)).1 (Nat.lt_of_le_of_lt h1 h3)
    omega
  refine ⟨(g + s).toNat, ?_⟩
  have hp : 0 < 10 ^ (-g).toNat := Nat.pow_pos (by decide)
  refine Nat.eq_of_mul_eq_mul_right hp ?_
  have e1 : x.coeff * 10 ^ s.toNat * 10 ^ (-g).toNat = x.coeff * 10 ^ (-g).toNat * 10 ^ s.toNat := by ac_rfl
  have e2 : 10 ^ g.toNat * 10 ^ s.toNat = 10 ^ (-s).toNat * (10 ^ (g + s).toNat * 10 ^ (-g).toNat) := by
    rw [← Nat.pow_add, ← Nat.pow_add, ← Nat.pow_add]; congr 1; omega
  rw [e1, ← h, Nat.mul_assoc _ (10 ^ g.toNat), e2]
  ac_rfl

theorem quot_spec (x y : Dec) (hx : Moderate x) (hy : Moderate y) (h0 : y.coeff ≠ 0) : ∃ r, decQuot x y = .ok (.fin r) ∧ Quot28 x y r := by
  unfold decQuot
  rw [if_neg h0]
  obtain ⟨x1, x2, x3⟩ := hx
  obtain ⟨y1, y2, y3⟩ := hy
  by_cases hx0 : x.coeff = 0
  · rw [if_pos hx0]
    refine ⟨⟨x.neg != y.neg, 0, x.exp - y.exp⟩, ?_, by simp, rfl, by simp [hx0], by simp [hx0], by simp [hx0]⟩
    unfold decFix
    have : (-1000026 - (x.exp - y.exp)).toNat = 0 := by omega
    simp only [this]
    rw [show max ((natStr 0).length - 28) 0 = 0 from by decide, show roundHalf 0 (10 ^ 0) = 0 from by decide]
    have hne : ¬ ((0 : Nat) = 10 ^ 28) := by decide
    simp only [if_neg hne, if_true]
    congr 3
    omega
  · rw [if_neg hx0]
    simp only
    obtain ⟨s, hs⟩ : ∃ s, s = ((natStr y.coeff).length : Int) - (natStr x.coeff).length + 29 := ⟨_, rfl⟩
    rw [← hs]
    have lx := len_pos x.coeff
    have ly := len_pos y.coeff
    have lx' := natStr_length_le _ _ (by decide) x3
    have ly' := natStr_length_le _ _ (by decide) y3
    obtain ⟨xl, xh⟩ := sized (Nat.pos_of_ne_zero hx0) s.toNat
    obtain ⟨yl, yh⟩ := sized (Nat.pos_of_ne_zero h0) (-s).toNat
    have un := fun r j => unscale x y r s j
    have ex := fun z => exact_quot x y z hx0 h0 s hs
    have hn : 0 < y.coeff * 10 ^ (-s).toNat := Nat.mul_pos (Nat.pos_of_ne_zero h0) (Nat.pow_pos (by decide))
    generalize hM : x.coeff * 10 ^ s.toNat = m at *
    generalize hN : y.coeff * 10 ^ (-s).toNat = n at *
    have qlo : 10 ^ 28 ≤ m / n := by
      rw [Nat.le_div_iff_mul_le hn]
      refine Nat.le_trans (Nat.mul_le_mul_left _ (Nat.le_of_lt yh)) (Nat.le_trans ?_ xl)
      rw [← Nat.pow_add]
      exact Nat.pow_le_pow_right (by decide) (by omega)
    have qhi : m / n < 10 ^ 30 := by
      rw [Nat.div_lt_iff_lt_mul hn]
      refine Nat.lt_of_lt_of_le xh (Nat.le_trans ?_ (Nat.mul_le_mul_left _ yl))
      rw [← Nat.pow_add]
      exact Nat.pow_le_pow_right (by decide) (by omega)
    have big : ∀ e : Int, e ≤ 800000 → 10 ^ 30 ≤ 10 ^ (900000 - e).toNat := fun e he => Nat.pow_le_pow_right (by decide) (by omega)
    by_cases hr : m % n = 0
    · rw [if_neg (fun h => h hr)]
      obtain ⟨i, i1, i2, i3⟩ := dropZeros_spec s.toNat (m / n) (x.exp - y.exp - s)
      generalize dropZeros s.toNat (m / n) (x.exp - y.exp - s) = p at *
      obtain ⟨c1, e1⟩ := p
      simp only at i2 i3 ⊢
      have hc1 : 0 < c1 := by
        rcases Nat.eq_zero_or_pos c1 with h | h
        · rw [h, Nat.zero_mul] at i3; rw [← i3] at qlo; exact absurd qlo (by decide)
        · exact h
      have hc1' : c1 ≤ m / n := by rw [← i3]; exact Nat.le_mul_of_pos_right _ (Nat.pow_pos (by decide))
      have hmn : m = c1 * 10 ^ i * n := by
        rw [i3]; have := Nat.div_add_mod m n; rw [hr, Nat.mul_comm] at this; omega
      obtain ⟨c, j, f1, f2, f3, f4, f5, f6⟩ := fix_full (x.neg != y.neg) c1 hc1 e1 (by omega) (by omega)
        (Nat.lt_of_lt_of_le (Nat.lt_of_le_of_lt hc1' qhi) (big e1 (by omega)))
      have whole : c * 10 ^ j = c1 → c * 10 ^ (j + i) * n = m := by
        intro h; rw [Nat.pow_add, ← Nat.mul_assoc, h, hmn]
      obtain ⟨u1, u2⟩ := un ⟨x.neg != y.neg, c, e1 + j⟩ (j + i) (by simp only; omega)
      refine ⟨_, f1, f2, rfl, u1 ?_, ?_, ?_⟩
      · have near := roundHalf_near c1 (10 ^ ((natStr c1).length - 28)) (Nat.pow_pos (by decide))
        rw [← f4] at near
        have le : 10 ^ ((natStr c1).length - 28) ≤ 10 ^ j := Nat.pow_le_pow_right (by decide) f3
        simp only
        rw [hmn, Nat.pow_add, show c * (10 ^ j * 10 ^ i) * n = c * 10 ^ j * (10 ^ i * n) from by ac_rfl,
          show c1 * 10 ^ i * n = c1 * (10 ^ i * n) from by ac_rfl, Nat.mul_assoc (10 ^ j)]
        generalize c * 10 ^ j = A at *
        generalize 10 ^ i * n = B at *
        rw [Int.natCast_mul, Int.natCast_mul, ← Int.sub_mul, Int.natAbs_mul, ← Nat.mul_assoc, Int.natAbs_natCast]
        exact Nat.mul_le_mul_right _ (Nat.le_trans near le)
      · rcases f5 with f5 | f5
        · exact .inl f5
        · refine .inr (u2 (whole (f6 0 c1 (by simp) ?_)))
          exact Nat.lt_of_lt_of_le (len_bounds c1 hc1).2 (Nat.pow_le_pow_right (by decide) f5)
      · intro z hz hzx
        obtain ⟨t, ht⟩ := ex z hz hzx
        refine u2 (whole ?_)
        have hq : c1 * 10 ^ i = z.coeff * 10 ^ t := by
          rw [i3, ht, Nat.mul_div_cancel_left _ hn]
        by_cases hti : i ≤ t
        · refine f6 (t - i) z.coeff (Nat.eq_of_mul_eq_mul_right (Nat.pow_pos (by decide) : 0 < 10 ^ i) ?_) hz
          rw [hq, Nat.mul_assoc, ← pow_split _ _ hti]
        · refine f6 0 c1 (by simp) (Nat.lt_of_le_of_lt ?_ hz)
          refine Nat.le_of_mul_le_mul_right ?_ (Nat.pow_pos (by decide) : 0 < 10 ^ t)
          rw [← hq]
          exact Nat.mul_le_mul_left _ (Nat.pow_le_pow_right (by decide) (by omega))
    · rw [if_pos hr]
      obtain ⟨q, hq⟩ : ∃ q, q = if m / n % 5 = 0 then m / n + 1 else m / n := ⟨_, rfl⟩
      rw [← hq]
      have st := fun k hk => sticky m n k hn hk hr q hq
      have q1 : 10 ^ 28 ≤ q := by split at hq <;> omega
      have q2 : q < 10 ^ 30 := by split at hq <;> omega
      have q0 : 0 < q := Nat.lt_of_lt_of_le (by decide) q1
      obtain ⟨ql, qh⟩ := len_bounds q q0
      have k1 := pow_lt_le ql q2
      have k2 := (Nat.pow_lt_pow_iff_right (a := 10) (by decide)).1 (Nat.lt_of_le_of_lt q1 qh)
      obtain ⟨c, j, f1, f2, f3, f4, f5, f6⟩ := fix_full (x.neg != y.neg) q q0 (x.exp - y.exp - s) (by omega) (by omega)
        (Nat.lt_of_lt_of_le q2 (big _ (by omega)))
      obtain ⟨u1, u2⟩ := un ⟨x.neg != y.neg, c, x.exp - y.exp - s + j⟩ j rfl
      refine ⟨_, f1, f2, rfl, u1 ?_, ?_, ?_⟩
      · have near := st ((natStr q).length - 28) (by omega)
        simp only
        rw [f4]
        exact Nat.le_trans near (Nat.mul_le_mul_right _ (Nat.pow_le_pow_right (by decide) f3))
      · rcases f5 with f5 | f5
        · exact .inl f5
        · omega
      · intro z hz hzx
        obtain ⟨t, ht⟩ := ex z hz hzx
        exact absurd (by rw [ht, Nat.mul_mod_right]) hr

/-! ## The properties -/

/-- **C93**: `a // b`, `a % b` and `divmod(a, b)` of a `Real` object read from a text with another, or with a decimal, an `int` or a `float` on
either side: the quotient cut off and the remainder of the two numbers; the remainder is rounded to 28 digits; quotients of more than 28 digits and division by
zero raise `ArithmeticError`. Missing: infinities, numbers beyond 10^200000 or with more digits, and values made from an
`int` or a `float`, for which the claim is false (`C93_violated_made`). -/
theorem C93_whole_partial (a b : RealArg) (x y : Dec) (ha : plainOf a = some x) (hb : plainOf b = some y)
    (h : (∃ v, a = .real v) ∨ ∃ v, b = .real v) (hx : Moderate x) (hy : Moderate y) :
    (y.coeff = 0 → pyDivide .whole a b = .error .arith ∧ pyDivide .rem a b = .error .arith) ∧
    (y.coeff ≠ 0 → ∃ q r, CutOff (units (min x.exp y.exp) x) (units (min x.exp y.exp) y) q r ∧
      (q.natAbs < 10 ^ 28 → ∃ d z, pyDivide .whole a b = .ok (.dec (.fin d)) ∧ d.exp = 0 ∧ units 0 d = q ∧
        pyDivide .rem a b = .ok (.dec (.fin z)) ∧ To28 r (min x.exp y.exp) z) ∧
      (10 ^ 28 ≤ q.natAbs → pyDivide .whole a b = .error .arith ∧ pyDivide .rem a b = .error .arith)) := by
  rw [reduce_div .whole a b x y ha hb h, reduce_div .rem a b x y ha hb h]
  simp only [decDiv, decFloor, decMod]
  refine ⟨fun h0 => by rw [if_pos h0, if_pos h0]; exact ⟨rfl, rfl⟩, fun h0 => ?_⟩
  refine ⟨_, _, cut_off x y (min x.exp y.exp) h0 _ _ rfl rfl, ?_, ?_⟩
  · rw [natAbs_signed, if_neg h0, if_neg h0, divide_spec x y h0]
    intro hq
    rw [if_pos hq]
    have hn : x.coeff * 10 ^ (x.exp - min x.exp y.exp).toNat % (y.coeff * 10 ^ (y.exp - min x.exp y.exp).toNat) <
        10 ^ (900000 - min x.exp y.exp).toNat := by
      refine Nat.lt_of_le_of_lt (Nat.mod_le _ _) ?_
      rw [← units_abs]
      refine Nat.lt_of_lt_of_le (units_bound x hx _) (Nat.pow_le_pow_right (by decide) ?_)
      obtain ⟨x1, x2, -⟩ := hx
      obtain ⟨y1, y2, -⟩ := hy
      omega
    obtain ⟨x1, x2, -⟩ := hx
    obtain ⟨y1, y2, -⟩ := hy
    obtain ⟨z, h1, h2⟩ := fix_spec x.neg _ (min x.exp y.exp) (by omega) (by omega) hn
    refine ⟨_, z, rfl, rfl, ?_, by simp only; rw [h1]; rfl, h2⟩
    rw [units_signed]
    simp
  · rw [natAbs_signed, if_neg h0, if_neg h0, divide_spec x y h0]
    intro hq
    rw [if_neg (by omega)]
    exact ⟨rfl, rfl⟩

/-- **C93**: `a / b` of the same objects: the quotient, exact if any decimal of 28 digits is, else to half a unit of its last digit and with
all 28 digits; dividing by zero raises `ArithmeticError`.
Missing: objects made from an `int` or a `float` (`C93_violated`), infinities and numbers beyond `Moderate`. -/
theorem C93_frac_partial (a b : RealArg) (x y : Dec) (ha : plainOf a = some x) (hb : plainOf b = some y)
    (h : (∃ v, a = .real v) ∨ ∃ v, b = .real v) (hx : Moderate x) (hy : Moderate y) :
    (y.coeff = 0 → pyDivide .frac a b = .error .arith) ∧
    (y.coeff ≠ 0 → ∃ r, pyDivide .frac a b = .ok (.dec (.fin r)) ∧ Quot28 x y r) := by
  rw [reduce_div .frac a b x y ha hb h]
  simp only [decDiv]
  refine ⟨fun h0 => by rw [decQuot, if_pos h0]; rfl, fun h0 => ?_⟩
  obtain ⟨r, h1, h2⟩ := quot_spec x y hx hy h0
  exact ⟨r, by rw [h1]; rfl, h2⟩

theorem small (c : Nat) (h : c < 10 ^ 2) : c < 10 ^ 200000 := Nat.lt_of_lt_of_le h (Nat.pow_le_pow_right (by decide) (by decide))

/-- `Real.from_mcnp('-7.5') // 2`, `% 2` and `/ 2`; `1 / Real.from_mcnp('3')`; `Real.from_mcnp('1e30') // 3`. -/
example : plainOf (.real (.num (.dec (.fin ⟨true, 75, -1⟩)))) = some ⟨true, 75, -1⟩ ∧ plainOf (.num (.int 2)) = some ⟨false, 2, 0⟩ ∧
    Moderate ⟨true, 75, -1⟩ ∧ Moderate ⟨false, 2, 0⟩ ∧
    pyDivide .whole (.real (.num (.dec (.fin ⟨true, 75, -1⟩)))) (.num (.int 2)) = .ok (.dec (.fin ⟨true, 3, 0⟩)) ∧
    pyDivide .rem (.real (.num (.dec (.fin ⟨true, 75, -1⟩)))) (.num (.int 2)) = .ok (.dec (.fin ⟨true, 15, -1⟩)) ∧
    pyDivide .frac (.real (.num (.dec (.fin ⟨true, 75, -1⟩)))) (.num (.int 2)) = .ok (.dec (.fin ⟨true, 375, -2⟩)) ∧
    pyDivide .frac (.num (.int 1)) (.real (.num (.dec (.fin ⟨false, 3, 0⟩)))) = .ok (.dec (.fin ⟨false, 3333333333333333333333333333, -28⟩)) ∧
    pyDivide .whole (.real (.num (.dec (.fin ⟨false, 1, 30⟩)))) (.num (.int 3)) = .error .arith := by
  refine ⟨rfl, rfl, ⟨by decide, by decide, small _ (by decide)⟩, ⟨by decide, by decide, small _ (by decide)⟩, ?_⟩
  decide +kernel

theorem eq_of_small {a b n t : Int} (h : a * n + t = b * n) (ht : t.natAbs < n.natAbs) : a = b := by
  have h1 : (b - a) * n = t := by rw [Int.sub_mul]; omega
  have h2 : (b - a).natAbs * n.natAbs = t.natAbs := by rw [← Int.natAbs_mul, h1]
  rcases Nat.eq_zero_or_pos (b - a).natAbs with h3 | h3
  · omega
  · have := Nat.le_mul_of_pos_left n.natAbs h3
    omega

/-- Cutting off and rounding down agree exactly for numbers of the same sign and for multiples. -/
theorem cut_floor (m n q r Q R : Int) (h : CutOff m n q r) (hQ : m = Q * n + R) (hR : 0 ≤ R ∧ R < n ∨ n < R ∧ R ≤ 0) :
    (q = Q ↔ n ∣ m ∨ (0 < m ↔ 0 < n)) := by
  obtain ⟨h1, h2, h3⟩ := h
  have h0 : r ≠ 0 → m ≠ 0 := by
    intro hr hm
    have : q = 0 := eq_of_small (n := n) (t := r) (by rw [Int.zero_mul]; omega) h2
    rw [this, Int.zero_mul] at h1
    omega
  constructor
  · rintro rfl
    by_cases hr : r = 0
    · exact .inl ⟨q, by rw [h1, hr, Int.mul_comm]; omega⟩
    · right
      have := h3 hr
      have := h0 hr
      omega
  · intro hd
    by_cases hr : r = 0
    · refine eq_of_small (n := n) (t := -R) (by omega) (by omega)
    · rcases hd with ⟨k, hk⟩ | hd
      · exfalso
        have : q = k := eq_of_small (n := n) (t := r) (by rw [Int.mul_comm k n]; omega) h2
        rw [this, Int.mul_comm k n] at h1
        omega
      · have := h3 hr
        have := h0 hr
        refine eq_of_small (n := n) (t := r - R) (by omega) (by omega)

/-- **C93 fails** for negative whole numbers: an `Integer` object rounds the quotient down, a `Real` object with the same text cuts it off, so that
their quotients agree exactly for numbers of the same sign and for multiples. -/
theorem C93_violated (m n : Int) (hn : n ≠ 0) (hm : m.natAbs < 10 ^ 28) (hn' : n.natAbs < 10 ^ 28) :
    ∃ d Q, pyDivide .whole (.real (.num (.dec (intDec m)))) (.num (.int n)) = .ok (.dec (.fin d)) ∧ d.exp = 0 ∧
      pyAri .floordiv (.integer (.num m)) (.int n) = .ok (some Q) ∧
      (units 0 d = Q ↔ n ∣ m ∨ (0 < m ↔ 0 < n)) := by
  have hu : ∀ k : Int, units (min 0 0) ⟨decide (k < 0), k.natAbs, 0⟩ = k := by
    intro k; unfold units; simp only [decide_eq_true_eq]; split <;> simp <;> omega
  have hM : ∀ k : Int, k.natAbs < 10 ^ 28 → Moderate ⟨decide (k < 0), k.natAbs, 0⟩ := fun k hk =>
    ⟨by simp, by simp, Nat.lt_of_lt_of_le hk (Nat.pow_le_pow_right (by decide) (by decide))⟩
  obtain ⟨q, r, h1, h2, -⟩ := (C93_whole_partial (.real (.num (.dec (intDec m)))) (.num (.int n)) ⟨decide (m < 0), m.natAbs, 0⟩ ⟨decide (n < 0), n.natAbs, 0⟩
    rfl rfl (.inl ⟨_, rfl⟩) (hM m hm) (hM n hn')).2 (by simpa using hn)
  simp only [hu] at h1
  obtain ⟨Q, R, f1, -, f3, f4, f5⟩ := (C75_arithmetic (.integer (.num m)) (.int n) m n rfl rfl).2.2.2.1 hn
  have hf := cut_floor m n q r Q R h1 f3 (by clear h2; omega)
  have hq : q.natAbs < 10 ^ 28 := by
    clear h2
    refine Nat.lt_of_le_of_lt ?_ hm
    obtain ⟨c1, c2, c3⟩ := h1
    have hmul : q.natAbs * n.natAbs = (m - r).natAbs := by rw [← Int.natAbs_mul]; congr 1; omega
    have hle := Nat.le_mul_of_pos_right q.natAbs (show 0 < n.natAbs by omega)
    by_cases hmr : (m - r).natAbs ≤ m.natAbs
    · omega
    · have : q = 0 := eq_of_small (n := n) (t := m - r) (a := 0) (b := q) (by rw [Int.zero_mul]; omega) (by omega) |>.symm
      rw [this]; simp
  obtain ⟨d, z, d1, d2, d3, -⟩ := h2 hq
  exact ⟨d, Q, d1, d2, f1, by rw [d3]; exact hf⟩

/-- `Real.from_mcnp('-7') // 2` is -3, `Integer.from_mcnp('-7') // 2` is -4. -/
example : pyDivide .whole (.real (.num (.dec (intDec (-7))))) (.num (.int 2)) = .ok (.dec (.fin ⟨true, 3, 0⟩)) ∧
    pyDivide .rem (.real (.num (.dec (intDec (-7))))) (.num (.int 2)) = .ok (.dec (.fin ⟨true, 1, 0⟩)) ∧
    pyAri .floordiv (.integer (.num (-7))) (.int 2) = .ok (some (-4)) ∧ pyAri .mod (.integer (.num (-7))) (.int 2) = .ok (some 1) := by decide +kernel

/-- **C93 fails** for objects made from an `int` or a `float`, as all setters do: with every number of the program on either side, and
with every object read from a text on their right, they raise `TypeError`. -/
theorem C93_violated_made (o : DivOp) :
    (∀ (k : Int) (n : PyNum), pyDivide o (.real (.num (.int k))) (.num n) = .error .typeErr ∧ pyDivide o (.num n) (.real (.num (.int k))) = .error .typeErr) ∧
    (∀ (x : Flt) (n : PyNum), pyDivide o (.real (.num (.flt x))) (.num n) = .error .typeErr ∧ pyDivide o (.num n) (.real (.num (.flt x))) = .error .typeErr) ∧
    (∀ (k : Int) (d : DecVal), pyDivide o (.real (.num (.int k))) (.real (.num (.dec d))) = .error .typeErr) ∧
    (∀ (x : Flt) (d : DecVal), pyDivide o (.real (.num (.flt x))) (.real (.num (.dec d))) = .error .typeErr ∧
      pyDivide o (.real (.num (.dec d))) (.real (.num (.flt x))) = .error .typeErr) :=
  ⟨fun _ _ => ⟨rfl, rfl⟩, fun _ _ => ⟨rfl, rfl⟩, fun _ _ => rfl, fun _ _ => ⟨rfl, rfl⟩⟩

end Props
