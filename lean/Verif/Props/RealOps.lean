import Verif.Types.RealOps
import Verif.Py.StrLemmas
/-!
# C90: sums, differences and products of reals
-/
namespace Props
open Py Types

/-! ## Specification -/

/-- The finite decimal that an operand stands for: a `Real` object read from a text, or a decimal, `int` or `float` of the program, by its
text. -/
def plainOf : RealArg → Option Dec
  | .real (.num (.dec (.fin d))) => some d
  | .num (.dec (.fin d)) => some d
  | .num (.int n) => some ⟨decide (n < 0), n.natAbs, 0⟩
  | .num (.flt ⟨_, .fin d⟩) => some d
  | _ => none

/-- `x` in units of `10^e`. -/
def units (e : Int) (x : Dec) : Int := (if x.neg then -(x.coeff : Int) else x.coeff) * 10 ^ (x.exp - e).toNat

/-- The exact result in units of `10^e`, where `e` is its last place. -/
def lastPlace : RealOp → Dec → Dec → Int
  | .mul, x, y => x.exp + y.exp
  | _, x, y => min x.exp y.exp

def exactly : RealOp → Dec → Dec → Int
  | .add, x, y => units (min x.exp y.exp) x + units (min x.exp y.exp) y
  | .sub, x, y => units (min x.exp y.exp) x - units (min x.exp y.exp) y
  | .mul, x, y => units x.exp x * units y.exp y

/-- `r` is `m · 10^e` to 28 digits: exactly if that has at most 28 digits, else to half a unit of the 28th of its `L` digits. -/
structure To28 (m e : Int) (r : Dec) : Prop where
  digits : r.coeff < 10 ^ 28
  place : e ≤ r.exp
  exact : m.natAbs < 10 ^ 28 → units e r = m
  near : ∀ L : Nat, 28 ≤ L → m.natAbs < 10 ^ L → 2 * (units e r - m).natAbs ≤ 10 ^ (L - 28)

/-- Numbers of ordinary size: the limits of `decimal` are far away. -/
def Moderate (x : Dec) : Prop := -200000 ≤ x.exp ∧ x.exp ≤ 200000 ∧ x.coeff < 10 ^ 200000

/-! ## Helper lemmas -/

theorem roundHalf_near (n d : Nat) (hd : 0 < d) : 2 * ((roundHalf n d * d : Nat) - (n : Int)).natAbs ≤ d := by
  have h := Nat.div_add_mod n d
  have hr := Nat.mod_lt n hd
  unfold roundHalf
  simp only
  generalize n / d = q at *
  generalize n % d = r at *
  have e1 : q * d = d * q := Nat.mul_comm _ _
  have e2 : (q + 1) * d = d * q + d := by rw [Nat.add_mul, Nat.one_mul, e1]
  repeat' split
  all_goals first
    | rw [e1]; omega
    | rw [e2]; omega

theorem roundHalf_le (n d : Nat) (hd : 0 < d) (M : Nat) (h : n ≤ M * d) : roundHalf n d ≤ M := by
  have := roundHalf_near n d hd
  by_cases hc : roundHalf n d ≤ M
  · exact hc
  · exfalso
    -- the quotient is at most M, and M + 1 only if n/d = M with a remainder
    unfold roundHalf at hc
    simp only at hc
    have hdm := Nat.div_add_mod n d
    have hq : n / d ≤ M := by
      rw [Nat.div_le_iff_le_mul_add_pred hd]
      have : M * d = d * M := Nat.mul_comm _ _
      omega
    have hr : n / d = M → n % d = 0 := by
      intro he
      rw [he] at hdm
      have : M * d = d * M := Nat.mul_comm _ _
      omega
    repeat' split at hc
    all_goals omega

theorem len_bounds (n : Nat) (hn : 0 < n) : 10 ^ ((natStr n).length - 1) ≤ n ∧ n < 10 ^ (natStr n).length := by
  constructor
  · by_cases h : (natStr n).length - 1 = 0
    · rw [h, Nat.pow_zero]; exact hn
    · by_cases hc : 10 ^ ((natStr n).length - 1) ≤ n
      · exact hc
      · have := natStr_length_le n ((natStr n).length - 1) (by omega) (by omega)
        omega
  · have := strNat_lt_pow (natStr n) (natStr_digits n)
    rwa [strNat_natStr] at this

theorem roundHalf_one (n : Nat) : roundHalf n 1 = n := by
  simp [roundHalf, Nat.mod_one, Nat.div_one]

/-- The digits and the power of ten of the rounded number. -/
theorem round28 (n : Nat) (hn : 0 < n) : ∃ (c j : Nat), 0 < c ∧ c < 10 ^ 28 ∧
    j ≤ (natStr n).length - 28 + 1 ∧ c * 10 ^ j = roundHalf n (10 ^ ((natStr n).length - 28)) * 10 ^ ((natStr n).length - 28) ∧
    (if roundHalf n (10 ^ ((natStr n).length - 28)) = 10 ^ 28 then c = 10 ^ 27 ∧ j = (natStr n).length - 28 + 1
      else c = roundHalf n (10 ^ ((natStr n).length - 28)) ∧ j = (natStr n).length - 28) := by
  obtain ⟨lo, hi⟩ := len_bounds n hn
  generalize (natStr n).length = L at *
  generalize hk : L - 28 = k
  have hd : 0 < 10 ^ k := Nat.pow_pos (by decide)
  have hq : roundHalf n (10 ^ k) ≤ 10 ^ 28 := by
    refine roundHalf_le n _ hd _ ?_
    rw [← Nat.pow_add]
    exact Nat.le_trans (Nat.le_of_lt hi) (Nat.pow_le_pow_right (by decide) (by omega))
  have hpos : 0 < roundHalf n (10 ^ k) := by
    have hnear := roundHalf_near n (10 ^ k) hd
    rcases Nat.eq_zero_or_pos (roundHalf n (10 ^ k)) with h | h
    · rw [h] at hnear
      have h1 : 2 * n ≤ 10 ^ k := by omega
      have h2 : 10 ^ k ≤ 10 ^ (L - 1) ∨ k = 0 := by
        by_cases h0 : k = 0
        · exact .inr h0
        · exact .inl (Nat.pow_le_pow_right (by decide) (by omega))
      rcases h2 with h2 | h2
      · omega
      · rw [h2, Nat.pow_zero] at h1; omega
    · exact h
  by_cases h28 : roundHalf n (10 ^ k) = 10 ^ 28
  · refine ⟨10 ^ 27, k + 1, by decide, by decide, by omega, ?_, ?_⟩
    · rw [h28, ← Nat.pow_add, ← Nat.pow_add]; congr 1; omega
    · rw [if_pos h28]; exact ⟨rfl, rfl⟩
  · refine ⟨roundHalf n (10 ^ k), k, hpos, by omega, by omega, rfl, ?_⟩
    rw [if_neg h28]; exact ⟨rfl, rfl⟩

theorem sign_diff (neg : Bool) (a b : Int) :
    ((if neg then -a else a) - (if neg then -b else b)).natAbs = (a - b).natAbs := by
  cases neg <;> simp only [if_true, if_false, Bool.false_eq_true]
  omega

theorem units_signed (e : Int) (neg : Bool) (c : Nat) (x : Int) :
    units e ⟨neg, c, x⟩ = if neg then -((c * 10 ^ (x - e).toNat : Nat) : Int) else ((c * 10 ^ (x - e).toNat : Nat) : Int) := by
  unfold units
  cases neg <;> simp [Int.natCast_mul, Int.natCast_pow, Int.neg_mul]

theorem natAbs_signed (neg : Bool) (n : Nat) : (if neg then -(n : Int) else n : Int).natAbs = n := by
  cases neg <;> simp

theorem pow_lt_le {a b n : Nat} (h1 : 10 ^ a ≤ n) (h2 : n < 10 ^ b) : a < b :=
  (Nat.pow_lt_pow_iff_right (by decide : 1 < 10)).1 (Nat.lt_of_le_of_lt h1 h2)

theorem fix_spec (neg : Bool) (n : Nat) (e : Int) (hlo : -900000 ≤ e) (he : e ≤ 900000) (hhi : n < 10 ^ (900000 - e).toNat) :
    ∃ r, decFix neg n e = .ok (.fin r) ∧ To28 (if neg then -(n : Int) else n) e r := by
  have hk : max ((natStr n).length - 28) (-1000026 - e).toNat = (natStr n).length - 28 := by
    have : (-1000026 - e).toNat = 0 := by omega
    rw [this]; omega
  rcases Nat.eq_zero_or_pos n with h0 | hn
  · subst h0
    refine ⟨⟨neg, 0, e⟩, ?_, Nat.pow_pos (by decide), Int.le_refl _, fun _ => ?_, fun L _ _ => ?_⟩
    · unfold decFix
      simp only [hk]
      have h1 : (natStr 0).length - 28 = 0 := by decide
      rw [h1, Nat.pow_zero, roundHalf_one]
      have : min e 999999 = e := by omega
      simp [this]
    · simp [units]
    · simp [units]
  · obtain ⟨c, j, hc0, hc, hj, hcj, hif⟩ := round28 n hn
    obtain ⟨lo, hi⟩ := len_bounds n hn
    have hL := pow_lt_le lo hhi
    have hnear := roundHalf_near n (10 ^ ((natStr n).length - 28)) (Nat.pow_pos (by decide))
    rw [← hcj] at hnear
    have hfix : decFix neg n e = .ok (.fin ⟨neg, c, e + j⟩) := by
      unfold decFix
      simp only [hk]
      have hlen : (natStr c).length ≤ 28 := natStr_length_le c 28 (by decide) hc
      by_cases h28 : roundHalf n (10 ^ ((natStr n).length - 28)) = 10 ^ 28
      · rw [if_pos h28] at hif
        simp only [if_pos h28]
        obtain ⟨rfl, rfl⟩ := hif
        rw [if_neg (by omega), if_neg (by omega)]
        congr 3
        omega
      · rw [if_neg h28] at hif
        simp only [if_neg h28]
        rw [← hif.1, ← hif.2, if_neg (by omega), if_neg (by omega)]
    refine ⟨_, hfix, hc, by simp only; omega, fun hm => ?_, fun L hL28 hm => ?_⟩
    · rw [natAbs_signed] at hm
      have : (natStr n).length ≤ 28 := natStr_length_le n 28 (by decide) hm
      have hz : (natStr n).length - 28 = 0 := by omega
      rw [hz, Nat.pow_zero, roundHalf_one, Nat.mul_one] at hcj
      rw [units_signed]
      have : (e + j - e).toNat = j := by omega
      rw [this, hcj]
    · rw [natAbs_signed] at hm
      rw [units_signed]
      have : (e + j - e).toNat = j := by omega
      rw [this, sign_diff]
      refine Nat.le_trans hnear (Nat.pow_le_pow_right (by decide) ?_)
      have := pow_lt_le lo hm
      omega

theorem signed_units (x : Dec) (e : Int) : Dec.signed x * 10 ^ (x.exp - e).toNat = units e x := rfl

theorem units_bound (x : Dec) (hx : Moderate x) (e : Int) : (units e x).natAbs < 10 ^ (200000 + (200000 - e).toNat) := by
  obtain ⟨_, h2, h3⟩ := hx
  have : (units e x).natAbs = x.coeff * 10 ^ (x.exp - e).toNat := by
    obtain ⟨neg, c, y⟩ := x
    rw [units_signed, natAbs_signed]
  rw [this, Nat.pow_add]
  exact Nat.mul_lt_mul_of_lt_of_le h3 (Nat.pow_le_pow_right (by decide) (by omega)) (Nat.pow_pos (by decide))

theorem sum_bound {a b : Int} {p q : Nat} (ha : a.natAbs < 10 ^ p) (hb : b.natAbs < 10 ^ p) (h : p < q) : (a + b).natAbs < 10 ^ q := by
  have h1 : 10 ^ (p + 1) ≤ 10 ^ q := Nat.pow_le_pow_right (by decide) h
  rw [Nat.pow_succ] at h1
  omega

theorem sign_of (m : Int) (b : Bool) : (if (if m = 0 then b else decide (m < 0)) then -(m.natAbs : Int) else m.natAbs) = m := by
  by_cases h : m = 0
  · subst h; cases b <;> rfl
  · rw [if_neg h]
    by_cases h2 : m < 0
    · simp only [h2, decide_true, if_true]; omega
    · simp only [h2, decide_false, Bool.false_eq_true, if_false]; omega

theorem add_spec (x y : Dec) (hx : Moderate x) (hy : Moderate y) :
    ∃ r, decAdd x y = .ok (.fin r) ∧ To28 (units (min x.exp y.exp) x + units (min x.exp y.exp) y) (min x.exp y.exp) r := by
  have bx := units_bound x hx (min x.exp y.exp)
  have b_y := units_bound y hy (min x.exp y.exp)
  obtain ⟨x1, x2, _⟩ := hx
  obtain ⟨y1, y2, _⟩ := hy
  have he : -200000 ≤ min x.exp y.exp ∧ min x.exp y.exp ≤ 200000 := by omega
  have hb := sum_bound bx b_y (q := (900000 - min x.exp y.exp).toNat) (by omega)
  obtain ⟨r, h1, h2⟩ := fix_spec (if units (min x.exp y.exp) x + units (min x.exp y.exp) y = 0 then x.neg && y.neg
    else decide (units (min x.exp y.exp) x + units (min x.exp y.exp) y < 0)) _ (min x.exp y.exp) (by omega) (by omega) hb
  rw [sign_of] at h2
  exact ⟨r, h1, h2⟩

theorem mul_spec (x y : Dec) (hx : Moderate x) (hy : Moderate y) :
    ∃ r, decMul x y = .ok (.fin r) ∧ To28 (units x.exp x * units y.exp y) (x.exp + y.exp) r := by
  obtain ⟨x1, x2, x3⟩ := hx
  obtain ⟨y1, y2, y3⟩ := hy
  have hb : x.coeff * y.coeff < 10 ^ (900000 - (x.exp + y.exp)).toNat := by
    refine Nat.lt_of_lt_of_le (Nat.mul_lt_mul_of_lt_of_le x3 (Nat.le_of_lt y3) (Nat.pow_pos (by decide))) ?_
    rw [← Nat.pow_add]
    exact Nat.pow_le_pow_right (by decide) (by omega)
  obtain ⟨r, h1, h2⟩ := fix_spec (x.neg != y.neg) (x.coeff * y.coeff) (x.exp + y.exp) (by omega) (by omega) hb
  have : (if (x.neg != y.neg) then -((x.coeff * y.coeff : Nat) : Int) else (x.coeff * y.coeff : Nat)) = units x.exp x * units y.exp y := by
    unfold units
    rw [Int.sub_self, Int.sub_self]
    cases x.neg <;> cases y.neg <;> simp [Int.natCast_mul, Int.neg_mul, Int.mul_neg]
  rw [this] at h2
  exact ⟨r, h1, h2⟩

theorem flip_units (y : Dec) (e : Int) : units e ⟨!y.neg, y.coeff, y.exp⟩ = -units e y := by
  unfold units
  cases y.neg <;> simp [Int.neg_mul]

theorem ari_spec (o : RealOp) (x y : Dec) (hx : Moderate x) (hy : Moderate y) :
    ∃ r, decAri o (.fin x) (.fin y) = .ok (.fin r) ∧ To28 (exactly o x y) (lastPlace o x y) r := by
  cases o with
  | add => exact add_spec x y hx hy
  | sub =>
    obtain ⟨r, h1, h2⟩ := add_spec x ⟨!y.neg, y.coeff, y.exp⟩ hx hy
    rw [flip_units] at h2
    exact ⟨r, h1, h2⟩
  | mul => exact mul_spec x y hx hy

/-- The operation on decimals that an operator with a `Real` object read from a text comes down to. -/
theorem reduce (o : RealOp) (a b : RealArg) (x y : Dec) (ha : plainOf a = some x) (hb : plainOf b = some y)
    (h : (∃ v, a = .real v) ∨ ∃ v, b = .real v) : pyReal o a b = (decAri o (.fin x) (.fin y)).map .dec := by
  have num : ∀ (n : PyNum) (y : Dec), plainOf (.num n) = some y → n.toDec = .fin y := by
    intro n y hn
    match n with
    | .dec (.fin d) => cases hn; rfl
    | .int k => cases hn; rfl
    | .flt ⟨_, .fin d⟩ => cases hn; rfl
    | .dec (.inf _) | .dec (.nan ..) => cases hn
    | .flt ⟨_, .inf _⟩ | .flt ⟨_, .nan ..⟩ => cases hn
  have real : ∀ (v : Held) (x : Dec), plainOf (.real v) = some x → v = .num (.dec (.fin x)) := by
    intro v x hv
    match v with
    | .num (.dec (.fin d)) => cases hv; rfl
    | .num (.dec (.inf _)) | .num (.dec (.nan ..)) | .num (.int _) | .num (.flt _) | .hor _ => cases hv
  cases a with
  | real v =>
    rw [real v x ha]
    cases b with
    | real w =>
      rw [real w y hb]
      simp only [pyReal, realMethod, heldMethod, numMethod]
      cases decAri o (.fin x) (.fin y) <;> rfl
    | num n =>
      simp only [pyReal, realMethod, heldMethod, numMethod, num n y hb]
      cases decAri o (.fin x) (.fin y) <;> rfl
  | num n =>
    cases b with
    | num m => rcases h with ⟨v, h⟩ | ⟨v, h⟩ <;> cases h
    | real w =>
      rw [real w y hb]
      simp only [pyReal, realMethod, heldMethod, numMethod, num n x ha]
      cases decAri o (.fin x) (.fin y) <;> rfl

/-! ## The property -/

/-- **C90**: the sum, difference and product of a `Real` object read from a text with another, or with a decimal, an `int` or a `float` on either
side, is a decimal: the exact result if it has at most 28 digits, else it is correct to half a unit of the 28th digit.
Missing: objects made from an `int` or a `float` (`C90_violated`), infinities and numbers beyond `Moderate`. -/
theorem C90_sum_partial (o : RealOp) (a b : RealArg) (x y : Dec) (ha : plainOf a = some x) (hb : plainOf b = some y)
    (h : (∃ v, a = .real v) ∨ ∃ v, b = .real v) (hx : Moderate x) (hy : Moderate y) :
    ∃ r, pyReal o a b = .ok (.dec (.fin r)) ∧ To28 (exactly o x y) (lastPlace o x y) r := by
  obtain ⟨r, h1, h2⟩ := ari_spec o x y hx hy
  exact ⟨r, by rw [reduce o a b x y ha hb h, h1]; rfl, h2⟩

/-- `Real.from_mcnp('1.5') * 2`, `1 - Real.from_mcnp('0.25')` -/
example : plainOf (.real (.num (.dec (.fin ⟨false, 15, -1⟩)))) = some ⟨false, 15, -1⟩ ∧ plainOf (.num (.int 2)) = some ⟨false, 2, 0⟩ ∧
    Moderate ⟨false, 15, -1⟩ ∧ pyReal .mul (.real (.num (.dec (.fin ⟨false, 15, -1⟩)))) (.num (.int 2)) = .ok (.dec (.fin ⟨false, 30, -1⟩)) ∧
    pyReal .sub (.num (.int 1)) (.real (.num (.dec (.fin ⟨false, 25, -2⟩)))) = .ok (.dec (.fin ⟨false, 75, -2⟩)) := by
  refine ⟨rfl, rfl, ⟨by decide, by decide, ?_⟩, by decide +kernel, by decide +kernel⟩
  exact Nat.lt_of_lt_of_le (by decide : 15 < 10 ^ 2) (Nat.pow_le_pow_right (by decide) (by decide))

/-- The twenty-ninth digit is rounded away: 10^28 + 0.6 is 10^28 + 1. -/
example : pyReal .add (.real (.num (.dec (.fin ⟨false, 9999999999999999999999999999, 0⟩)))) (.real (.num (.dec (.fin ⟨false, 6, -1⟩)))) =
    .ok (.dec (.fin ⟨false, 1000000000000000000000000000, 1⟩)) := by decide +kernel

/-- **C90 fails** for objects made from an `int` or a `float`, as all setters do: with every number of the program on either side, and
with every object read from a text on its right, they raise `TypeError`; an `int` object with a `float` object on its right does too. -/
theorem C90_violated (o : RealOp) :
    (∀ (k : Int) (n : PyNum), pyReal o (.real (.num (.int k))) (.num n) = .error .typeErr ∧ pyReal o (.num n) (.real (.num (.int k))) = .error .typeErr) ∧
    (∀ (x : Flt) (n : PyNum), pyReal o (.real (.num (.flt x))) (.num n) = .error .typeErr ∧ pyReal o (.num n) (.real (.num (.flt x))) = .error .typeErr) ∧
    (∀ (k : Int) (d : DecVal), pyReal o (.real (.num (.int k))) (.real (.num (.dec d))) = .error .typeErr) ∧
    (∀ (x : Flt) (d : DecVal), pyReal o (.real (.num (.flt x))) (.real (.num (.dec d))) = .error .typeErr ∧
      pyReal o (.real (.num (.dec d))) (.real (.num (.flt x))) = .error .typeErr) ∧
    (∀ (k : Int) (x : Flt), pyReal o (.real (.num (.int k))) (.real (.num (.flt x))) = .error .typeErr ∧
      pyReal o (.real (.num (.flt x))) (.real (.num (.int k))) = .ok .flt) :=
  ⟨fun _ _ => ⟨rfl, rfl⟩, fun _ _ => ⟨rfl, rfl⟩, fun _ _ => rfl, fun _ _ => ⟨rfl, rfl⟩, fun _ _ => ⟨rfl, rfl⟩⟩

/-! ## C91 -/

/-- The value of a finite double in units of 2^-1074 is the number its text denotes. -/
def TextExact (k : Int) (d : Dec) : Prop :=
  k * 10 ^ (-d.exp).toNat = (if d.neg then -(d.coeff : Int) else d.coeff) * 10 ^ d.exp.toNat * 2 ^ 1074

theorem intDec_frac (n : Int) : (PyNum.dec (intDec n)).frac = some (n, 1) := by
  have : (if n < 0 then -(n.natAbs : Int) else n.natAbs) = n := by split <;> omega
  simp only [PyNum.frac, intDec, Dec.signed, decide_eq_true_eq, this]
  simp

/-- **C91**: an attribute that was assigned a whole number compares with whole numbers, and with what is read back from its text, as that
number does. -/
theorem C91_int (r : Rel) (m n : Int) :
    realNumRel r (.int m) (.num (.int n)) = .ok (r.holds (compare m n)) ∧
    realNumRel r (.int m) (PyNum.int n).reread = .ok (r.holds (compare m n)) := by
  simp only [realNumRel, PyNum.reread, PyNum.toDec, numRel, intDec_frac]
  simp [PyNum.frac]

example : realNumRel .eq (.int 5) (.num (.int 5)) = .ok true ∧ realNumRel .lt (.int 5) (.num (.int 7)) = .ok true := by decide

/-- **C91**: an attribute that was assigned a `float` is equal to that `float`, and to what is read back from its text, exactly when the text
denotes the value of the `float` exactly. Missing: that the text always denotes the `float`, which is false (`C91_violated`).
-/
theorem C91_float_partial (k : Int) (d : Dec) :
    (realNumRel .eq (.flt ⟨.fin k, .fin d⟩) (.num (.flt ⟨.fin k, .fin d⟩)) = .ok true ↔ TextExact k d) ∧
    (realNumRel .eq (.flt ⟨.fin k, .fin d⟩) (PyNum.flt ⟨.fin k, .fin d⟩).reread = .ok true ↔ TextExact k d) := by
  have : numRel .eq (.flt ⟨.fin k, .fin d⟩) (.dec (.fin d)) = .ok true ↔ TextExact k d := by
    simp only [numRel, PyNum.frac, Rel.holds, TextExact, Dec.signed]
    rw [Except.ok.injEq, beq_iff_eq, Int.compare_eq_eq, Int.natCast_pow, Int.natCast_pow]
    exact Iff.rfl
  exact ⟨this, this⟩

/-- 0.5 -/
example : TextExact (2 ^ 1073) ⟨false, 5, -1⟩ := by
  unfold TextExact
  decide +kernel

/-- **C91 fails** for 0.1, the double nearest to which is another number: after `x.attr = 0.1`, `x.attr == 0.1` is false and
`x.attr > 0.1` is true. -/
theorem C91_violated : ∃ k : Int, decDbl 1 (-1) = .fin k ∧
    realNumRel .eq (.flt ⟨.fin k, .fin ⟨false, 1, -1⟩⟩) (.num (.flt ⟨.fin k, .fin ⟨false, 1, -1⟩⟩)) = .ok false ∧
    realNumRel .gt (.flt ⟨.fin k, .fin ⟨false, 1, -1⟩⟩) (.num (.flt ⟨.fin k, .fin ⟨false, 1, -1⟩⟩)) = .ok true :=
  ⟨3602879701896397 * 2 ^ 1019, by decide +kernel, by decide +kernel, by decide +kernel⟩

end Props
