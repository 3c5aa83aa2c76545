import Verif.Types.Hash
import Verif.Props.RealOps
import Verif.Props.Operators
/-!
# C94: equal numbers have equal hashes
-/
namespace Props
open Py Types

/-! ## Helper lemmas -/

theorem mod_cancel (a b c d ib id : Nat) (h : a * d = c * b) (hb : b * ib % hashMod = 1) (hd : d * id % hashMod = 1) :
    a * ib % hashMod = c * id % hashMod := by
  have e1 : a * ib % hashMod = a * ib * (d * id) % hashMod := by
    rw [Nat.mul_mod (a * ib) (d * id), hd, Nat.mul_one, Nat.mod_mod]
  have e2 : c * id % hashMod = c * id * (b * ib) % hashMod := by
    rw [Nat.mul_mod (c * id) (b * ib), hb, Nat.mul_one, Nat.mod_mod]
  rw [e1, e2]
  congr 1
  calc a * ib * (d * id) = (a * d) * (ib * id) := by ac_rfl
    _ = (c * b) * (ib * id) := by rw [h]
    _ = c * id * (b * ib) := by ac_rfl

theorem inv_pow (x y : Nat) (h : x * y % hashMod = 1) (k : Nat) : x ^ k * y ^ k % hashMod = 1 := by
  rw [← Nat.mul_pow, Nat.pow_mod, h, Nat.one_pow]
  decide

theorem inv_ten (k : Nat) : 10 ^ k * inv10 ^ k % hashMod = 1 := inv_pow 10 inv10 (by decide +kernel) k

theorem inv_two (k : Nat) : 2 ^ k * inv2 ^ k % hashMod = 1 := inv_pow 2 inv2 (by decide +kernel) k

/-- The hash of a finite number depends on its fraction only. -/
theorem hash_frac (x : PyNum) (a : Int) (b : Nat) (h : x.frac = some (a, b)) :
    ∃ (neg : Bool) (i : Nat), 0 < b ∧ b * i % hashMod = 1 ∧ x.hash = .ok (hashEnd neg (a.natAbs * i % hashMod)) ∧ (a ≠ 0 → (neg = true ↔ a < 0)) := by
  match x with
  | .int n =>
    cases h
    exact ⟨decide (a < 0), 1, by decide, by decide, by simp [PyNum.hash], by simp⟩
  | .dec (.fin d) =>
    simp only [PyNum.frac, Option.some.injEq, Prod.mk.injEq] at h
    obtain ⟨rfl, rfl⟩ := h
    refine ⟨d.neg, inv10 ^ (-d.exp).toNat, Nat.pow_pos (by decide), inv_ten _, ?_, ?_⟩
    · have hs : (Dec.signed d * 10 ^ d.exp.toNat).natAbs = d.coeff * 10 ^ d.exp.toNat := by
        rw [Int.natAbs_mul, Int.natAbs_pow, Dec.signed, natAbs_signed]; rfl
      rw [hs]
      simp only [PyNum.hash]
      congr 2
      split
      · rw [show (-d.exp).toNat = 0 from by omega, Nat.pow_zero, Nat.mul_one, Nat.mul_mod_mod]
      · rw [show d.exp.toNat = 0 from by omega, Nat.pow_zero, Nat.mul_one, Nat.mul_mod_mod]
    · intro hne
      have hp : (0 : Int) < 10 ^ d.exp.toNat := Int.pow_pos (by decide)
      have h0 : d.coeff ≠ 0 := by
        intro h0; apply hne; simp [Dec.signed, h0]
      unfold Dec.signed
      cases d.neg
      · have : (0 : Int) ≤ (d.coeff : Int) * 10 ^ d.exp.toNat := Int.mul_nonneg (by omega) (by omega)
        simp; omega
      · have : (0 : Int) < (d.coeff : Int) * 10 ^ d.exp.toNat := Int.mul_pos (by omega) hp
        simp [Int.neg_mul]; omega
  | .flt ⟨.fin k, t⟩ =>
    simp only [PyNum.frac, Option.some.injEq, Prod.mk.injEq] at h
    obtain ⟨rfl, rfl⟩ := h
    refine ⟨decide (k < 0), inv2 ^ 1074, Nat.pow_pos (by decide), inv_two _, ?_, by simp⟩
    simp only [PyNum.hash, Nat.mul_mod_mod]
  | .dec (.inf _) | .dec (.nan ..) | .flt ⟨.inf _, _⟩ | .flt ⟨.nan, _⟩ => cases h

/-- Equal numbers have equal hashes. -/
theorem hash_equal (x y : PyNum) (h : numRel .eq x y = .ok true) : x.hash = y.hash ∧ ∃ n, x.hash = .ok n := by
  unfold numRel at h
  match hx : x.frac, hy : y.frac with
  | none, _ => rw [hx] at h; cases h
  | some _, none => rw [hx, hy] at h; cases h
  | some (a, b), some (c, d) =>
    rw [hx, hy] at h
    simp only [Except.ok.injEq, Rel.holds, beq_iff_eq, Int.compare_eq_eq] at h
    obtain ⟨s, i, b1, b2, b3, b4⟩ := hash_frac x a b hx
    obtain ⟨t, j, d1, d2, d3, d4⟩ := hash_frac y c d hy
    have hn : a.natAbs * d = c.natAbs * b := by
      have := congrArg Int.natAbs h
      rwa [Int.natAbs_mul, Int.natAbs_mul, Int.natAbs_natCast, Int.natAbs_natCast] at this
    refine ⟨?_, _, b3⟩
    rw [b3, d3, mod_cancel _ _ _ _ _ _ hn b2 d2]
    by_cases ha : a = 0
    · have hc : c = 0 := by
        rw [ha, Int.natAbs_zero, Nat.zero_mul] at hn
        rcases Nat.mul_eq_zero.1 hn.symm with h | h <;> omega
      rw [hc]
      cases s <;> cases t <;> simp [hashEnd]
    · have hc : c ≠ 0 := by
        intro hc
        rw [hc, Int.natAbs_zero, Nat.zero_mul] at hn
        rcases Nat.mul_eq_zero.1 hn with h | h <;> omega
      have hst : s = t := by
        rw [Bool.eq_iff_iff, b4 ha, d4 hc]
        constructor
        · intro hlt
          rcases Int.lt_trichotomy c 0 with h1 | h1 | h1
          · exact h1
          · exact absurd h1 hc
          · have h2 : 0 < c * (b : Int) := Int.mul_pos h1 (by omega)
            have h3 : 0 < -a * (d : Int) := Int.mul_pos (by omega) (by omega)
            rw [Int.neg_mul] at h3; omega
        · intro hlt
          rcases Int.lt_trichotomy a 0 with h1 | h1 | h1
          · exact h1
          · exact absurd h1 ha
          · have h2 : 0 < a * (d : Int) := Int.mul_pos h1 (by omega)
            have h3 : 0 < -c * (b : Int) := Int.mul_pos (by omega) (by omega)
            rw [Int.neg_mul] at h3; omega
      rw [hst]

/-- The two ways of comparing decimals agree. -/
theorem dec_eq_num (x y : Dec) (h : Rel.eq.holds (Dec.order x y) = true) : numRel .eq (.dec (.fin x)) (.dec (.fin y)) = .ok true := by
  obtain ⟨k, h1, h2, hk⟩ : ∃ k : Nat, 0 ≤ x.exp + k ∧ 0 ≤ y.exp + k ∧ k = (-x.exp).toNat + (-y.exp).toNat := ⟨_, by omega, by omega, rfl⟩
  rw [order_scaled .eq x y k h1 h2, decide_eq_true_iff] at h
  simp only [decides, Props.scaled] at h
  simp only [numRel, PyNum.frac, Rel.holds, Except.ok.injEq, beq_iff_eq, Int.compare_eq_eq, Int.natCast_pow, Int.mul_assoc, Dec.signed]
  rw [show (x.exp + k).toNat = x.exp.toNat + (-y.exp).toNat from by omega, show (y.exp + k).toNat = y.exp.toNat + (-x.exp).toNat from by omega,
    Int.pow_add, Int.pow_add] at h
  exact h

/-! ## The property -/

/-- **C94**: what Python calls equal has the same hash: `Integer` objects, `Real` objects that were read, infinities among them, whole
numbers and decimals, in all combinations and on either side. Missing: `float`s, and shorthand, for which the claim is false
(`C94_violated_shorthand`). -/
theorem C94_read_partial (a b : Operand) (h : pyRel .eq a b = .ok (some true)) (ha : ∀ s, a ≠ .integer (.hor s) ∧ a ≠ .real (.hor s))
    (hb : ∀ s, b ≠ .integer (.hor s) ∧ b ≠ .real (.hor s)) : a.hash = b.hash ∧ ∃ n, a.hash = .ok n := by
  have key : ∀ x y : DecVal, decRel .eq x y = .ok true → (PyNum.dec x).hash = (PyNum.dec y).hash ∧ ∃ n, (PyNum.dec x).hash = .ok n := by
    intro x y h
    match x, y with
    | .fin x, .fin y => exact hash_equal _ _ (dec_eq_num x y (by simpa [decRel] using h))
    | .inf a, .inf b =>
      cases a <;> cases b <;> first | exact ⟨rfl, _, rfl⟩ | (simp [decRel, Rel.holds] at h)
    | .inf a, .fin _ | .fin _, .inf a => cases a <;> simp [decRel, Rel.holds] at h
    | .nan .., .fin _ | .nan .., .inf _ | .nan .., .nan .. | .fin _, .nan .. | .inf _, .nan .. => simp [decRel] at h
  have int : ∀ n : Int, (PyNum.dec (intDec n)).hash = (PyNum.int n).hash := fun n =>
    (hash_equal (.dec (intDec n)) (.int n) (by
      have := intDec_frac n
      simp only [numRel, this]
      simp [PyNum.frac, Rel.holds])).1
  have whole : ∀ m n : Int, Rel.eq.holds (compare m n) = true → (PyNum.int m).hash = (PyNum.int n).hash ∧ ∃ k, (PyNum.int m).hash = .ok k := by
    intro m n h
    simp only [Rel.holds, beq_iff_eq, Int.compare_eq_eq] at h
    rw [h]; exact ⟨rfl, _, rfl⟩
  match a, b with
  | .integer (.hor s), _ => exact absurd rfl (ha s).1
  | .real (.hor s), _ => exact absurd rfl (ha s).2
  | .integer (.num _), .integer (.hor s) | .real (.num _), .integer (.hor s) | .int _, .integer (.hor s) | .dec _, .integer (.hor s) => exact absurd rfl (hb s).1
  | .integer (.num _), .real (.hor s) | .real (.num _), .real (.hor s) | .int _, .real (.hor s) | .dec _, .real (.hor s) => exact absurd rfl (hb s).2
  | .integer (.num m), .integer (.num n) | .integer (.num m), .int n | .int m, .int n =>
    exact whole m n (by simpa [pyRel, relMethod, integerRel, intRaw] using h)
  | .int m, .integer (.num n) =>
    have := whole n m (by simpa [pyRel, relMethod, integerRel, intRaw, Rel.swap] using h)
    exact ⟨this.1.symm, _, rfl⟩
  | .integer (.num _), .real (.num _) | .integer (.num _), .dec _ | .real (.num _), .integer (.num _) | .dec _, .integer (.num _) =>
    simp [pyRel, relMethod, integerRel, realRel] at h
  | .real (.num x), .real (.num y) | .real (.num x), .dec y | .dec x, .dec y =>
    refine key x y ?_
    cases hd : decRel .eq x y with
    | error e => simp [pyRel, relMethod, realRel, realRaw, hd, Except.map] at h
    | ok v => simpa [pyRel, relMethod, realRel, realRaw, hd, Except.map] using h
  | .real (.num x), .int n | .dec x, .int n =>
    show (PyNum.dec x).hash = (PyNum.int n).hash ∧ ∃ k, (PyNum.dec x).hash = .ok k
    rw [← int n]
    refine key x (intDec n) ?_
    cases hd : decRel .eq x (intDec n) with
    | error e => simp [pyRel, relMethod, realRel, realRaw, hd, Except.map] at h
    | ok v => simpa [pyRel, relMethod, realRel, realRaw, hd, Except.map] using h
  | .dec x, .real (.num y) =>
    have : decRel .eq y x = .ok true := by
      cases hd : decRel .eq y x with
      | error e => simp [pyRel, relMethod, realRel, realRaw, Rel.swap, hd, Except.map] at h
      | ok v => simpa [pyRel, relMethod, realRel, realRaw, Rel.swap, hd, Except.map] using h
    obtain ⟨h1, n, h2⟩ := key y x this
    exact ⟨h1.symm, n, h1.symm.trans h2⟩
  | .int n, .real (.num y) =>
    have : decRel .eq y (intDec n) = .ok true := by
      cases hd : decRel .eq y (intDec n) with
      | error e => simp [pyRel, relMethod, realRel, realRaw, Rel.swap, hd, Except.map] at h
      | ok v => simpa [pyRel, relMethod, realRel, realRaw, Rel.swap, hd, Except.map] using h
    obtain ⟨h1, k, h2⟩ := key y (intDec n) this
    exact ⟨(int n).symm.trans h1.symm, _, rfl⟩
  | .int n, .dec y =>
    have : decRel .eq (intDec n) y = .ok true := by
      cases hd : decRel .eq (intDec n) y with
      | error e => simp [pyRel, relMethod, hd, Except.map] at h
      | ok v => simpa [pyRel, relMethod, hd, Except.map] using h
    obtain ⟨h1, k, h2⟩ := key (intDec n) y this
    exact ⟨(int n).symm.trans h1, _, rfl⟩

/-- `Real.from_mcnp('1.50e1') == Real.from_mcnp('15')`, `Real.from_mcnp('-1') == -1`, `Integer.from_mcnp('7') == 7`. -/
example : pyRel .eq (.real (.num (.fin ⟨false, 150, -1⟩))) (.real (.num (.fin ⟨false, 15, 0⟩))) = .ok (some true) ∧
    (Operand.real (.num (.fin ⟨false, 150, -1⟩))).hash = .ok 15 ∧ (Operand.real (.num (.fin ⟨false, 15, 0⟩))).hash = .ok 15 ∧
    pyRel .eq (.real (.num (.fin ⟨true, 1, 0⟩))) (.int (-1)) = .ok (some true) ∧ (Operand.int (-1)).hash = .ok (-2) ∧
    pyRel .eq (.integer (.num 7)) (.int 7) = .ok (some true) := by decide +kernel

/-- **C94**: objects that were made from an `int` or a `float`, among one another and with those read, with whole numbers, decimals, and
with a `float` that is the number its text denotes. Missing: `float`s that are not the number of their text, for which the
claim is false (`C94_violated_float`). -/
theorem C94_made_partial (a : PyNum) (b : RealArg) (h : realNumRel .eq a b = .ok true)
    (hb : ∀ x, b = .num (.flt x) → ∃ k d, x = ⟨.fin k, .fin d⟩ ∧ TextExact k d) : a.hash = b.hash ∧ ∃ n, a.hash = .ok n := by
  match b with
  | .real (.num b) => exact hash_equal a b h
  | .real (.hor _) => cases h
  | .num (.dec d) => exact hash_equal a (.dec d) h
  | .num (.int n) =>
    obtain ⟨h1, h2⟩ := hash_equal a (.dec (intDec n)) h
    refine ⟨h1.trans (hash_equal (.dec (intDec n)) (.int n) ?_).1, h2⟩
    have := intDec_frac n
    simp only [numRel, this]
    simp [PyNum.frac, Rel.holds]
  | .num (.flt x) =>
    obtain ⟨k, d, rfl, ht⟩ := hb x rfl
    obtain ⟨h1, h2⟩ := hash_equal a (.dec (.fin d)) h
    refine ⟨h1.trans (hash_equal (.flt ⟨.fin k, .fin d⟩) (.dec (.fin d)) ?_).1.symm, h2⟩
    exact (C91_float_partial k d).1.2 ht

/-- `Real(0.5) == Real.from_mcnp('.5')`, `Real.from_mcnp('.5') == 0.5` -/
example : realNumRel .eq (.flt ⟨.fin (2 ^ 1073), .fin ⟨false, 5, -1⟩⟩) (.real (.num (.dec (.fin ⟨false, 5, -1⟩)))) = .ok true ∧
    realNumRel .eq (.dec (.fin ⟨false, 5, -1⟩)) (.num (.flt ⟨.fin (2 ^ 1073), .fin ⟨false, 5, -1⟩⟩)) = .ok true ∧
    (PyNum.flt ⟨.fin (2 ^ 1073), .fin ⟨false, 5, -1⟩⟩).hash = .ok (2 ^ 60) := by decide +kernel

/-- **C94 fails** for other floats: `Real.from_mcnp('0.1') == 0.1` is true, but the hashes differ, so that a set or dictionary with the one does not
find the other. -/
theorem C94_violated_float : ∃ k : Int, decDbl 1 (-1) = .fin k ∧
    realNumRel .eq (.dec (.fin ⟨false, 1, -1⟩)) (.num (.flt ⟨.fin k, .fin ⟨false, 1, -1⟩⟩)) = .ok true ∧
    (RealArg.real (.num (.dec (.fin ⟨false, 1, -1⟩)))).hash = .ok 2075258708292324556 ∧
    (RealArg.num (.flt ⟨.fin k, .fin ⟨false, 1, -1⟩⟩)).hash = .ok 230584300921369408 :=
  ⟨3602879701896397 * 2 ^ 1019, by decide +kernel, by decide +kernel, by decide +kernel, by decide +kernel⟩

/-- **C94 fails** for every shorthand: it equals itself, but has no hash. -/
theorem C94_violated_shorthand (s : Horiz) :
    pyRel .eq (.integer (.hor s)) (.integer (.hor s)) = .ok (some true) ∧ (Operand.integer (.hor s)).hash = .error .typeErr ∧
    pyRel .eq (.real (.hor s)) (.real (.hor s)) = .ok (some true) ∧ (Operand.real (.hor s)).hash = .error .typeErr ∧
    (RealArg.real (.hor s)).hash = .error .typeErr := by
  simp [RealArg.hash, Held.hash, pyRel, relMethod, integerRel, intRaw, horRel, realRel, realRaw, Operand.hash, Except.map]

end Props
