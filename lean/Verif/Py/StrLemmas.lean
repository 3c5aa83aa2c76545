import Verif.Py.Str
/-! Helper lemmas about the string model. -/
namespace Py

theorem forall_lt_10 {p : Nat → Prop} (h0 : p 0) (h1 : p 1) (h2 : p 2) (h3 : p 3) (h4 : p 4)
    (h5 : p 5) (h6 : p 6) (h7 : p 7) (h8 : p 8) (h9 : p 9) : ∀ d, d < 10 → p d := by
  intro d hd
  match d, hd with
  | 0, _ => exact h0 | 1, _ => exact h1 | 2, _ => exact h2 | 3, _ => exact h3 | 4, _ => exact h4
  | 5, _ => exact h5 | 6, _ => exact h6 | 7, _ => exact h7 | 8, _ => exact h8 | 9, _ => exact h9
  | n + 10, h => omega

theorem isDigit_digitChar : ∀ d, d < 10 → isDigit (digitChar d) = true := by
  apply forall_lt_10 <;> decide

theorem digitVal_digitChar : ∀ d, d < 10 → digitVal (digitChar d) = d := by
  apply forall_lt_10 <;> decide

theorem isDigit_iff (c : Char) : isDigit c = true ↔ 48 ≤ c.toNat ∧ c.toNat ≤ 57 := by
  simp only [isDigit, Bool.and_eq_true, decide_eq_true_eq, Char.le_def, UInt32.le_iff_toNat_le]
  rfl

theorem digitVal_lt {c : Char} (h : isDigit c = true) : digitVal c < 10 := by
  rw [isDigit_iff] at h; unfold digitVal; omega

theorem digitChar_digitVal {c : Char} (h : isDigit c = true) : digitChar (digitVal c) = c := by
  rw [isDigit_iff] at h
  unfold digitChar digitVal
  have : 48 + (c.toNat - 48) = c.toNat := by omega
  rw [this, Char.ofNat_toNat]

theorem digitChar_inj {a b : Nat} (ha : a < 10) (hb : b < 10) (h : digitChar a = digitChar b) : a = b := by
  have := congrArg digitVal h
  rwa [digitVal_digitChar a ha, digitVal_digitChar b hb] at this

theorem isDigit_not_space {c : Char} (h : isDigit c = true) : isSpace c = false := by
  rw [isDigit_iff] at h
  unfold isSpace
  simp only [Bool.or_eq_false_iff, Bool.and_eq_false_iff, decide_eq_false_iff_not, beq_eq_false_iff_ne]
  omega

/-- Digit strings. -/
def Digits (s : Str) : Prop := ∀ c ∈ s, isDigit c = true

instance (s : Str) : Decidable (Digits s) := by unfold Digits; infer_instance

theorem strNat_append (a b : Str) : strNat (a ++ b) = strNat a * 10 ^ b.length + strNat b := by
  unfold strNat
  rw [List.foldl_append]
  generalize List.foldl (fun a c => a * 10 + digitVal c) 0 a = x
  induction b generalizing x with
  | nil => simp
  | cons c cs ih =>
    simp only [List.foldl_cons, List.length_cons]
    rw [ih, ih (0 * 10 + digitVal c)]
    rw [Nat.pow_succ, Nat.zero_mul, Nat.zero_add, Nat.add_mul, Nat.mul_assoc, Nat.mul_comm 10, Nat.add_assoc]

theorem strNat_singleton (c : Char) : strNat [c] = digitVal c := by simp [strNat]

theorem strNat_cons (c : Char) (s : Str) : strNat (c :: s) = digitVal c * 10 ^ s.length + strNat s := by
  have := strNat_append [c] s
  rwa [strNat_singleton] at this

theorem natStrAux_fuel : ∀ f n, n < f → ∀ g, n < g → natStrAux f n = natStrAux g n := by
  intro f
  induction f with
  | zero => intro n h; omega
  | succ f ih =>
    intro n hf g hg
    cases g with
    | zero => omega
    | succ g =>
      simp only [natStrAux]
      by_cases h : n < 10
      · simp [h]
      · simp only [h, if_false]
        rw [ih (n/10) (by omega) g (by omega)]

theorem natStr_lt {n : Nat} (h : n < 10) : natStr n = [digitChar n] := by
  simp [natStr, natStrAux, h]

theorem natStr_ge {n : Nat} (h : ¬ n < 10) : natStr n = natStr (n/10) ++ [digitChar (n % 10)] := by
  conv => lhs; unfold natStr
  rw [natStrAux]
  simp only [h, if_false]
  unfold natStr
  rw [natStrAux_fuel n (n/10) (by omega) (n/10+1) (by omega)]

/-- Induction principle following decimal notation. -/
theorem dec_induction {p : Nat → Prop} (h1 : ∀ n, n < 10 → p n)
    (h2 : ∀ n, ¬ n < 10 → p (n/10) → p n) : ∀ n, p n := by
  intro n
  induction n using Nat.strongRecOn with
  | ind n ih =>
    by_cases h : n < 10
    · exact h1 n h
    · exact h2 n h (ih _ (by omega))

theorem natStr_digits (n : Nat) : Digits (natStr n) := by
  induction n using dec_induction with
  | h1 n h =>
    rw [natStr_lt h]; intro c hc; simp only [List.mem_singleton] at hc; subst hc
    exact isDigit_digitChar n h
  | h2 n h ih =>
    rw [natStr_ge h]; intro c hc
    rcases List.mem_append.1 hc with hc | hc
    · exact ih c hc
    · simp only [List.mem_singleton] at hc; subst hc; exact isDigit_digitChar _ (by omega)

theorem natStr_ne_nil (n : Nat) : natStr n ≠ [] := by
  by_cases h : n < 10
  · rw [natStr_lt h]; simp
  · rw [natStr_ge h]; simp

theorem natStr_length_pos (n : Nat) : 0 < (natStr n).length :=
  List.length_pos_iff.2 (natStr_ne_nil n)

theorem strNat_natStr (n : Nat) : strNat (natStr n) = n := by
  induction n using dec_induction with
  | h1 n h => rw [natStr_lt h, strNat_singleton, digitVal_digitChar n h]
  | h2 n h ih =>
    rw [natStr_ge h, strNat_append, ih, strNat_singleton, digitVal_digitChar _ (by omega)]
    simp; omega

theorem natStr_inj {a b : Nat} (h : natStr a = natStr b) : a = b := by
  have := congrArg strNat h
  rwa [strNat_natStr, strNat_natStr] at this

theorem digitVal_zero : digitVal '0' = 0 := by decide

theorem natStr_head_ne_zero (n : Nat) (hn : 0 < n) : ∃ c cs, natStr n = c :: cs ∧ c ≠ '0' := by
  induction n using dec_induction with
  | h1 n h =>
    refine ⟨digitChar n, [], natStr_lt h, ?_⟩
    intro hc
    have := congrArg digitVal hc
    rw [digitVal_digitChar n h, digitVal_zero] at this
    omega
  | h2 n h ih =>
    obtain ⟨c, cs, h1, h2⟩ := ih (by omega)
    exact ⟨c, cs ++ [digitChar (n % 10)], by rw [natStr_ge h, h1]; rfl, h2⟩

theorem strNat_lt_pow (s : Str) (h : Digits s) : strNat s < 10 ^ s.length := by
  induction s with
  | nil => simp [strNat]
  | cons c cs ih =>
    rw [strNat_cons, List.length_cons, Nat.pow_succ]
    have h1 := digitVal_lt (h c (by simp))
    have h2 := ih (fun x hx => h x (by simp [hx]))
    have : digitVal c * 10 ^ cs.length ≤ 9 * 10 ^ cs.length := Nat.mul_le_mul_right _ (by omega)
    omega

theorem pow_le_strNat (c : Char) (cs : Str) (h : Digits (c :: cs)) (hc : c ≠ '0') :
    10 ^ cs.length ≤ strNat (c :: cs) := by
  rw [strNat_cons]
  have : 1 ≤ digitVal c := by
    rcases Nat.eq_zero_or_pos (digitVal c) with h0 | h0
    · exfalso; apply hc
      have := digitChar_digitVal (h c (by simp))
      rw [h0] at this
      rw [← this]; decide
    · exact h0
  have : 1 * 10 ^ cs.length ≤ digitVal c * 10 ^ cs.length := Nat.mul_le_mul_right _ this
  omega

/-- A digit string without superfluous leading zero is the numeral of its value. -/
theorem natStr_strNat (s : Str) (h : Digits s) (hne : s ≠ [])
    (hz : ∀ c cs, s = c :: cs → c = '0' → cs = []) : natStr (strNat s) = s := by
  -- reverse induction on the last digit
  obtain ⟨n, hn⟩ : ∃ n, s.length = n := ⟨_, rfl⟩
  induction n generalizing s with
  | zero => exact absurd (List.length_eq_zero_iff.1 hn) hne
  | succ n ih =>
    rcases List.eq_nil_or_concat s with h0 | ⟨t, c, rfl⟩
    · exact absurd h0 hne
    · rw [List.concat_eq_append] at *
      have hc : isDigit c = true := h c (by simp)
      by_cases ht : t = []
      · subst ht
        simp only [List.nil_append, strNat_singleton]
        rw [natStr_lt (digitVal_lt hc), digitChar_digitVal hc]
      · have htd : Digits t := fun x hx => h x (by simp [hx])
        have hlen : t.length = n := by simpa using hn
        obtain ⟨c0, cs0, rfl⟩ := List.exists_cons_of_ne_nil ht
        have hc0 : c0 ≠ '0' := by
          intro he
          have := hz c0 (cs0 ++ [c]) (by simp) he
          simp at this
        have ih' := ih (c0 :: cs0) htd ht (by intro a b hab ha; cases hab; exact absurd ha hc0) hlen
        have hpos : 1 ≤ strNat (c0 :: cs0) := by
          have := pow_le_strNat c0 cs0 htd hc0
          have h1 : 1 ≤ 10 ^ cs0.length := Nat.one_le_pow _ _ (by omega)
          omega
        have hval : strNat ((c0 :: cs0) ++ [c]) = strNat (c0 :: cs0) * 10 + digitVal c := by
          rw [strNat_append, strNat_singleton]; simp
        have hlt := digitVal_lt hc
        rw [hval, natStr_ge (by omega)]
        have e1 : (strNat (c0 :: cs0) * 10 + digitVal c) / 10 = strNat (c0 :: cs0) := by omega
        have e2 : (strNat (c0 :: cs0) * 10 + digitVal c) % 10 = digitVal c := by omega
        rw [e1, e2, ih', digitChar_digitVal hc]

theorem strNat_replicate_zero (k : Nat) (s : Str) : strNat (List.replicate k '0' ++ s) = strNat s := by
  induction k with
  | zero => simp
  | succ k ih => rw [List.replicate_succ, List.cons_append, strNat_cons, digitVal_zero, ih]; simp

theorem strNat_zfill (w : Nat) (s : Str) : strNat (zfill w s) = strNat s := strNat_replicate_zero _ _

theorem zfill_digits {w : Nat} {s : Str} (h : Digits s) : Digits (zfill w s) := by
  intro c hc
  rcases List.mem_append.1 hc with hc | hc
  · rw [List.eq_of_mem_replicate hc]; decide
  · exact h c hc

theorem zfill_length (w : Nat) (s : Str) : (zfill w s).length = max w s.length := by
  simp only [zfill, List.length_append, List.length_replicate]; omega

theorem natStr_length_le (n k : Nat) (hk : 0 < k) (h : n < 10 ^ k) : (natStr n).length ≤ k := by
  induction n using dec_induction generalizing k with
  | h1 n hn => rw [natStr_lt hn]; simp; omega
  | h2 n hn ih =>
    rw [natStr_ge hn, List.length_append, List.length_singleton]
    match k, hk, h with
    | 1, _, h => simp at h; omega
    | k + 2, _, h =>
      have : n / 10 < 10 ^ (k+1) := by
        rw [Nat.pow_succ] at h
        exact Nat.div_lt_of_lt_mul (by omega)
      have := ih (k+1) (by omega) this
      omega

/-! ### split / join -/

theorem splitC_ne_nil (c : Char) (s : Str) : splitC c s ≠ [] := by
  induction s with
  | nil => simp [splitC]
  | cons x xs ih =>
    simp only [splitC]
    split
    · simp
    · split <;> simp

theorem splitC_free (c : Char) (s : Str) : ∀ w ∈ splitC c s, c ∉ w := by
  induction s with
  | nil => simp [splitC]
  | cons x xs ih =>
    intro w hw
    simp only [splitC] at hw
    split at hw
    · rcases List.mem_cons.1 hw with h | h
      · subst h; simp
      · exact ih w h
    · rename_i hx
      split at hw
      · simp only [List.mem_singleton] at hw; subst hw
        simp; exact fun h => hx h.symm
      · rename_i v vs hv
        rcases List.mem_cons.1 hw with h | h
        · subst h
          intro hc
          rcases List.mem_cons.1 hc with h | h
          · exact hx h.symm
          · exact ih v (by rw [hv]; simp) h
        · exact ih w (by rw [hv]; simp [h])

theorem join_cons (sep : Str) (w : Str) (ws : List Str) (h : ws ≠ []) :
    join sep (w :: ws) = w ++ sep ++ join sep ws := by
  cases ws with
  | nil => contradiction
  | cons a as => rfl

theorem join_splitC (c : Char) (s : Str) : join [c] (splitC c s) = s := by
  induction s with
  | nil => rfl
  | cons x xs ih =>
    simp only [splitC]
    split
    · rename_i h; subst h
      rw [join_cons _ _ _ (splitC_ne_nil _ _), ih]; rfl
    · split
      · rename_i h; exact absurd h (splitC_ne_nil _ _)
      · rename_i v vs hv
        rw [hv] at ih
        cases vs with
        | nil => simp only [join] at ih ⊢; rw [ih]
        | cons a as =>
          rw [join_cons _ _ _ (by simp)] at ih ⊢
          rw [List.cons_append, List.cons_append, ih]

theorem splitC_append_free (c : Char) (w s : Str) (h : c ∉ w) :
    splitC c (w ++ s) = match splitC c s with | [] => [w] | v :: vs => (w ++ v) :: vs := by
  induction w with
  | nil =>
    have := splitC_ne_nil c s
    cases hs : splitC c s with
    | nil => contradiction
    | cons => simp [hs]
  | cons x xs ih =>
    have hx : x ≠ c := fun e => h (by simp [e])
    have := ih (fun hc => h (by simp [hc]))
    rw [List.cons_append, splitC]
    simp only [hx, if_false]
    rw [this]
    cases hs : splitC c s <;> simp

theorem splitC_join (c : Char) (ws : List Str) (hne : ws ≠ []) (h : ∀ w ∈ ws, c ∉ w) :
    splitC c (join [c] ws) = ws := by
  induction ws with
  | nil => contradiction
  | cons w ws ih =>
    cases ws with
    | nil =>
      have := splitC_append_free c w [] (h w (by simp))
      simpa [join, splitC] using this
    | cons v vs =>
      rw [join_cons _ _ _ (by simp), List.append_assoc, splitC_append_free _ _ _ (h w (by simp))]
      rw [List.singleton_append, splitC]
      simp only [if_true]
      rw [ih (by simp) (fun x hx => h x (by simp [hx]))]
      simp

/-! ### strip -/

theorem lstrip_eq_self {c : Char} {s : Str} (h : isSpace c = false) : lstrip (c :: s) = c :: s := by
  simp [lstrip, List.dropWhile, h]

theorem strip_eq_self (s : Str) (h1 : ∀ c ∈ s.head?, isSpace c = false)
    (h2 : ∀ c ∈ s.getLast?, isSpace c = false) : strip s = s := by
  have hl : lstrip s = s := by
    cases s with
    | nil => rfl
    | cons c cs => exact lstrip_eq_self (h1 c (by simp))
  unfold strip; rw [hl]; unfold rstrip
  cases hr : s.reverse with
  | nil => rw [List.reverse_eq_nil_iff] at hr; simp [hr]
  | cons c cs =>
    have : c ∈ s.getLast? := by
      rw [← List.head?_reverse, hr]; simp
    rw [List.dropWhile_cons, h2 c this]
    simp only [Bool.false_eq_true, if_false]
    rw [← hr, List.reverse_reverse]

/-- No blanks at all. -/
def NoSpace (s : Str) : Prop := ∀ c ∈ s, isSpace c = false

instance (s : Str) : Decidable (NoSpace s) := by unfold NoSpace; infer_instance

theorem strip_noSpace (s : Str) (h : NoSpace s) : strip s = s :=
  strip_eq_self s (fun c hc => h c (List.mem_of_mem_head? hc))
    (fun c hc => h c (List.mem_of_mem_getLast? hc))

theorem strip_space_cons (s : Str) : strip (' ' :: s) = strip s := by
  simp [strip, lstrip, List.dropWhile, isSpace]

theorem Digits.noSpace {s : Str} (h : Digits s) : NoSpace s :=
  fun c hc => isDigit_not_space (h c hc)

end Py
