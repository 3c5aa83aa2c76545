import Verif.Ptrac.LineLemmas
/-! Helper lemmas: the `W.Pa` format of reals. -/
namespace Ptrac
open Py Types

theorem natStr_length_ge (n k : Nat) (h : 10 ^ k ≤ n) : k + 1 ≤ (natStr n).length := by
  have h1 := strNat_lt_pow _ (natStr_digits n)
  rw [strNat_natStr] at h1
  have : k < (natStr n).length := (Nat.pow_lt_pow_iff_right (by decide : 1 < 10)).1 (by omega)
  omega

/-- Cutting the digits of a number. -/
theorem strNat_take (n s : Nat) : strNat ((natStr n).take s) = n / 10 ^ ((natStr n).length - s) := by
  have h := strNat_append ((natStr n).take s) ((natStr n).drop s)
  rw [List.take_append_drop, strNat_natStr, List.length_drop] at h
  have hlt := strNat_lt_pow ((natStr n).drop s) (fun c hc => natStr_digits n c (List.mem_of_mem_drop hc))
  rw [List.length_drop] at hlt
  have e : (strNat ((natStr n).take s) * 10 ^ ((natStr n).length - s) + strNat ((natStr n).drop s)) /
      10 ^ ((natStr n).length - s) = strNat ((natStr n).take s) := by
    rw [Nat.mul_comm, Nat.mul_add_div (Nat.pow_pos (by decide)), Nat.div_eq_of_lt hlt, Nat.add_zero]
  rw [← h] at e
  exact e.symm

/-- The value read back. -/
def printed (w p : Nat) (d : Dec) : Dec :=
  if d.coeff = 0 then ⟨d.neg, 0, -w⟩
  else
    let k := (natStr d.coeff).length - (w - p + 1)
    ⟨d.neg, d.coeff / 10 ^ k, d.exp + k⟩

/-- Blanks before and the sign. -/
def sgOf (neg : Bool) : Sg := if neg then .minus else .none
def blankOf (neg : Bool) : Str := if neg then [] else [' ']

theorem expFmt_eq (e : Int) : expFmt e = sgnChar (decide (e < 0)) :: zfill 2 (natStr e.natAbs) := by
  unfold expFmt sgnChar
  by_cases h : e < 0 <;> simp [h]

theorem expVal_fmt (e : Int) : expVal (decide (e < 0)) (zfill 2 (natStr e.natAbs)) = e := by
  unfold expVal
  rw [strNat_zfill, strNat_natStr]
  by_cases h : e < 0
  · simp [h]; omega
  · simp [h]; omega

theorem expOk_fmt (e : Int) : ExpOk (zfill 2 (natStr e.natAbs)) where
  hd := by
    intro c hc
    rcases List.mem_append.1 hc with hc | hc
    · rw [List.eq_of_mem_replicate hc]; decide
    · exact natStr_digits _ c hc
  hne := by
    intro e0
    exact natStr_ne_nil _ (List.append_eq_nil_iff.1 e0).2

/-- The shape of a formatted number. -/
theorem realFmt_shape (w p : Nat) (d : Dec) :
    ∃ ip fp n ds, MantOk ip (some fp) ∧ ExpOk ds ∧
      realFmt w p (.num (.fin d)) =
        .ok (blankOf d.neg ++ (mantText (sgOf d.neg) ip (some fp) ++ 'E' :: sgnChar n :: ds)) ∧
      mantDec (sgOf d.neg) ip (some fp) (expVal n ds) = printed w p d ∧
      ip.length = 1 ∧
      (d.coeff = 0 → fp.length = w ∧ ds.length = 2) ∧
      (d.coeff ≠ 0 → fp.length + 1 = p + min (w - p + 1) (natStr d.coeff).length ∧
        ds = zfill 2 (natStr (d.adjusted + p).natAbs)) := by
  by_cases h0 : d.coeff = 0
  · refine ⟨['0'], List.replicate w '0', false, c!"00", ⟨by decide, ?_, .inl (by simp)⟩, ⟨by decide, by simp⟩, ?_, ?_, rfl, ?_, ?_⟩
    · intro c hc
      have := List.eq_of_mem_replicate hc
      rw [this]; decide
    · have : (natStr d.coeff).take (w - p + 1) = ['0'] := by
        rw [h0, show natStr 0 = ['0'] from rfl, List.take_succ_cons, List.take_nil]
      show (if (natStr d.coeff).take (w - p + 1) = ['0'] then
        Except.ok ((if d.neg then '-' else ' ') :: '0' :: '.' :: (List.replicate w '0' ++ c!"E+00")) else _) = _
      rw [if_pos this]
      cases d.neg <;> rfl
    · unfold printed
      rw [if_pos h0]
      simp only [mantDec, fracDigits, List.length_replicate]
      have : strNat (['0'] ++ List.replicate w '0') = 0 := by
        have := strNat_replicate_zero (w + 1) []
        simpa [List.replicate_succ, strNat] using this
      rw [this]
      cases d.neg <;> simp [sgOf, Sg.neg, expVal, strNat, digitVal]
    · intro _; simp
    · intro h; exact absurd h0 h
  · have hD : (natStr d.coeff).take (w - p + 1) ≠ ['0'] := by
      obtain ⟨c, cs, e, hc⟩ := natStr_head_ne_zero d.coeff (by omega)
      rw [e, List.take_succ_cons]
      intro h
      exact hc (List.cons.inj h).1
    have hDn : (natStr d.coeff).take (w - p + 1) ≠ [] := by
      obtain ⟨c, cs, e, hc⟩ := natStr_head_ne_zero d.coeff (by omega)
      rw [e, List.take_succ_cons]; simp
    have hdig : Digits (List.replicate p '0' ++ (natStr d.coeff).take (w - p + 1)) := by
      intro c hc
      rcases List.mem_append.1 hc with hc | hc
      · rw [List.eq_of_mem_replicate hc]; decide
      · exact natStr_digits _ c (List.mem_of_mem_take hc)
    have hlen : (List.replicate p '0' ++ (natStr d.coeff).take (w - p + 1)).length =
        p + min (w - p + 1) (natStr d.coeff).length := by simp
    have hpos : 0 < (List.replicate p '0' ++ (natStr d.coeff).take (w - p + 1)).length := by
      rw [hlen]
      have := natStr_length_pos d.coeff
      omega
    have hval : strNat (List.replicate p '0' ++ (natStr d.coeff).take (w - p + 1)) =
        d.coeff / 10 ^ ((natStr d.coeff).length - (w - p + 1)) := by
      rw [strNat_replicate_zero, strNat_take]
    have hfmt : realFmt w p (.num (.fin d)) = .ok ((if d.neg then '-' else ' ') ::
        ((List.replicate p '0' ++ (natStr d.coeff).take (w - p + 1)).take 1 ++ '.' ::
          ((List.replicate p '0' ++ (natStr d.coeff).take (w - p + 1)).drop 1 ++ 'E' :: expFmt (d.adjusted + p)))) := by
      show (if (natStr d.coeff).take (w - p + 1) = ['0'] then _ else _) = _
      rw [if_neg hD]; rfl
    generalize List.replicate p '0' ++ (natStr d.coeff).take (w - p + 1) = D at hdig hlen hpos hval hfmt
    refine ⟨D.take 1, D.drop 1, decide (d.adjusted + p < 0), zfill 2 (natStr (d.adjusted + p).natAbs),
      ⟨fun c hc => hdig c (List.mem_of_mem_take hc), fun c hc => hdig c (List.mem_of_mem_drop hc), .inl ?_⟩,
      expOk_fmt _, ?_, ?_, ?_, fun h => absurd h h0, fun _ => ⟨?_, rfl⟩⟩
    · intro h
      have := congrArg List.length h
      simp only [List.length_take, List.length_nil] at this
      omega
    · rw [hfmt, expFmt_eq]
      cases d.neg <;> simp [blankOf, sgOf, mantText, Sg.text, fracText]
    · unfold printed
      rw [if_neg h0]
      simp only [mantDec, fracDigits, List.take_append_drop, hval, expVal_fmt, List.length_drop, hlen]
      have : d.adjusted + (p : Int) - ((p + min (w - p + 1) (natStr d.coeff).length - 1 : Nat) : Int) =
          d.exp + (((natStr d.coeff).length - (w - p + 1) : Nat) : Int) := by
        have := natStr_length_pos d.coeff
        unfold Dec.adjusted
        omega
      rw [this]
      cases d.neg <;> rfl
    · simp only [List.length_take]; omega
    · simp only [List.length_drop]; omega

/-- A formatted number is read back, cut to its printed digits, whatever blanks precede it. -/
theorem realFmt_read (w p k : Nat) (d : Dec) :
    ∃ t, realFmt w p (.num (.fin d)) = .ok t ∧ '\n' ∉ t ∧
      realParse (List.replicate k ' ' ++ t) = .ok (.num (.fin (printed w p d))) := by
  obtain ⟨ip, fp, n, ds, hm, he, hf, hv, -⟩ := realFmt_shape w p d
  refine ⟨_, hf, ?_, ?_⟩
  · intro hc
    rcases List.mem_append.1 hc with hc | hc
    · cases hd : d.neg <;> rw [hd] at hc <;> simp [blankOf] at hc
    · exact (plain_sci (sgOf d.neg) ip (some fp) 'E' n ds hm (.inr rfl) he).nl hc
  · have hp := plain_sci (sgOf d.neg) ip (some fp) 'E' n ds hm (.inr rfl) he
    have hr := realParse_sci (sgOf d.neg) ip (some fp) 'E' n ds hm (.inr rfl) he
    rw [hv] at hr
    have : ∃ j, List.replicate k ' ' ++ (blankOf d.neg ++ (mantText (sgOf d.neg) ip (some fp) ++ 'E' :: sgnChar n :: ds)) =
        List.replicate j ' ' ++ (mantText (sgOf d.neg) ip (some fp) ++ 'E' :: sgnChar n :: ds) := by
      cases d.neg with
      | true => exact ⟨k, by simp [blankOf]⟩
      | false => exact ⟨k + 1, by simp [blankOf, List.replicate_succ']⟩
    obtain ⟨j, e⟩ := this
    rw [e, realParse_pad j _ hp.ch hp.chain hp.head, hr]

theorem zfill2_length (n : Nat) (h : n < 100) : (zfill 2 (natStr n)).length = 2 := by
  have := natStr_length_le n 2 (by decide) h
  have := natStr_length_pos n
  simp [zfill]; omega

/-- The printed width. -/
theorem realFmt_length (w p : Nat) (d : Dec) (hp : p ≤ w)
    (h : d.coeff = 0 ∨ (w - p + 1 ≤ (natStr d.coeff).length ∧ (d.adjusted + p).natAbs < 100)) (t : Str)
    (ht : realFmt w p (.num (.fin d)) = .ok t) : t.length = w + 7 := by
  obtain ⟨ip, fp, n, ds, hm, he, hf, -, h1, h2, h3⟩ := realFmt_shape w p d
  rw [hf] at ht
  cases ht
  have hl : fp.length = w ∧ ds.length = 2 := by
    by_cases h0 : d.coeff = 0
    · exact h2 h0
    · obtain ⟨a, b⟩ := h3 h0
      rcases h with h | ⟨h, h'⟩
      · exact absurd h h0
      · refine ⟨by omega, ?_⟩
        rw [b]; exact zfill2_length _ h'
  have hs : (blankOf d.neg).length + (sgOf d.neg).text.length = 1 := by cases d.neg <;> rfl
  simp only [List.length_append, mantText, fracText, List.length_cons]
  omega

end Ptrac
