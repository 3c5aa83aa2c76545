import Verif.Types.NumberLemmas
/-!
# Number properties: C01 – C06
-/
namespace Props
open Py Types

/-! ## C01 – reals survive print and parse -/

/-- For every finite decimal, `Real.from_mcnp(Real(d).to_mcnp())` is `d`: same
sign, digits and exponent. -/
theorem C01_real_roundtrip (d : Dec) :
    realParse (RealVal.num (.fin d)).str = .ok (.num (.fin d)) := by
  show realParse d.str = _
  rcases Dec.str_shape d with ⟨g, ip, fp, h, hs, hv⟩ | ⟨g, ip, fp, n, ds, h, he, hs, hv⟩
  · rw [hs, realParse_plain g ip fp h, hv]
  · rw [hs, realParse_sci g ip fp 'E' n ds h (.inr rfl) he, hv]

/-- The printed texts cover plain, leading-zero and scientific notation. -/
example : Dec.str ⟨true, 15, -1⟩ = "-1.5".toList ∧ Dec.str ⟨false, 1, -6⟩ = "0.000001".toList ∧
    Dec.str ⟨false, 125, -9⟩ = "1.25E-7".toList := by decide

/-! ## C02 – integers survive print and parse -/

theorem C02_integer_roundtrip (n : Int) : intParse (IntVal.num n).str = .ok (.num n) := by
  have hm : ∀ k, MantOk (natStr k) none := fun k =>
    ⟨natStr_digits k, (by intro c hc; cases hc), .inl (natStr_ne_nil k)⟩
  show intParse (intStr n) = _
  cases n with
  | ofNat k =>
    have := intParse_plain .none (natStr k) none (hm k)
    simp only [mantText, Sg.text, fracText, List.nil_append, List.append_nil] at this
    show intParse (natStr k) = _
    rw [this]
    simp [mantDec, Dec.trunc, fracDigits, Sg.neg, strNat_natStr]
  | negSucc k =>
    have := intParse_plain .minus (natStr (k + 1)) none (hm (k + 1))
    simp only [mantText, Sg.text, fracText, List.append_nil, List.singleton_append] at this
    show intParse ('-' :: natStr (k + 1)) = _
    rw [this]
    simp [mantDec, Dec.trunc, fracDigits, Sg.neg, strNat_natStr]
    omega

example : (IntVal.num (-204)).str = "-204".toList := by decide

/-! ## C03 – integer parsing and the written number -/

/-- A text `sign ip [. fp] letter sign ds` denotes the whole number `z`:
`± digits · 10^e = z · 10^|fp|` with both exponents moved to the positive side. -/
def Denotes (g : Sg) (ip : Str) (fp : Option Str) (e : Int) (z : Int) : Prop :=
  let x : Int := e - (fracDigits fp).length
  (if g = .minus then -(strNat (ip ++ fracDigits fp) : Int) else strNat (ip ++ fracDigits fp))
      * 10 ^ x.toNat = z * 10 ^ (-x).toNat

theorem trunc_denotes (g ip fp e z) (h : Denotes g ip fp e z) : (mantDec g ip fp e).trunc = z := by
  unfold Denotes at h
  simp only at h
  unfold mantDec Dec.trunc
  simp only
  generalize strNat (ip ++ fracDigits fp) = c at *
  generalize e - ((fracDigits fp).length : Int) = x at *
  have hp : (0 : Int) < 10 ^ (-x).toNat := Int.pow_pos (by omega)
  by_cases hx : 0 ≤ x
  · have h0 : (-x).toNat = 0 := by omega
    rw [h0] at h
    simp only [Int.pow_zero, Int.mul_one] at h
    rw [← h]
    cases g <;> simp [hx, Sg.neg, Int.natCast_mul, Int.neg_mul]
  · have h0 : x.toNat = 0 := by omega
    rw [h0] at h
    simp only [Int.pow_zero, Int.mul_one] at h
    simp only [hx, if_false]
    have hcast : ((c / 10 ^ (-x).toNat : Nat) : Int) = (c : Int) / 10 ^ (-x).toNat := by
      simp [Int.natCast_ediv]
    rw [hcast]
    have : g.neg = decide (g = .minus) := by cases g <;> rfl
    rw [this]
    by_cases hg : g = .minus
    · simp only [hg, if_true, decide_true] at h ⊢
      have : (c : Int) = (-z) * 10 ^ (-x).toNat := by rw [Int.neg_mul, ← h]; simp
      rw [this, Int.mul_ediv_cancel _ (by omega)]; simp
    · simp only [hg, if_false, decide_false, Bool.false_eq_true] at h ⊢
      rw [h, Int.mul_ediv_cancel _ (by omega)]

/-- Whole-number texts, in every exponent spelling, are read as the number they
denote. Missing: texts of numbers that are not whole, which are cut off (`C03_violated`). -/
theorem C03_integer_exact_partial (sp : ExpSpelling) (g ip fp n ds z) (h : MantOk ip fp) (he : ExpOk ds)
    (hz : Denotes g ip fp (expVal n ds) z) :
    intParse (mantText g ip fp ++ sp.text ++ sgnChar n :: ds) = .ok (.num z) := by
  rw [intParse_spelling sp g ip fp n ds h he, trunc_denotes g ip fp _ z hz]

/-- Whole-number texts without exponent are read as the number they denote. Missing: as in `C03_integer_exact_partial`. -/
theorem C03_integer_exact_plain_partial (g ip fp z) (h : MantOk ip fp) (hz : Denotes g ip fp 0 z) :
    intParse (mantText g ip fp) = .ok (.num z) := by
  rw [intParse_plain g ip fp h, trunc_denotes g ip fp _ z hz]

/-- `12.50e+1` is 125. -/
example : MantOk "12".toList (some "50".toList) ∧ ExpOk "1".toList ∧
    Denotes .none "12".toList (some "50".toList) (expVal false "1".toList) 125 ∧
    mantText .none "12".toList (some "50".toList) ++ ExpSpelling.e.text ++ sgnChar false :: "1".toList
      = "12.50e+1".toList := by
  refine ⟨⟨?_, ?_, ?_⟩, ⟨?_, ?_⟩, ?_, ?_⟩
  · intro c hc; simp at hc; rcases hc with rfl | rfl <;> decide
  · intro c hc; simp [fracDigits] at hc; rcases hc with rfl | rfl <;> decide
  · left; decide
  · intro c hc; simp at hc; subst hc; decide
  · decide
  · unfold Denotes; decide
  · decide

/-- The full claim is false: a fractional text is truncated, not rejected. -/
theorem C03_violated : intParse "1.5".toList = .ok (.num 1) ∧ intParse "-0.9".toList = .ok (.num 0) := by
  decide +kernel

/-! ## C04 – exponent spellings -/

/-- All spellings of a signed exponent (`e`, `E`, `d`, `D`, none) give the same
real, namely digits · 10^(exponent − fraction length). -/
theorem C04_exponent_spellings (sp : ExpSpelling) (g ip fp n ds) (h : MantOk ip fp) (he : ExpOk ds) :
    realParse (mantText g ip fp ++ sp.text ++ sgnChar n :: ds) =
      .ok (.num (.fin ⟨decide (g = .minus), strNat (ip ++ fracDigits fp),
        (if n then -(strNat ds : Int) else strNat ds) - (fracDigits fp).length⟩)) := by
  rw [realParse_spelling sp g ip fp n ds h he]
  cases g <;> rfl

/-- `-1.5d-3`, `-1.5-3` and `-1.5E-3`. -/
example : MantOk "1".toList (some "5".toList) ∧ ExpOk "3".toList ∧
    mantText .minus "1".toList (some "5".toList) ++ ExpSpelling.bare.text ++ sgnChar true :: "3".toList
      = "-1.5-3".toList := by
  refine ⟨⟨?_, ?_, ?_⟩, ⟨?_, ?_⟩, ?_⟩
  · intro c hc; simp at hc; subst hc; decide
  · intro c hc; simp [fracDigits] at hc; subst hc; decide
  · left; decide
  · intro c hc; simp at hc; subst hc; decide
  · decide
  · decide

/-! ## C06 – shorthands -/

/-- Shorthands whose count is printed: no zero count for R, I, LOG; positive factor for M. -/
def Printable : Horiz → Prop
  | .rep n => ∀ k, n = some k → 0 < k
  | .ins n => ∀ k, n = some k → 0 < k
  | .log n => ∀ k, n = some k → 0 < k
  | .mul x => 0 < x
  | .jump n => ∀ k, n = some k → 0 ≤ k

/-- Count text of a printable count. -/
theorem orEmpty_pos (n : Option Int) (h : ∀ k, n = some k → 0 < k) :
    Digits (orEmpty n) ∧ (if orEmpty n = [] then none else some (strNat (orEmpty n) : Int)) = n := by
  cases n with
  | none => exact ⟨(by intro c hc; cases hc), rfl⟩
  | some k =>
    have hk := h k rfl
    have h0 : k ≠ 0 := by omega
    have e : orEmpty (some k) = natStr k.natAbs := by
      simp only [orEmpty, h0, if_false]
      cases k with
      | ofNat m => rfl
      | negSucc m => omega
    rw [e]
    refine ⟨natStr_digits _, ?_⟩
    rw [if_neg (natStr_ne_nil _), strNat_natStr]
    congr 1; omega

theorem jumpText (n : Option Int) (h : ∀ k, n = some k → 0 ≤ k) :
    ∃ ds, (Horiz.jump n).str = ds ++ ['j'] ∧ Digits ds ∧
      (if ds = [] then none else some (strNat ds : Int)) = n := by
  cases n with
  | none => exact ⟨[], rfl, (by intro c hc; cases hc), rfl⟩
  | some k =>
    have hk := h k rfl
    cases k with
    | negSucc m => omega
    | ofNat m =>
      refine ⟨natStr m, rfl, natStr_digits _, ?_⟩
      rw [if_neg (natStr_ne_nil _), strNat_natStr]; rfl

theorem countOk_of (n : Option Int) (h : ∀ k, n = some k → 0 ≤ k) : countOk n = true := by
  cases n with
  | none => rfl
  | some k => simpa [countOk] using h k rfl

/-- Printing and parsing a printable shorthand gives it back, through the
`Integer`/`Real` parsers. Missing: counts of zero, `ilog` and negative factors, for which the claim is false
(`C06_violated`). -/
theorem C06_shorthand_roundtrip_partial (h : Horiz) (hp : Printable h) :
    horizParse h.str = .ok h ∧ intParse (IntVal.hor h).str = .ok (.hor h) ∧
      realParse (RealVal.hor h).str = .ok (.hor h) := by
  have key : horizParse h.str = .ok h := by
    cases h with
    | rep n =>
      obtain ⟨hd, hv⟩ := orEmpty_pos n hp
      obtain ⟨m, hm, hc⟩ := chrI_count 'r' (orEmpty n) hd (by decide)
      show horizParse (orEmpty n ++ ['r']) = _
      have hok := countOk_of n (fun k hk => Int.le_of_lt (hp k hk))
      simp [horizParse, repParse, hm, hc, hv, mkRep, hok, orTypes]
    | ins n =>
      obtain ⟨hd, hv⟩ := orEmpty_pos n hp
      obtain ⟨m, hm, hc⟩ := chrI_count 'i' (orEmpty n) hd (by decide)
      show horizParse (orEmpty n ++ ['i']) = _
      have hok := countOk_of n (fun k hk => Int.le_of_lt (hp k hk))
      have h1 := chrI_none 'r' 'i' (orEmpty n) (by decide)
      simp [horizParse, repParse, insParse, h1, hm, hc, hv, mkIns, hok, orTypes]
    | mul x =>
      cases x with
      | negSucc k => simp only [Printable] at hp; omega
      | ofNat k =>
        show horizParse (natStr k ++ ['m']) = _
        obtain ⟨m, hm, hc⟩ := mulRe_count (natStr k) (natStr_digits k) (natStr_ne_nil k)
        have h1 := chrI_none 'r' 'm' (natStr k) (by decide)
        have h2 := chrI_none 'i' 'm' (natStr k) (by decide)
        have hk : k ≠ 0 := by simp only [Printable, Int.ofNat_eq_natCast] at hp; omega
        simp [horizParse, repParse, insParse, mulParse, h1, h2, hm, hc, strNat_natStr, mkMul, hk, orTypes]
    | jump n =>
      obtain ⟨ds, e, hd, hv⟩ := jumpText n hp
      obtain ⟨m, hm, hc⟩ := chrI_count 'j' ds hd (by decide)
      rw [e]
      have hok := countOk_of n hp
      have h1 := chrI_none 'r' 'j' ds (by decide)
      have h2 := chrI_none 'i' 'j' ds (by decide)
      have h3 := mulRe_none 'j' ds (by decide)
      simp [horizParse, repParse, insParse, mulParse, jumpParse, h1, h2, h3, hm, hc, hv, mkJump, hok, orTypes]
    | log n =>
      obtain ⟨hd, hv⟩ := orEmpty_pos n hp
      obtain ⟨m, hm, hc⟩ := logRe_count (orEmpty n) hd
      have e : (Horiz.log n).str = (orEmpty n ++ ['l', 'o']) ++ ['g'] := by simp [Horiz.str]
      have e' : orEmpty n ++ "log".toList = (orEmpty n ++ ['l', 'o']) ++ ['g'] := by simp
      rw [e'] at hm
      rw [e]
      have hok := countOk_of n (fun k hk => Int.le_of_lt (hp k hk))
      have h1 := chrI_none 'r' 'g' (orEmpty n ++ ['l', 'o']) (by decide)
      have h2 := chrI_none 'i' 'g' (orEmpty n ++ ['l', 'o']) (by decide)
      have h3 := mulRe_none 'g' (orEmpty n ++ ['l', 'o']) (by decide)
      have h4 := chrI_none 'j' 'g' (orEmpty n ++ ['l', 'o']) (by decide)
      simp only [horizParse, repParse, insParse, mulParse, jumpParse, logParse, h1, h2, h3, h4, hm, hc, hv, mkLog, hok, orTypes, if_true]
  refine ⟨key, ?_, ?_⟩
  · show intParse h.str = _
    unfold intParse; rw [key]
  · show realParse h.str = _
    unfold realParse; rw [key]

example : Printable (.rep (some 12)) ∧ (Horiz.rep (some 12)).str = "12r".toList ∧
    Printable (.log none) ∧ (Horiz.log none).str = "log".toList := by
  refine ⟨?_, by decide, ?_, by decide⟩
  · intro k hk; cases hk; decide
  · intro k hk; cases hk

/-- The full claim is false: a zero count (accepted by the constructors) is not
printed, `ILOG` becomes `LOG`, and a negative factor does not parse at all. -/
theorem C06_violated :
    (mkRep (some 0) = .ok (.rep (some 0)) ∧ horizParse (Horiz.rep (some 0)).str = .ok (.rep none)) ∧
    (horizParse "3ilog".toList = .ok (.log (some 3)) ∧ (Horiz.log (some 3)).str = "3log".toList) ∧
    (mkMul (-2) = .ok (.mul (-2)) ∧ horizParse (Horiz.mul (-2)).str = .error .types) := by
  decide +kernel


/-- Shorthands obtainable from text. -/
theorem horizParse_range (s : Str) (h : Horiz) (hs : horizParse s = .ok h) :
    match h with
    | .rep n => countOk n = true
    | .ins n => countOk n = true
    | .jump n => countOk n = true
    | .log n => countOk n = true
    | .mul x => 0 < x := by
  have hcount : ∀ r, (repParse s = .ok r → ∃ n, r = .rep n ∧ countOk n = true) ∧
      (insParse s = .ok r → ∃ n, r = .ins n ∧ countOk n = true) ∧
      (mulParse s = .ok r → ∃ x, r = .mul x ∧ 0 < x) ∧
      (jumpParse s = .ok r → ∃ n, r = .jump n ∧ countOk n = true) ∧
      (logParse s = .ok r → ∃ n, r = .log n ∧ countOk n = true) := by
    intro r
    refine ⟨?_, ?_, ?_, ?_, ?_⟩ <;> intro h
    · unfold repParse mkRep at h
      split at h
      · cases h
      · split at h
        · cases h; exact ⟨_, rfl, by assumption⟩
        · cases h
    · unfold insParse mkIns at h
      split at h
      · cases h
      · split at h
        · cases h; exact ⟨_, rfl, by assumption⟩
        · cases h
    · unfold mulParse mkMul at h
      split at h
      · cases h
      · split at h
        · split at h
          · cases h
          · rename_i hx; cases h; exact ⟨_, rfl, by omega⟩
        · cases h
    · unfold jumpParse mkJump at h
      split at h
      · cases h
      · split at h
        · cases h; exact ⟨_, rfl, by assumption⟩
        · cases h
    · unfold logParse mkLog at h
      split at h
      · cases h
      · split at h
        · cases h; exact ⟨_, rfl, by assumption⟩
        · cases h
  have hor : ∀ (a : Res Horiz) (b : Unit → Res Horiz) r, orTypes a b = .ok r → a = .ok r ∨ b () = .ok r := by
    intro a b r h
    unfold orTypes at h
    split at h
    · exact .inr h
    · exact .inl h
  have hc := hcount h
  unfold horizParse at hs
  rcases hor _ _ _ hs with hs | hs
  · obtain ⟨n, rfl, h⟩ := hc.1 hs; exact h
  rcases hor _ _ _ hs with hs | hs
  · obtain ⟨n, rfl, h⟩ := hc.2.1 hs; exact h
  rcases hor _ _ _ hs with hs | hs
  · obtain ⟨n, rfl, h⟩ := hc.2.2.1 hs; exact h
  rcases hor _ _ _ hs with hs | hs
  · obtain ⟨n, rfl, h⟩ := hc.2.2.2.1 hs; exact h
  · obtain ⟨n, rfl, h⟩ := hc.2.2.2.2 hs; exact h

/-- A count that is not printed. -/
def dropZero : Option Int → Option Int
  | some 0 => none
  | n => n

theorem orEmpty_dropZero (n) : orEmpty (dropZero n) = orEmpty n := by
  unfold dropZero
  split <;> rfl

theorem dropZero_pos (n : Option Int) (h : countOk n = true) : ∀ k, dropZero n = some k → 0 < k := by
  intro k hk
  unfold dropZero at hk
  split at hk
  · cases hk
  · rename_i hn
    subst hk
    have : k ≠ 0 := fun e => hn (by rw [e])
    simp [countOk] at h
    omega

/-- For every text accepted as a shorthand, printing it gives a text that is
accepted again and prints the same: one print reaches a fixed point. -/
theorem C06_shorthand_stable (s : Str) (h : Horiz) (hs : horizParse s = .ok h) :
    ∃ h', horizParse h.str = .ok h' ∧ h'.str = h.str := by
  have hr := horizParse_range s h hs
  cases h with
  | rep n =>
    refine ⟨.rep (dropZero n), ?_, ?_⟩
    · have := (C06_shorthand_roundtrip_partial (.rep (dropZero n)) (dropZero_pos n hr)).1
      simpa [Horiz.str, orEmpty_dropZero] using this
    · simp [Horiz.str, orEmpty_dropZero]
  | ins n =>
    refine ⟨.ins (dropZero n), ?_, ?_⟩
    · have := (C06_shorthand_roundtrip_partial (.ins (dropZero n)) (dropZero_pos n hr)).1
      simpa [Horiz.str, orEmpty_dropZero] using this
    · simp [Horiz.str, orEmpty_dropZero]
  | mul x => exact ⟨_, (C06_shorthand_roundtrip_partial (.mul x) hr).1, rfl⟩
  | jump n =>
    refine ⟨_, (C06_shorthand_roundtrip_partial (.jump n) ?_).1, rfl⟩
    intro k hk; subst hk; simpa [countOk] using hr
  | log n =>
    refine ⟨.log (dropZero n), ?_, ?_⟩
    · have := (C06_shorthand_roundtrip_partial (.log (dropZero n)) (dropZero_pos n hr)).1
      simpa [Horiz.str, orEmpty_dropZero] using this
    · simp [Horiz.str, orEmpty_dropZero]

example : horizParse "0007R".toList = .ok (.rep (some 7)) := by decide +kernel

/-! ## C05 – errors -/

theorem mulRe_cap (s : Str) (m) (h : reMatch mulRe s = some m) : ∃ ds, cap m 1 = some ds := by
  obtain ⟨st', hs, rfl⟩ := reMatch_some h
  unfold mulRe at hs
  rw [step_seq] at hs
  obtain ⟨m1, h1, hs⟩ := hs
  obtain ⟨rfl, _⟩ := step_bos.1 h1
  rw [step_seq] at hs
  obtain ⟨m2, h2, hs⟩ := hs
  obtain ⟨m3, h3, rfl⟩ := step_grp.1 h2
  rw [step_seq] at hs
  obtain ⟨m4, h4, hs⟩ := hs
  obtain ⟨rfl, he⟩ := step_eos.1 hs
  unfold Re.chrI at h4
  obtain ⟨c, cs, _, _, rfl⟩ := step_cls.1 h4
  rw [lookup_tl _ _ (by omega)]
  exact ⟨_, lookup_hd _ _ _⟩

theorem horizParse_err (s : Str) (e : Err) (h : horizParse s = .error e) : e = .types := by
  have h1 : ∀ e, repParse s = .error e → e = .types := by
    intro e h; unfold repParse mkRep at h; split at h
    · cases h; rfl
    · split at h <;> cases h; rfl
  have h2 : ∀ e, insParse s = .error e → e = .types := by
    intro e h; unfold insParse mkIns at h; split at h
    · cases h; rfl
    · split at h <;> cases h; rfl
  have h3 : ∀ e, mulParse s = .error e → e = .types := by
    intro e h; unfold mulParse mkMul at h; split at h
    · cases h; rfl
    · rename_i m hm
      obtain ⟨ds, hds⟩ := mulRe_cap s m hm
      rw [hds] at h
      simp only at h
      split at h <;> cases h; rfl
  have h4 : ∀ e, jumpParse s = .error e → e = .types := by
    intro e h; unfold jumpParse mkJump at h; split at h
    · cases h; rfl
    · split at h <;> cases h; rfl
  have h5 : ∀ e, logParse s = .error e → e = .types := by
    intro e h; unfold logParse mkLog at h; split at h
    · cases h; rfl
    · split at h <;> cases h; rfl
  have hor : ∀ (a : Res Horiz) (b : Unit → Res Horiz) e, orTypes a b = .error e →
      a = .error e ∨ b () = .error e := by
    intro a b r h
    unfold orTypes at h
    split at h
    · exact .inr h
    · exact .inl h
  unfold horizParse at h
  rcases hor _ _ _ h with h | h
  · exact h1 _ h
  rcases hor _ _ _ h with h | h
  · exact h2 _ h
  rcases hor _ _ _ h with h | h
  · exact h3 _ h
  rcases hor _ _ _ h with h | h
  · exact h4 _ h
  · exact h5 _ h

theorem reSub_ne_nil (r f) (s : Str) (hf : ∀ t c, f t c ≠ []) (hs : s ≠ []) : reSub r f s ≠ [] := by
  cases s with
  | nil => exact absurd rfl hs
  | cons c cs =>
    unfold reSub
    rw [List.length_cons, finditerAux]
    split
    · simp only [List.flatMap_cons]
      intro e; exact hf _ _ (List.append_eq_nil_iff.1 e).1
    · simp

theorem numText_ok (s : Str) (hs : s ≠ []) : ∃ t, numText s = .ok t := by
  have h1 := reSub_ne_nil bareExpRe bareExpRepl s (by intro t c; simp [bareExpRepl]) hs
  have h2 := reSub_ne_nil (.cls (fun c => c == 'd' || c == 'D')) (fun _ _ => ['e']) _ (by simp) h1
  unfold numText
  simp only
  split
  · rename_i h; exact absurd h h2
  · exact ⟨_, rfl⟩

/-- For every non-empty text `Real.from_mcnp` returns a value or raises `TypesError`. Missing: the empty text, for which the
claim is false (`C05_violated`). -/
theorem C05_real_errors_partial (s : Str) (hs : s ≠ []) :
    (∃ v, realParse s = .ok v) ∨ realParse s = .error .types := by
  unfold realParse
  obtain ⟨t, ht⟩ := numText_ok s hs
  split
  · exact .inl ⟨_, rfl⟩
  · rw [ht]
    simp only
    split
    · exact .inr rfl
    · exact .inl ⟨_, rfl⟩
  · rename_i e he h
    have := horizParse_err s e h
    exact absurd (this ▸ h) (fun _ => he this)

/-- For every non-empty text `Integer.from_mcnp` returns a value, raises
`TypesError`, or the text is an infinity or not-a-number spelling. Missing: the empty text, infinities and not-a-number, for
which the claim is false (`C05_violated`). -/
theorem C05_integer_errors_partial (s : Str) (hs : s ≠ []) :
    (∃ v, intParse s = .ok v) ∨ intParse s = .error .types ∨
      ((intParse s = .error .overflow ∨ intParse s = .error .value) ∧
        ∃ d, realParse s = .ok (.num d) ∧ ∀ f, d ≠ .fin f) := by
  unfold intParse realParse
  obtain ⟨t, ht⟩ := numText_ok s hs
  split
  · exact .inl ⟨_, rfl⟩
  · rw [ht]
    simp only
    split
    · exact .inr (.inl rfl)
    · exact .inl ⟨_, rfl⟩
    · rename_i h
      exact .inr (.inr ⟨.inl rfl, _, by rw [h], by simp⟩)
    · rename_i h
      exact .inr (.inr ⟨.inr rfl, _, by rw [h], by simp⟩)
  · rename_i e he h
    have := horizParse_err s e h
    exact absurd (this ▸ h) (fun _ => he this)

example : realParse "1.2.3".toList = .error .types ∧ intParse "abc".toList = .error .types := by
  decide +kernel

/-- The full claim is false: the empty text, infinities and NaNs escape with
other exceptions. -/
theorem C05_violated :
    realParse [] = .error .index ∧ intParse [] = .error .index ∧
    intParse "inf".toList = .error .overflow ∧ intParse "nan".toList = .error .value := by
  decide +kernel

end Props
