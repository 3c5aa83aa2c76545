import Verif.Props.Plot
import Verif.Inp.RangeSpec
import Verif.Types.NumberLemmas
import Mathlib.Tactic.Ring
import Mathlib.Tactic.FieldSimp
/-!
# C103: the numbers of tallies reach their tables

A line of a tally has three texts, which `to_dataframe` turns into numbers with `float`.
-/
namespace Props
open Py Outp Types Inp

/-! ### Spellings of numbers -/

/-- The number written by decimal digits. -/
def digitsValue : Str → ℕ
  | [] => 0
  | c :: t => (c.toNat - '0'.toNat) * 10 ^ t.length + digitsValue t

/-- The parts of a number as it is written: sign, digits before the point, point and digits after it, exponent. -/
structure Spelling where
  sign : Sg
  whole : Str
  part : Option Str
  exp : Option (Char × Sg × Str)

/-- `[+-]digits[.digits][e[+-]digits]` -/
def Spelling.text (n : Spelling) : Str :=
  n.sign.text ++ n.whole ++ (match n.part with | none => [] | some f => '.' :: f) ++
    (match n.exp with | none => [] | some (l, g, ds) => l :: (g.text ++ ds))

/-- Digits where digits belong, at least one before or after the point and one in the exponent, which begins with `e` or `E`. -/
structure Spelling.Ok (n : Spelling) : Prop where
  whole : ∀ c ∈ n.whole, '0' ≤ c ∧ c ≤ '9'
  part : ∀ f, n.part = some f → ∀ c ∈ f, '0' ≤ c ∧ c ≤ '9'
  digit : n.whole ≠ [] ∨ ∃ f, n.part = some f ∧ f ≠ []
  exp : ∀ l g ds, n.exp = some (l, g, ds) → (l = 'e' ∨ l = 'E') ∧ ds ≠ [] ∧ ∀ c ∈ ds, '0' ≤ c ∧ c ≤ '9'

/-- The number that is written. -/
def Spelling.value (n : Spelling) : ℚ :=
  (if n.sign = .minus then -1 else 1) *
    (digitsValue n.whole + (match n.part with | none => 0 | some f => (digitsValue f : ℚ) / 10 ^ f.length)) *
    (match n.exp with | none => 1 | some (_, g, ds) => (10 : ℚ) ^ (if g = .minus then -(digitsValue ds : ℤ) else digitsValue ds))

theorem digitsValue_eq (s : Str) : digitsValue s = strNat s := by
  induction s with
  | nil => rfl
  | cons c t ih => rw [strNat_cons, ← ih]; rfl

theorem isDigit_iff (c : Char) : isDigit c = true ↔ '0' ≤ c ∧ c ≤ '9' := by simp [isDigit]

def expTail : Option (Char × Sg × Str) → Str
  | none => []
  | some (l, g, ds) => l :: (g.text ++ ds)

def expVal : Option (Char × Sg × Str) → ℤ
  | none => 0
  | some (_, g, ds) => if g = .minus then -(strNat ds : ℤ) else strNat ds

theorem text_eq (n : Spelling) : n.text = mantText n.sign n.whole n.part ++ expTail n.exp := by
  obtain ⟨g, ip, fp, e⟩ := n
  cases fp <;> cases e <;> simp [Spelling.text, mantText, fracText, expTail]

theorem value_eq (n : Spelling) : decValue (mantDec n.sign n.whole n.part (expVal n.exp)) = n.value := by
  obtain ⟨g, ip, fp, e⟩ := n
  have h10 : (10 : ℚ) ≠ 0 := by norm_num
  have he : (match e with
      | none => 1 | some (_, g, ds) => (10 : ℚ) ^ (if g = .minus then -(digitsValue ds : ℤ) else digitsValue ds)) = (10 : ℚ) ^ expVal e := by
    cases e with
    | none => simp [expVal]
    | some x => simp [expVal, digitsValue_eq]
  have hf : (digitsValue ip + (match fp with | none => 0 | some f => (digitsValue f : ℚ) / 10 ^ f.length)) =
      (strNat (ip ++ fracDigits fp) : ℚ) / 10 ^ (fracDigits fp).length := by
    rw [strNat_append]
    cases fp with
    | none => simp [fracDigits, digitsValue_eq, strNat]
    | some f => simp only [fracDigits, digitsValue_eq]; push_cast; field_simp
  unfold Spelling.value
  refine Eq.trans ?_ (congrArg₂ (· * ·) (congrArg ((if g = .minus then (-1 : ℚ) else 1) * ·) hf) he).symm
  simp only [decValue, mantDec]
  rw [zpow_sub₀ h10, zpow_natCast]
  cases g <;> simp [Sg.neg] <;> ring

theorem ok_mant {n : Spelling} (h : n.Ok) : MantOk n.whole n.part := by
  refine ⟨fun c hc => (isDigit_iff c).2 (h.whole c hc), ?_, ?_⟩
  · intro c hc
    cases hp : n.part with
    | none => rw [hp] at hc; cases hc
    | some f => rw [hp] at hc; exact (isDigit_iff c).2 (h.part f hp c hc)
  · rcases h.digit with h | ⟨f, hf, hne⟩
    · exact .inl h
    · rw [hf]; exact .inr hne

theorem exp_tail {n : Spelling} (h : n.Ok) : expParse (expTail n.exp) = some (expVal n.exp) ∧ (∀ c ∈ expTail n.exp, numCh c = true) ∧
    ∀ c cs, expTail n.exp = c :: cs → isDigit c = false ∧ c ≠ '.' := by
  cases he : n.exp with
  | none => exact ⟨rfl, by simp [expTail], by simp [expTail]⟩
  | some x =>
    obtain ⟨l, g, ds⟩ := x
    obtain ⟨hl, hne, hd⟩ := h.exp l g ds he
    have hD : Digits ds := fun c hc => (isDigit_iff c).2 (hd c hc)
    refine ⟨?_, ?_, ?_⟩
    · cases g with
      | none => simpa [expTail, expVal, Sg.text] using expParse_unsigned ds hD hne l hl
      | minus => simpa [expTail, expVal, Sg.text] using expParse_signed true ds hD hne l hl
      | plus => simpa [expTail, expVal, Sg.text] using expParse_signed false ds hD hne l hl
    · intro c hc
      simp only [expTail, List.mem_cons, List.mem_append] at hc
      rcases hc with rfl | hc | hc
      · rcases hl with rfl | rfl <;> decide
      · cases g <;> simp [Sg.text] at hc <;> subst hc <;> decide
      · simp [numCh, hD c hc]
    · intro c cs e
      simp only [expTail, List.cons.injEq] at e
      rcases hl with hl | hl <;> rw [← e.1, hl] <;> decide

theorem underOk_free : ∀ (b : Bool) (s : Str), '_' ∉ s → underOk b s = true
  | _, [], _ => rfl
  | b, c :: t, h => by
    have hc : c ≠ '_' := fun e => h (by simp [e])
    have ht := underOk_free (isDigit c) t (fun hm => h (by simp [hm]))
    unfold underOk
    split
    · rename_i e; cases e
    · rename_i e; cases e; exact absurd rfl hc
    · rename_i e; cases e; exact ht

/-- Texts without blanks and underscores are read as they are. -/
theorem floatParse_plain {s : Str} (h1 : ∀ c ∈ s, isSpace c = false) (h2 : '_' ∉ s) :
    floatParse s = (numParse (takeSign s).1 (takeSign s).2).or (floatSpecial (takeSign s).1 (takeSign s).2) := by
  have hf : s.filter (· ≠ '_') = s := by
    rw [List.filter_eq_self]
    intro c hc
    simpa using fun e : c = '_' => h2 (e ▸ hc)
  unfold floatParse
  simp only [strip_noSpace s h1, underOk_free false s h2, if_true, hf]

theorem takeSign_mant {g : Sg} {ip : Str} {fp : Option Str} (h : MantOk ip fp) (tail : Str) :
    takeSign (mantText g ip fp ++ tail) = (g.neg, ip ++ fracText fp ++ tail) := by
  unfold mantText
  rw [List.append_assoc]
  apply takeSign_sg
  intro c cs hc
  cases hb : ip ++ fracText fp with
  | nil => exact absurd hb h.body_ne
  | cons d ds =>
    rw [hb] at hc
    cases hc
    exact h.body_notSign (by rw [hb]; simp)

theorem spelled_chars {n : Spelling} (h : n.Ok) : ∀ c ∈ n.text, numCh c = true := by
  intro c hc
  rw [text_eq] at hc
  rcases List.mem_append.1 hc with hc | hc
  · exact ((ok_mant h).mem hc).2
  · exact (exp_tail h).2.1 c hc

theorem floatParse_spelled {n : Spelling} (h : n.Ok) :
    floatParse n.text = some (.fin (mantDec n.sign n.whole n.part (expVal n.exp))) := by
  have hch := spelled_chars h
  rw [floatParse_plain (fun c hc => numCh_space (hch c hc)) (fun hm => numCh_us (hch _ hm) rfl), text_eq, takeSign_mant (ok_mant h)]
  rw [numParse_numeral _ _ _ _ _ (ok_mant h).hip (ok_mant h).hfp (ok_mant h).hne (exp_tail h).2.2 (exp_tail h).1]
  rfl

/-- **C103:** a number written with digits, point and exponent is read as exactly that number. -/
theorem C103_spelled (n : Spelling) (h : n.Ok) : ∃ d, floatParse n.text = some (.fin d) ∧ decValue d = n.value :=
  ⟨_, floatParse_spelled h, value_eq n⟩

example : (⟨.minus, c!"1", some c!"50000", some ('E', .minus, c!"03")⟩ : Spelling).Ok ∧
    (⟨.minus, c!"1", some c!"50000", some ('E', .minus, c!"03")⟩ : Spelling).text = c!"-1.50000E-03" ∧
    (⟨.minus, c!"1", some c!"50000", some ('E', .minus, c!"03")⟩ : Spelling).value = -(3 / 2000) := by
  refine ⟨⟨by decide, ?_, .inl (by decide), ?_⟩, by decide, ?_⟩
  · intro f hf; cases hf; decide
  · intro l g ds e; cases e; exact ⟨.inr rfl, by decide, by decide⟩
  · simp [Spelling.value, digitsValue]; norm_num

theorem digit_lower {c : Char} (hc : isDigit c = true) : lowerC c = c := by
  unfold lowerC
  rw [if_neg]
  intro hA
  simp only [Bool.and_eq_true, decide_eq_true_eq] at hA
  have h9 := ((isDigit_iff c).1 hc).2
  exact absurd (Char.le_trans hA.1 h9) (by decide)

theorem takeSign_inv (s : Str) : ∃ g : Sg, s = g.text ++ (takeSign s).2 ∧ g.neg = (takeSign s).1 := by
  unfold takeSign
  split
  · exact ⟨.minus, rfl, rfl⟩
  · exact ⟨.plus, rfl, rfl⟩
  · exact ⟨.none, rfl, rfl⟩

theorem fracSplit_inv (r : Str) : ∃ fp : Option Str, r = fracText fp ++ (fracSplit r).2 ∧ fracDigits fp = (fracSplit r).1 ∧ Digits (fracDigits fp) := by
  unfold fracSplit
  split
  · rename_i t
    refine ⟨some (t.takeWhile isDigit), ?_, rfl, ?_⟩
    · simp [fracText, List.takeWhile_append_dropWhile]
    · intro c hc
      exact List.all_eq_true.1 (List.all_takeWhile (p := isDigit) (l := t)) c hc
  · exact ⟨none, rfl, rfl, by intro c hc; cases hc⟩

theorem expParse_inv {r : Str} {e : ℤ} (h : expParse r = some e) : ∃ x, expTail x = r ∧ expVal x = e ∧
    ∀ l g ds, x = some (l, g, ds) → (l = 'e' ∨ l = 'E') ∧ ds ≠ [] ∧ ∀ c ∈ ds, '0' ≤ c ∧ c ≤ '9' := by
  cases r with
  | nil => exact ⟨none, rfl, by simpa [expParse, expVal] using h, by simp⟩
  | cons c t =>
    change (if c = 'e' ∨ c = 'E' then
      (if (takeSign t).2 ≠ [] ∧ (takeSign t).2.all isDigit = true then
        some (if (takeSign t).1 = true then - (strNat (takeSign t).2 : Int) else (strNat (takeSign t).2 : Int)) else none) else none) = some e at h
    by_cases hc : c = 'e' ∨ c = 'E'
    · rw [if_pos hc] at h
      obtain ⟨g, h1, h2⟩ := takeSign_inv t
      by_cases hd : (takeSign t).2 ≠ [] ∧ (takeSign t).2.all isDigit = true
      · rw [if_pos hd] at h
        refine ⟨some (c, g, (takeSign t).2), ?_, ?_, ?_⟩
        · simp [expTail, ← h1]
        · rw [← Option.some.inj h, ← h2]
          cases g <;> simp [expVal, Sg.neg]
        · intro l g' ds e
          cases e
          exact ⟨hc, hd.1, fun c hc => (isDigit_iff c).1 (List.all_eq_true.1 hd.2 c hc)⟩
      · rw [if_neg hd] at h
        cases h
    · rw [if_neg hc] at h
      cases h

theorem special_fin {b : Bool} {s : Str} {d : Dec} : floatSpecial b s ≠ some (.fin d) := by
  unfold floatSpecial
  dsimp only
  split
  · simp
  · split <;> simp

theorem numParse_inv {b : Bool} {t : Str} {v : DecVal} (h : numParse b t = some v) : ∃ ip fp x, t = ip ++ fracText fp ++ expTail x ∧ MantOk ip fp ∧
    v = .fin ⟨b, strNat (ip ++ fracDigits fp), expVal x - (fracDigits fp).length⟩ ∧
    ∀ l g ds, x = some (l, g, ds) → (l = 'e' ∨ l = 'E') ∧ ds ≠ [] ∧ ∀ c ∈ ds, '0' ≤ c ∧ c ≤ '9' := by
  unfold numParse numBuild at h
  split at h
  · cases h
  · rename_i hne
    split at h
    · cases h
    · rename_i e he
      obtain ⟨fp, f1, f2, f3⟩ := fracSplit_inv (t.dropWhile isDigit)
      obtain ⟨x, x1, x2, x3⟩ := expParse_inv he
      refine ⟨t.takeWhile isDigit, fp, x, ?_, ⟨?_, f3, ?_⟩, ?_, x3⟩
      · rw [x1, List.append_assoc, ← f1, List.takeWhile_append_dropWhile]
      · intro c hc
        exact List.all_eq_true.1 (List.all_takeWhile (p := isDigit) (l := t)) c hc
      · rw [f2]
        by_cases h0 : t.takeWhile isDigit = []
        · exact .inr fun h1 => hne ⟨h0, h1⟩
        · exact .inl h0
      · rw [← Option.some.inj h, f2, x2]

/-- **C103, what is a number:** a text without blanks and underscores is read as a number exactly when it is written as above. -/
theorem C103_exactly (s : Str) (h1 : ∀ c ∈ s, isSpace c = false) (h2 : '_' ∉ s) (q : ℚ) :
    (∃ d, floatParse s = some (.fin d) ∧ decValue d = q) ↔ ∃ n : Spelling, n.Ok ∧ n.text = s ∧ n.value = q := by
  constructor
  · rintro ⟨d, hd, rfl⟩
    rw [floatParse_plain h1 h2] at hd
    have hn : numParse (takeSign s).1 (takeSign s).2 = some (.fin d) := by
      cases hp : numParse (takeSign s).1 (takeSign s).2 with
      | none => rw [hp] at hd; exact absurd hd special_fin
      | some v => rw [hp] at hd; exact hd
    obtain ⟨g, g1, g2⟩ := takeSign_inv s
    obtain ⟨ip, fp, x, t1, t2, t3, t4⟩ := numParse_inv hn
    refine ⟨⟨g, ip, fp, x⟩, ⟨fun c hc => (isDigit_iff c).1 (t2.hip c hc), ?_, ?_, t4⟩, ?_, ?_⟩
    · intro f hf c hc
      exact (isDigit_iff c).1 (t2.hfp c (by rw [show fp = some f from hf]; exact hc))
    · rcases t2.hne with h | h
      · exact .inl h
      · cases fp with
        | none => exact absurd rfl h
        | some f => exact .inr ⟨f, rfl, h⟩
    · rw [text_eq]
      show mantText g ip fp ++ expTail x = s
      rw [mantText, List.append_assoc, ← t1, ← g1]
    · rw [← value_eq]
      show decValue (mantDec g ip fp (expVal x)) = decValue d
      rw [DecVal.fin.inj t3, mantDec, g2]
  · rintro ⟨n, hn, rfl, rfl⟩
    exact C103_spelled n hn

/-- Every underscore of the text stands between two digits. -/
def UnderBetween (s : Str) : Prop := ∀ a b, s = a ++ '_' :: b →
  (∃ a' c, a = a' ++ [c] ∧ '0' ≤ c ∧ c ≤ '9') ∧ ∃ c b', b = c :: b' ∧ '0' ≤ c ∧ c ≤ '9'

theorem underOk_iff : ∀ (p s : Str), underOk (match p.getLast? with | some c => isDigit c | none => false) s = true ↔
    ∀ a b, s = a ++ '_' :: b → (∃ a' c, p ++ a = a' ++ [c] ∧ '0' ≤ c ∧ c ≤ '9') ∧ ∃ c b', b = c :: b' ∧ '0' ≤ c ∧ c ≤ '9'
  | p, [] => by
    refine ⟨fun _ a b e => ?_, fun _ => rfl⟩
    cases a <;> cases e
  | p, c :: t => by
    have ih := underOk_iff (p ++ [c]) t
    have hlast : (match (p ++ [c]).getLast? with | some c => isDigit c | none => false) = isDigit c := by simp
    rw [hlast] at ih
    have hstep : ∀ b' : Bool, (∀ a b, c :: t = a ++ '_' :: b → (∃ a' d, p ++ a = a' ++ [d] ∧ '0' ≤ d ∧ d ≤ '9') ∧ ∃ d b', b = d :: b' ∧ '0' ≤ d ∧ d ≤ '9') ↔
        ((c = '_' → (∃ a' d, p = a' ++ [d] ∧ '0' ≤ d ∧ d ≤ '9') ∧ ∃ d b', t = d :: b' ∧ '0' ≤ d ∧ d ≤ '9') ∧ underOk (isDigit c) t = true) := by
      intro _
      rw [ih]
      constructor
      · intro h
        refine ⟨fun hc => ?_, fun a b e => ?_⟩
        · have := h [] t (by rw [hc]; rfl)
          simpa using this
        · have := h (c :: a) b (by rw [e]; rfl)
          simpa using this
      · rintro ⟨h1, h2⟩ a b e
        cases a with
        | nil =>
          cases e
          have := h1 rfl
          simpa using this
        | cons d a =>
          cases e
          have := h2 a b rfl
          simpa using this
    rw [hstep true]
    by_cases hc : c = '_'
    · subst hc
      have hp : ((match p.getLast? with | some c => isDigit c | none => false) = true) ↔ ∃ a' d, p = a' ++ [d] ∧ '0' ≤ d ∧ d ≤ '9' := by
        rcases List.eq_nil_or_concat p with rfl | ⟨q, d, rfl⟩
        · simp
        · simp only [List.concat_eq_append, List.getLast?_append, List.getLast?_singleton, Option.some_or]
          rw [isDigit_iff]
          constructor
          · exact fun h => ⟨q, d, rfl, h⟩
          · rintro ⟨a', e, h, hd⟩
            have := (List.append_inj' h rfl).2
            cases this
            exact hd
      have ht : headDigit t = true ↔ ∃ d b', t = d :: b' ∧ '0' ≤ d ∧ d ≤ '9' := by
        cases t with
        | nil => simp [headDigit]
        | cons d t =>
          show isDigit d = true ↔ _
          rw [isDigit_iff]
          constructor
          · exact fun h => ⟨d, t, rfl, h⟩
          · rintro ⟨d', b', e, h⟩
            cases e
            exact h
      have hu : ∀ b, underOk b ('_' :: t) = (b && headDigit t && underOk false t) := fun b => by
        rw [underOk]
      rw [hu, Bool.and_eq_true, Bool.and_eq_true, hp, ht]
      have hd : isDigit '_' = false := by decide
      rw [hd]
      simp
    · have hu : ∀ b, underOk b (c :: t) = underOk (isDigit c) t := fun b => by
        rw [underOk]
        exact hc
      rw [hu]
      simp [hc]

/-- **C103, underscores:** a text without blanks is a number when its underscores stand between digits and the text without them is one. -/
theorem C103_underscores (s : Str) (h : ∀ c ∈ s, isSpace c = false) (v : DecVal) :
    floatParse s = some v ↔ UnderBetween s ∧ floatParse (s.filter (· ≠ '_')) = some v := by
  have hu : underOk false s = true ↔ UnderBetween s := by
    have := underOk_iff [] s
    simpa [UnderBetween] using this
  have h1 : ∀ c ∈ s.filter (· ≠ '_'), isSpace c = false := fun c hc => h c (List.mem_filter.1 hc).1
  have h2 : '_' ∉ s.filter (· ≠ '_') := by simp
  rw [← hu, floatParse_plain h1 h2]
  unfold floatParse
  simp only [strip_noSpace s h]
  by_cases hs : underOk false s = true
  · simp [hs]
  · simp [hs]

example : floatParse c!"1_000.5" = some (.fin ⟨false, 10005, -1⟩) ∧ floatParse c!"1__0" = none ∧ floatParse c!"_1" = none ∧ floatParse c!"1_" = none ∧
    floatParse c!"1_.5" = none := by decide +kernel

/-- **C103, what is no number but accepted:** of the texts without blanks and underscores, exactly `inf` and `infinity`, in any letters and
with any sign, are infinite; and exactly `nan` is accepted besides. -/
theorem C103_special (s : Str) (h1 : ∀ c ∈ s, isSpace c = false) (h2 : '_' ∉ s) (b : Bool) :
    (floatParse s = some (.inf b) ↔ ∃ g : Sg, ∃ w, s = g.text ++ w ∧ b = (g == .minus) ∧ (lower w = c!"inf" ∨ lower w = c!"infinity")) ∧
    (∀ sig diag, floatParse s = some (.nan b sig diag) ↔ sig = false ∧ diag = [] ∧ ∃ g : Sg, ∃ w, s = g.text ++ w ∧ b = (g == .minus) ∧ lower w = c!"nan") := by
  rw [floatParse_plain h1 h2]
  have hneg : ∀ g : Sg, g.neg = (g == .minus) := by intro g; cases g <;> rfl
  -- a text that begins like a word does not begin like a number
  have hno : ∀ (x : Bool) (t : Str), lower t = c!"inf" ∨ lower t = c!"infinity" ∨ lower t = c!"nan" → numParse x t = none := by
    intro x t ht
    cases hq : numParse x t with
    | none => rfl
    | some v =>
      exfalso
      obtain ⟨ip, fp, y, e, hm, -, -⟩ := numParse_inv hq
      cases hb : ip ++ fracText fp with
      | nil => exact hm.body_ne hb
      | cons c cs =>
        have hc := hm.body_mem (c := c) (by rw [hb]; simp)
        rw [hb] at e
        have hl : lowerC c = 'i' ∨ lowerC c = 'n' := by
          rw [e] at ht
          simp only [lower, List.cons_append, List.map_cons] at ht
          rcases ht with ht | ht | ht
          · exact .inl (List.cons.inj ht).1
          · exact .inl (List.cons.inj ht).1
          · exact .inr (List.cons.inj ht).1
        rcases hc with hc | rfl
        · rw [digit_lower hc] at hl
          rcases hl with rfl | rfl <;> revert hc <;> decide
        · revert hl; decide
  -- words begin with no sign
  have hts : ∀ (g : Sg) (w : Str), lower w = c!"inf" ∨ lower w = c!"infinity" ∨ lower w = c!"nan" → takeSign (g.text ++ w) = (g.neg, w) := by
    intro g w hw
    apply takeSign_sg
    rintro c cs rfl
    have hl : lowerC c = 'i' ∨ lowerC c = 'n' := by
      simp only [lower, List.map_cons] at hw
      rcases hw with ht | ht | ht
      · exact .inl (List.cons.inj ht).1
      · exact .inl (List.cons.inj ht).1
      · exact .inr (List.cons.inj ht).1
    cases hs : isSign c with
    | false => rfl
    | true =>
      simp only [isSign, Bool.or_eq_true, beq_iff_eq] at hs
      rcases hs with rfl | rfl <;> revert hl <;> decide
  have hnum : ∀ (x : Bool) (t : Str) (v : DecVal), numParse x t = some v → ∃ d, v = .fin d := by
    intro x t v hv
    obtain ⟨_, _, _, -, -, e, -⟩ := numParse_inv hv
    exact ⟨_, e⟩
  obtain ⟨g, g1, g2⟩ := takeSign_inv s
  constructor
  · constructor
    · intro h
      cases hq : numParse (takeSign s).1 (takeSign s).2 with
      | some v =>
        obtain ⟨d, rfl⟩ := hnum _ _ _ hq
        rw [hq] at h; cases h
      | none =>
        rw [hq] at h
        change floatSpecial _ _ = _ at h
        unfold floatSpecial at h
        dsimp only at h
        split at h
        · rename_i hw
          cases h
          exact ⟨g, _, g1, by rw [← hneg, g2], hw⟩
        · split at h <;> cases h
    · rintro ⟨g', w, rfl, rfl, hw⟩
      have hw' : lower w = c!"inf" ∨ lower w = c!"infinity" ∨ lower w = c!"nan" := by tauto
      rw [hts g' w hw']
      rw [hno _ _ hw', hneg]
      show floatSpecial _ _ = _
      unfold floatSpecial
      exact if_pos hw
  · intro sig diag
    constructor
    · intro h
      cases hq : numParse (takeSign s).1 (takeSign s).2 with
      | some v =>
        obtain ⟨d, rfl⟩ := hnum _ _ _ hq
        rw [hq] at h; cases h
      | none =>
        rw [hq] at h
        change floatSpecial _ _ = _ at h
        unfold floatSpecial at h
        dsimp only at h
        split at h
        · cases h
        · split at h
          · rename_i hw
            cases h
            exact ⟨rfl, rfl, g, _, g1, by rw [← hneg, g2], hw⟩
          · cases h
    · rintro ⟨rfl, rfl, g', w, rfl, rfl, hw⟩
      have hw' : lower w = c!"inf" ∨ lower w = c!"infinity" ∨ lower w = c!"nan" := by tauto
      rw [hts g' w hw', hno _ _ hw', hneg]
      show floatSpecial _ _ = _
      unfold floatSpecial
      dsimp only
      rw [if_neg (by rw [hw]; decide)]
      exact if_pos hw

example : floatParse c!"-Infinity" = some (.inf true) ∧ floatParse c!"NaN" = some (.nan false false []) ∧ floatParse c!"infinite" = none := by decide +kernel

/-! ### Tables -/

/-- The three numbers of a row are those of the three texts of its line, in order. -/
def RowRight (r : Row) : Prop := r.cells.map some = [r.line.bucket, r.line.count, r.line.error].map floatParse

theorem lineRows_right {p : List Str} : ∀ {ls : List TLine} {rs : List Row}, lineRows p ls = .ok rs → (∀ r ∈ rs, RowRight r) ∧ rs.map (·.line) = ls
  | [], rs, h => by cases h; simp
  | l :: ls, rs, h => by
    unfold lineRows at h
    split at h
    · cases h
    · rename_i c hc
      split at h
      · cases h
      · rename_i rs' hr
        cases h
        obtain ⟨i1, i2⟩ := lineRows_right hr
        refine ⟨?_, by simp [i2]⟩
        intro r hm
        rcases List.mem_cons.1 hm with rfl | hm
        · unfold TLine.cells at hc
          split at hc
          · rename_i e1 e2 e3
            cases hc
            simp [RowRight, e1, e2, e3]
          · cases hc
        · exact i1 r hm

theorem table_right {k : TallyKind} {t : Tally} {x : Table} (h : t.table k = .ok x) : (∀ r ∈ x.rows, RowRight r) ∧
    x.rows.map (·.line) = t.subs.flatMap (·.lines) := by
  have hm : ∀ (xs : List Sub) (rs : List (List Row)), xs.mapM (Sub.rows k) = .ok rs → (∀ r ∈ rs.flatten, RowRight r) ∧
      rs.flatten.map (·.line) = xs.flatMap (·.lines) := by
    intro xs
    induction xs with
    | nil => intro rs h; cases h; simp
    | cons y ys ih =>
      intro rs h
      rw [List.mapM_cons] at h
      cases h1 : Sub.rows k y with
      | error e => rw [h1] at h; cases h
      | ok r =>
        cases h2 : ys.mapM (Sub.rows k) with
        | error e => rw [h1, h2] at h; cases h
        | ok rs' =>
          rw [h1, h2] at h
          cases h
          unfold Sub.rows at h1
          split at h1
          · cases h1
          · obtain ⟨a1, a2⟩ := lineRows_right h1
            obtain ⟨b1, b2⟩ := ih rs' h2
            refine ⟨?_, by simp [a2, ← b2]⟩
            intro z hz
            rw [List.flatten_cons, List.mem_append] at hz
            exact hz.elim (a1 z) (b1 z)
  unfold Tally.table at h
  cases h1 : t.subs.mapM (Sub.rows k) with
  | error e => rw [h1] at h; cases h
  | ok rs =>
    rw [h1] at h
    change (if rs = [] then _ else _) = _ at h
    split at h
    · cases h
    · cases h
      exact hm _ _ h1

theorem insert_mem {β : Type} {d : List (Str × β)} {k : Str} {v : β} {p : Str × β} (h : p ∈ Outp.insert d k v) : p ∈ d ∨ p = (k, v) := by
  unfold Outp.insert at h
  split at h
  · obtain ⟨q, hq, e⟩ := List.mem_map.1 h
    split at e
    · exact .inr e.symm
    · exact .inl (e ▸ hq)
  · simpa using h

theorem tables_right : ∀ (bs : List Block) (d ts : List (Str × Table)), tables bs d = .ok ts → ∀ p ∈ ts, p ∈ d ∨
    ((∀ r ∈ p.2.rows, RowRight r) ∧ ∃ q ∈ talliesOf bs, p.1 = tallyNumber q.2 ∧ p.2.rows.map (·.line) = q.2.subs.flatMap (·.lines))
  | [], d, ts, h => by cases h; exact fun p hp => .inl hp
  | .header _ :: bs, d, ts, h => tables_right bs d ts h
  | .plain _ _ :: bs, d, ts, h => tables_right bs d ts h
  | .tally k t :: bs, d, ts, h => by
    unfold tables at h
    cases h1 : t.table k with
    | error e => rw [h1] at h; cases h
    | ok x =>
      rw [h1] at h
      intro p hp
      rcases tables_right bs _ ts h p hp with hm | ⟨a, q, b, c⟩
      · rcases insert_mem hm with hm | rfl
        · exact .inl hm
        · exact .inr ⟨(table_right h1).1, (k, t), by simp [talliesOf], rfl, (table_right h1).2⟩
      · exact .inr ⟨a, q, by simp [talliesOf, b], c⟩

/-- **C103, tables:** whenever tables are made, each is that of a tally of its number: its rows are the lines of the tally, in order, and
every row holds the numbers of the bin, the count and the error of its line, in that order. -/
theorem C103_cells (f : Outp.File) (ts : List (Str × Table)) (h : tables f.blocks [] = .ok ts) (p : Str × Table) (hp : p ∈ ts) :
    (∃ q ∈ talliesOf f.blocks, p.1 = tallyNumber q.2 ∧ p.2.rows.map (·.line) = q.2.subs.flatMap (·.lines)) ∧
      ∀ r ∈ p.2.rows, r.cells.map some = [r.line.bucket, r.line.count, r.line.error].map floatParse := by
  rcases tables_right _ _ _ h p hp with h | h
  · cases h
  · exact ⟨h.2, h.1⟩

/-! ### Texts that are not numbers -/

theorem rows_fail {k : TallyKind} {x : Sub} (h : ¬ HasTable x) : x.rows k = .error .value := by
  unfold Sub.rows
  split
  · rfl
  · rename_i hne
    have hl : ∀ ls : List TLine, (∃ l ∈ ls, ∃ s ∈ [l.bucket, l.count, l.error], floatParse s = none) → lineRows (x.place k) ls = .error .value := by
      intro ls
      induction ls with
      | nil => rintro ⟨l, hl, _⟩; cases hl
      | cons y ys ih =>
        rintro ⟨l, hl, s, hs, hn⟩
        unfold lineRows
        cases hc : y.cells with
        | none => rfl
        | some c =>
          rcases List.mem_cons.1 hl with rfl | hl
          · exfalso
            unfold TLine.cells at hc
            split at hc
            · rename_i e1 e2 e3
              simp only [List.mem_cons, List.not_mem_nil, or_false] at hs
              rcases hs with rfl | rfl | rfl <;> simp_all
            · cases hc
          · rw [ih ⟨l, hl, s, hs, hn⟩]
    apply hl
    by_contra hno
    apply h
    refine ⟨hne, fun l hl s hs => ?_⟩
    cases hq : floatParse s with
    | some v => rfl
    | none => exact absurd ⟨l, hl, s, hs, hq⟩ hno

theorem rows_error {k : TallyKind} {x : Sub} {e : Err} (h : x.rows k = .error e) : e = .value := by
  by_cases hx : HasTable x
  · unfold Sub.rows at h
    rw [if_neg hx.1, lineRows_spec _ hx.2] at h
    cases h
  · rw [rows_fail hx] at h
    cases h; rfl

theorem table_fail {k : TallyKind} {t : Tally} (h : ∃ x ∈ t.subs, ¬ HasTable x) : t.table k = .error .value := by
  have hm : ∀ xs : List Sub, (∃ x ∈ xs, ¬ HasTable x) → xs.mapM (Sub.rows k) = .error .value := by
    intro xs
    induction xs with
    | nil => rintro ⟨x, hx, _⟩; cases hx
    | cons y ys ih =>
      rintro ⟨x, hx, hn⟩
      rw [List.mapM_cons]
      cases h1 : Sub.rows k y with
      | error e => rw [rows_error h1]; rfl
      | ok r =>
        rcases List.mem_cons.1 hx with rfl | hx
        · rw [rows_fail hn] at h1; cases h1
        · rw [ih ⟨x, hx, hn⟩]; rfl
  unfold Tally.table
  rw [hm _ h]
  rfl

theorem table_ok_or (k : TallyKind) (t : Tally) : (∃ x, t.table k = .ok x) ∨ t.table k = .error .value := by
  by_cases h : ∃ x ∈ t.subs, ¬ HasTable x
  · exact .inr (table_fail h)
  · by_cases h0 : t.subs = []
    · right
      unfold Tally.table
      rw [h0]; rfl
    · exact .inl ⟨_, table_ok h0 fun x hx => by_contra fun hn => h ⟨x, hx, hn⟩⟩

theorem tables_fail : ∀ (bs : List Block) (d : List (Str × Table)), (∃ p ∈ talliesOf bs, ∃ x ∈ p.2.subs, ¬ HasTable x) → tables bs d = .error .value
  | [], _, h => by obtain ⟨_, hp, _⟩ := h; cases hp
  | .header _ :: bs, d, h => tables_fail bs d h
  | .plain _ _ :: bs, d, h => tables_fail bs d h
  | .tally k t :: bs, d, h => by
    unfold tables
    rcases table_ok_or k t with ⟨x, hx⟩ | hx
    · rw [hx]
      apply tables_fail
      obtain ⟨p, hp, hn⟩ := h
      rcases List.mem_cons.1 hp with rfl | hp
      · rw [table_fail hn] at hx; cases hx
      · exact ⟨p, hp, hn⟩
    · rw [hx]; rfl

/-- **C103, one text that is not a number:** there is then no table, no export and no plot of any tally of the file: all raise `ValueError`,
and no file is touched. -/
theorem C103_spoilt (f : Outp.File) (p : TallyKind × Tally) (hp : p ∈ talliesOf f.blocks) (x : Sub) (hx : x ∈ p.2.subs) (l : TLine) (hl : l ∈ x.lines)
    (s : Str) (hs : s ∈ [l.bucket, l.count, l.error]) (hn : floatParse s = none) :
    tables f.blocks [] = .error .value ∧ (∀ n, Plot.toShow f n = .error .value) ∧
      ∀ conv n path w, Cli.toCsv conv f n path w = (.error .value, w) := by
  have h : tables f.blocks [] = .error .value := by
    refine tables_fail _ _ ⟨p, hp, x, hx, fun ht => ?_⟩
    have := ht.2 l hl s hs
    rw [hn] at this
    cases this
  refine ⟨h, fun n => ?_, fun conv n path w => ?_⟩
  · unfold Plot.toShow; rw [h]
  · unfold Cli.toCsv; rw [h]

theorem bare_none (g : Sg) (ip : Str) (fp : Option Str) (h : MantOk ip fp) (m : Char) (hm : m = '-' ∨ m = '+') (ds : Str) (hd : Digits ds) :
    floatParse (mantText g ip fp ++ m :: ds) = none := by
  have hmn : numCh m = true := by rcases hm with rfl | rfl <;> decide
  have hch : ∀ c ∈ mantText g ip fp ++ m :: ds, numCh c = true := by
    intro c hc
    rcases List.mem_append.1 hc with hc | hc
    · exact (h.mem hc).2
    · rcases List.mem_cons.1 hc with rfl | hc
      · exact hmn
      · simp [numCh, hd c hc]
  rw [floatParse_plain (fun c hc => numCh_space (hch c hc)) (fun hm => numCh_us (hch _ hm) rfl), takeSign_mant h]
  have h1 : numParse g.neg (ip ++ fracText fp ++ m :: ds) = none := by
    cases hq : numParse g.neg (ip ++ fracText fp ++ m :: ds) with
    | none => rfl
    | some v =>
      exfalso
      have hmd : isDigit m = false ∧ m ≠ '.' ∧ m ≠ 'e' ∧ m ≠ 'E' := by rcases hm with rfl | rfl <;> decide
      have e1 : (ip ++ fracText fp ++ m :: ds).dropWhile isDigit = fracText fp ++ m :: ds := by
        rw [List.append_assoc]
        refine dropWhile_stop _ _ h.hip ?_
        intro c cs e
        cases fp with
        | none => cases e; exact hmd.1
        | some f => cases e; decide
      have e2 : (fracSplit (fracText fp ++ m :: ds)).2 = m :: ds := by
        cases fp with
        | none =>
          show (fracSplit (m :: ds)).2 = _
          rcases hm with rfl | rfl <;> rfl
        | some f =>
          show (f ++ m :: ds).dropWhile isDigit = _
          exact dropWhile_stop _ _ h.hfp (by intro c cs e; cases e; exact hmd.1)
      unfold numParse numBuild at hq
      rw [e1, e2] at hq
      have e3 : expParse (m :: ds) = none := by simp [expParse, hmd.2.2.1, hmd.2.2.2]
      rw [e3] at hq
      split at hq <;> cases hq
  rw [h1]
  have h2 : ∀ c cs, ip ++ fracText fp ++ m :: ds = c :: cs → lowerC c ≠ 'i' ∧ lowerC c ≠ 'n' := by
    intro c cs e
    have hc : isDigit c = true ∨ c = '.' := by
      cases hb : ip ++ fracText fp with
      | nil => exact absurd hb h.body_ne
      | cons d t =>
        rw [hb] at e
        cases e
        exact h.body_mem (by rw [hb]; simp)
    rcases hc with hc | rfl
    · rw [digit_lower hc]
      constructor <;> (rintro rfl; exact absurd hc (by decide))
    · decide
  show floatSpecial _ _ = none
  cases ht : ip ++ fracText fp ++ m :: ds with
  | nil => rfl
  | cons c cs =>
    obtain ⟨a, b⟩ := h2 c cs ht
    simp [floatSpecial, lower, a, b]

/-- **C103 is violated** for the numbers of MCNP whose exponent has three digits (`1.0000-101`, `2.5+100`): the letter of the exponent is
left out then, and one such number anywhere in the file makes `ValueError` of the tables, exports and plots of all its tallies. -/
theorem C103_violated (f : Outp.File) (p : TallyKind × Tally) (hp : p ∈ talliesOf f.blocks) (x : Sub) (hx : x ∈ p.2.subs) (l : TLine) (hl : l ∈ x.lines)
    (n : Spelling) (hn : n.Ok) (h0 : n.exp = none) (m : Char) (hm : m = '-' ∨ m = '+') (ds : Str) (hd : ∀ c ∈ ds, '0' ≤ c ∧ c ≤ '9')
    (hs : n.text ++ m :: ds ∈ [l.bucket, l.count, l.error]) :
    tables f.blocks [] = .error .value ∧ (∀ n, Plot.toShow f n = .error .value) ∧
      ∀ conv n path w, Cli.toCsv conv f n path w = (.error .value, w) := by
  refine C103_spoilt f p hp x hx l hl _ hs ?_
  rw [text_eq, h0]
  simpa [expTail] using bare_none n.sign n.whole n.part (ok_mant hn) m hm ds fun c hc => (isDigit_iff c).2 (hd c hc)

/-- Such a file can be read: the one of C44 with one number more. -/
example : ∃ f p x l, outpParse f.str = .ok f ∧ p ∈ talliesOf f.blocks ∧ x ∈ p.2.subs ∧ l ∈ x.lines ∧ l.count = c!"1.50000-101" ∧
    (talliesOf f.blocks).length = 2 := by
  let l : TLine := ⟨c!"3.0000E-02", c!"1.50000-101", c!"0.0101"⟩
  let x : Sub := ⟨[c!"4", [], c!"1.50000E-03 0.0101"], exLines ++ [l]⟩
  let t : Tally := ⟨exHead ++ [c!"4", c!"1.0E+00", []] ++ exStats ++ exEnd, [x]⟩
  refine ⟨⟨exOutpHeader, [.tally .t4 t, .tally .t2 exTally2]⟩, (.t4, t), x, l, ?_⟩
  decide +kernel

end Props
