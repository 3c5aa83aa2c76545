import Verif.Types.Number
import Verif.Py.RegexStep
import Verif.Py.StrLemmas
/-! Helper lemmas for the number properties. -/
namespace Types
open Py

/-! ### Characters -/

theorem isDigit_iff' (c : Char) : isDigit c = true ↔ c ∈ "0123456789".toList := by
  constructor
  · intro h
    have h1 := digitChar_digitVal h
    have h2 := digitVal_lt h
    rw [← h1]
    revert h2
    generalize digitVal c = d
    intro h2
    revert d
    apply forall_lt_10 <;> decide
  · intro h
    simp at h
    rcases h with h | h | h | h | h | h | h | h | h | h <;> subst h <;> decide

theorem digit_ne {c x : Char} (h : isDigit c = true) (hx : isDigit x = false) : c ≠ x := by
  intro e; subst e; rw [h] at hx; cases hx

/-! ### Horizontal texts end in a letter -/

/-- Letters that can end a shorthand. -/
def hEnd (c : Char) : Bool :=
  lowerC c == 'r' || lowerC c == 'i' || lowerC c == 'm' || lowerC c == 'j' || lowerC c == 'g'

theorem step_litI_g_aux {s t : St} (h : Step (.alt (.litI "log") (.litI "ilog")) s t) :
    ∃ w c, lowerC c = 'g' ∧ s.rest = w ++ c :: t.rest := by
  simp only [Re.litI, Re.cat, List.map, Re.chrI] at h
  rw [step_alt] at h
  rcases h with h | h
  · simp only [show "log".toList = ['l','o','g'] from rfl, List.map, Re.cat, Re.chrI, step_seq, step_cls] at h
    obtain ⟨_, ⟨c1, cs1, _, e1, rfl⟩, _, ⟨c2, cs2, _, e2, rfl⟩, c3, cs3, h3, e3, rfl⟩ := h
    simp only at e2 e3
    refine ⟨[c1, c2], c3, ?_, ?_⟩
    · simpa [lowerC] using h3
    · rw [e1, e2, e3]; rfl
  · simp only [show "ilog".toList = ['i','l','o','g'] from rfl, List.map, Re.cat, Re.chrI, step_seq, step_cls] at h
    obtain ⟨_, ⟨c1, cs1, _, e1, rfl⟩, _, ⟨c2, cs2, _, e2, rfl⟩, _, ⟨c3, cs3, _, e3, rfl⟩, c4, cs4, h4, e4, rfl⟩ := h
    simp only at e2 e3 e4
    refine ⟨[c1, c2, c3], c4, ?_, ?_⟩
    · simpa [lowerC] using h4
    · rw [e1, e2, e3, e4]; rfl

/-- If `tail` always ends by consuming a character satisfying `p`, a match of
`(\d+)?tail\Z` forces the last character of the text to satisfy `p`. -/
theorem countRe_last {tail : Re} {p : Char → Prop} {s : Str}
    (ht : ∀ a b, Step tail a b → ∃ w c, p c ∧ a.rest = w ++ c :: b.rest)
    (m) (h : reMatch (countRe tail) s = some m) : ∃ w c, p c ∧ s = w ++ [c] := by
  obtain ⟨st', hs, _⟩ := reMatch_some h
  unfold countRe at hs
  rw [step_seq] at hs
  obtain ⟨m1, h1, hs⟩ := hs
  obtain ⟨rfl, _⟩ := step_bos.1 h1
  rw [step_seq] at hs
  obtain ⟨m2, h2, hs⟩ := hs
  have hpre : ∃ u, s = u ++ m2.rest := by
    rcases step_opt.1 h2 with h2 | h2
    · subst h2; exact ⟨[], rfl⟩
    · obtain ⟨m3, h3, rfl⟩ := step_grp.1 h2
      obtain ⟨w, r, _, _, hr, rfl⟩ := step_plus_cls.1 h3
      exact ⟨w, hr⟩
  rw [step_seq] at hs
  obtain ⟨m4, h4, hs⟩ := hs
  obtain ⟨rfl, he⟩ := step_eos.1 hs
  obtain ⟨w, c, hc, hw⟩ := ht _ _ h4
  obtain ⟨u, hu⟩ := hpre
  exact ⟨u ++ w, c, hc, by rw [hu, hw, he]; simp⟩

theorem chrI_last {x : Char} (a b : St) (h : Step (.chrI x) a b) :
    ∃ w c, lowerC c = lowerC x ∧ a.rest = w ++ c :: b.rest := by
  unfold Re.chrI at h
  obtain ⟨c, cs, hc, e, rfl⟩ := step_cls.1 h
  exact ⟨[], c, by simpa using hc, by simpa using e⟩

theorem mulRe_last {s : Str} (m) (h : reMatch mulRe s = some m) : ∃ w c, lowerC c = 'm' ∧ s = w ++ [c] := by
  obtain ⟨st', hs, _⟩ := reMatch_some h
  unfold mulRe at hs
  rw [step_seq] at hs
  obtain ⟨m1, h1, hs⟩ := hs
  obtain ⟨rfl, _⟩ := step_bos.1 h1
  rw [step_seq] at hs
  obtain ⟨m2, h2, hs⟩ := hs
  obtain ⟨m3, h3, rfl⟩ := step_grp.1 h2
  obtain ⟨w, r, _, _, hr, rfl⟩ := step_plus_cls.1 h3
  rw [step_seq] at hs
  obtain ⟨m4, h4, hs⟩ := hs
  obtain ⟨rfl, he⟩ := step_eos.1 hs
  obtain ⟨w', c, hc, hw⟩ := chrI_last _ _ h4
  simp only [St.adv_rest] at hw
  exact ⟨w ++ w', c, hc, by simp only at hr; rw [hr, hw, he]; simp⟩

/-- A text whose last character is not one of r i m j g (any case) is no shorthand. -/
theorem horizParse_reject (s : Str) (h : ∀ w c, s = w ++ [c] → hEnd c = false) :
    horizParse s = .error .types := by
  have key : ∀ (x : Char) (hx : ∀ c, lowerC c = lowerC x → hEnd c = true),
      reMatch (countRe (.chrI x)) s = none := by
    intro x hx
    cases hm : reMatch (countRe (.chrI x)) s with
    | none => rfl
    | some m =>
      obtain ⟨w, c, hc, hw⟩ := countRe_last (p := fun c => lowerC c = lowerC x) chrI_last m hm
      have := h w c hw
      rw [hx c hc] at this; cases this
  have k1 := key 'r' (by intro c hc; unfold hEnd; rw [hc]; decide)
  have k2 := key 'i' (by intro c hc; unfold hEnd; rw [hc]; decide)
  have k3 := key 'j' (by intro c hc; unfold hEnd; rw [hc]; decide)
  have k4 : reMatch mulRe s = none := by
    cases hm : reMatch mulRe s with
    | none => rfl
    | some m =>
      obtain ⟨w, c, hc, hw⟩ := mulRe_last m hm
      have := h w c hw
      unfold hEnd at this; rw [hc] at this; simp at this
  have k5 : reMatch logRe s = none := by
    cases hm : reMatch logRe s with
    | none => rfl
    | some m =>
      unfold logRe at hm
      obtain ⟨w, c, hc, hw⟩ := countRe_last (p := fun c => lowerC c = 'g') (by
        intro a b hab
        obtain ⟨m, hm, e⟩ := step_grp.1 hab
        obtain ⟨w, c, hc, hr⟩ := step_litI_g_aux hm
        exact ⟨w, c, hc, by rw [hr, e]⟩) m hm
      have := h w c hw
      unfold hEnd at this; rw [hc] at this; simp at this
  simp [horizParse, repParse, insParse, mulParse, jumpParse, logParse, orTypes, k1, k2, k3, k4, k5]

/-! ### The bare-exponent rewrite -/

/-- No sign directly follows a character of `[-+0-9.]`. -/
def NoBareSign (s : Str) : Prop :=
  ∀ a x y b, s = a ++ x :: y :: b → isMant x = true → isSign y = true → False

theorem bareExp_id (s : Str) (h : NoBareSign s) : reSub bareExpRe bareExpRepl s = s := by
  apply reSub_id
  intro pre c post st' hs hst
  unfold bareExpRe at hst
  rw [step_seq] at hst
  obtain ⟨m1, h1, hst⟩ := hst
  obtain ⟨m2, h2, rfl⟩ := step_grp.1 h1
  obtain ⟨w, r, hne, hw, hr, rfl⟩ := step_plus_cls.1 h2
  rw [step_seq] at hst
  obtain ⟨m3, h3, _⟩ := hst
  obtain ⟨m4, h4, rfl⟩ := step_grp.1 h3
  obtain ⟨y, ys, hy, hys, rfl⟩ := step_cls.1 h4
  simp only [St.adv_rest] at hys
  rcases List.eq_nil_or_concat w with h0 | ⟨u, x, rfl⟩
  · exact hne h0
  · rw [List.concat_eq_append] at *
    refine h (pre ++ u) x y ys ?_ (hw x (by simp)) hy
    simp only at hr
    rw [hs, hr, hys]; simp

theorem dsub_id (s : Str) (h : ∀ c ∈ s, c ≠ 'd' ∧ c ≠ 'D') :
    reSub (.cls (fun c => c == 'd' || c == 'D')) (fun _ _ => ['e']) s = s := by
  rw [reSub_cls]
  induction s with
  | nil => rfl
  | cons c cs ih =>
    have hc := h c (by simp)
    rw [List.flatMap_cons, ih (fun x hx => h x (by simp [hx]))]
    simp [hc.1, hc.2]

/-! ### Numerals -/

/-- Exponent part: letter (or none), sign (or none), digits. -/
def expPart (letter : Str) (sg : Str) (ds : Str) : Str := letter ++ sg ++ ds

theorem takeWhile_stop {p : Char → Bool} (w s : Str) (hw : ∀ c ∈ w, p c = true)
    (hs : ∀ c cs, s = c :: cs → p c = false) : (w ++ s).takeWhile p = w := by
  induction w with
  | nil =>
    cases s with
    | nil => rfl
    | cons c cs => simp [hs c cs rfl]
  | cons c cs ih => simp [hw c (by simp), ih (fun x hx => hw x (by simp [hx]))]

theorem dropWhile_stop {p : Char → Bool} (w s : Str) (hw : ∀ c ∈ w, p c = true)
    (hs : ∀ c cs, s = c :: cs → p c = false) : (w ++ s).dropWhile p = s := by
  induction w with
  | nil =>
    cases s with
    | nil => rfl
    | cons c cs => simp [hs c cs rfl]
  | cons c cs ih => simp [hw c (by simp), ih (fun x hx => hw x (by simp [hx]))]

/-- Fraction part of a numeral. -/
def fracText : Option Str → Str
  | none => []
  | some f => '.' :: f

def fracDigits : Option Str → Str
  | none => []
  | some f => f

theorem numParse_numeral (neg : Bool) (ip : Str) (fp : Option Str) (tail : Str) (e : Int)
    (hip : Digits ip) (hfp : Digits (fracDigits fp)) (hne : ip ≠ [] ∨ fracDigits fp ≠ [])
    (htail : ∀ c cs, tail = c :: cs → isDigit c = false ∧ c ≠ '.')
    (he : expParse tail = some e) :
    numParse neg (ip ++ fracText fp ++ tail) =
      some (.fin ⟨neg, strNat (ip ++ fracDigits fp), e - (fracDigits fp).length⟩) := by
  unfold numParse
  have hne' : ¬ (ip = [] ∧ fracDigits fp = []) := by
    rintro ⟨a, b⟩; rcases hne with h | h <;> contradiction
  have hb : ∀ n, n = fracDigits fp → numBuild neg ip n tail =
      some (.fin ⟨neg, strNat (ip ++ fracDigits fp), e - (fracDigits fp).length⟩) := by
    rintro n rfl
    unfold numBuild
    rw [if_neg hne', he]
  have htd : ∀ c cs, tail = c :: cs → isDigit c = false := fun c cs h => (htail c cs h).1
  cases fp with
  | none =>
    have e1 : ip ++ fracText none ++ tail = ip ++ tail := by simp [fracText]
    have e2 : fracSplit tail = ([], tail) := by
      unfold fracSplit
      split
      · rename_i t; exact absurd rfl (htail '.' t rfl).2
      · rfl
    rw [e1, takeWhile_stop ip tail hip htd, dropWhile_stop ip tail hip htd, e2]
    exact hb _ rfl
  | some f =>
    have e1 : ip ++ fracText (some f) ++ tail = ip ++ ('.' :: (f ++ tail)) := by simp [fracText]
    have hdot : ∀ c cs, '.' :: (f ++ tail) = c :: cs → isDigit c = false := by
      intro c cs h; cases h; decide
    have e2 : fracSplit ('.' :: (f ++ tail)) = (f, tail) := by
      show (List.takeWhile isDigit (f ++ tail), List.dropWhile isDigit (f ++ tail)) = _
      rw [takeWhile_stop f tail hfp htd, dropWhile_stop f tail hfp htd]
    rw [e1, takeWhile_stop ip _ hip hdot, dropWhile_stop ip _ hip hdot, e2]
    exact hb _ rfl

/-- Text of a signed numeral. -/
def signText (neg : Bool) : Str := if neg then ['-'] else []

theorem takeSign_numeral (neg : Bool) (t : Str) (h : ∀ c cs, t = c :: cs → isSign c = false) :
    takeSign (signText neg ++ t) = (neg, t) := by
  cases neg with
  | true => rfl
  | false =>
    simp only [signText]
    cases t with
    | nil => rfl
    | cons c cs =>
      have := h c cs rfl
      simp only [isSign, Bool.or_eq_false_iff, beq_eq_false_iff_ne] at this
      simp only [Bool.false_eq_true, if_false, List.nil_append]
      unfold takeSign
      split
      · rename_i heq; cases heq; exact absurd rfl this.1
      · rename_i heq; cases heq; exact absurd rfl this.2
      · rfl

theorem decParse_of_numParse (neg : Bool) (t : Str) (v : DecVal)
    (hsp : NoSpace (signText neg ++ t)) (hus : '_' ∉ t)
    (hsg : ∀ c cs, t = c :: cs → isSign c = false)
    (h : numParse neg t = some v) : decParse (signText neg ++ t) = some v := by
  unfold decParse
  rw [strip_noSpace _ hsp]
  have hf : (signText neg ++ t).filter (· ≠ '_') = signText neg ++ t := by
    rw [List.filter_eq_self]
    intro c hc
    simp only [decide_eq_true_eq]
    rcases List.mem_append.1 hc with hc | hc
    · cases neg <;> simp [signText] at hc; subst hc; decide
    · exact fun e => hus (e ▸ hc)
  simp only [hf, takeSign_numeral neg t hsg, h, Option.some_or]

/-! ### `expParse` -/

theorem expParse_signed (n : Bool) (ds : Str) (hd : Digits ds) (hne : ds ≠ []) (letter : Char)
    (hl : letter = 'e' ∨ letter = 'E') :
    expParse (letter :: (if n then '-' else '+') :: ds) =
      some (if n then -(strNat ds : Int) else (strNat ds : Int)) := by
  have hall : ds.all isDigit = true := List.all_eq_true.2 hd
  have h1 : takeSign ((if n then '-' else '+') :: ds) = (n, ds) := by cases n <;> rfl
  simp only [expParse, hl, if_true, h1, hall, and_true]
  simp [hne]

theorem expParse_unsigned (ds : Str) (hd : Digits ds) (hne : ds ≠ []) (letter : Char)
    (hl : letter = 'e' ∨ letter = 'E') :
    expParse (letter :: ds) = some (strNat ds : Int) := by
  have hall : ds.all isDigit = true := List.all_eq_true.2 hd
  have h1 : takeSign ds = (false, ds) := by
    have := takeSign_numeral false ds (by
      intro c cs h
      have hc : isDigit c = true := hd c (by rw [h]; simp)
      simp only [isSign, Bool.or_eq_false_iff, beq_eq_false_iff_ne]
      exact ⟨digit_ne hc (by decide), digit_ne hc (by decide)⟩)
    simpa [signText] using this
  simp only [expParse, hl, if_true, h1, hall, and_true]
  simp [hne]


/-! ### Characters of a numeral -/

/-- Characters a printed number is made of. -/
def numCh (c : Char) : Bool :=
  isDigit c || c == '.' || c == '-' || c == '+' || c == 'e' || c == 'E'

theorem numCh_cases {c : Char} (h : numCh c = true) :
    isDigit c = true ∨ c = '.' ∨ c = '-' ∨ c = '+' ∨ c = 'e' ∨ c = 'E' := by
  simpa [numCh, or_assoc] using h

/-- A decidable property of characters that holds of all characters of a numeral. -/
theorem numCh_all {q : Char → Bool} (hq : "0123456789.-+eE".toList.all q = true) {c : Char}
    (h : numCh c = true) : q c = true := by
  have hq' := List.all_eq_true.1 hq
  rcases numCh_cases h with h | h | h | h | h | h
  · rw [isDigit_iff'] at h
    exact hq' c (by simp at h ⊢; rcases h with h | h | h | h | h | h | h | h | h | h <;> simp [h])
  all_goals (subst h; exact hq' _ (by simp))

theorem numCh_digits {s : Str} (h : Digits s) : ∀ c ∈ s, numCh c = true := by
  intro c hc; simp [numCh, h c hc]

theorem numCh_hEnd {c : Char} (h : numCh c = true) : hEnd c = false := by
  have := numCh_all (q := fun c => !hEnd c) (by decide) h
  simpa using this

theorem numCh_space {c : Char} (h : numCh c = true) : isSpace c = false := by
  have := numCh_all (q := fun c => !isSpace c) (by decide) h
  simpa using this

theorem numCh_noD {c : Char} (h : numCh c = true) : c ≠ 'd' ∧ c ≠ 'D' := by
  have := numCh_all (q := fun c => !(c == 'd') && !(c == 'D')) (by decide) h
  simpa using this

theorem numCh_us {c : Char} (h : numCh c = true) : c ≠ '_' := by
  have := numCh_all (q := fun c => !(c == '_')) (by decide) h
  simpa using this

theorem digit_notSign {c : Char} (h : isDigit c = true) : isSign c = false := by
  simp only [isSign, Bool.or_eq_false_iff, beq_eq_false_iff_ne]
  exact ⟨digit_ne h (by decide), digit_ne h (by decide)⟩

/-- Adjacent-pair form of `NoBareSign`. -/
def chainOk : Str → Prop
  | x :: y :: r => (isMant x = true → isSign y = false) ∧ chainOk (y :: r)
  | _ => True

theorem chainOk.noBare {s : Str} (h : chainOk s) : NoBareSign s := by
  intro a
  induction a generalizing s with
  | nil =>
    intro x y b e hx hy
    subst e
    have := h.1 hx
    rw [hy] at this; cases this
  | cons z a ih =>
    intro x y b e hx hy
    subst e
    refine ih (s := a ++ x :: y :: b) ?_ x y b rfl hx hy
    cases a with
    | nil => exact h.2
    | cons w a => exact h.2

theorem chainOk_cons {c : Char} {s : Str} (h : ∀ y ∈ s, isSign y = false) : chainOk (c :: s) := by
  induction s generalizing c with
  | nil => exact trivial
  | cons y r ih => exact ⟨fun _ => h y (by simp), ih (fun z hz => h z (by simp [hz]))⟩

theorem chainOk_append {a b : Str} (ha : chainOk a) (hb : chainOk b)
    (hj : ∀ y r, b = y :: r → isSign y = false) : chainOk (a ++ b) := by
  induction a with
  | nil => exact hb
  | cons x a ih =>
    cases a with
    | nil =>
      cases b with
      | nil => exact trivial
      | cons y r => exact ⟨fun _ => hj y r rfl, hb⟩
    | cons z a => exact ⟨ha.1, ih ha.2⟩

/-! ### Spellings of a number -/

/-- Sign of the mantissa as written. -/
inductive Sg where | none | minus | plus
deriving DecidableEq, Repr

def Sg.text : Sg → Str
  | .none => []
  | .minus => ['-']
  | .plus => ['+']

def Sg.neg : Sg → Bool
  | .minus => true
  | _ => false

theorem takeSign_sg (g : Sg) (t : Str) (h : ∀ c cs, t = c :: cs → isSign c = false) :
    takeSign (g.text ++ t) = (g.neg, t) := by
  cases g with
  | none => simpa [Sg.text, Sg.neg, signText] using takeSign_numeral false t h
  | minus => rfl
  | plus => rfl

/-- Mantissa text: sign, integer digits, optional point and fraction digits. -/
def mantText (g : Sg) (ip : Str) (fp : Option Str) : Str := g.text ++ (ip ++ fracText fp)

/-- A mantissa has digits only, and at least one. -/
structure MantOk (ip : Str) (fp : Option Str) : Prop where
  hip : Digits ip
  hfp : Digits (fracDigits fp)
  hne : ip ≠ [] ∨ fracDigits fp ≠ []

theorem MantOk.body_ne {ip fp} (h : MantOk ip fp) : ip ++ fracText fp ≠ [] := by
  intro e
  rcases List.append_eq_nil_iff.1 e with ⟨h1, h2⟩
  rcases h.hne with h3 | h3
  · exact h3 h1
  · cases fp with
    | none => exact h3 rfl
    | some f => cases h2

theorem MantOk.body_mem {ip fp} (h : MantOk ip fp) {c : Char} (hc : c ∈ ip ++ fracText fp) :
    isDigit c = true ∨ c = '.' := by
  rcases List.mem_append.1 hc with hc | hc
  · exact .inl (h.hip c hc)
  · cases fp with
    | none => cases hc
    | some f =>
      rcases List.mem_cons.1 hc with rfl | hc
      · exact .inr rfl
      · exact .inl (h.hfp c hc)

theorem MantOk.body_notSign {ip fp} (h : MantOk ip fp) {c : Char} (hc : c ∈ ip ++ fracText fp) :
    isSign c = false := by
  rcases h.body_mem hc with h | rfl
  · exact digit_notSign h
  · decide

theorem MantOk.mem {g ip fp} (h : MantOk ip fp) {c : Char} (hc : c ∈ mantText g ip fp) :
    isMant c = true ∧ numCh c = true := by
  rcases List.mem_append.1 hc with hc | hc
  · cases g <;> simp [Sg.text] at hc <;> subst hc <;> decide
  · rcases h.body_mem hc with h | rfl
    · exact ⟨by simp [isMant, h], by simp [numCh, h]⟩
    · decide

theorem MantOk.chain {g ip fp} (h : MantOk ip fp) : chainOk (mantText g ip fp) := by
  cases hb : ip ++ fracText fp with
  | nil => exact absurd hb h.body_ne
  | cons c cs =>
    have hs : ∀ y ∈ c :: cs, isSign y = false := fun y hy => h.body_notSign (hb ▸ hy)
    unfold mantText
    rw [hb]
    cases g with
    | none => exact chainOk_cons (fun y hy => hs y (by simp [hy]))
    | minus => exact chainOk_cons hs
    | plus => exact chainOk_cons hs

/-- The decimal denoted by mantissa and exponent. -/
def mantDec (g : Sg) (ip : Str) (fp : Option Str) (e : Int) : Dec :=
  ⟨g.neg, strNat (ip ++ fracDigits fp), e - (fracDigits fp).length⟩

/-- `decimal.Decimal` reads mantissa + exponent part. -/
theorem decParse_mant (g ip fp) (tail : Str) (e : Int) (h : MantOk ip fp)
    (hch : ∀ c ∈ tail, numCh c = true)
    (htail : ∀ c cs, tail = c :: cs → isDigit c = false ∧ c ≠ '.')
    (he : expParse tail = some e) :
    decParse (mantText g ip fp ++ tail) = some (.fin (mantDec g ip fp e)) := by
  have hall : ∀ c ∈ mantText g ip fp ++ tail, numCh c = true := by
    intro c hc
    rcases List.mem_append.1 hc with hc | hc
    · exact (h.mem hc).2
    · exact hch c hc
  unfold decParse
  rw [strip_noSpace _ (fun c hc => numCh_space (hall c hc))]
  have hf : (mantText g ip fp ++ tail).filter (· ≠ '_') = mantText g ip fp ++ tail := by
    rw [List.filter_eq_self]
    intro c hc
    simpa using numCh_us (hall c hc)
  have hts : takeSign (mantText g ip fp ++ tail) = (g.neg, ip ++ fracText fp ++ tail) := by
    unfold mantText
    rw [List.append_assoc]
    apply takeSign_sg
    intro c cs hc
    cases hb : ip ++ fracText fp with
    | nil => exact absurd hb h.body_ne
    | cons d ds =>
      rw [hb] at hc
      cases hc
      exact h.body_notSign (by rw [hb]; simp)
  simp only [hf, hts]
  rw [numParse_numeral g.neg ip fp tail e h.hip h.hfp h.hne htail he]
  rfl

/-- Texts whose exponent letter (if any) is `e`/`E`: no rewriting happens. -/
theorem realParse_of_numCh (s : Str) (d : DecVal) (hch : ∀ c ∈ s, numCh c = true) (hc : chainOk s)
    (hh : ∃ c cs, s = c :: cs ∧ c ≠ 'e') (hd : decParse s = some d) :
    realParse s = .ok (.num d) := by
  have h1 : horizParse s = .error .types :=
    horizParse_reject s (fun w c e => numCh_hEnd (hch c (by rw [e]; simp)))
  have h2 : numText s = .ok s := by
    unfold numText
    simp only [bareExp_id s hc.noBare, dsub_id s (fun c h => numCh_noD (hch c h))]
    obtain ⟨c, cs, rfl, hce⟩ := hh
    simp [hce]
  simp [realParse, h1, h2, hd]

theorem intParse_of_numCh (s : Str) (d : Dec) (hch : ∀ c ∈ s, numCh c = true) (hc : chainOk s)
    (hh : ∃ c cs, s = c :: cs ∧ c ≠ 'e') (hd : decParse s = some (.fin d)) :
    intParse s = .ok (.num d.trunc) := by
  have h1 : horizParse s = .error .types :=
    horizParse_reject s (fun w c e => numCh_hEnd (hch c (by rw [e]; simp)))
  have h2 : numText s = .ok s := by
    unfold numText
    simp only [bareExp_id s hc.noBare, dsub_id s (fun c h => numCh_noD (hch c h))]
    obtain ⟨c, cs, rfl, hce⟩ := hh
    simp [hce]
  simp [intParse, h1, h2, hd]

/-- Exponent digits. -/
structure ExpOk (ds : Str) : Prop where
  hd : Digits ds
  hne : ds ≠ []

/-- Exponent text: letter, sign character, digits. -/
def sgnChar (n : Bool) : Char := if n then '-' else '+'
def expVal (n : Bool) (ds : Str) : Int := if n then -(strNat ds : Int) else strNat ds

theorem mant_head {g ip fp} (h : MantOk ip fp) (t : Str) :
    ∃ c cs, mantText g ip fp ++ t = c :: cs ∧ c ≠ 'e' ∧ isMant c = true := by
  cases hb : mantText g ip fp with
  | nil =>
    exact absurd (List.append_eq_nil_iff.1 hb).2 h.body_ne
  | cons c cs =>
    have := (h.mem (g := g) (c := c) (by rw [hb]; simp)).1
    refine ⟨c, cs ++ t, rfl, ?_, this⟩
    rintro rfl; revert this; decide

theorem tail_numCh {letter : Char} (hl : letter = 'e' ∨ letter = 'E') (n : Bool) {ds : Str} (h : ExpOk ds) :
    ∀ c ∈ letter :: sgnChar n :: ds, numCh c = true := by
  intro c hc
  rcases List.mem_cons.1 hc with rfl | hc
  · rcases hl with rfl | rfl <;> decide
  · rcases List.mem_cons.1 hc with rfl | hc
    · cases n <;> decide
    · exact numCh_digits h.hd c hc

theorem chain_tail {letter : Char} (hl : letter = 'e' ∨ letter = 'E') (n : Bool) {ds : Str} (h : ExpOk ds) :
    chainOk (letter :: sgnChar n :: ds) := by
  refine ⟨?_, chainOk_cons (fun y hy => digit_notSign (h.hd y hy))⟩
  rcases hl with rfl | rfl <;> (intro hm; exact absurd hm (by decide))

theorem letter_head {letter : Char} (hl : letter = 'e' ∨ letter = 'E') :
    isDigit letter = false ∧ letter ≠ '.' ∧ isSign letter = false := by
  rcases hl with rfl | rfl <;> decide

/-- Scientific notation with `e`/`E` and a signed exponent. -/
theorem realParse_sci (g ip fp letter n ds) (h : MantOk ip fp) (hl : letter = 'e' ∨ letter = 'E') (he : ExpOk ds) :
    realParse (mantText g ip fp ++ letter :: sgnChar n :: ds)
      = .ok (.num (.fin (mantDec g ip fp (expVal n ds)))) := by
  have hh := letter_head hl
  have hh' : ∀ c cs, letter :: sgnChar n :: ds = c :: cs → isDigit c = false ∧ c ≠ '.' := by
    intro c cs hc; cases hc; exact ⟨hh.1, hh.2.1⟩
  apply realParse_of_numCh
  · intro c hc
    rcases List.mem_append.1 hc with hc | hc
    · exact (h.mem hc).2
    · exact tail_numCh hl n he c hc
  · exact chainOk_append h.chain (chain_tail hl n he) (by intro y r hy; cases hy; exact hh.2.2)
  · obtain ⟨c, cs, e, h1, _⟩ := mant_head (g := g) h (letter :: sgnChar n :: ds)
    exact ⟨c, cs, e, h1⟩
  · exact decParse_mant g ip fp _ _ h (tail_numCh hl n he) hh' (expParse_signed n ds he.hd he.hne letter hl)

/-- Plain notation. -/
theorem realParse_plain (g ip fp) (h : MantOk ip fp) :
    realParse (mantText g ip fp) = .ok (.num (.fin (mantDec g ip fp 0))) := by
  apply realParse_of_numCh
  · intro c hc; exact (h.mem hc).2
  · exact h.chain
  · obtain ⟨c, cs, e, h1, _⟩ := mant_head (g := g) h []
    exact ⟨c, cs, by simpa using e, h1⟩
  · have := decParse_mant g ip fp [] 0 h (by simp) (by simp) rfl
    simpa using this

theorem intParse_plain (g ip fp) (h : MantOk ip fp) :
    intParse (mantText g ip fp) = .ok (.num (mantDec g ip fp 0).trunc) := by
  apply intParse_of_numCh
  · intro c hc; exact (h.mem hc).2
  · exact h.chain
  · obtain ⟨c, cs, e, h1, _⟩ := mant_head (g := g) h []
    exact ⟨c, cs, by simpa using e, h1⟩
  · have := decParse_mant g ip fp [] 0 h (by simp) (by simp) rfl
    simpa using this

theorem intParse_sci (g ip fp letter n ds) (h : MantOk ip fp) (hl : letter = 'e' ∨ letter = 'E') (he : ExpOk ds) :
    intParse (mantText g ip fp ++ letter :: sgnChar n :: ds)
      = .ok (.num (mantDec g ip fp (expVal n ds)).trunc) := by
  have hh := letter_head hl
  have hh' : ∀ c cs, letter :: sgnChar n :: ds = c :: cs → isDigit c = false ∧ c ≠ '.' := by
    intro c cs hc; cases hc; exact ⟨hh.1, hh.2.1⟩
  apply intParse_of_numCh
  · intro c hc
    rcases List.mem_append.1 hc with hc | hc
    · exact (h.mem hc).2
    · exact tail_numCh hl n he c hc
  · exact chainOk_append h.chain (chain_tail hl n he) (by intro y r hy; cases hy; exact hh.2.2)
  · obtain ⟨c, cs, e, h1, _⟩ := mant_head (g := g) h (letter :: sgnChar n :: ds)
    exact ⟨c, cs, e, h1⟩
  · exact decParse_mant g ip fp _ _ h (tail_numCh hl n he) hh' (expParse_signed n ds he.hd he.hne letter hl)

/-! ### `str(Decimal)` is such a spelling -/

theorem expStr_eq (e : Int) : expStr e = sgnChar (decide (e < 0)) :: natStr e.natAbs := by
  unfold expStr intStr sgnChar
  cases e with
  | ofNat n =>
    have : ¬ ((n : Int) < 0) := by omega
    simp [this]
  | negSucc n => simp [Int.negSucc_lt_zero]

theorem expVal_expStr (e : Int) : expVal (decide (e < 0)) (natStr e.natAbs) = e := by
  unfold expVal
  rw [strNat_natStr]
  by_cases h : e < 0 <;> simp [h] <;> omega

theorem signText_sg (neg : Bool) : (if neg then ['-'] else [] : Str) = (if neg then Sg.minus else Sg.none).text := by
  cases neg <;> rfl

/-- Every printed finite decimal is a plain or a scientific spelling of itself. -/
theorem Dec.str_shape (d : Dec) :
    (∃ g ip fp, MantOk ip fp ∧ d.str = mantText g ip fp ∧ mantDec g ip fp 0 = d) ∨
    (∃ g ip fp n ds, MantOk ip fp ∧ ExpOk ds ∧ d.str = mantText g ip fp ++ 'E' :: sgnChar n :: ds ∧
      mantDec g ip fp (expVal n ds) = d) := by
  obtain ⟨neg, coeff, exp⟩ := d
  have hdig := natStr_digits coeff
  have hval := strNat_natStr coeff
  have hne := natStr_ne_nil coeff
  have hL : 0 < (natStr coeff).length := natStr_length_pos coeff
  have hg : ∀ b : Bool, (if b then Sg.minus else Sg.none).neg = b := by intro b; cases b <;> rfl
  unfold Dec.str
  simp only [signText_sg]
  generalize natStr coeff = ds at *
  have hsplit : ∀ k, Digits (ds.take k) ∧ Digits (ds.drop k) := fun k =>
    ⟨fun c hc => hdig c (List.mem_of_mem_take hc), fun c hc => hdig c (List.mem_of_mem_drop hc)⟩
  by_cases hA : exp ≤ 0 ∧ exp + (ds.length : Int) > -6
  · left
    simp only [hA, and_self, if_true]
    by_cases h0 : exp + (ds.length : Int) ≤ 0
    · refine ⟨if neg then Sg.minus else Sg.none, ['0'],
        some (List.replicate (-(exp + (ds.length : Int))).toNat '0' ++ ds), ⟨?_, ?_, .inl (by simp)⟩, ?_, ?_⟩
      · intro c hc; simp at hc; subst hc; decide
      · intro c hc
        rcases List.mem_append.1 hc with hc | hc
        · rw [List.eq_of_mem_replicate hc]; decide
        · exact hdig c hc
      · simp [h0, mantText, fracText]
      · simp only [mantDec, hg, fracDigits, Dec.mk.injEq, true_and]
        constructor
        · rw [show ['0'] ++ (List.replicate (-(exp + (ds.length : Int))).toNat '0' ++ ds)
            = List.replicate ((-(exp + (ds.length : Int))).toNat + 1) '0' ++ ds by
              simp [List.replicate_succ]]
          rw [strNat_replicate_zero, hval]
        · simp only [List.length_append, List.length_replicate]; omega
    · by_cases h1 : exp + (ds.length : Int) ≥ ds.length
      · have he : exp = 0 := by omega
        subst he
        refine ⟨if neg then Sg.minus else Sg.none, ds, none, ⟨hdig, (by intro c hc; cases hc), .inl hne⟩, ?_, ?_⟩
        · have h0' : ds.length ≠ 0 := by omega
          simp [mantText, fracText, hne]
        · simp [mantDec, hg, fracDigits, hval]
      · refine ⟨if neg then Sg.minus else Sg.none, ds.take (exp + (ds.length : Int)).toNat,
          some (ds.drop (exp + (ds.length : Int)).toNat), ⟨(hsplit _).1, (hsplit _).2, .inl ?_⟩, ?_, ?_⟩
        · intro e
          have := congrArg List.length e
          simp only [List.length_take, List.length_nil] at this
          omega
        · simp [mantText, fracText, h0, h1]
        · simp only [mantDec, hg, fracDigits, Dec.mk.injEq, true_and]
          constructor
          · rw [List.take_append_drop, hval]
          · simp only [List.length_drop]; omega
  · right
    simp only [hA, if_false]
    have hne1 : exp + (ds.length : Int) ≠ 1 := by omega
    have h10 : ¬ ((1 : Int) ≤ 0) := by omega
    simp only [h10, hne1, if_false, expStr_eq]
    by_cases h1 : (1 : Int) ≥ ds.length
    · have hl : ds.length = 1 := by omega
      refine ⟨if neg then Sg.minus else Sg.none, ds, none, decide (exp + (ds.length : Int) - 1 < 0), _, ⟨hdig, (by intro c hc; cases hc), .inl hne⟩,
        ⟨natStr_digits (exp + (ds.length : Int) - 1).natAbs, natStr_ne_nil _⟩, ?_, ?_⟩
      · simp [h1, mantText, fracText, hl]
      · simp only [mantDec, hg, fracDigits, expVal_expStr, Dec.mk.injEq, true_and]
        constructor
        · simp [hval]
        · simp only [List.length_nil]; omega
    · refine ⟨if neg then Sg.minus else Sg.none, ds.take 1, some (ds.drop 1), decide (exp + (ds.length : Int) - 1 < 0), _,
        ⟨(hsplit _).1, (hsplit _).2, .inl ?_⟩,
        ⟨natStr_digits (exp + (ds.length : Int) - 1).natAbs, natStr_ne_nil _⟩, ?_, ?_⟩
      · intro e
        have := congrArg List.length e
        simp only [List.length_take, List.length_nil] at this
        omega
      · simp [h1, mantText, fracText]
      · simp only [mantDec, hg, fracDigits, expVal_expStr, Dec.mk.injEq, true_and]
        constructor
        · rw [List.take_append_drop, hval]
        · simp only [List.length_drop]; omega


/-! ### Bare exponents -/

theorem lookup_hd (n : Nat) (v : Str) (l : List (Nat × Str)) : cap ((n, v) :: l) n = some v := by
  simp [cap, List.lookup]

theorem lookup_tl {n k : Nat} (v : Str) (l : List (Nat × Str)) (h : n ≠ k) :
    cap ((k, v) :: l) n = cap l n := by
  have : (n == k) = false := by simpa using h
  simp [cap, List.lookup, this]

/-- `M+ds` / `M-ds` is rewritten to `Me+ds` / `Me-ds`. -/
theorem bareExp_rewrite (c : Char) (M ds : Str) (n : Bool) (hM : ∀ x ∈ c :: M, isMant x = true) (he : ExpOk ds) :
    reSub bareExpRe bareExpRepl (c :: M ++ sgnChar n :: ds) = c :: M ++ 'e' :: sgnChar n :: ds := by
  have hs : isSign (sgnChar n) = true := by cases n <;> decide
  have hsm : isMant (sgnChar n) = true := by cases n <;> decide
  have hdm : ∀ x ∈ ds, isMant x = true := by
    intro x hx; simp [isMant, he.hd x hx]
  obtain ⟨d, ds', rfl⟩ : ∃ d ds', ds = d :: ds' := by
    cases ds with
    | nil => exact absurd rfl he.hne
    | cons d ds' => exact ⟨d, ds', rfl⟩
  have hmain : run bareExpRe ⟨[], c :: M ++ sgnChar n :: d :: ds', []⟩
      (fun st => if st.rest.length < (c :: M ++ sgnChar n :: d :: ds').length then some st else none)
      = some ⟨(ds'.reverse ++ [d]) ++ sgnChar n :: (M.reverse ++ [c]), [],
          [(3, d :: ds'), (2, [sgnChar n]), (1, c :: M)]⟩ := by
    unfold bareExpRe Re.plus
    simp only [run_seq, run_grp, List.cons_append, run_cls_cons, hM c (by simp), if_true]
    rw [show M ++ sgnChar n :: d :: ds' = M ++ ((sgnChar n :: d :: ds') ++ []) by simp]
    apply run_star_cls_greedy isMant M (sgnChar n :: d :: ds') [] [c] [] _ _
      (fun x hx => hM x (by simp [hx])) (by
        intro x hx
        rcases List.mem_cons.1 hx with rfl | hx
        · exact hsm
        · exact hdm x hx) (by simp)
    · simp only [List.append_nil, run_cls_cons, hs, if_true]
      simp only [he.hd d (by simp), if_true]
      have := run_star_cls_full isDigit ds' [] (d :: sgnChar n :: (M.reverse ++ [c]))
        [(2, [sgnChar n]), (1, c :: M)]
        (fun st' => if st'.rest.length < (c :: (M ++ sgnChar n :: d :: ds')).length then
          some ({ prev := st'.prev, rest := st'.rest, caps := (3, (d :: ds').take ((d :: ds').length - st'.rest.length)) :: st'.caps } : St)
          else none) ⟨(ds'.reverse ++ [d]) ++ sgnChar n :: (M.reverse ++ [c]), [],
          [(3, d :: ds'), (2, [sgnChar n]), (1, c :: M)]⟩
        (fun x hx => he.hd x (by simp [hx])) (by simp) (by simp)
      simp only [List.append_nil] at this
      have e1 : (c :: (M ++ sgnChar n :: d :: ds')).take
          ((c :: (M ++ sgnChar n :: d :: ds')).length - (sgnChar n :: d :: ds').length) = c :: M := by
        have := take_consumed (c :: M) (sgnChar n :: d :: ds')
        simpa using this
      have e2 : (sgnChar n :: d :: ds').take ((sgnChar n :: d :: ds').length - (d :: ds').length) = [sgnChar n] := by
        have := take_consumed [sgnChar n] (d :: ds')
        simpa using this
      simp only [e1, e2]
      exact this
    · intro a b ha hab
      cases a with
      | nil => exact absurd rfl ha
      | cons x a =>
        simp only [List.cons_append, List.cons.injEq] at hab
        simp only [List.append_nil]
        cases b with
        | nil => rfl
        | cons y b =>
          rw [run_cls_cons]
          have hy : isSign y = false := by
            apply digit_notSign
            apply he.hd
            rw [hab.2]; simp
          simp [hy]
  have := reSub_full bareExpRe bareExpRepl _ _ _ (by simp) hmain
  rw [this]
  simp [bareExpRepl, cap, List.lookup]

/-- `d`/`D` becomes `e`. -/
theorem dsub_letter (a b : Str) (c : Char) (ha : ∀ x ∈ a, numCh x = true) (hb : ∀ x ∈ b, numCh x = true)
    (hc : c = 'd' ∨ c = 'D') :
    reSub (.cls (fun c => c == 'd' || c == 'D')) (fun _ _ => ['e']) (a ++ c :: b) = a ++ 'e' :: b := by
  have hid : ∀ s : Str, (∀ x ∈ s, numCh x = true) →
      s.flatMap (fun c => if (c == 'd' || c == 'D') then (['e'] : Str) else [c]) = s := by
    intro s hs
    rw [← reSub_cls (fun c => c == 'd' || c == 'D') (fun _ _ => ['e'])]
    exact dsub_id s (fun c h => numCh_noD (hs c h))
  rw [reSub_cls]
  simp only [List.flatMap_append, List.flatMap_cons]
  rw [hid a ha, hid b hb]
  rcases hc with rfl | rfl <;> simp

/-- How an exponent may be spelled. -/
inductive ExpSpelling where | e | E | d | D | bare
deriving DecidableEq, Repr

def ExpSpelling.text : ExpSpelling → Str
  | .e => ['e']
  | .E => ['E']
  | .d => ['d']
  | .D => ['D']
  | .bare => []

theorem bareExp_other (letter : Char) (hl : letter = 'd' ∨ letter = 'D') (n : Bool) {g ip fp ds}
    (h : MantOk ip fp) (he : ExpOk ds) : chainOk (mantText g ip fp ++ letter :: sgnChar n :: ds) := by
  apply chainOk_append h.chain
  · refine ⟨?_, chainOk_cons (fun y hy => digit_notSign (he.hd y hy))⟩
    rcases hl with rfl | rfl <;> (intro hm; exact absurd hm (by decide))
  · intro y r hy; cases hy; rcases hl with rfl | rfl <;> decide

/-- Every exponent spelling is normalised to the `e`/`E` spelling. -/
theorem numText_spelling (sp : ExpSpelling) (g ip fp n ds) (h : MantOk ip fp) (he : ExpOk ds) :
    ∃ l, (l = 'e' ∨ l = 'E') ∧
      numText (mantText g ip fp ++ sp.text ++ sgnChar n :: ds) = .ok (mantText g ip fp ++ l :: sgnChar n :: ds) := by
  have hm : ∀ x ∈ mantText g ip fp, numCh x = true := fun x hx => (h.mem hx).2
  have hsd : ∀ x ∈ sgnChar n :: ds, numCh x = true := fun x hx =>
    tail_numCh (letter := 'e') (.inl rfl) n he x (by simp [hx])
  have fin : ∀ (l : Char) s, (l = 'e' ∨ l = 'E') →
      reSub (.cls (fun c => c == 'd' || c == 'D')) (fun _ _ => ['e']) (reSub bareExpRe bareExpRepl s)
        = mantText g ip fp ++ l :: sgnChar n :: ds →
      numText s = .ok (mantText g ip fp ++ l :: sgnChar n :: ds) := by
    intro l s hl hs
    unfold numText
    simp only [hs]
    obtain ⟨c, cs, e, h1, _⟩ := mant_head (g := g) h (l :: sgnChar n :: ds)
    rw [e]; simp [h1]
  have std : ∀ (l : Char), (l = 'e' ∨ l = 'E') →
      numText (mantText g ip fp ++ l :: sgnChar n :: ds) = .ok (mantText g ip fp ++ l :: sgnChar n :: ds) := by
    intro l hl
    apply fin l _ hl
    have hc : chainOk (mantText g ip fp ++ l :: sgnChar n :: ds) :=
      chainOk_append h.chain (chain_tail hl n he) (by intro y r hy; cases hy; exact (letter_head hl).2.2)
    rw [bareExp_id _ hc.noBare]
    apply dsub_id
    intro c hc
    apply numCh_noD
    rcases List.mem_append.1 hc with hc | hc
    · exact hm c hc
    · exact tail_numCh hl n he c hc
  cases sp with
  | e => exact ⟨'e', .inl rfl, by simpa [ExpSpelling.text] using std 'e' (.inl rfl)⟩
  | E => exact ⟨'E', .inr rfl, by simpa [ExpSpelling.text] using std 'E' (.inr rfl)⟩
  | d =>
    refine ⟨'e', .inl rfl, ?_⟩
    apply fin 'e' _ (.inl rfl)
    simp only [ExpSpelling.text, List.append_assoc, List.singleton_append]
    rw [bareExp_id _ (bareExp_other 'd' (.inl rfl) n h he).noBare]
    exact dsub_letter _ _ _ hm hsd (.inl rfl)
  | D =>
    refine ⟨'e', .inl rfl, ?_⟩
    apply fin 'e' _ (.inl rfl)
    simp only [ExpSpelling.text, List.append_assoc, List.singleton_append]
    rw [bareExp_id _ (bareExp_other 'D' (.inr rfl) n h he).noBare]
    exact dsub_letter _ _ _ hm hsd (.inr rfl)
  | bare =>
    refine ⟨'e', .inl rfl, ?_⟩
    apply fin 'e' _ (.inl rfl)
    simp only [ExpSpelling.text, List.append_nil]
    obtain ⟨c, cs, e, h1, _⟩ := mant_head (g := g) h []
    rw [List.append_nil] at e
    rw [e, bareExp_rewrite c cs ds n (by
      intro x hx; exact (h.mem (g := g) (by rw [e]; exact hx)).1) he, ← e]
    apply dsub_id
    intro x hx
    apply numCh_noD
    rcases List.mem_append.1 hx with hx | hx
    · exact hm x hx
    · exact tail_numCh (.inl rfl) n he x hx

theorem horiz_spelling (sp : ExpSpelling) (g ip fp n ds) (he : ExpOk ds) :
    horizParse (mantText g ip fp ++ sp.text ++ sgnChar n :: ds) = .error .types := by
  apply horizParse_reject
  intro w c e
  have hc : c ∈ ds := by
    have h1 : (mantText g ip fp ++ sp.text ++ sgnChar n :: ds).getLast? = some c := by rw [e]; simp
    have h2 : (mantText g ip fp ++ sp.text ++ sgnChar n :: ds).getLast? = ds.getLast? := by
      cases hds : ds with
      | nil => exact absurd hds he.hne
      | cons a b =>
        rw [List.getLast?_append, List.getLast?_cons_cons, List.getLast?_cons]; rfl
    rw [h2] at h1
    exact List.mem_of_getLast? h1
  exact numCh_hEnd (numCh_digits he.hd c hc)

theorem realParse_spelling (sp : ExpSpelling) (g ip fp n ds) (h : MantOk ip fp) (he : ExpOk ds) :
    realParse (mantText g ip fp ++ sp.text ++ sgnChar n :: ds)
      = .ok (.num (.fin (mantDec g ip fp (expVal n ds)))) := by
  obtain ⟨l, hl, hn⟩ := numText_spelling sp g ip fp n ds h he
  have hh := letter_head hl
  have hd := decParse_mant g ip fp _ _ h (tail_numCh hl n he)
    (by intro c cs hc; cases hc; exact ⟨hh.1, hh.2.1⟩) (expParse_signed n ds he.hd he.hne l hl)
  unfold realParse
  simp only [horiz_spelling sp g ip fp n ds he, hn]
  rw [hd]; rfl

theorem intParse_spelling (sp : ExpSpelling) (g ip fp n ds) (h : MantOk ip fp) (he : ExpOk ds) :
    intParse (mantText g ip fp ++ sp.text ++ sgnChar n :: ds)
      = .ok (.num (mantDec g ip fp (expVal n ds)).trunc) := by
  obtain ⟨l, hl, hn⟩ := numText_spelling sp g ip fp n ds h he
  have hh := letter_head hl
  have hd := decParse_mant g ip fp _ _ h (tail_numCh hl n he)
    (by intro c cs hc; cases hc; exact ⟨hh.1, hh.2.1⟩) (expParse_signed n ds he.hd he.hne l hl)
  unfold intParse
  simp only [horiz_spelling sp g ip fp n ds he, hn]
  rw [hd]; rfl

/-! ### Shorthands -/

theorem digits_prefix_unique {w r ds t : Str} (hw : Digits w) (hd : Digits ds)
    (hr : ∃ c cs, r = c :: cs ∧ isDigit c = false) (ht : ∃ c cs, t = c :: cs ∧ isDigit c = false)
    (e : w ++ r = ds ++ t) : w = ds ∧ r = t := by
  obtain ⟨c, cs, rfl, hc⟩ := hr
  obtain ⟨c', cs', rfl, hc'⟩ := ht
  have h1 := takeWhile_stop (p := isDigit) w (c :: cs) hw (by intro a b h; cases h; exact hc)
  have h2 := takeWhile_stop (p := isDigit) ds (c' :: cs') hd (by intro a b h; cases h; exact hc')
  have : w = ds := by rw [← h1, e, h2]
  subst this
  exact ⟨rfl, List.append_cancel_left e⟩

/-- Match result of `\A(\d+)?tail\Z` on `ds ++ t`. -/
theorem countRe_count {tail : Re} {ds t : Str} (hd : Digits ds)
    (ht : ∃ c cs, t = c :: cs ∧ isDigit c = false)
    (hstart : ∀ a b, Step tail a b → (∃ c cs, a.rest = c :: cs ∧ isDigit c = false) ∧ cap b.caps 1 = cap a.caps 1)
    (hmatch : ∀ prev caps, ∃ b, Step tail ⟨prev, t, caps⟩ b ∧ b.rest = []) :
    ∃ m, reMatch (countRe tail) (ds ++ t) = some m ∧
      countOf m = if ds = [] then none else some (strNat ds : Int) := by
  cases hm : reMatch (countRe tail) (ds ++ t) with
  | none =>
    exfalso
    have hnone := (run_spec (countRe tail) _ _).1.1 hm
    by_cases h0 : ds = []
    · subst h0
      obtain ⟨b, hb, hbr⟩ := hmatch [] []
      have := hnone b (by
        unfold countRe
        rw [step_seq]; refine ⟨_, step_bos.2 ⟨rfl, rfl⟩, ?_⟩
        rw [step_seq]; refine ⟨_, step_opt.2 (.inl rfl), ?_⟩
        rw [step_seq]; exact ⟨b, hb, step_eos.2 ⟨rfl, hbr⟩⟩)
      cases this
    · obtain ⟨b, hb, hbr⟩ := hmatch (ds.reverse ++ []) [(1, ds)]
      have := hnone b (by
        unfold countRe
        rw [step_seq]; refine ⟨_, step_bos.2 ⟨rfl, rfl⟩, ?_⟩
        rw [step_seq]
        refine ⟨⟨ds.reverse ++ [], t, [(1, ds)]⟩, step_opt.2 (.inr (step_grp.2
          ⟨_, step_plus_cls.2 ⟨ds, t, h0, hd, rfl, rfl⟩, ?_⟩)), ?_⟩
        · simp [St.adv]
        · rw [step_seq]; exact ⟨b, hb, step_eos.2 ⟨rfl, hbr⟩⟩)
      cases this
  | some m =>
    refine ⟨m, rfl, ?_⟩
    obtain ⟨st', hs, rfl⟩ := reMatch_some hm
    unfold countRe at hs
    rw [step_seq] at hs
    obtain ⟨m1, h1, hs⟩ := hs
    obtain ⟨rfl, _⟩ := step_bos.1 h1
    rw [step_seq] at hs
    obtain ⟨m2, h2, hs⟩ := hs
    rw [step_seq] at hs
    obtain ⟨m4, h4, hs⟩ := hs
    obtain ⟨rfl, he⟩ := step_eos.1 hs
    have ⟨hst, hcap⟩ := hstart _ _ h4
    unfold countOf
    rw [lookup_tl _ _ (by omega), hcap]
    rcases step_opt.1 h2 with h2 | h2
    · subst h2
      have : ds = [] := by
        cases ds with
        | nil => rfl
        | cons d ds =>
          obtain ⟨c, cs, e, hc⟩ := hst
          simp only [List.cons_append, List.cons.injEq] at e
          rw [← e.1, hd d (by simp)] at hc; cases hc
      simp [this, cap]
    · obtain ⟨m3, h3, rfl⟩ := step_grp.1 h2
      obtain ⟨w, r, hne, hw, hr, rfl⟩ := step_plus_cls.1 h3
      simp only [St.adv_rest] at hst hr ⊢
      obtain ⟨rfl, rfl⟩ := digits_prefix_unique (fun c hc => hw c hc) hd hst ht hr.symm
      rw [lookup_hd, take_consumed]

theorem chrI_start {x : Char} (hx : ∀ c, lowerC c = lowerC x → isDigit c = false) (a b : St)
    (h : Step (.chrI x) a b) :
    (∃ c cs, a.rest = c :: cs ∧ isDigit c = false) ∧ cap b.caps 1 = cap a.caps 1 := by
  unfold Re.chrI at h
  obtain ⟨c, cs, hc, e, rfl⟩ := step_cls.1 h
  exact ⟨⟨c, cs, e, hx c (by simpa using hc)⟩, rfl⟩

theorem letter_notDigit {x c : Char} (hx : ("0123456789".toList.all fun d => lowerC d != lowerC x) = true)
    (h : lowerC c = lowerC x) : isDigit c = false := by
  cases hd : isDigit c with
  | false => rfl
  | true =>
    have := List.all_eq_true.1 hx c ((isDigit_iff' c).1 hd)
    simp [h] at this

theorem chrI_count (x : Char) (ds : Str) (hd : Digits ds)
    (hx : ("0123456789".toList.all fun d => lowerC d != lowerC x) = true) :
    ∃ m, reMatch (countRe (.chrI x)) (ds ++ [x]) = some m ∧
      countOf m = if ds = [] then none else some (strNat ds : Int) := by
  refine countRe_count hd ⟨x, [], rfl, letter_notDigit hx rfl⟩ (chrI_start (fun c hc => letter_notDigit hx hc)) ?_
  intro prev caps
  exact ⟨_, step_cls.2 ⟨x, [], by simp, rfl, rfl⟩, rfl⟩

/-- A shorthand text with a wrong final letter is not matched. -/
theorem chrI_none (x y : Char) (w : Str) (h : lowerC y ≠ lowerC x) :
    reMatch (countRe (.chrI x)) (w ++ [y]) = none := by
  cases hm : reMatch (countRe (.chrI x)) (w ++ [y]) with
  | none => rfl
  | some m =>
    obtain ⟨w', c, hc, hw⟩ := countRe_last (p := fun c => lowerC c = lowerC x) chrI_last m hm
    have := (List.append_inj' hw rfl).2
    cases this
    exact absurd hc h

theorem mulRe_none (y : Char) (w : Str) (h : lowerC y ≠ 'm') : reMatch mulRe (w ++ [y]) = none := by
  cases hm : reMatch mulRe (w ++ [y]) with
  | none => rfl
  | some m =>
    obtain ⟨w', c, hc, hw⟩ := mulRe_last m hm
    have := (List.append_inj' hw rfl).2
    cases this
    exact absurd hc h

theorem mulRe_count (ds : Str) (hd : Digits ds) (hne : ds ≠ []) :
    ∃ m, reMatch mulRe (ds ++ ['m']) = some m ∧ cap m 1 = some ds := by
  cases hm : reMatch mulRe (ds ++ ['m']) with
  | none =>
    exfalso
    have := (run_spec mulRe _ _).1.1 hm ⟨'m' :: (ds.reverse ++ []), [], [(1, ds)]⟩ (by
      unfold mulRe
      rw [step_seq]; refine ⟨_, step_bos.2 ⟨rfl, rfl⟩, ?_⟩
      rw [step_seq]
      refine ⟨⟨ds.reverse ++ [], ['m'], [(1, ds)]⟩, step_grp.2
          ⟨_, step_plus_cls.2 ⟨ds, ['m'], hne, hd, rfl, rfl⟩, by simp [St.adv]⟩, ?_⟩
      rw [step_seq]
      exact ⟨_, step_cls.2 ⟨'m', [], by decide, rfl, rfl⟩, step_eos.2 ⟨rfl, rfl⟩⟩)
    cases this
  | some m =>
    refine ⟨m, rfl, ?_⟩
    obtain ⟨st', hs, rfl⟩ := reMatch_some hm
    unfold mulRe at hs
    rw [step_seq] at hs
    obtain ⟨m1, h1, hs⟩ := hs
    obtain ⟨rfl, _⟩ := step_bos.1 h1
    rw [step_seq] at hs
    obtain ⟨m2, h2, hs⟩ := hs
    rw [step_seq] at hs
    obtain ⟨m4, h4, hs⟩ := hs
    obtain ⟨rfl, he⟩ := step_eos.1 hs
    have ⟨hst, hcap⟩ := chrI_start (x := 'm') (fun c hc => letter_notDigit (x := 'm') (by decide) hc) _ _ h4
    rw [lookup_tl _ _ (by omega), hcap]
    obtain ⟨m3, h3, rfl⟩ := step_grp.1 h2
    obtain ⟨w, r, hne, hw, hr, rfl⟩ := step_plus_cls.1 h3
    simp only [St.adv_rest] at hst hr ⊢
    obtain ⟨rfl, rfl⟩ := digits_prefix_unique (fun c hc => hw c hc) hd hst ⟨'m', [], rfl, by decide⟩ hr.symm
    rw [lookup_hd, take_consumed]

theorem litI_step (s : Str) (prev caps) :
    ∃ b, Step (Re.cat (s.map Re.chrI)) ⟨prev, s, caps⟩ b ∧ b.rest = [] := by
  induction s generalizing prev with
  | nil => exact ⟨_, step_eps.2 rfl, rfl⟩
  | cons c cs ih =>
    cases cs with
    | nil => exact ⟨_, step_cls.2 ⟨c, [], by simp, rfl, rfl⟩, rfl⟩
    | cons d ds =>
      obtain ⟨b, hb, hr⟩ := ih (c :: prev)
      exact ⟨b, step_seq.2 ⟨_, step_cls.2 ⟨c, d :: ds, by simp, rfl, rfl⟩, hb⟩, hr⟩

theorem logRe_count (ds : Str) (hd : Digits ds) :
    ∃ m, reMatch logRe (ds ++ "log".toList) = some m ∧
      countOf m = if ds = [] then none else some (strNat ds : Int) := by
  unfold logRe
  refine countRe_count hd ⟨'l', ['o', 'g'], rfl, by decide⟩ ?_ ?_
  · intro a b h
    obtain ⟨m, hm, rfl⟩ := step_grp.1 h
    simp only
    rw [lookup_tl _ _ (by omega)]
    rw [step_alt] at hm
    rcases hm with hm | hm
    · simp only [Re.litI, show "log".toList = ['l','o','g'] from rfl, List.map, Re.cat, Re.chrI, step_seq, step_cls] at hm
      obtain ⟨_, ⟨c1, cs1, h1, e1, rfl⟩, _, ⟨c2, cs2, _, e2, rfl⟩, c3, cs3, h3, e3, rfl⟩ := hm
      exact ⟨⟨c1, cs1, e1, letter_notDigit (x := 'l') (by decide) (by simpa using h1)⟩, rfl⟩
    · simp only [Re.litI, show "ilog".toList = ['i','l','o','g'] from rfl, List.map, Re.cat, Re.chrI, step_seq, step_cls] at hm
      obtain ⟨_, ⟨c1, cs1, h1, e1, rfl⟩, _, ⟨c2, cs2, _, e2, rfl⟩, _, ⟨c3, cs3, _, e3, rfl⟩, c4, cs4, h4, e4, rfl⟩ := hm
      exact ⟨⟨c1, cs1, e1, letter_notDigit (x := 'i') (by decide) (by simpa using h1)⟩, rfl⟩
  · intro prev caps
    obtain ⟨b, hb, hr⟩ := litI_step "log".toList prev caps
    exact ⟨_, step_grp.2 ⟨b, step_alt.2 (.inl hb), rfl⟩, hr⟩

end Types
