import Verif.Types.Scalar
import Verif.Types.NumberLemmas
/-! Helper lemmas for the scalar types. -/
namespace Types
open Py

theorem digits_unique {w r ds t : Str} (hw : Digits w) (hd : Digits ds)
    (hr : ∀ c cs, r = c :: cs → isDigit c = false) (ht : ∀ c cs, t = c :: cs → isDigit c = false)
    (e : w ++ r = ds ++ t) : w = ds ∧ r = t := by
  have h1 := takeWhile_stop (p := isDigit) w r hw hr
  have h2 := takeWhile_stop (p := isDigit) ds t hd ht
  have : w = ds := by rw [← h1, e, h2]
  subst this
  exact ⟨rfl, List.append_cancel_left e⟩

/-- A single-character separator that occurs once splits a text in one way. -/
theorem sep_unique {x : Char} {a b a' b' : Str} (h : a ++ x :: b = a' ++ x :: b')
    (ha : x ∉ a) (hb : x ∉ b) : a = a' ∧ b = b' := by
  induction a generalizing a' with
  | nil =>
    cases a' with
    | nil => simp at h; exact ⟨rfl, h⟩
    | cons y a' =>
      simp only [List.nil_append, List.cons_append, List.cons.injEq] at h
      exact absurd (h.2 ▸ (by simp : x ∈ a' ++ x :: b')) hb
  | cons y a ih =>
    cases a' with
    | nil =>
      simp only [List.nil_append, List.cons_append, List.cons.injEq] at h
      exact absurd (by rw [h.1]; simp) ha
    | cons z a' =>
      simp only [List.cons_append, List.cons.injEq] at h
      have := ih h.2 (fun hx => ha (by simp [hx]))
      exact ⟨by rw [h.1, this.1], this.2⟩

theorem step_digit {s t : St} (h : Step .digit s t) :
    ∃ c cs, isDigit c = true ∧ s.rest = c :: cs ∧ t = ⟨c :: s.prev, cs, s.caps⟩ := step_cls.1 h

/-- What a three-digit group consumes. -/
theorem step_ddd {s t : St} (h : Step (.seq .digit (.seq .digit .digit)) s t) :
    ∃ w r, w.length = 3 ∧ Digits w ∧ s.rest = w ++ r ∧ t = s.adv w r := by
  obtain ⟨m, h1, h⟩ := step_seq.1 h
  obtain ⟨m', h2, h3⟩ := step_seq.1 h
  obtain ⟨c1, r1, d1, e1, rfl⟩ := step_digit h1
  obtain ⟨c2, r2, d2, e2, rfl⟩ := step_digit h2
  obtain ⟨c3, r3, d3, e3, rfl⟩ := step_digit h3
  simp only at e2 e3
  refine ⟨[c1, c2, c3], r3, rfl, ?_, by rw [e1, e2, e3]; rfl, by simp [St.adv]⟩
  intro c hc
  simp at hc
  rcases hc with rfl | rfl | rfl <;> assumption

theorem step_d13 {s t : St} (h : Step d13 s t) :
    ∃ w r, 1 ≤ w.length ∧ w.length ≤ 3 ∧ Digits w ∧ s.rest = w ++ r ∧ t = s.adv w r := by
  obtain ⟨m, h1, h⟩ := step_seq.1 h
  obtain ⟨c1, r1, d1, e1, rfl⟩ := step_digit h1
  rcases step_opt.1 h with rfl | h
  · refine ⟨[c1], r1, by simp, by simp, ?_, by rw [e1]; rfl, by simp [St.adv]⟩
    intro c hc; simp at hc; subst hc; exact d1
  · obtain ⟨m, h2, h⟩ := step_seq.1 h
    obtain ⟨c2, r2, d2, e2, rfl⟩ := step_digit h2
    simp only at e2
    rcases step_opt.1 h with rfl | h3
    · refine ⟨[c1, c2], r2, by simp, by simp, ?_, by rw [e1, e2]; rfl, by simp [St.adv]⟩
      intro c hc; simp at hc; rcases hc with rfl | rfl <;> assumption
    · obtain ⟨c3, r3, d3, e3, rfl⟩ := step_digit h3
      simp only at e3
      refine ⟨[c1, c2, c3], r3, by simp, by simp, ?_, by rw [e1, e2, e3]; rfl, by simp [St.adv]⟩
      intro c hc; simp at hc; rcases hc with rfl | rfl | rfl <;> assumption

/-- Text of an optional library suffix. -/
def abxText : Option Str → Str
  | none => []
  | some t => '.' :: t

/-- Everything the ZAID pattern can match. -/
theorem zaid_match {s : Str} {m} (h : reMatch zaidRe s = some m) :
    ∃ w1 w2 abx, 1 ≤ w1.length ∧ w1.length ≤ 3 ∧ w2.length = 3 ∧ Digits w1 ∧ Digits w2 ∧
      (∀ t, abx = some t → t ≠ [] ∧ NoSpace t) ∧ s = w1 ++ w2 ++ abxText abx ∧
      cap m 1 = some w1 ∧ cap m 2 = some w2 ∧ cap m 3 = abx := by
  obtain ⟨st', hs, rfl⟩ := reMatch_some h
  unfold zaidRe at hs
  obtain ⟨m1, h1, hs⟩ := step_seq.1 hs
  obtain ⟨rfl, _⟩ := step_bos.1 h1
  obtain ⟨m2, h2, hs⟩ := step_seq.1 hs
  obtain ⟨m2', h2', rfl⟩ := step_grp.1 h2
  obtain ⟨w1, r1, l1, l1', dw1, e1, rfl⟩ := step_d13 h2'
  obtain ⟨m3, h3, hs⟩ := step_seq.1 hs
  obtain ⟨m3', h3', rfl⟩ := step_grp.1 h3
  obtain ⟨w2, r2, l2, dw2, e2, rfl⟩ := step_ddd h3'
  obtain ⟨m4, h4, hs⟩ := step_seq.1 hs
  obtain ⟨rfl, he⟩ := step_eos.1 hs
  simp only [St.adv_rest] at e1 e2
  subst e1 e2
  simp only [St.adv_rest, take_consumed] at h4
  rcases step_opt.1 h4 with rfl | h4
  · simp only [St.adv_rest] at he
    subst he
    refine ⟨w1, w2, none, l1, l1', l2, dw1, dw2, by simp, by simp [abxText], ?_, ?_, ?_⟩
    all_goals simp [cap, List.lookup, St.adv]
  · obtain ⟨m5, h5, h6⟩ := step_seq.1 h4
    obtain ⟨c, cs, hc, ec, rfl⟩ := step_cls.1 h5
    obtain ⟨m6, h6', rfl⟩ := step_grp.1 h6
    obtain ⟨w3, r3, hne, hw3, e3, rfl⟩ := step_plus_cls.1 h6'
    simp only [St.adv_rest] at he ec e3
    subst he
    subst e3
    have : c = '.' := by simpa using hc
    subst this
    refine ⟨w1, w2, some w3, l1, l1', l2, dw1, dw2, ?_, by rw [ec]; simp [abxText], ?_, ?_, ?_⟩
    · intro t ht; cases ht; exact ⟨hne, fun c hc => by simpa using hw3 c hc⟩
    all_goals simp [cap, List.lookup, St.adv]

theorem step_digit_mk {c : Char} (h : isDigit c = true) (prev cs caps) :
    Step .digit ⟨prev, c :: cs, caps⟩ ⟨c :: prev, cs, caps⟩ := step_cls.2 ⟨c, cs, h, rfl, rfl⟩

/-- The ZAID pattern matches digit texts of the right shape. -/
theorem zaid_matches (a b c x y z : Char) (abx : Option Str)
    (ha : isDigit a = true) (hb : isDigit b = true) (hc : isDigit c = true)
    (hx : isDigit x = true) (hy : isDigit y = true) (hz : isDigit z = true)
    (hab : ∀ t, abx = some t → t ≠ [] ∧ NoSpace t) :
    reMatch zaidRe ([a, b, c] ++ [x, y, z] ++ abxText abx) ≠ none := by
  intro hm
  have hn := (run_spec zaidRe _ _).1.1 hm
  cases abx with
  | none =>
    have := hn ⟨[z, y, x, c, b, a], [], [(2, [x, y, z]), (1, [a, b, c])]⟩ (by
      refine step_seq.2 ⟨_, step_bos.2 ⟨rfl, rfl⟩, ?_⟩
      refine step_seq.2 ⟨⟨[c, b, a], [x, y, z], [(1, [a, b, c])]⟩, step_grp.2 ⟨⟨[c, b, a], [x, y, z], []⟩, ?_, by simp [abxText]⟩, ?_⟩
      · exact step_seq.2 ⟨_, step_digit_mk ha _ _ _, step_opt.2 (.inr (step_seq.2 ⟨_, step_digit_mk hb _ _ _,
          step_opt.2 (.inr (step_digit_mk hc _ _ _))⟩))⟩
      refine step_seq.2 ⟨⟨[z, y, x, c, b, a], [], [(2, [x, y, z]), (1, [a, b, c])]⟩, step_grp.2 ⟨⟨[z, y, x, c, b, a], [], [(1, [a, b, c])]⟩, ?_, by simp⟩, ?_⟩
      · exact step_seq.2 ⟨_, step_digit_mk hx _ _ _, step_seq.2 ⟨_, step_digit_mk hy _ _ _, step_digit_mk hz _ _ _⟩⟩
      exact step_seq.2 ⟨_, step_opt.2 (.inl rfl), step_eos.2 ⟨rfl, rfl⟩⟩)
    cases this
  | some t =>
    obtain ⟨hne, hsp⟩ := hab t rfl
    have := hn ⟨t.reverse ++ ['.', z, y, x, c, b, a], [], [(3, t), (2, [x, y, z]), (1, [a, b, c])]⟩ (by
      refine step_seq.2 ⟨_, step_bos.2 ⟨rfl, rfl⟩, ?_⟩
      refine step_seq.2 ⟨⟨[c, b, a], [x, y, z] ++ '.' :: t, [(1, [a, b, c])]⟩, step_grp.2 ⟨⟨[c, b, a], [x, y, z] ++ '.' :: t, []⟩, ?_, by simp [abxText]⟩, ?_⟩
      · exact step_seq.2 ⟨_, step_digit_mk ha _ _ _, step_opt.2 (.inr (step_seq.2 ⟨_, step_digit_mk hb _ _ _,
          step_opt.2 (.inr (step_digit_mk hc _ _ _))⟩))⟩
      refine step_seq.2 ⟨⟨[z, y, x, c, b, a], '.' :: t, [(2, [x, y, z]), (1, [a, b, c])]⟩, step_grp.2 ⟨⟨[z, y, x, c, b, a], '.' :: t, [(1, [a, b, c])]⟩, ?_, by simp⟩, ?_⟩
      · exact step_seq.2 ⟨_, step_digit_mk hx _ _ _, step_seq.2 ⟨_, step_digit_mk hy _ _ _, step_digit_mk hz _ _ _⟩⟩
      refine step_seq.2 ⟨_, step_opt.2 (.inr (step_seq.2 ⟨_, step_cls.2 ⟨'.', t, by simp, rfl, rfl⟩,
        step_grp.2 ⟨_, step_plus_cls.2 ⟨t, [], hne, fun c hc => by simpa using hsp c hc, by simp, rfl⟩, rfl⟩⟩)), ?_⟩
      exact step_eos.2 ⟨by simp [St.adv], rfl⟩)
    cases this

theorem length3 (s : Str) (h : s.length = 3) : ∃ a b c, s = [a, b, c] := by
  match s, h with
  | [a, b, c], _ => exact ⟨a, b, c, rfl⟩

theorem zaid_text {w1 w2 : Str} {abx : Option Str} (l1 : w1.length = 3) (l2 : w2.length = 3)
    (d1 : Digits w1) (d2 : Digits w2) (hab : ∀ t, abx = some t → t ≠ [] ∧ NoSpace t) :
    ∃ m, reMatch zaidRe (w1 ++ w2 ++ abxText abx) = some m ∧ cap m 1 = some w1 ∧ cap m 2 = some w2 ∧ cap m 3 = abx := by
  cases hm : reMatch zaidRe (w1 ++ w2 ++ abxText abx) with
  | none =>
    exfalso
    obtain ⟨a, b, c, rfl⟩ := length3 w1 l1
    obtain ⟨x, y, z, rfl⟩ := length3 w2 l2
    exact zaid_matches a b c x y z abx (d1 _ (by simp)) (d1 _ (by simp)) (d1 _ (by simp))
      (d2 _ (by simp)) (d2 _ (by simp)) (d2 _ (by simp)) hab hm
  | some m =>
    refine ⟨m, rfl, ?_⟩
    obtain ⟨v1, v2, abx', h1, h2, h3, hd1, hd2, hab', e, c1, c2, c3⟩ := zaid_match hm
    have hs : ∀ (o : Option Str) c cs, abxText o = c :: cs → isDigit c = false := by
      intro o c cs h
      cases o with
      | none => cases h
      | some t => cases h; decide
    have happ : ∀ a b : Str, Digits a → Digits b → Digits (a ++ b) := by
      intro a b ha hb c hc
      rcases List.mem_append.1 hc with hc | hc
      · exact ha c hc
      · exact hb c hc
    obtain ⟨e1, e2⟩ := digits_unique (happ _ _ d1 d2) (happ _ _ hd1 hd2) (hs abx) (hs abx') e
    have hl := congrArg List.length e1
    simp only [List.length_append] at hl
    obtain ⟨rfl, rfl⟩ := List.append_inj e1 (by omega)
    have : abx = abx' := by
      cases abx <;> cases abx' <;> simp_all [abxText]
    subst this
    exact ⟨c1, c2, c3⟩

theorem zfill3 (n : Nat) (h : n < 1000) : (zfill 3 (natStr n)).length = 3 ∧ Digits (zfill 3 (natStr n)) ∧
    strNat (zfill 3 (natStr n)) = n := by
  refine ⟨?_, zfill_digits (natStr_digits n), by rw [strNat_zfill, strNat_natStr]⟩
  rw [zfill_length]
  have := natStr_length_le n 3 (by omega) h
  omega

/-- Digits are no longer than their length allows. -/
theorem strNat_le_999 {w : Str} (hd : Digits w) (hl : w.length ≤ 3) : strNat w ≤ 999 := by
  have h1 := strNat_lt_pow w hd
  have : 10 ^ w.length ≤ 10 ^ 3 := Nat.pow_le_pow_right (by omega) hl
  omega

/-! ### two non-blank texts around a separator -/

/-- Matching `\A(\S+)x(\S+)\Z` on `a x b` where `x` is in neither part. -/
theorem sepRe_match (x : Char) (a b : Str) (ha : NoSpace a) (hb : NoSpace b) (hna : a ≠ []) (hnb : b ≠ [])
    (hxa : x ∉ a) (hxb : x ∉ b) :
    ∃ m, reMatch (.seq .bos (.seq (.grp 1 (.plus true .nonspace)) (.seq (.chr x)
      (.seq (.grp 2 (.plus true .nonspace)) .eos)))) (a ++ x :: b) = some m ∧
      cap m 1 = some a ∧ cap m 2 = some b := by
  have hcls : ∀ {w : Str}, NoSpace w → ∀ c ∈ w, (fun c => !isSpace c) c = true := fun h c hc => by simpa using h c hc
  cases hm : reMatch _ (a ++ x :: b) with
  | none =>
    exfalso
    have := (run_spec _ _ _).1.1 hm ⟨b.reverse ++ x :: (a.reverse ++ []), [], [(2, b), (1, a)]⟩ (by
      refine step_seq.2 ⟨_, step_bos.2 ⟨rfl, rfl⟩, ?_⟩
      refine step_seq.2 ⟨⟨a.reverse ++ [], x :: b, [(1, a)]⟩, step_grp.2 ⟨_, step_plus_cls.2 ⟨a, x :: b, hna, hcls ha, rfl, rfl⟩, by simp [St.adv]⟩, ?_⟩
      refine step_seq.2 ⟨_, step_cls.2 ⟨x, b, by simp, rfl, rfl⟩, ?_⟩
      refine step_seq.2 ⟨_, step_grp.2 ⟨_, step_plus_cls.2 ⟨b, [], hnb, hcls hb, by simp, rfl⟩, rfl⟩, ?_⟩
      exact step_eos.2 ⟨by simp [St.adv], rfl⟩)
    cases this
  | some m =>
    refine ⟨m, rfl, ?_⟩
    obtain ⟨st', hs, rfl⟩ := reMatch_some hm
    obtain ⟨m1, h1, hs⟩ := step_seq.1 hs
    obtain ⟨rfl, _⟩ := step_bos.1 h1
    obtain ⟨m2, h2, hs⟩ := step_seq.1 hs
    obtain ⟨m2', h2', rfl⟩ := step_grp.1 h2
    obtain ⟨w1, r1, _, _, e1, rfl⟩ := step_plus_cls.1 h2'
    obtain ⟨m3, h3, hs⟩ := step_seq.1 hs
    obtain ⟨c, cs, hc, ec, rfl⟩ := step_cls.1 h3
    obtain ⟨m4, h4, hs⟩ := step_seq.1 hs
    obtain ⟨m4', h4', rfl⟩ := step_grp.1 h4
    obtain ⟨w2, r2, _, _, e2, rfl⟩ := step_plus_cls.1 h4'
    obtain ⟨rfl, he⟩ := step_eos.1 hs
    simp only [St.adv_rest] at *
    subst he
    have : c = x := by simpa using hc
    subst this
    subst ec
    rw [List.append_nil] at e2
    subst e2
    obtain ⟨rfl, rfl⟩ := sep_unique e1 hxa hxb
    simp [cap, List.lookup, St.adv]

theorem intStr_chars (n : Int) : ∀ c ∈ intStr n, isDigit c = true ∨ c = '-' := by
  intro c hc
  cases n with
  | ofNat k => exact .inl (natStr_digits k c hc)
  | negSucc k =>
    rcases List.mem_cons.1 hc with rfl | hc
    · exact .inr rfl
    · exact .inl (natStr_digits _ c hc)

theorem intStr_noSpace (n : Int) : NoSpace (intStr n) := by
  intro c hc
  rcases intStr_chars n c hc with h | rfl
  · exact isDigit_not_space h
  · decide

theorem intStr_ne_nil (n : Int) : intStr n ≠ [] := by
  cases n with
  | ofNat k => exact natStr_ne_nil k
  | negSucc k => simp [intStr]

theorem Dec.str_chars (d : Dec) : ∀ c ∈ d.str, numCh c = true := by
  intro c hc
  rcases Dec.str_shape d with ⟨g, ip, fp, h, hs, _⟩ | ⟨g, ip, fp, n, ds, h, he, hs, _⟩
  · rw [hs] at hc; exact (h.mem hc).2
  · rw [hs] at hc
    rcases List.mem_append.1 hc with hc | hc
    · exact (h.mem hc).2
    · exact tail_numCh (.inr rfl) n he c hc

theorem Dec.str_ne_nil (d : Dec) : d.str ≠ [] := by
  rcases Dec.str_shape d with ⟨g, ip, fp, h, hs, _⟩ | ⟨g, ip, fp, n, ds, h, he, hs, _⟩
  · rw [hs]
    obtain ⟨c, cs, e, _⟩ := mant_head (g := g) h []
    rw [List.append_nil] at e; rw [e]; simp
  · rw [hs]; simp

end Types
