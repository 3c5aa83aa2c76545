import Verif.Types.ScalarLemmas
import Verif.Props.Number
/-!
# Scalar type properties: C07 – C10, C51 – C53
-/
namespace Props
open Py Types

/-! ## C07 – ZAID -/

/-- For all z, a in 0..999 and every blank-free suffix (or none), printing and
parsing gives the nuclide back. -/
theorem C07_zaid_roundtrip (z a : Nat) (abx : Option Str) (hz : z ≤ 999) (ha : a ≤ 999)
    (hab : ∀ t, abx = some t → t ≠ [] ∧ NoSpace t) :
    mkZaid z a abx = .ok ⟨z, a, abx⟩ ∧ zaidParse (Zaid.str ⟨z, a, abx⟩) = .ok ⟨z, a, abx⟩ := by
  have hmk : mkZaid z a abx = .ok ⟨z, a, abx⟩ := by
    unfold mkZaid
    rw [if_neg (by omega), if_neg (by omega)]
    simp
  refine ⟨hmk, ?_⟩
  obtain ⟨l1, d1, v1⟩ := zfill3 z (by omega)
  obtain ⟨l2, d2, v2⟩ := zfill3 a (by omega)
  obtain ⟨m, hm, c1, c2, c3⟩ := zaid_text (abx := abx) l1 l2 d1 d2 hab
  have hs : Zaid.str ⟨z, a, abx⟩ = zfill 3 (natStr z) ++ zfill 3 (natStr a) ++ abxText abx := by
    cases abx with
    | none => simp [Zaid.str, abxText]
    | some t =>
      cases t with
      | nil => exact absurd rfl (hab [] rfl).1
      | cons c cs => simp [Zaid.str, abxText]
  unfold zaidParse
  rw [hs, hm]
  simp only [c1, c2, c3, v1, v2]
  exact hmk

example : Zaid.str ⟨1, 1, some "80c".toList⟩ = "001001.80c".toList ∧ NoSpace "80c".toList := by
  refine ⟨by decide, ?_⟩
  intro c hc; simp at hc; rcases hc with rfl | rfl | rfl <;> decide

/-- Any accepted text: the nuclide's numbers are in range, and printing the
nuclide gives a text that parses to the same nuclide. -/
theorem C07_zaid_stable (s : Str) (x : Zaid) (h : zaidParse s = .ok x) :
    x.z ≤ 999 ∧ x.a ≤ 999 ∧ zaidParse x.str = .ok x := by
  unfold zaidParse at h
  split at h
  · cases h
  · rename_i m hm
    obtain ⟨w1, w2, abx, l1, l1', l2, d1, d2, hab, _, c1, c2, c3⟩ := zaid_match hm
    simp only [c1, c2, c3] at h
    have h1 := strNat_le_999 d1 l1'
    have h2 := strNat_le_999 d2 (by omega)
    obtain ⟨e1, e2⟩ := C07_zaid_roundtrip (strNat w1) (strNat w2) abx h1 h2 hab
    rw [e1] at h
    cases h
    exact ⟨h1, h2, e2⟩

/-- `6012` is read as z = 6, a = 12: the last three digits are the mass number. -/
theorem C07_zaid_split (w1 w2 : Str) (h1 : 1 ≤ w1.length) (h1' : w1.length ≤ 3) (h2 : w2.length = 3)
    (x : Zaid) (h : zaidParse (w1 ++ w2) = .ok x) (hd : Digits (w1 ++ w2)) :
    x.z = strNat w1 ∧ x.a = strNat w2 ∧ x.abx = none := by
  unfold zaidParse at h
  split at h
  · cases h
  · rename_i m hm
    obtain ⟨v1, v2, abx, l1, l1', l2, d1, d2, hab, e, c1, c2, c3⟩ := zaid_match hm
    have : abx = none := by
      cases abx with
      | none => rfl
      | some t =>
        have hmem : '.' ∈ w1 ++ w2 := by rw [e]; simp [abxText]
        exact absurd (hd _ hmem) (by decide)
    subst this
    simp only [abxText, List.append_nil] at e
    have hl := congrArg List.length e
    simp only [List.length_append] at hl
    obtain ⟨rfl, rfl⟩ := List.append_inj e (by omega)
    simp only [c1, c2, c3] at h
    unfold mkZaid at h
    split at h
    · cases h
    · split at h
      · cases h
      · cases h; simp

example : zaidParse "6012".toList = .ok ⟨6, 12, none⟩ := by decide +kernel

/-! ## C08 – distributions -/

/-- Round trip, one-digit numbers only. -/
theorem C08_distribution_roundtrip_partial (n : Nat) (h : n ≤ 9) : distParse (distStr n) = .ok n := by
  have : ∀ n : Fin 10, distParse (distStr n.1) = .ok n.1 := by decide +kernel
  exact this ⟨n, by omega⟩

example : distStr 7 = "d7".toList := by decide

/-- What the parser does with every text starting `d<digit>`: only the first
digit counts, whatever follows. -/
theorem C08_distribution_first_digit (x c : Char) (rest : Str) (hx : x = 'd' ∨ x = 'D') (hc : isDigit c = true) :
    distParse (x :: c :: rest) = .ok (digitVal c) := by
  have hm : reMatch distRe (x :: c :: rest) =
      some [(0, (x :: c :: rest).take ((x :: c :: rest).length - rest.length)), (1, [c])] := by
    have hx' : (x == 'd' || x == 'D') = true := by rcases hx with rfl | rfl <;> decide
    have hl : (c :: rest).length - rest.length = 1 := by simp
    unfold reMatch distRe
    simp only [run_alt, run_seq, run_bos, if_true, run_cls_cons, hx', run_grp, Re.digit, hc]
    rw [hl]
    rfl
  have hall : ∀ d : Fin 10, (match intParse [digitChar d.1] with
      | .ok (.num n) => mkDist n
      | .ok (.hor _) => .error .typeErr
      | .error e => .error e) = .ok d.1 := by decide +kernel
  unfold distParse
  rw [hm]
  simp only
  have hcap : cap [(0, (x :: c :: rest).take ((x :: c :: rest).length - rest.length)), (1, [c])] 1 = some [c] := by
    simp [cap, List.lookup]
  rw [hcap]
  have := hall ⟨digitVal c, digitVal_lt hc⟩
  simp only [digitChar_digitVal hc] at this
  exact this

example : ('d' = 'd' ∨ 'd' = 'D') ∧ isDigit '4' = true := by decide

/-- Hence the claim fails for every number from 10 to 999: the reference is
silently changed to another distribution. -/
theorem C08_violated (n : Nat) (h : 10 ≤ n) (h' : n ≤ 999) : ∃ k, distParse (distStr n) = .ok k ∧ k ≠ n := by
  cases hs : natStr n with
  | nil => exact absurd hs (natStr_ne_nil n)
  | cons c cs =>
    have hc : isDigit c = true := natStr_digits n c (by rw [hs]; simp)
    refine ⟨digitVal c, ?_, ?_⟩
    · unfold distStr
      rw [hs]
      exact C08_distribution_first_digit 'd' c cs (.inl rfl) hc
    · have := digitVal_lt hc
      omega

/-- And trailing garbage is accepted. -/
theorem C08_violated_garbage : distParse "d1garbage".toList = .ok 1 := by decide +kernel

/-! ## C09 – ranges -/

theorem mkDist_range {n : Int} {k : Nat} (h : mkDist n = .ok k) : k ≤ 999 := by
  unfold mkDist at h
  split at h
  · cases h; omega
  · cases h

theorem mkZaid_range {z a : Int} {abx} {x : Zaid} (h : mkZaid z a abx = .ok x) :
    x.z ≤ 999 ∧ x.a ≤ 999 ∧ (x.z : Int) = z ∧ (x.a : Int) = a := by
  unfold mkZaid at h
  split at h
  · cases h
  · split at h
    · cases h
    · cases h; refine ⟨?_, ?_, ?_, ?_⟩ <;> simp <;> omega

/-- Ranges hold for every constructor argument and for every text. -/
theorem C09_ranges :
    (∀ z a abx x, mkZaid z a abx = .ok x → x.z ≤ 999 ∧ x.a ≤ 999) ∧
    (∀ s x, zaidParse s = .ok x → x.z ≤ 999 ∧ x.a ≤ 999) ∧
    (∀ n k, mkDist n = .ok k → k ≤ 999) ∧
    (∀ s k, distParse s = .ok k → k ≤ 999) ∧
    (∀ n h, mkRep n = .ok h ∨ mkIns n = .ok h ∨ mkJump n = .ok h ∨ mkLog n = .ok h → ∀ k, n = some k → 0 ≤ k) ∧
    (∀ x h, mkMul x = .ok h → x ≠ 0) ∧
    (∀ s h, horizParse s = .ok h → match h with
      | .rep n | .ins n | .jump n | .log n => ∀ k, n = some k → 0 ≤ k
      | .mul x => 0 < x) := by
  refine ⟨?_, ?_, ?_, ?_, ?_, ?_, ?_⟩
  · intro z a abx x h; have := mkZaid_range h; exact ⟨this.1, this.2.1⟩
  · intro s x h; have := C07_zaid_stable s x h; exact ⟨this.1, this.2.1⟩
  · intro n k h; exact mkDist_range h
  · intro s k h
    unfold distParse at h
    split at h
    · cases h
    · split at h
      · split at h
        · exact mkDist_range h
        · cases h
        · cases h
      · exact mkDist_range h
  · intro n h hh k hk
    subst hk
    have hc : countOk (some k) = true := by
      unfold mkRep mkIns mkJump mkLog at hh
      cases hk : countOk (some k) with
      | true => rfl
      | false => simp [hk] at hh
    simpa [countOk] using hc
  · intro x h hh
    unfold mkMul at hh
    split at hh
    · cases hh
    · assumption
  · intro s h hh
    have := horizParse_range s h hh
    cases h with
    | mul x => exact this
    | rep n => intro k hk; subst hk; simpa [countOk] using this
    | ins n => intro k hk; subst hk; simpa [countOk] using this
    | jump n => intro k hk; subst hk; simpa [countOk] using this
    | log n => intro k hk; subst hk; simpa [countOk] using this

/-- The constructors accept exactly the values inside the documented ranges, and keep them. -/
theorem C09_accepts :
    (∀ (z a : Int) abx, mkZaid z a abx =
      if 0 ≤ z ∧ z ≤ 999 ∧ 0 ≤ a ∧ a ≤ 999 then .ok ⟨z.toNat, a.toNat, abx⟩ else .error .types) ∧
    (∀ n : Int, (0 ≤ n ∧ n ≤ 999 → mkDist n = .ok n.toNat) ∧ (¬ (0 ≤ n ∧ n ≤ 999) → mkDist n = .error .types)) ∧
    (∀ n : Option Int, (∀ k ∈ n, 0 ≤ k) → mkRep n = .ok (.rep n) ∧ mkIns n = .ok (.ins n) ∧ mkJump n = .ok (.jump n) ∧
      mkLog n = .ok (.log n)) ∧
    (∀ n : Int, n < 0 → mkRep (some n) = .error .types ∧ mkIns (some n) = .error .types ∧
      mkJump (some n) = .error .types ∧ mkLog (some n) = .error .types) ∧
    (∀ x : Int, x ≠ 0 → mkMul x = .ok (.mul x)) ∧ mkMul 0 = .error .types := by
  refine ⟨?_, ?_, ?_, ?_, ?_, by decide⟩
  · intro z a abx
    unfold mkZaid
    by_cases h1 : 0 ≤ z ∧ z ≤ 999
    · by_cases h2 : 0 ≤ a ∧ a ≤ 999
      · rw [if_neg (by simp [h1]), if_neg (by simp [h2]), if_pos ⟨h1.1, h1.2, h2.1, h2.2⟩]
      · rw [if_neg (by simp [h1]), if_pos h2, if_neg (by rintro ⟨_, _, h⟩; exact h2 h)]
    · rw [if_pos h1, if_neg (by rintro ⟨a, b, _⟩; exact h1 ⟨a, b⟩)]
  · intro n
    exact ⟨fun h => by unfold mkDist; rw [if_pos h], fun h => by unfold mkDist; rw [if_neg h]⟩
  · intro n h
    have hc : countOk n = true := by
      cases n with
      | none => rfl
      | some k => simpa [countOk] using h k rfl
    simp [mkRep, mkIns, mkJump, mkLog, hc]
  · intro n h
    have hc : countOk (some n) = false := by simp [countOk]; omega
    simp [mkRep, mkIns, mkJump, mkLog, hc]
  · intro x h; simp [mkMul, h]

/-- The constructors do accept values inside the range and reject values outside. -/
example : mkZaid 92 235 none = .ok ⟨92, 235, none⟩ ∧ mkZaid 1000 1 none = .error .types ∧
    mkDist (-1) = .error .types ∧ mkDist 999 = .ok 999 := by decide

/-! ## C10 – index ranges -/

theorem C10_index_roundtrip (l u : Int) : indexParse (Index.str ⟨l, u⟩) = .ok ⟨l, u⟩ := by
  have hc : ∀ n : Int, ':' ∉ intStr n := by
    intro n hm
    rcases intStr_chars n _ hm with h | h
    · revert h; decide
    · revert h; decide
  obtain ⟨m, hm, c1, c2⟩ := sepRe_match ':' (intStr l) (intStr u) (intStr_noSpace l) (intStr_noSpace u)
    (intStr_ne_nil l) (intStr_ne_nil u) (hc l) (hc u)
  unfold indexParse indexRe Index.str
  rw [hm]
  have hl : intParse (intStr l) = .ok (.num l) := C02_integer_roundtrip l
  have hu : intParse (intStr u) = .ok (.num u) := C02_integer_roundtrip u
  simp only [c1, c2, hl, hu]

example : Index.str ⟨-3, 12⟩ = "-3:12".toList := by decide

/-! ## C51 – substances -/

/-- A nuclide with a decimal fraction survives print and parse: neither the
nuclide nor the fraction changes. -/
theorem C51_substance_roundtrip (z a : Nat) (abx : Option Str) (d : Dec) (hz : z ≤ 999) (ha : a ≤ 999)
    (hab : ∀ t, abx = some t → t ≠ [] ∧ NoSpace t) :
    substParse (Substance.str ⟨⟨z, a, abx⟩, .num (.fin d)⟩) = .ok ⟨⟨z, a, abx⟩, .num (.fin d)⟩ := by
  obtain ⟨l1, d1, v1⟩ := zfill3 z (by omega)
  obtain ⟨l2, d2, v2⟩ := zfill3 a (by omega)
  have hs : Zaid.str ⟨z, a, abx⟩ = zfill 3 (natStr z) ++ zfill 3 (natStr a) ++ abxText abx := by
    cases abx with
    | none => simp [Zaid.str, abxText]
    | some t =>
      cases t with
      | nil => exact absurd rfl (hab [] rfl).1
      | cons c cs => simp [Zaid.str, abxText]
  have hsp : NoSpace (Zaid.str ⟨z, a, abx⟩) := by
    rw [hs]
    intro c hc
    rcases List.mem_append.1 hc with hc | hc
    · rcases List.mem_append.1 hc with hc | hc
      · exact isDigit_not_space (d1 c hc)
      · exact isDigit_not_space (d2 c hc)
    · cases abx with
      | none => cases hc
      | some t =>
        rcases List.mem_cons.1 hc with rfl | hc
        · decide
        · exact (hab t rfl).2 c hc
  have hne : Zaid.str ⟨z, a, abx⟩ ≠ [] := by
    rw [hs]; intro e
    have := (List.append_eq_nil_iff.1 (List.append_eq_nil_iff.1 e).1).1
    rw [this] at l1; cases l1
  have hblank : ∀ {w : Str}, NoSpace w → ' ' ∉ w := by
    intro w h hm; have := h _ hm; revert this; decide
  have hd : NoSpace d.str := fun c hc => numCh_space (Dec.str_chars d c hc)
  obtain ⟨m, hm, c1, c2⟩ := sepRe_match ' ' _ d.str hsp hd hne (Dec.str_ne_nil d) (hblank hsp) (hblank hd)
  unfold substParse substRe
  show (match reMatch _ (Zaid.str ⟨z, a, abx⟩ ++ ' ' :: d.str) with
    | none => _
    | some m => _) = _
  rw [hm]
  have hr : realParse d.str = .ok (.num (.fin d)) := C01_real_roundtrip d
  simp only [c1, c2, (C07_zaid_roundtrip z a abx hz ha hab).2, hr]

example : Substance.str ⟨⟨8, 16, some "00c".toList⟩, .num (.fin ⟨true, 25, -2⟩)⟩ = "008016.00c -0.25".toList := by
  decide

/-! ## C52 – designators -/

/-- Accepted designator texts are kept character by character, so printing
returns exactly the text that was written. -/
theorem C52_designator_verbatim (s t : Str) (h : desigParse s = .ok t) : t = s := by
  unfold desigParse at h
  split at h
  · cases h
  · rename_i m hm
    obtain ⟨st', hs, rfl⟩ := reMatch_some hm
    unfold desigRe at hs
    obtain ⟨m1, h1, hs⟩ := step_seq.1 hs
    obtain ⟨m2, h2, hs⟩ := step_seq.1 hs
    obtain ⟨rfl, he⟩ := step_eos.1 hs
    rw [he] at h
    simp [cap, List.lookup] at h
    exact h.symm

theorem desig_matches (c : Char) (cs : Str) (hc : desigC c = true) (hcs : ∀ x ∈ cs, desigC x = true) :
    ∃ st, Step desigRe ⟨[], c :: cs.flatMap (fun x => [',', x]), []⟩ st ∧ st.rest = [] := by
  have key : ∀ (cs : Str) (prev caps), (∀ x ∈ cs, desigC x = true) →
      ∃ st, Step (.star true (.seq (.chr ',') (.cls desigC))) ⟨prev, cs.flatMap (fun x => [',', x]), caps⟩ st ∧ st.rest = [] := by
    intro cs
    induction cs with
    | nil => intro prev caps _; exact ⟨_, .starNil _ _ _, rfl⟩
    | cons x xs ih =>
      intro prev caps h
      obtain ⟨st, hst, hr⟩ := ih (x :: ',' :: prev) caps (fun y hy => h y (by simp [hy]))
      refine ⟨st, ?_, hr⟩
      have hstep : Step (.seq (.chr ',') (.cls desigC)) ⟨prev, ',' :: x :: xs.flatMap (fun x => [',', x]), caps⟩
          ⟨x :: ',' :: prev, xs.flatMap (fun x => [',', x]), caps⟩ :=
        step_seq.2 ⟨_, step_cls.2 ⟨',', _, by simp, rfl, rfl⟩, step_cls.2 ⟨x, _, h x (by simp), rfl, rfl⟩⟩
      exact .starCons _ _ _ _ _ hstep (by simp; omega) hst
  obtain ⟨st, hst, hr⟩ := key cs [c] [] hcs
  refine ⟨_, step_seq.2 ⟨_, step_bos.2 ⟨rfl, rfl⟩, step_seq.2 ⟨_, step_grp.2 ⟨st, step_seq.2 ⟨_, step_cls.2 ⟨c, _, hc, rfl, rfl⟩, hst⟩, rfl⟩,
    step_eos.2 ⟨rfl, hr⟩⟩⟩, hr⟩

/-- Every comma-separated list of particle symbols is accepted. -/
theorem C52_designator_accepts (c : Char) (cs : Str) (hc : desigC c = true) (hcs : ∀ x ∈ cs, desigC x = true) :
    desigParse (c :: cs.flatMap (fun x => [',', x])) = .ok (c :: cs.flatMap (fun x => [',', x])) := by
  obtain ⟨st, hst, _⟩ := desig_matches c cs hc hcs
  cases hm : reMatch desigRe (c :: cs.flatMap (fun x => [',', x])) with
  | none => exact absurd ((run_spec _ _ _).1.1 hm st hst) (by simp)
  | some m =>
    have : ∃ t, desigParse (c :: cs.flatMap (fun x => [',', x])) = .ok t := by
      unfold desigParse
      rw [hm]
      obtain ⟨st', _, rfl⟩ := reMatch_some hm
      simp [cap, List.lookup]
    obtain ⟨t, ht⟩ := this
    rw [ht, C52_designator_verbatim _ t ht]

/-- All particle symbols of the MCNP manual but `-` are accepted (`-` is lost to
the accidental range `_-~`). -/
theorem C52_symbols : ("nqpef|!u<v>hglb+_~xcywo@/*zk?%^dtsa#".toList.all desigC) = true ∧
    desigParse "-".toList = .error .types := by decide +kernel

example : desigC 'n' = true ∧ ∀ x ∈ ['p', 'e'], desigC x = true := by decide

end Props
