import Verif.Inp.SurfaceRead
import Verif.Inp.BlankLemmas
import Verif.Props.Card
/-!
# Printed surface cards
-/
namespace Inp
open Py Types

/-- All spellings of a lower-case word in upper and lower case. -/
def spellings : Str → List Str
  | [] => [[]]
  | c :: cs => (spellings cs).map (c :: ·) ++ (spellings cs).map (upperC c :: ·)

theorem lowerC_cases {x c : Char} (h : lowerC x = c) : x = c ∨ x = upperC c := by
  unfold lowerC at h
  split at h
  · right
    rename_i hx
    have h1 : 'A' ≤ x ∧ x ≤ 'Z' := by simpa using hx
    have g1 : 65 ≤ x.toNat := h1.1
    have g2 : x.toNat ≤ 90 := h1.2
    rw [← h]
    have key : ∀ n : Fin 91, 65 ≤ n.1 → Char.ofNat n.1 = upperC (Char.ofNat ((Char.ofNat n.1).toNat + 32)) := by decide
    have k := key ⟨x.toNat, by omega⟩ g1
    simp only at k
    rw [Char.ofNat_toNat] at k
    exact k
  · exact .inl h

theorem mem_spellings : ∀ {k w : Str}, lower w = k → w ∈ spellings k
  | [], w, h => by
    cases w with
    | nil => simp [spellings]
    | cons a b => cases h
  | c :: cs, w, h => by
    cases w with
    | nil => cases h
    | cons a b =>
      simp only [lower, List.map_cons, List.cons.injEq] at h
      have := mem_spellings (k := cs) (w := b) h.2
      unfold spellings
      rw [List.mem_append, List.mem_map, List.mem_map]
      rcases lowerC_cases h.1 with e | e
      · exact .inl ⟨b, this, by rw [e]⟩
      · exact .inr ⟨b, this, by rw [e]⟩

/-- The first word of a card without prefix, number and designator is the keyword. -/
theorem readHead_bare (kw w : Str) (h : (readHead ⟨.no, kw, .no, .no⟩ w).isSome = true) : lower w = lower kw := by
  unfold readHead at h
  simp only [readPre, if_true, readKw, readSuf] at h
  split at h
  · cases h
  · rename_i t ht
    split at ht
    · rename_i hl
      cases ht
      cases hd : w.drop kw.length with
      | nil =>
        have : w.take kw.length = w := by
          rw [List.take_of_length_le]
          exact List.drop_eq_nil_iff.1 hd
        rw [this] at hl
        exact hl
      | cons a b =>
        rw [hd] at h
        simp [readDes] at h
    · cases ht

/-- The keyword, the fewest and the most entries of a class with a bare keyword and single entries. -/
def bareInfo (c : Cls) : Option (Str × Nat × Nat) :=
  match c.shape with
  | .flat ⟨.no, kw, .no, .no⟩ fs =>
    if fs.all (fun f => f.mode == .req || f.mode == .opt) then
      some (lower kw, (fs.filter (fun f => f.mode == .req)).length, fs.length)
    else none
  | _ => none

theorem bare_accepts {c : Cls} {kw : Str} {lo hi : Nat} (hb : bareInfo c = some (kw, lo, hi)) {w : Str} {ws : List Str}
    (ha : c.accepts w ws = true) : lower w = kw ∧ lo ≤ ws.length ∧ ws.length ≤ hi := by
  unfold bareInfo at hb
  split at hb
  · rename_i k fs hs
    split at hb
    · rename_i hm
      simp only [Option.some.injEq, Prod.mk.injEq] at hb
      obtain ⟨rfl, rfl, rfl⟩ := hb
      unfold Cls.accepts at ha
      rw [hs] at ha
      simp only [Bool.and_eq_true] at ha
      refine ⟨readHead_bare _ _ ha.1, ?_⟩
      have hm' : ∀ f ∈ fs.map Field.spec, f.2 = .req ∨ f.2 = .opt := by
        intro f hf
        obtain ⟨g, hg, rfl⟩ := List.mem_map.1 hf
        have := List.all_eq_true.1 hm g hg
        simpa [Field.spec] using this
      have e : ((fs.map Field.spec).filter (fun f => f.2 == .req)).length = (fs.filter (fun f => f.mode == .req)).length := by
        rw [List.filter_map, List.length_map]; rfl
      have hl := assign_length (fs.map Field.spec) hm' ws
      rw [e, List.length_map] at hl
      refine ⟨?_, ?_⟩ <;>
      · refine Nat.le_of_not_lt (fun hlt => ?_)
        rw [hl (by omega)] at ha
        simp at ha
    · cases hb
  · cases hb

theorem options_info : ∀ i : Fin surfaceOptions.length, (bareInfo surfaceOptions[i]).isSome = true := by decide +kernel

/-- No entries are accepted by both classes. -/
def apart : Option (Str × Nat × Nat) → Option (Str × Nat × Nat) → Bool
  | some (k, lo, hi), some (k', lo', hi') => k != k' || decide (hi < lo') || decide (hi' < lo)
  | _, _ => false

theorem options_apart : ∀ i j : Fin surfaceOptions.length, i = j ∨
    apart (bareInfo surfaceOptions[i]) (bareInfo surfaceOptions[j]) = true := by decide +kernel

/-- At most one surface equation accepts given entries. -/
theorem options_unique {c d : Cls} (hc : c ∈ surfaceOptions) (hd : d ∈ surfaceOptions) {w : Str} {ws : List Str}
    (h1 : c.accepts w ws = true) (h2 : d.accepts w ws = true) : c = d := by
  obtain ⟨i, hi, rfl⟩ := List.mem_iff_getElem.1 hc
  obtain ⟨j, hj, rfl⟩ := List.mem_iff_getElem.1 hd
  rcases options_apart ⟨i, hi⟩ ⟨j, hj⟩ with h | h
  · have : i = j := congrArg Fin.val h
    subst this; rfl
  · exfalso
    have hgi : surfaceOptions[(⟨i, hi⟩ : Fin _)] = surfaceOptions[i] := rfl
    have hgj : surfaceOptions[(⟨j, hj⟩ : Fin _)] = surfaceOptions[j] := rfl
    rw [hgi, hgj] at h
    cases h3 : bareInfo surfaceOptions[i] with
    | none => rw [h3] at h; cases h
    | some x =>
      cases h4 : bareInfo surfaceOptions[j] with
      | none => rw [h3, h4] at h; cases h
      | some y =>
        obtain ⟨k, lo, hh⟩ := x
        obtain ⟨k', lo', hh'⟩ := y
        rw [h3, h4] at h
        have a1 := bare_accepts h3 h1
        have a2 := bare_accepts h4 h2
        simp only [apart, Bool.or_eq_true, bne_iff_ne, ne_eq, decide_eq_true_eq] at h
        rcases h with (h | h) | h
        · exact h (a1.1.symm.trans a2.1)
        · omega
        · omega

theorem option_found {c : Cls} (hc : c ∈ surfaceOptions) {w : Str} {ws : List Str} (h : c.accepts w ws = true) :
    unionW surfaceOptions w ws = c.readW w ws := by
  unfold unionW
  cases hf : surfaceOptions.find? (fun c => c.accepts w ws) with
  | none =>
    have := List.find?_eq_none.1 hf c hc
    exact absurd h this
  | some d =>
    have h1 := List.find?_some hf
    have h2 := List.mem_of_find?_eq_some hf
    rw [options_unique hc h2 h h1]

theorem keywords_not_numbers : ∀ c ∈ surfaceOptions, ∀ k ∈ bareInfo c, ∀ w ∈ spellings k.1, unitOk (.ty (.base .real)) w = false := by
  decide +kernel

/-- A number is not a surface mnemonic. -/
theorem number_not_equation {w : Str} {ws : List Str} (h : unitOk (.ty (.base .real)) w = true) : isEquation (w :: ws) = false := by
  unfold isEquation
  rw [List.any_eq_false]
  intro c hc ha
  obtain ⟨i, hi, rfl⟩ := List.mem_iff_getElem.1 hc
  have hs := options_info ⟨i, hi⟩
  have hgi : surfaceOptions[(⟨i, hi⟩ : Fin _)] = surfaceOptions[i] := rfl
  rw [hgi] at hs
  obtain ⟨⟨k, lo, hh⟩, hk⟩ := Option.isSome_iff_exists.1 hs
  have := (bare_accepts hk ha).1
  rw [keywords_not_numbers _ hc _ hk w (mem_spellings this)] at h
  cases h

/-- A printed integer does not begin with a boundary sign or a `#`. -/
theorem int_text_begin {n : IntVal} (h : ReadSc .int (.int n)) : ∀ c ∈ n.str.head?, c ≠ '+' ∧ c ≠ '*' ∧ c ≠ '#' := by
  have nat : ∀ (k : Nat) (t : Str), ∀ c ∈ (natStr k ++ t).head?, c ≠ '+' ∧ c ≠ '*' ∧ c ≠ '#' := by
    intro k t c hc
    cases hn : natStr k with
    | nil => exact absurd hn (natStr_ne_nil k)
    | cons d r =>
      rw [hn] at hc
      simp only [List.cons_append, List.head?_cons, Option.mem_def, Option.some.injEq] at hc
      subst hc
      have hd := natStr_digits k d (by rw [hn]; simp)
      refine ⟨?_, ?_, ?_⟩ <;> rintro rfl <;> revert hd <;> decide
  cases n with
  | num n =>
    cases n with
    | ofNat k => simpa [IntVal.str, intStr] using nat k []
    | negSucc k =>
      intro c hc
      have e : (IntVal.num (Int.negSucc k)).str = '-' :: natStr (k + 1) := rfl
      rw [e] at hc
      simp only [List.head?_cons, Option.mem_def, Option.some.injEq] at hc
      subst hc
      decide
  | hor x =>
    cases x with
    | rep n | ins n | jump n | log n =>
      all_goals
        have : n = none := h
        subst this
        decide
    | mul x =>
      have hx : 0 < x := h
      obtain ⟨k, rfl⟩ : ∃ k : Nat, x = k := ⟨x.toNat, by omega⟩
      exact nat k ['m']

theorem int_text_head {n : IntVal} (h : ReadSc .int (.int n)) : ∀ c ∈ n.str.head?, c ≠ '+' ∧ c ≠ '*' :=
  fun c hc => ⟨(int_text_begin h c hc).1, (int_text_begin h c hc).2.1⟩

theorem surfaceHead_print (p : Option Char) (hp : ∀ c ∈ p, c = '+' ∨ c = '*') (n : Str) (hne : n ≠ [])
    (hn : ∀ c ∈ n.head?, c ≠ '+' ∧ c ≠ '*') : surfaceHead (p.toList ++ n) = (p.map ([·]), n) := by
  cases n with
  | nil => exact absurd rfl hne
  | cons a n =>
    cases p with
    | some c =>
      have := hp c rfl
      simp [surfaceHead, this]
    | none =>
      have := hn a rfl
      cases n with
      | nil => rfl
      | cons b n => simp [surfaceHead, this.1, this.2]

/-- What the round trip needs of the surface equations. -/
def equationOk (c : Cls) : Bool :=
  match c.shape with
  | .flat ⟨.no, kw, .no, .no⟩ (⟨.ty (.base .real), .req⟩ :: fs) =>
    c.std ⟨.no, kw, .no, .no⟩ (⟨.ty (.base .real), .req⟩ :: fs) &&
    nativeFields c.attrs (⟨.ty (.base .real), .req⟩ :: fs) && c.info.style == .option &&
    (spellings (lower kw)).all (fun w => decide (Entry w ∧ LowerShort w ∧ countedEntry w = none))
  | _ => false

theorem options_ok : ∀ c ∈ surfaceOptions, equationOk c = true := by decide +kernel

/-- The printed text of an equation: mnemonic, then coefficients beginning with a number; it is read back. -/
theorem equation_print {c : Cls} (hc : c ∈ surfaceOptions) {fs : List Field} {h : Head} (hs : c.shape = .flat h fs)
    (fv : List Val) (hr : ReadVals c.attrs fv) (hp : Present (fs.map (·.mode)) fv)
    (hcan : Canon (fs.map (·.mode)) (fv.map Val.words)) (o : Val) (ho : c.mk' fv = .ok o) :
    ∃ hd k es, o.text = some (hd ++ enc (k :: es)) ∧ (∀ w ∈ hd :: k :: es, Stable w) ∧
      unitOk (.ty (.base .real)) k = true ∧ isEquation (hd :: k :: es) = true ∧
      unionW surfaceOptions hd (k :: es) = .ok o := by
  have hok := options_ok c hc
  unfold equationOk at hok
  split at hok
  · rename_i kw fs' hs'
    rw [hs'] at hs
    simp only [Shape.flat.injEq] at hs
    obtain ⟨rfl, rfl⟩ := hs
    simp only [Bool.and_eq_true, List.all_eq_true, decide_eq_true_eq] at hok
    obtain ⟨⟨⟨hst, hn⟩, hsty⟩, hsp⟩ := hok
    have hsty' : c.info.style = .option := by simpa using hsty
    have hr' : ReadVals (c.attrs.drop (Head.ng ⟨.no, kw, .no, .no⟩)) fv := hr
    obtain ⟨hd, he, hstb, hh, hb, hrd, hw, hrv, hl⟩ := std_facts c _ _ hst [] fv ⟨[], [], [], rfl, rfl, rfl, rfl⟩ hr'
    have hfit := fits_vals _ _ _ (std_fields hst) hn hr' hp
    have hlow := readHead_bare kw hd (by rw [hrd]; rfl)
    obtain ⟨hd1, hd2, hd3⟩ := hsp hd (mem_spellings hlow)
    obtain ⟨k, es, hke, hk⟩ : ∃ k es, Assign.flat (fv.map Val.words) = k :: es ∧ unitOk (.ty (.base .real)) k = true := by
      cases hv : fv.map Val.words with
      | nil => rw [hv] at hfit; exact False.elim hfit
      | cons a as =>
        rw [hv] at hfit
        cases a with
        | none => exact absurd hfit.1 (by simp)
        | some ws =>
          obtain ⟨w, rfl⟩ := List.length_eq_one_iff.1 (hfit.2.2.1 (.inl rfl))
          exact ⟨w, Assign.flat as, rfl, hfit.2.1 w (by simp)⟩
    have hass := assign_canon _ _ hfit (by rw [List.map_map]; exact hcan)
    have hacc : c.accepts hd (k :: es) = true := by
      unfold Cls.accepts
      rw [hs']
      simp only
      rw [hrd, ← hke, hass]
      rfl
    refine ⟨hd, k, es, ?_, ?_, hk, ?_, ?_⟩
    · rw [Props.mk_obj ho]
      unfold Val.text objStr
      simp only [hsty']
      have hh' := hh
      have hb' := hb
      rw [List.nil_append] at hh' hb'
      rw [hh', hb', hke, join_enc, enc_cons]
    · intro w hw
      rcases List.mem_cons.1 hw with rfl | hw
      · exact ⟨hd1, hd2, hd3⟩
      · exact hstb w (by rw [hke]; exact hw)
    · unfold isEquation
      exact List.any_eq_true.2 ⟨c, hc, hacc⟩
    · rw [option_found hc hacc]
      unfold Cls.readW
      rw [hs']
      simp only
      rw [← hke]
      exact (readWords_iff c _ _ hst [] fv hd hrd hw hrv hl o ho).2 hass
  · cases hok

end Inp
