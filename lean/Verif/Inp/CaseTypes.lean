import Verif.Inp.CaseNumber
/-! Helper lemmas: the types of attributes read texts alike whatever the case of letters. -/
namespace Inp
open Py Types Ptrac Props

variable {β : Bool}

theorem cap_cases (n : Nat) {m m'} (hc : RecCaps β m m') :
    (cap m n = none ∧ cap m' n = none) ∨ ∃ x y, cap m n = some x ∧ cap m' n = some y ∧ RecasedIf β x y := by
  have key := cap_rec n hc
  cases ha : cap m n with
  | none =>
    rw [ha] at key
    cases hb : cap m' n with
    | none => exact .inl ⟨rfl, rfl⟩
    | some y => rw [hb] at key; exact key.elim
  | some x =>
    rw [ha] at key
    cases hb : cap m' n with
    | none => rw [hb] at key; exact key.elim
    | some y => rw [hb] at key; exact .inr ⟨x, y, rfl, rfl, key⟩

theorem mkZaid_low (z a : Int) {x y : Option Str} (h : x.map lower = y.map lower) : (mkZaid z a x).map Zaid.low = (mkZaid z a y).map Zaid.low := by
  unfold mkZaid
  split
  · rfl
  · split
    · rfl
    · simp only [Except.map, Zaid.low]
      rw [h]

theorem zaidParse_rec {s t : Str} (h : RecasedIf β s t) : (zaidParse s).map Zaid.low = (zaidParse t).map Zaid.low := by
  unfold zaidParse
  rcases match_cases (r := zaidRe) (by decide +kernel) h with ⟨a, b⟩ | ⟨m, m', a, b, hc⟩
  · rw [a, b]
  · rw [a, b]
    simp only
    rw [cap_same a hc (n := 1) (by decide) (by decide +kernel), cap_same a hc (n := 2) (by decide) (by decide +kernel)]
    split
    · apply mkZaid_low
      rcases cap_cases 3 hc with ⟨a, b⟩ | ⟨x, y, a, b, h⟩
      · rw [a, b]
      · rw [a, b, Option.map_some, Option.map_some, rec_lower h]
    · rfl

theorem distParse_rec {s t : Str} (h : RecasedIf β s t) : distParse s = distParse t := by
  unfold distParse
  rcases match_cases (r := distRe) (by decide +kernel) h with ⟨a, b⟩ | ⟨m, m', a, b, hc⟩
  · rw [a, b]
  · rw [a, b]
    simp only
    rw [cap_same a hc (n := 1) (by decide) (by decide +kernel)]

theorem indexParse_rec {s t : Str} (h : Recased s t) : indexParse s = indexParse t := by
  unfold indexParse
  rcases match_cases (r := indexRe) (by decide +kernel) h with ⟨a, b⟩ | ⟨m, m', a, b, hc⟩
  · rw [a, b]
  · rw [a, b]
    simp only
    rcases cap_cases 1 hc with ⟨a, b⟩ | ⟨x, y, a, b, h1⟩ <;> rcases cap_cases 2 hc with ⟨c, d⟩ | ⟨u, v, c, d, h2⟩ <;>
      rw [a, b, c, d]
    simp only
    rw [intParse_rec h1 (rec_head h1), intParse_rec h2 (rec_head h2)]

theorem substParse_rec {s t : Str} (h : Recased s t) :
    (substParse s).map (fun v => Sc.low (.subst v)) = (substParse t).map (fun v => Sc.low (.subst v)) := by
  unfold substParse
  rcases match_cases (r := substRe) (by decide +kernel) h with ⟨a, b⟩ | ⟨m, m', a, b, hc⟩
  · rw [a, b]
  · rw [a, b]
    simp only
    rcases cap_cases 1 hc with ⟨a, b⟩ | ⟨x, y, a, b, h1⟩ <;> rcases cap_cases 2 hc with ⟨c, d⟩ | ⟨u, v, c, d, h2⟩ <;>
      rw [a, b, c, d]
    simp only
    have hz := zaidParse_rec h1
    rw [realParse_rec h2 (rec_head h2)]
    revert hz
    cases zaidParse x <;> cases zaidParse y <;> intro hz <;> simp only [Except.map] at hz
    · cases hz; rfl
    · cases hz
    · cases hz
    · simp only
      cases realParse v with
      | error e => rfl
      | ok r =>
        simp only [Except.map, Sc.low]
        rw [Except.ok.inj hz]

theorem desigParse_rec {s t : Str} (h : RecasedIf β s t) : (desigParse s).map lower = (desigParse t).map lower := by
  unfold desigParse
  rcases match_cases (r := desigRe) (by decide +kernel) h with ⟨a, b⟩ | ⟨m, m', a, b, hc⟩
  · rw [a, b]
  · rw [a, b]
    simp only
    rcases cap_cases 0 hc with ⟨a, b⟩ | ⟨x, y, a, b, h1⟩ <;> rw [a, b]
    simp only [Except.map]
    rw [rec_lower h1]

theorem low_eq : ∀ {s t : Str}, lower s = lower t → (∀ c ∈ t, c ∉ letters) → s = t
  | [], [], _, _ => rfl
  | c :: s, d :: t, h, hl => by
    rw [low_cons] at h
    rw [nonletter h.1.symm (hl d List.mem_cons_self), low_eq h.2 (fun c hc => hl c (List.mem_cons_of_mem _ hc))]
  | [], _ :: _, h, _ => by unfold lower at h; simp at h
  | _ :: _, [], h, _ => by unfold lower at h; simp at h

theorem finditer_avoid {r : Re} {l : List Char} (hr : avoids l r = true) {s t : Str} (h : t ∈ finditer r s) : ∀ c ∈ t, c ∉ l := by
  obtain ⟨st, st', h1, rfl⟩ := finditer_mem h
  obtain ⟨w, hw, -, hl⟩ := step_text h1
  rw [hw, List.length_append, Nat.add_sub_cancel, List.take_left']
  · exact hl l hr
  · rfl

/-- Texts made of tokens without letters are the same. -/
theorem tok_same {r : Re} (hr : avoids letters r = true) {s t : Str} (h : RecasedIf β s t)
    (ht : (finditer r s).flatten = s ∨ (finditer r t).flatten = t) : s = t := by
  have key : ∀ u : Str, (finditer r u).flatten = u → ∀ c ∈ u, c ∉ letters := by
    intro u hu c hc
    rw [← hu] at hc
    obtain ⟨x, hx, hc⟩ := List.mem_flatten.1 hc
    exact finditer_avoid hr hx c hc
  rcases ht with ht | ht
  · exact rec_eq h (key s ht)
  · exact low_eq (rec_lower h) (key t ht)

theorem geoParse_rec {s t : Str} (h : RecasedIf β s t) : geoParse s = geoParse t := by
  have h1 := strip_rec h
  unfold geoParse
  simp only
  by_cases ht : (finditer geoRe (strip s)).flatten = strip s ∨ (finditer geoRe (strip t)).flatten = strip t
  · rw [tok_same (by decide +kernel) h1 ht]
  · rw [if_pos (fun e => ht (.inl e)), if_pos (fun e => ht (.inr e))]

theorem latToks_rec {s t : Str} (h : RecasedIf β s t) : latToks s = latToks t := by
  have h1 := strip_rec h
  unfold latToks
  simp only
  by_cases ht : (finditer latRe (strip s)).flatten = strip s ∨ (finditer latRe (strip t)).flatten = strip t
  · rw [tok_same (by decide +kernel) h1 ht]
  · rw [if_pos (fun e => ht (.inl e)), if_pos (fun e => ht (.inr e))]

theorem latParse_rec {s t : Str} (h : RecasedIf β s t) : latParse s = latParse t := by
  unfold latParse
  rw [latToks_rec h]

theorem trEntries_rec {m m' : List (Nat × Str)} (hc : RecCaps true m m') : ∀ n i, trEntries m n i = trEntries m' n i
  | 0, _ => rfl
  | n + 1, i => by
    unfold trEntries
    rcases cap_cases i hc with ⟨a, b⟩ | ⟨x, y, a, b, h1⟩ <;> rw [a, b]
    simp only
    rw [realParse_rec h1 (rec_head h1), trEntries_rec hc n (i + 1)]

theorem transRe_caseless (k : Nat) : caseless (anchored (transRe k 1)) = true := by
  have hk : trCount k = 12 ∨ trCount k = 9 ∨ trCount k = 8 ∨ trCount k = 6 ∨ trCount k = 3 := by
    match k with
    | 0 => simp [trCount]
    | 1 => simp [trCount]
    | 2 => simp [trCount]
    | 3 => simp [trCount]
    | k + 4 => simp [trCount]
  unfold transRe
  rcases hk with e | e | e | e | e <;> rw [e] <;> decide +kernel

theorem mkTrans_low (k rs v) : (mkTrans k rs v).map Val.low = mkTrans k rs v := by
  unfold mkTrans
  split
  · rfl
  · split <;> rfl
  · rfl

theorem transParse_rec (k : Nat) {s t : Str} (h : Recased s t) : transParse k s = transParse k t := by
  unfold transParse
  rcases match_cases (transRe_caseless k) h with ⟨a, b⟩ | ⟨m, m', a, b, hc⟩
  · rw [a, b]
  · rw [a, b]
    simp only
    rw [trEntries_rec hc]
    cases trEntries m' (trCount k) 1 with
    | error e => rfl
    | ok rs =>
      simp only
      rcases cap_cases (trCount k + 1) hc with ⟨a, b⟩ | ⟨x, y, a, b, h1⟩ <;> rw [a, b]
      cases x with
      | nil => cases y with
        | nil => rfl
        | cons d y => exact h1.elim
      | cons c x => cases y with
        | nil => exact h1.elim
        | cons d y =>
          simp only
          rw [intParse_rec h1 (rec_head h1)]

theorem map_map' {α β γ : Type} (f : α → β) (g : β → γ) (x : Res α) : (x.map f).map g = x.map (fun a => g (f a)) := by
  cases x <;> rfl

theorem map_of_map {α β γ : Type} {f : α → β} {g : α → γ} (k : β → γ) (hg : ∀ a, g a = k (f a)) {x y : Res α} (h : x.map f = y.map f) :
    x.map g = y.map g := by
  cases x <;> cases y <;> simp only [Except.map] at h ⊢
  · exact congrArg _ (Except.error.inj h)
  · cases h
  · cases h
  · rw [hg, hg, Except.ok.inj h]

/-- Every type of `src/pymcnp/types` reads recased texts alike. -/
theorem kind_rec (k : Kind) {s t : Str} (h : Recased s t) : (k.parse s).map Val.low = (k.parse t).map Val.low := by
  cases k <;> unfold Kind.parse
  · simp only; rw [intParse_rec h (rec_head h)]
  · simp only; rw [realParse_rec h (rec_head h)]
  · simp only [stringParse, Except.map, Val.low, Sc.low]; rw [rec_lower h]
  · simp only; rw [map_map', map_map']
    exact map_of_map (fun z => Val.sc (.zaid z)) (fun _ => rfl) (zaidParse_rec h)
  · simp only; rw [distParse_rec h]
  · simp only; rw [map_map', map_map']
    exact map_of_map (fun z => Val.sc (.desig z)) (fun _ => rfl) (desigParse_rec h)
  · simp only; rw [map_map', map_map']
    exact map_of_map (fun z => Val.sc z) (fun _ => rfl) (substParse_rec h)
  · simp only; rw [indexParse_rec h]
  · simp only; rw [geoParse_rec h]
  · simp only; rw [latParse_rec h]
  · simp only; rw [transParse_rec _ h]

end Inp
