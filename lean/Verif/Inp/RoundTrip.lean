import Verif.Inp.PrintLemmas
import Verif.Props.Text
/-!
# Reading back printed cards and options of plain classes
-/
namespace Inp
open Py Types

theorem headStr_eq (kw : Str) (ps) : headStr kw ps = headText kw (part "prefix" ps) (part "suffix" ps) (part "designator" ps) := by
  unfold headStr headText
  cases part "designator" ps <;> rfl

theorem special_names (h : Head) : ∀ n ∈ h.names, special n = true := by
  obtain ⟨p, k, s, d⟩ := h
  cases p <;> cases s <;> cases d <;> simp [Head.names, special]

theorem getLast_app {α : Type} (a b : List α) (h : b ≠ []) : (a ++ b).getLast? = b.getLast? := by
  rw [List.getLast?_append]
  cases hb : b.getLast? with
  | none => exact absurd (List.getLast?_eq_none_iff.1 hb) h
  | some x => rfl

theorem ReadVals.length {as vs} (h : ReadVals as vs) : vs.length = as.length := by
  induction as generalizing vs with
  | nil => cases vs with
    | nil => rfl
    | cons v vs => cases h
  | cons a as ih => cases vs with
    | nil => cases h
    | cons v vs => simp [ih h.2]

theorem ReadVals.mem {as vs} (h : ReadVals as vs) {v} (hv : v ∈ vs) : ∃ a, ReadVal a v := by
  induction as generalizing vs with
  | nil => cases vs with
    | nil => cases hv
    | cons v vs => cases h
  | cons a as ih => cases vs with
    | nil => cases h
    | cons u vs =>
      rcases List.mem_cons.1 hv with rfl | hv
      · exact ⟨a, h.1⟩
      · exact ih h.2 hv

theorem special_cases {n : String} (h : special n = false) : n ≠ "prefix" ∧ n ≠ "suffix" ∧ n ≠ "designator" := by
  simp only [special, Bool.or_eq_false_iff, beq_eq_false_iff_ne] at h
  exact ⟨h.1.1, h.1.2, h.2⟩

/-- Printed pieces of the first word of a well-formed head. -/
theorem head_pieces (h : Head) (hv : List Val) (ho : HeadOk h hv) :
    ∃ p s d, (∀ b : List (String × Option Str), (∀ x ∈ b, special x.1 = false) →
        part "prefix" (h.names.zip (hv.map Val.text) ++ b) = p ∧ part "suffix" (h.names.zip (hv.map Val.text) ++ b) = s ∧
        part "designator" (h.names.zip (hv.map Val.text) ++ b) = d) ∧
      hv.map Val.text = (if h.pre = .no then [] else [p]) ++ (if h.suf = .no then [] else [s]) ++ (if h.des = .no then [] else [d]) ∧
      hv.map Val.words = (hv.map Val.text).map (·.map ([·])) ∧
      ((h.pre = .no → p = none) ∧ ∀ t ∈ p, ∃ c ∈ h.pre.chars, t = [c]) ∧
      ((h.suf = .no → s = none) ∧ (h.suf = .req → s ≠ none) ∧ ∀ t ∈ s, t ≠ [] ∧ Digits t) ∧
      ((h.des = .no → d = none) ∧ (h.des = .req → d ≠ none) ∧ ∀ t ∈ d, t ≠ [] ∧ Stable t) := by
  obtain ⟨pre, kw, suf, des⟩ := h
  obtain ⟨p, s, d, rfl, hp, hs, hd⟩ := ho
  simp only at hp hs hd ⊢
  -- the three pieces
  obtain ⟨tp, hp1, hp2, hp3, hp4⟩ : ∃ tp : Option Str, p.map Val.text = (if pre = .no then [] else [tp]) ∧
      p.map Val.words = (p.map Val.text).map (·.map ([·])) ∧ (pre = .no → tp = none) ∧ ∀ t ∈ tp, ∃ c ∈ pre.chars, t = [c] := by
    cases pre with
    | no => have hp : p = [] := hp
            subst hp; exact ⟨none, by simp, by simp, by simp, by simp⟩
    | _ =>
      rcases hp with rfl | ⟨c, hc, rfl⟩
      · exact ⟨none, by simp [Val.text], by simp [Val.text, Val.words], by simp, by simp⟩
      · exact ⟨some [c], by simp [Val.text, Sc.text], by simp [Val.text, Val.words, Sc.text, Val.str, orNil], by simp,
          by intro t ht; simp at ht; exact ⟨c, hc, ht.symm⟩⟩
  have num : ∀ n : Nat, (Sc.int (.num n)).text ≠ [] ∧ Digits (Sc.int (.num n)).text := fun n => ⟨natStr_ne_nil n, natStr_digits n⟩
  obtain ⟨ts, hs1, hs2, hs3, hs4, hs5⟩ : ∃ ts : Option Str, s.map Val.text = (if suf = .no then [] else [ts]) ∧
      s.map Val.words = (s.map Val.text).map (·.map ([·])) ∧ (suf = .no → ts = none) ∧ (suf = .req → ts ≠ none) ∧
      ∀ t ∈ ts, t ≠ [] ∧ Digits t := by
    have hsome : ∀ n : Nat, suf ≠ .no → s = [.sc (.int (.num n))] → ∃ ts : Option Str, s.map Val.text = (if suf = .no then [] else [ts]) ∧
      s.map Val.words = (s.map Val.text).map (·.map ([·])) ∧ (suf = .no → ts = none) ∧ (suf = .req → ts ≠ none) ∧
      ∀ t ∈ ts, t ≠ [] ∧ Digits t := by
      rintro n hn rfl
      exact ⟨some (Sc.int (.num n)).text, by simp [Val.text, hn], by simp [Val.text, Val.words, Val.str, orNil], by simp [hn], by simp,
        by intro t ht; simp at ht; subst ht; exact num n⟩
    cases suf with
    | no => have hs : s = [] := hs
            subst hs; exact ⟨none, by simp, by simp, by simp, by simp, by simp⟩
    | req => obtain ⟨n, hn⟩ := hs; exact hsome n (by simp) hn
    | opt =>
      rcases hs with rfl | ⟨n, hn⟩
      · exact ⟨none, by simp [Val.text], by simp [Val.text, Val.words], by simp, by simp, by simp⟩
      · exact hsome n (by simp) hn
  obtain ⟨td, hd1, hd2, hd3, hd4, hd5⟩ : ∃ td : Option Str, d.map Val.text = (if des = .no then [] else [td]) ∧
      d.map Val.words = (d.map Val.text).map (·.map ([·])) ∧ (des = .no → td = none) ∧ (des = .req → td ≠ none) ∧
      ∀ t ∈ td, t ≠ [] ∧ Stable t := by
    have hsome : ∀ x : Str, des ≠ .no → d = [.sc (.desig x)] → ReadSc .desig (.desig x) → ∃ td : Option Str,
      d.map Val.text = (if des = .no then [] else [td]) ∧
      d.map Val.words = (d.map Val.text).map (·.map ([·])) ∧ (des = .no → td = none) ∧ (des = .req → td ≠ none) ∧
      ∀ t ∈ td, t ≠ [] ∧ Stable t := by
      rintro x hn rfl hr
      exact ⟨some x, by simp [Val.text, hn, Sc.text], by simp [Val.text, Val.words, Val.str, orNil], by simp [hn], by simp,
        by intro t ht; simp at ht; subst ht; exact ⟨hr.2.entry.ne, hr.2⟩⟩
    cases des with
    | no => have hd : d = [] := hd
            subst hd; exact ⟨none, by simp, by simp, by simp, by simp, by simp⟩
    | req => obtain ⟨x, hx, hr⟩ := hd; exact hsome x (by simp) hx hr
    | opt =>
      rcases hd with rfl | ⟨x, hx, hr⟩
      · exact ⟨none, by simp [Val.text], by simp [Val.text, Val.words], by simp, by simp, by simp⟩
      · exact hsome x (by simp) hx hr
  refine ⟨tp, ts, td, ?_, by simp only [List.map_append, hp1, hs1, hd1], by simp only [List.map_append, hp2, hs2, hd2],
    ⟨hp3, hp4⟩, ⟨hs3, hs4, hs5⟩, hd3, hd4, hd5⟩
  intro b hb
  have hnb : ∀ n, special n = true → n ∉ b.map (·.1) := by
    intro n hn hm
    obtain ⟨x, hx, rfl⟩ := List.mem_map.1 hm
    rw [hb x hx] at hn; cases hn
  rw [part_append_right (hnb _ rfl), part_append_right (hnb _ rfl), part_append_right (hnb _ rfl)]
  simp only [List.map_append, hp1, hs1, hd1, Head.names]
  by_cases h1 : pre = .no <;> by_cases h2 : suf = .no <;> by_cases h3 : des = .no <;>
    simp [h1, h2, h3, part] <;> (try simp [hp3 h1]) <;> (try simp [hs3 h2]) <;> (try simp [hd3 h3])

theorem headText_entry (h : Head) (hok : h.ok = true) (hkw : h.kw.all (fun c => !c!"&=$()".contains c) = true) (p s d : Option Str)
    (hp : (h.pre = .no → p = none) ∧ ∀ t ∈ p, ∃ c ∈ h.pre.chars, t = [c])
    (hs : ∀ t ∈ s, t ≠ [] ∧ Digits t) (hd : ∀ t ∈ d, t ≠ [] ∧ Stable t) : Entry (headText h.kw p s d) := by
  have hne : h.kw ≠ [] := by intro e; simp [Head.ok, e] at hok
  have hksp : ∀ c ∈ h.kw, isSpace c = false := by
    unfold Head.ok at hok
    split at hok
    · rename_i e; exact absurd e hne
    · simp only [Bool.and_eq_true, List.all_eq_true, Bool.not_eq_true'] at hok
      exact hok.2
  have hkc : ∀ c ∈ h.kw, c ≠ '&' ∧ c ≠ '=' ∧ c ≠ '$' ∧ c ≠ '(' ∧ c ≠ ')' := by
    intro c hc
    have := List.all_eq_true.1 hkw c hc
    simp at this
    exact this
  have hpc : ∀ c ∈ orNil p, c = '*' ∨ c = '+' := by
    cases p with
    | none => simp [orNil]
    | some t =>
      obtain ⟨c, hc, rfl⟩ := hp.2 t rfl
      intro x hx
      simp [orNil] at hx; subst hx
      cases h1 : h.pre <;> rw [h1] at hc <;> simp [Pre.chars] at hc
      · exact .inl hc
      · exact hc
      · exact hc.symm
  have hsc : ∀ c ∈ orNil s, isDigit c = true := by
    cases s with
    | none => simp [orNil]
    | some t => exact (hs t rfl).2
  -- all characters
  have hall : ∀ c ∈ headText h.kw p s d, (isSpace c = false ∧ c ≠ '&' ∧ c ≠ '=' ∧ c ≠ '$') := by
    intro c hc
    simp only [headText, List.mem_append] at hc
    rcases hc with ((hc | hc) | hc) | hc
    · rcases hpc c hc with rfl | rfl <;> decide
    · have := hkc c hc; exact ⟨hksp c hc, this.1, this.2.1, this.2.2.1⟩
    · have := numCh_facts (numCh_digit (hsc c hc)); exact ⟨this.1, this.2.1, this.2.2.1, this.2.2.2.1⟩
    · cases d with
      | none => simp [desText] at hc
      | some t =>
        simp only [desText, List.mem_cons] at hc
        rcases hc with rfl | hc
        · decide
        · have := (hd t rfl).2.entry
          exact ⟨this.sp c hc, fun e => this.amp (e ▸ hc), fun e => this.eq (e ▸ hc), fun e => this.dl (e ▸ hc)⟩
  refine ⟨?_, fun c hc => (hall c hc).1, fun hc => (hall _ hc).2.1 rfl, fun hc => (hall _ hc).2.2.1 rfl,
    fun hc => (hall _ hc).2.2.2 rfl, ?_, ?_⟩
  · intro e
    simp only [headText, List.append_eq_nil_iff] at e
    exact hne e.1.1.2
  · intro hl
    unfold headText at hl
    cases d with
    | some t =>
      obtain ⟨h1, h2⟩ := hd t rfl
      cases t with
      | nil => exact h1 rfl
      | cons c t =>
        rw [desText, getLast_app _ _ (by simp)] at hl
        rw [List.getLast?_cons_cons] at hl
        exact h2.entry.op hl
    | none =>
      rw [desText, List.append_nil] at hl
      cases s with
      | some t =>
        obtain ⟨h1, h2⟩ := hs t rfl
        rw [orNil, orNil, Option.getD_some, getLast_app _ _ h1] at hl
        exact absurd (h2 _ (List.mem_of_getLast? hl)) (by decide)
      | none =>
        rw [orNil, orNil, Option.getD_none, List.append_nil, getLast_app _ _ hne] at hl
        exact (hkc _ (List.mem_of_getLast? hl)).2.2.2.1 rfl
  · intro hl
    unfold headText at hl
    cases p with
    | some t =>
      obtain ⟨c, hc, rfl⟩ := hp.2 t rfl
      simp only [orNil, Option.getD_some, List.cons_append, List.head?_cons, Option.some.injEq] at hl
      rcases hpc c (by simp [orNil]) with rfl | rfl <;> exact absurd hl (by decide)
    | none =>
      cases hk : h.kw with
      | nil => exact hne hk
      | cons c t =>
        rw [hk] at hl
        simp only [orNil, Option.getD_none, List.nil_append, List.cons_append, List.head?_cons, Option.some.injEq] at hl
        exact (hkc c (by rw [hk]; simp)).2.2.2.2 hl

/-- Everything about the printed form of a value of a plain class. -/
theorem std_facts (c : Cls) (h : Head) (fs : List Field) (hst : c.std h fs = true) (hv fv : List Val)
    (ho : HeadOk h hv) (hr : ReadVals (c.attrs.drop h.ng) fv) :
    ∃ hd, Entry hd ∧ (∀ w ∈ Assign.flat (fv.map Val.words), Stable w) ∧
      headStr c.info.kw (c.info.attrs.zip (Val.parts (hv ++ fv))) = hd ∧
      bodyStr (c.info.attrs.zip (Val.parts (hv ++ fv))) = join [' '] (Assign.flat (fv.map Val.words)) ∧
      readHead h hd = some (hv.map Val.text) ∧ hv.map Val.words = (hv.map Val.text).map (·.map ([·])) ∧
      readVals c.attrs (hv.map Val.words ++ fv.map Val.words) = .ok (hv ++ fv) ∧ hv.length = h.ng := by
  simp only [Cls.std, Bool.and_eq_true, beq_iff_eq, List.all_eq_true] at hst
  obtain ⟨⟨⟨⟨⟨⟨⟨hpl, hkw⟩, hkc⟩, hat⟩, hnm⟩, hha⟩, hfa⟩, hsty⟩ := hst
  simp only [Cls.plain, Bool.and_eq_true, List.all_eq_true, beq_iff_eq, Bool.not_eq_true'] at hpl
  obtain ⟨⟨⟨⟨⟨hok, hu⟩, ha⟩, hlen⟩, hmany⟩, hof⟩ := hpl
  obtain ⟨p, s, d, hpart, htx, hwt, hp, hs, hd⟩ := head_pieces h hv ho
  obtain ⟨rv, sw⟩ := vals_round hr
  have hvl : hv.length = h.ng := by
    have := congrArg List.length htx
    rw [List.length_map] at this
    rw [this, Head.ng_names]
    unfold Head.names
    by_cases h1 : h.pre = .no <;> by_cases h2 : h.suf = .no <;> by_cases h3 : h.des = .no <;> simp [h1, h2, h3]
  -- names of the fields
  have hsplit : c.info.attrs.zip (Val.parts (hv ++ fv)) = h.names.zip (hv.map Val.text) ++ (c.info.attrs.drop h.ng).zip (fv.map Val.text) := by
    rw [Val.parts_eq, List.map_append]
    conv => lhs; rw [← List.take_append_drop h.ng c.info.attrs]
    rw [List.zip_append (by rw [hnm, List.length_map, hvl, Head.ng_names]), hnm]
  have hnames : ∀ x ∈ (c.info.attrs.drop h.ng).zip (fv.map Val.text), special x.1 = false := by
    intro x hx
    have := (List.of_mem_zip (a := x.1) (b := x.2) hx).1
    rw [hat, ← List.map_drop] at this
    obtain ⟨a, ha, e⟩ := List.mem_map.1 this
    rw [← e]
    have := hfa a ha
    simp only [Bool.not_eq_true'] at this
    exact this.1
  have hflen : fv.length = (c.attrs.drop h.ng).length := hr.length
  obtain ⟨q1, q2, q3⟩ := hpart _ hnames
  refine ⟨headText h.kw p s d, headText_entry h hok (List.all_eq_true.2 hkc) p s d hp hs.2.2 hd.2.2, sw, ?_, ?_, ?_, hwt, ?_, hvl⟩
  · rw [headStr_eq, hsplit, q1, q2, q3, hkw]
  · rw [hsplit, bodyStr_fields (by
      intro x hx
      exact special_names h _ (List.of_mem_zip (a := x.1) (b := x.2) hx).1) hnames]
    have : ((c.info.attrs.drop h.ng).zip (fv.map Val.text)).filterMap (·.2) = fv.filterMap Val.text := by
      have hl : (c.info.attrs.drop h.ng).length = (fv.map Val.text).length := by
        rw [hat, ← List.map_drop, List.length_map, List.length_map, hflen]
      have h2 : ((c.info.attrs.drop h.ng).zip (fv.map Val.text)).filterMap (·.2) =
          (((c.info.attrs.drop h.ng).zip (fv.map Val.text)).map (·.2)).filterMap id := by
        rw [List.filterMap_map]; rfl
      rw [h2, List.map_snd_zip (by omega), List.filterMap_map]
      rfl
    rw [this, join_words]
    · intro v hv ws hws
      obtain ⟨a, ha⟩ := hr.mem hv
      cases v with
      | none => cases hws
      | sc s => simp only [Val.words, Option.some.injEq] at hws; subst hws; simp
      | tuple l =>
        simp only [Val.words, Option.some.injEq] at hws; subst hws
        simpa using ha.2.1
      | obj => cases ha
    · intro v hv i l e
      subst e
      obtain ⟨a, ha⟩ := hr.mem hv
      exact ha
  · rw [readHead_text h hok p s d hp hs ⟨hd.1, hd.2.1, fun t ht => (hd.2.2 t ht).1⟩, htx]
  · -- head attributes read back
    have hhead : readVals (c.attrs.take h.ng) (hv.map Val.words) = .ok hv := by
      have hnm' : (c.attrs.take h.ng).map (·.name) = h.names := by rw [← hnm, hat, List.map_take]
      have hR : ReadVals (c.attrs.take h.ng) hv := by
        clear hpart htx hwt hsplit hnames hlen hvl q1 q2 q3
        revert hnm' hha hmany
        generalize c.attrs.take h.ng = as
        intro hha hmany hnm'
        obtain ⟨pv, sv, dv, rfl, h1, h2, h3⟩ := ho
        have hrp : ∀ a ∈ as, a.name = "prefix" → ∀ v, (v = .none ∨ ∃ c ∈ h.pre.chars, v = .sc (.str [c])) → ReadVal a v := by
          intro a haa hn v hv
          rcases hv with rfl | ⟨c, hc, rfl⟩
          · trivial
          · have := hha a haa
            simp only [headAttr, Bool.and_eq_true, Bool.not_eq_true'] at this
            refine ⟨this.1, ?_⟩
            have h2 := this.2
            cases hty : a.ty with
            | other => simp [hty, Ty.kind?] at h2
            | base k =>
              simp only [hty, Ty.kind?, hn] at h2
              have : k = .str := by simpa using h2
              subst this
              refine ⟨_, rfl, ?_⟩
              have hcc : c = '*' ∨ c = '+' := by
                cases h4 : h.pre <;> rw [h4] at hc <;> simp [Pre.chars] at hc
                · exact .inl hc
                · exact hc
                · exact hc.symm
              rcases hcc with rfl | rfl
              · exact ⟨⟨by decide, by decide, by decide, by decide, by decide, by decide, by decide⟩, (by unfold LowerShort; decide), by decide⟩
              · exact ⟨⟨by decide, by decide, by decide, by decide, by decide, by decide, by decide⟩, (by unfold LowerShort; decide), by decide⟩
        have hrs : ∀ a ∈ as, a.name = "suffix" → ∀ v, (v = .none ∨ ∃ n : Nat, v = .sc (.int (.num n))) → ReadVal a v := by
          intro a haa hn v hv
          rcases hv with rfl | ⟨c, rfl⟩
          · trivial
          · have := hha a haa
            simp only [headAttr, Bool.and_eq_true, Bool.not_eq_true'] at this
            refine ⟨this.1, ?_⟩
            have h2 := this.2
            cases hty : a.ty with
            | other => simp [hty, Ty.kind?] at h2
            | base k =>
              simp only [hty, Ty.kind?, hn] at h2
              have : k = .int := by simpa using h2
              subst this
              exact ⟨_, rfl, trivial⟩
        have hrd : ∀ a ∈ as, a.name = "designator" → ∀ v, (v = .none ∨ ∃ s, v = .sc (.desig s) ∧ ReadSc .desig (.desig s)) → ReadVal a v := by
          intro a haa hn v hv
          rcases hv with rfl | ⟨c, rfl, hc⟩
          · trivial
          · have := hha a haa
            simp only [headAttr, Bool.and_eq_true, Bool.not_eq_true'] at this
            refine ⟨this.1, ?_⟩
            have h2 := this.2
            cases hty : a.ty with
            | other => simp [hty, Ty.kind?] at h2
            | base k =>
              simp only [hty, Ty.kind?, hn] at h2
              have : k = .desig := by simpa using h2
              subst this
              exact ⟨_, rfl, hc⟩
        have h1' : if h.pre = .no then pv = [] else ∃ v, pv = [v] ∧ (v = .none ∨ ∃ c ∈ h.pre.chars, v = .sc (.str [c])) := by
          cases hh : h.pre <;> rw [hh] at h1 <;> simp only [PreOk] at h1
          · simpa using h1
          all_goals
            simp only [reduceCtorEq, if_false]
            rcases h1 with rfl | ⟨c, hc, rfl⟩
            · exact ⟨_, rfl, .inl rfl⟩
            · exact ⟨_, rfl, .inr ⟨c, hc, rfl⟩⟩
        have h2' : if h.suf = .no then sv = [] else ∃ v, sv = [v] ∧ (v = .none ∨ ∃ n : Nat, v = .sc (.int (.num n))) := by
          cases hh : h.suf <;> rw [hh] at h2 <;> simp only [SufOk] at h2
          · simpa using h2
          · obtain ⟨n, rfl⟩ := h2
            simp only [reduceCtorEq, if_false]; exact ⟨_, rfl, .inr ⟨n, rfl⟩⟩
          · simp only [reduceCtorEq, if_false]
            rcases h2 with rfl | ⟨n, rfl⟩
            · exact ⟨_, rfl, .inl rfl⟩
            · exact ⟨_, rfl, .inr ⟨n, rfl⟩⟩
        have h3' : if h.des = .no then dv = [] else ∃ v, dv = [v] ∧ (v = .none ∨ ∃ s, v = .sc (.desig s) ∧ ReadSc .desig (.desig s)) := by
          cases hh : h.des <;> rw [hh] at h3 <;> simp only [DesOk] at h3
          · simpa using h3
          · obtain ⟨n, rfl, hn⟩ := h3
            simp only [reduceCtorEq, if_false]; exact ⟨_, rfl, .inr ⟨n, rfl, hn⟩⟩
          · simp only [reduceCtorEq, if_false]
            rcases h3 with rfl | ⟨n, rfl, hn⟩
            · exact ⟨_, rfl, .inl rfl⟩
            · exact ⟨_, rfl, .inr ⟨n, rfl, hn⟩⟩
        have happ : ∀ (as1 as2 : List Attr) (v1 v2 : List Val), ReadVals as1 v1 → ReadVals as2 v2 → ReadVals (as1 ++ as2) (v1 ++ v2) := by
          intro as1
          induction as1 with
          | nil => intro as2 v1 v2 h1 h2; cases v1 with
            | nil => exact h2
            | cons v v1 => cases h1
          | cons a as1 ih => intro as2 v1 v2 h1 h2; cases v1 with
            | nil => cases h1
            | cons v v1 => exact ⟨h1.1, ih as2 v1 v2 h1.2 h2⟩
        have hone : ∀ (n : String) (b : Prop) [Decidable b] (as1 : List Attr) (l : List Val) (P : Val → Prop),
            as1.map (·.name) = (if b then [] else [n]) → (if b then l = [] else ∃ v, l = [v] ∧ P v) →
            (∀ a ∈ as1, a.name = n → ∀ v, P v → ReadVal a v) → ReadVals as1 l := by
          intro n b _ as1 l P h1 h2 h3
          by_cases hb : b
          · rw [if_pos hb] at h1 h2
            subst h2
            have : as1 = [] := by simpa using h1
            subst this; trivial
          · rw [if_neg hb] at h1 h2
            obtain ⟨v, rfl, hP⟩ := h2
            match as1, h1 with
            | [a], h1 =>
              simp only [List.map_cons, List.map_nil, List.cons.injEq, and_true] at h1
              exact ⟨h3 a (by simp) h1 v hP, trivial⟩
        unfold Head.names at hnm'
        obtain ⟨as12, as3, rfl, e12, e3⟩ := List.map_eq_append_iff.1 hnm'
        obtain ⟨as1, as2, rfl, e1, e2⟩ := List.map_eq_append_iff.1 e12
        exact happ _ _ _ _ (happ _ _ _ _ (hone _ _ as1 pv _ e1 h1' (fun a ha => hrp a (by simp [ha])))
          (hone _ _ as2 sv _ e2 h2' (fun a ha => hrs a (by simp [ha]))))
          (hone _ _ as3 dv _ e3 h3' (fun a ha => hrd a (by simp [ha])))
      exact (vals_round hR).1
    have happ : ∀ (as1 as2 : List Attr) (v1 v2 : Assign) (r1 r2 : List Val), as1.length = v1.length → readVals as1 v1 = .ok r1 →
        readVals as2 v2 = .ok r2 → readVals (as1 ++ as2) (v1 ++ v2) = .ok (r1 ++ r2) := by
      intro as1
      induction as1 with
      | nil =>
        intro as2 v1 v2 r1 r2 hl h1 h2
        cases v1 with
        | nil => simp only [readVals, Except.ok.injEq] at h1; subst h1; exact h2
        | cons v v1 => simp at hl
      | cons a as1 ih =>
        intro as2 v1 v2 r1 r2 hl h1 h2
        cases v1 with
        | nil => simp at hl
        | cons v v1 =>
          simp only [List.cons_append, readVals] at h1 ⊢
          cases hx : readVal a v with
          | error e => rw [hx] at h1; cases h1
          | ok x =>
            rw [hx] at h1
            cases hy : readVals as1 v1 with
            | error e => rw [hy] at h1; cases h1
            | ok y =>
              rw [hy] at h1
              simp only [Except.ok.injEq] at h1
              subst h1
              rw [ih as2 v1 v2 y r2 (by simpa using hl) hy h2]
              rfl
    have := happ (c.attrs.take h.ng) (c.attrs.drop h.ng) (hv.map Val.words) (fv.map Val.words) hv fv
      (by rw [hlen, List.length_map, hvl]) hhead rv
    rwa [List.take_append_drop] at this

/-- Two assignments of the same entries that read as the same values are equal. -/
theorem assign_unique : ∀ (as : List Attr) (fs : List Field) (vs : Assign) (fv : List Val), okFields as fs = true →
    (∀ a ∈ as, a.ty.kind?.isSome = true) → Fits (fs.map Field.spec) vs →
    readVals as vs = .ok fv → Assign.flat vs = Assign.flat (fv.map Val.words) → vs = fv.map Val.words := by
  intro as
  induction as with
  | nil =>
    intro fs vs fv ho _ hf hr _
    cases fs with
    | cons f fs => cases ho
    | nil => cases vs with
      | cons v vs => cases hf
      | nil => cases hr; rfl
  | cons a as ih =>
    intro fs vs fv ho hk hf hr hfl
    cases fs with
    | nil => cases ho
    | cons f fs =>
      cases vs with
      | nil => cases hf
      | cons v vs =>
        simp only [readVals] at hr
        cases hx : readVal a v with
        | error e => rw [hx] at hr; cases hr
        | ok x =>
          rw [hx] at hr
          cases hy : readVals as vs with
          | error e => rw [hy] at hr; cases hr
          | ok y =>
            rw [hy] at hr
            simp only [Except.ok.injEq] at hr
            subst hr
            simp only [okFields, Bool.and_eq_true] at ho
            have hf' : Fits (fs.map Field.spec) vs := by
              cases v with
              | none => exact hf.2
              | some ws => exact hf.2.2.2
            -- lengths of the first field
            have hlen : (v = none ∧ x.words = none) ∨ ∃ ws us, v = some ws ∧ x.words = some us ∧ ws.length = us.length := by
              cases v with
              | none => simp only [readVal, Except.ok.injEq] at hx; subst hx; exact .inl ⟨rfl, rfl⟩
              | some ws =>
                right
                have hka := hk a (by simp)
                cases hty : a.ty with
                | other => rw [hty] at hka; cases hka
                | base k =>
                  simp only [readVal, hty, Ty.parse] at hx
                  split at hx
                  · cases hm : ws.mapM k.parse with
                    | error e => rw [hm] at hx; cases hx
                    | ok l =>
                      rw [hm] at hx
                      cases hx
                      refine ⟨ws, _, rfl, rfl, ?_⟩
                      rw [List.length_map]
                      clear hf hf' hfl
                      revert l
                      induction ws with
                      | nil => intro l hm; cases hm; rfl
                      | cons w ws ihw =>
                        intro l hm
                        rw [List.mapM_cons] at hm
                        cases h1 : k.parse w with
                        | error e => rw [h1] at hm; cases hm
                        | ok b =>
                          cases h2 : ws.mapM k.parse with
                          | error e => rw [h1, h2] at hm; cases hm
                          | ok bs =>
                            rw [h1, h2] at hm
                            cases hm
                            simp [ihw bs h2]
                  · rename_i hmf
                    have hl1 : ws.length = 1 := by
                      obtain ⟨_, _, h3, _⟩ := hf
                      apply h3
                      have := ho.1
                      unfold okField at this
                      cases hmo : f.mode with
                      | req => left; rfl
                      | opt => right; rfl
                      | _ => rw [hmo] at this; simp only [Bool.and_eq_true] at this; exact absurd this.1 hmf
                    have hsc : ∃ s, x = .sc s := by
                      have hmap : ∀ {α : Type} (r : Res α) (g : α → Sc), r.map (fun v => Val.sc (g v)) = .ok x → ∃ s, x = .sc s := by
                        intro α r g hg
                        cases r with
                        | error e => cases hg
                        | ok b => cases hg; exact ⟨_, rfl⟩
                      cases k with
                      | trans n =>
                        simp only [Kind.parse, transParse] at hx
                        have hmk : ∀ rs m, mkTrans n rs m = .ok x → ∃ s, x = .sc s := by
                          intro rs m h
                          unfold mkTrans at h
                          split at h
                          · cases h; exact ⟨_, rfl⟩
                          · split at h <;> cases h; exact ⟨_, rfl⟩
                          · cases h
                        split at hx
                        · cases hx
                        · split at hx
                          · cases hx
                          · split at hx
                            · exact hmk _ _ hx
                            · exact hmk _ _ hx
                            · split at hx
                              · cases hx
                              · exact hmk _ _ hx
                      | str => cases hx; exact ⟨_, rfl⟩
                      | _ => exact hmap _ _ hx
                    obtain ⟨s, rfl⟩ := hsc
                    exact ⟨ws, _, rfl, rfl, by rw [hl1]; rfl⟩
            rw [List.map_cons] at hfl ⊢
            rcases hlen with ⟨rfl, hn⟩ | ⟨ws, us, rfl, hu, hl⟩
            · rw [hn, flat_cons_none, flat_cons_none] at hfl
              rw [hn, ih fs vs y ho.2 (fun b hb => hk b (by simp [hb])) hf' hy hfl]
            · rw [hu, flat_cons_some, flat_cons_some] at hfl
              obtain ⟨e1, e2⟩ := List.append_inj hfl hl
              rw [hu, e1, ih fs vs y ho.2 (fun b hb => hk b (by simp [hb])) hf' hy e2]

/-- Reading back the entries of a printed value: exactly when they are assigned to the fields they
were printed from. -/
theorem readWords_iff (c : Cls) (h : Head) (fs : List Field) (hst : c.std h fs = true) (hv fv : List Val)
    (hd : Str) (hh : readHead h hd = some (hv.map Val.text)) (hw : hv.map Val.words = (hv.map Val.text).map (·.map ([·])))
    (hr : readVals c.attrs (hv.map Val.words ++ fv.map Val.words) = .ok (hv ++ fv)) (hl : hv.length = h.ng)
    (v : Val) (hmk : c.mk' (hv ++ fv) = .ok v) :
    (readWords c h fs hd (Assign.flat (fv.map Val.words)) = .ok v ↔
      assign (fs.map Field.spec) (Assign.flat (fv.map Val.words)) = some (fv.map Val.words)) := by
  have hobj : ∀ l u, c.mk' l = .ok u → u = .obj c.info l := by
    intro l u h
    unfold Cls.mk' at h
    split at h <;> cases h; rfl
  unfold readWords
  rw [hh]
  constructor
  · intro hrw
    cases hf : assign (fs.map Field.spec) (Assign.flat (fv.map Val.words)) with
    | none => rw [hf] at hrw; cases hrw
    | some vs =>
      rw [hf] at hrw
      simp only at hrw
      rw [← hw] at hrw
      cases hrv : readVals c.attrs (hv.map Val.words ++ vs) with
      | error e => rw [hrv] at hrw; cases hrw
      | ok l =>
        rw [hrv] at hrw
        have e1 := hobj _ _ hrw
        have e2 := hobj _ _ hmk
        rw [e2] at e1
        simp only [Val.obj.injEq, true_and] at e1
        subst e1
        obtain ⟨ft, fl⟩ := assign_sound hf
        congr 1
        -- split off the head
        have hdrop : ∀ (as1 as2 : List Attr) (v1 v2 : Assign) (r1 r2 : List Val), as1.length = v1.length → v1.length = r1.length →
            readVals (as1 ++ as2) (v1 ++ v2) = .ok (r1 ++ r2) → readVals as2 v2 = .ok r2 := by
          intro as1
          induction as1 with
          | nil =>
            intro as2 v1 v2 r1 r2 h1 h2 h3
            have : v1 = [] := by simpa using h1.symm
            subst this
            have : r1 = [] := by simpa using h2.symm
            subst this
            exact h3
          | cons a as1 ih =>
            intro as2 v1 v2 r1 r2 h1 h2 h3
            cases v1 with
            | nil => simp at h1
            | cons u v1 =>
              cases r1 with
              | nil => simp at h2
              | cons r r1 =>
                simp only [List.cons_append, readVals] at h3
                cases hx : readVal a u with
                | error e => rw [hx] at h3; cases h3
                | ok x =>
                  rw [hx] at h3
                  cases hy : readVals (as1 ++ as2) (v1 ++ v2) with
                  | error e => rw [hy] at h3; cases h3
                  | ok y =>
                    rw [hy] at h3
                    simp only [Except.ok.injEq, List.cons.injEq] at h3
                    rw [h3.2] at hy
                    exact ih as2 v1 v2 r1 r2 (by simpa using h1) (by simpa using h2) hy
        simp only [Cls.std, Bool.and_eq_true, beq_iff_eq, List.all_eq_true] at hst
        obtain ⟨⟨⟨⟨⟨⟨⟨hpl, hkw⟩, hkc⟩, hat⟩, hnm⟩, hha⟩, hfa⟩, hsty⟩ := hst
        simp only [Cls.plain, Bool.and_eq_true, List.all_eq_true, beq_iff_eq, Bool.not_eq_true'] at hpl
        obtain ⟨⟨⟨⟨⟨hok, hu⟩, ha⟩, hlen⟩, hmany⟩, hof⟩ := hpl
        refine assign_unique (c.attrs.drop h.ng) fs vs fv hof (fun a haa => (hfa a haa).2) ft ?_ fl
        have h4 := hrv
        rw [← List.take_append_drop h.ng c.attrs] at h4
        exact hdrop _ _ _ _ hv fv (by rw [hlen, List.length_map, hl]) (by rw [List.length_map]) h4
  · intro hf
    rw [hf]
    simp only
    rw [← hw]
    simp only [hr, hmk]

theorem strip_text (hd : Str) (ws : List Str) (hw : Words (hd :: ws)) :
    strip (hd ++ ' ' :: join [' '] ws) = join [' '] (hd :: ws) := by
  cases ws with
  | nil =>
    obtain ⟨h1, h2⟩ := hw hd (by simp)
    have : strip (hd ++ [' ']) = hd := by
      have hl : lstrip (hd ++ [' ']) = hd ++ [' '] := by
        cases hd with
        | nil => exact absurd rfl h2
        | cons c t => simp [lstrip, List.dropWhile, h1 c (by simp)]
      unfold strip
      rw [hl]
      have h3 : rstrip hd = hd := by
        have := strip_noSpace hd h1
        unfold strip at this
        have h4 : lstrip hd = hd := by
          cases hd with
          | nil => rfl
          | cons c t => simp [lstrip, List.dropWhile, h1 c (by simp)]
        rwa [h4] at this
      simp only [rstrip, List.reverse_append, List.reverse_cons, List.reverse_nil, List.nil_append, List.cons_append] at h3 ⊢
      rw [List.dropWhile_cons_of_pos (by decide)]
      exact h3
    simpa [join] using this
  | cons w ws =>
    have h1 : hd ++ ' ' :: join [' '] (w :: ws) = hd ++ enc (w :: ws) := by rw [join_enc, enc_cons]
    rw [h1, join_enc]
    have := strip_enc hd (w :: ws) hw
    rw [enc_cons, strip_space_cons] at this
    exact this

end Inp
