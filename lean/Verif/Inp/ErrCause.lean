import Verif.Inp.ErrTable
/-! Helper lemmas: what in the text causes an exception. -/
namespace Inp
open Py Types Ptrac

/-- The entry has a type whose exceptions are known from its text. -/
def tame (r : Re) (i : Nat) (a : Attr) : Bool :=
  match a.ty with
  | .base .int | .base .real => a.many || groupIs r (i + 1) inked
  | .base .index | .base .geo | .base .lat | .base (.trans _) => false
  | _ => true

/-- The type is an option or an entry. -/
def _root_.Inp.Ty.isOther : Ty → Bool
  | .base _ => false
  | .other _ _ _ _ => true

/-- All entries from the `i`-th on are. -/
def tameAll (r : Re) : Nat → List Attr → Bool
  | _, [] => true
  | i, a :: as => tame r i a && tameAll r (i + 1) as

theorem attr_cause {E : List Err} {r : Re} {s : Str} {m} (h : reMatch r s = some m) {ng i : Nat} {a : Attr}
    (hng : i + 1 ≤ ng) (ht : TyOut E a.ty) (hto : a.many = true → TyOut toldErrs a.ty) (hg : tame r i a = true) :
    Out (fun e => e ∈ toldErrs ∨ (e ∈ E ∧ a.ty.isOther = true ∧ ∃ t, cap m (i + 1) = some t ∧ a.ty.parse (strip t) = .error e) ∨ (e = .overflow ∨ e = .value) ∧ ∃ t, cap m (i + 1) = some t ∧ Special (strip t)) (attrVal ng m i a) := by
  intro e he
  have key : e ∈ attrErrs r i a ∨ e ∈ E ∧ a.ty.isOther = true := by
    cases hty : a.ty with
    | base k =>
      have := (attr_sound (E := []) h hng (a := a) (by rw [hty]; trivial)).1 e he
      rw [List.append_nil] at this
      exact .inl this
    | other n r g p => 
      rcases List.mem_append.1 ((attr_sound h hng ht).1 e he) with h1 | h1
      · exact .inl h1
      · exact .inr ⟨h1, rfl⟩
  rcases key with h1 | ⟨hin, h1⟩
  · unfold attrVal at he
    rw [if_neg (by omega)] at he
    cases hu : cap m (i + 1) with
    | none => rw [hu] at he; cases he
    | some u =>
      rw [hu] at he
      cases u with
      | nil => cases he
      | cons ch us =>
        simp only at he
        generalize hx : ch :: us = u at he hu
        unfold Attr.parse at he
        by_cases hm : a.many = true
        · left
          unfold attrErrs at h1
          unfold tame at hg
          rw [hm] at h1
          revert h1 hg
          cases a.ty with
          | other _ _ _ _ => simp
          | base k =>
            have h0 : Err.types ∈ toldErrs := by decide
            cases k <;> simp +contextual [h0]
        · rw [if_neg hm] at he
          have hm' : a.many = false := by simpa using hm
          unfold attrErrs at h1
          unfold tame at hg
          rw [hm'] at h1 hg
          revert h1 hg he
          cases a.ty with
          | other _ _ _ _ => simp
          | base k =>
            cases k with
            | int =>
              intro hg h1 he
              simp only [Bool.false_or] at hg
              have hne : strip u ≠ [] := by
                obtain ⟨b, hb, hw⟩ := group_wrote h (by omega) hu hg
                exact strip_ne (hw.1 hb)
              simp only [Ty.parse, Kind.parse] at he
              cases hi : intParse (strip u) with
              | ok v => rw [hi] at he; cases he
              | error e' =>
                rw [hi] at he
                cases he
                rcases out_int hne e hi with rfl | ⟨h2, h3⟩
                · left; decide
                · right; right; exact ⟨h2, u, rfl, h3⟩
            | real =>
              intro hg h1 he
              left
              simp only [Bool.false_or] at hg
              simp only [Bool.false_or, hg, if_true, List.mem_singleton] at h1
              subst h1; decide
            | str => simp
            | index => intro hg _ _; cases hg
            | geo => intro hg _ _; cases hg
            | lat => intro hg _ _; cases hg
            | trans k => intro hg _ _; cases hg
            | zaid | dist | desig | subst =>
              intro _ h1 _
              left
              simp only [List.mem_singleton] at h1
              subst h1; decide
  · by_cases hm : a.many = true
    · have key := (attr_sound h hng (hto hm)).1 e he
      rcases List.mem_append.1 key with h1 | h1
      · left
        unfold attrErrs at h1
        unfold tame at hg
        rw [hm] at h1
        revert h1 hg
        cases a.ty with
        | other _ _ _ _ => simp
        | base k =>
          have h0 : Err.types ∈ toldErrs := by decide
          cases k <;> simp +contextual [h0]
      · exact .inl h1
    · unfold attrVal at he
      rw [if_neg (by omega)] at he
      cases hu : cap m (i + 1) with
      | none => rw [hu] at he; cases he
      | some u =>
        rw [hu] at he
        cases u with
        | nil => cases he
        | cons ch us =>
          simp only at he
          unfold Attr.parse at he
          rw [if_neg hm] at he
          exact .inr (.inl ⟨hin, h1, _, rfl, he⟩)

/-- The value is a shorthand. -/
def isShort (v : Val) : Bool := (absOf v).short

theorem short_text {ng i : Nat} {m : List (Nat × Str)} {a : Attr} {v : Val} {E : List Err} (hto : TyOut E a.ty) (h : attrVal ng m i a = .ok v)
    (hs : isShort v = true) : ∃ t x, cap m (i + 1) = some t ∧ horizParse (strip t) = .ok x := by
  unfold attrVal at h
  split at h
  · cases h
  · cases hu : cap m (i + 1) with
    | none => rw [hu] at h; cases h; cases hs
    | some u =>
      rw [hu] at h
      cases u with
      | nil => cases h; cases hs
      | cons ch us =>
        simp only at h
        generalize hx : ch :: us = u at h
        refine ⟨u, ?_⟩
        unfold Attr.parse at h
        split at h
        · unfold tupleParse at h
          cases hq : (finditer (a.ty.re 1) (strip u)).mapM a.ty.parse with
          | error e => rw [hq] at h; cases h
          | ok l => rw [hq] at h; cases h; cases hs
        · revert h hto
          cases a.ty with
          | other n r g p =>
            intro hto h
            have := (hto _).2 v h
            unfold isShort at hs
            rw [this] at hs; cases hs
          | base k =>
            intro _ h
            cases k with
            | int =>
              simp only [Ty.parse, Kind.parse] at h
              cases hi : intParse (strip u) with
              | error e => rw [hi] at h; cases h
              | ok w =>
                rw [hi] at h; cases h
                cases w with
                | num n => cases hs
                | hor x =>
                  refine ⟨x, rfl, ?_⟩
                  unfold intParse at hi
                  split at hi
                  · rename_i y hy; cases hi; exact hy
                  · split at hi
                    · cases hi
                    · split at hi <;> cases hi
                  · cases hi
            | real =>
              simp only [Ty.parse, Kind.parse] at h
              cases hi : realParse (strip u) with
              | error e => rw [hi] at h; cases h
              | ok w =>
                rw [hi] at h; cases h
                cases w with
                | num n => cases n <;> cases hs
                | hor x =>
                  refine ⟨x, rfl, ?_⟩
                  unfold realParse at hi
                  split at hi
                  · rename_i y hy; cases hi; exact hy
                  · split at hi
                    · cases hi
                    · split at hi <;> cases hi
                  · cases hi
            | trans k => obtain ⟨rs, q, rfl⟩ := trans_abs h; cases hs
            | str => cases h; cases hs
            | zaid =>
              simp only [Ty.parse, Kind.parse] at h
              cases hi : zaidParse (strip u) <;> rw [hi] at h <;> cases h
              cases hs
            | dist =>
              simp only [Ty.parse, Kind.parse] at h
              cases hi : distParse (strip u) <;> rw [hi] at h <;> cases h
              cases hs
            | desig =>
              simp only [Ty.parse, Kind.parse] at h
              cases hi : desigParse (strip u) <;> rw [hi] at h <;> cases h
              cases hs
            | subst =>
              simp only [Ty.parse, Kind.parse] at h
              cases hi : substParse (strip u) <;> rw [hi] at h <;> cases h
              cases hs
            | index =>
              simp only [Ty.parse, Kind.parse] at h
              cases hi : indexParse (strip u) <;> rw [hi] at h <;> cases h
              cases hs
            | geo =>
              simp only [Ty.parse, Kind.parse] at h
              cases hi : geoParse (strip u) <;> rw [hi] at h <;> cases h
              cases hs
            | lat =>
              simp only [Ty.parse, Kind.parse] at h
              cases hi : latParse (strip u) <;> rw [hi] at h <;> cases h
              cases hs

/-- What explains an exception of the entries from the `i`-th on. -/
def Explained (E : List Err) (m : List (Nat × Str)) (i : Nat) (as : List Attr) (e : Err) : Prop :=
  e ∈ toldErrs ∨ (e ∈ E ∧ ∃ j a t, as[j]? = some a ∧ a.ty.isOther = true ∧ cap m (i + j + 1) = some t ∧ a.ty.parse (strip t) = .error e) ∨ (e = .overflow ∨ e = .value) ∧ ∃ j t, j < as.length ∧ cap m (i + j + 1) = some t ∧ Special (strip t)

theorem attrs_cause {E : List Err} {r : Re} {s : Str} {m} (h : reMatch r s = some m) {ng : Nat} (as : List Attr) : ∀ i, i + as.length ≤ ng →
    AllTy E as → (∀ a ∈ as, a.many = true → TyOut toldErrs a.ty) → tameAll r i as = true → Out (Explained E m i as) (attrVals ng m i as) ∧
      ∀ vs, attrVals ng m i as = .ok vs → (∀ v ∈ vs, isShort v = false) ∨
        ∃ j t x, j < as.length ∧ cap m (i + j + 1) = some t ∧ horizParse (strip t) = .ok x := by
  induction as with
  | nil => intro i _ _ _ _; exact ⟨.ok _, fun vs hv => by cases hv; exact .inl (by simp)⟩
  | cons a as ih =>
    intro i hi ht hto hg
    rw [List.length_cons] at hi
    simp only [tameAll, Bool.and_eq_true] at hg
    have ha := attr_cause h (ng := ng) (i := i) (a := a) (by omega) ht.1 (hto a List.mem_cons_self) hg.1
    obtain ⟨b1, b2⟩ := ih (i + 1) (by omega) ht.2 (fun a ha => hto a (List.mem_cons_of_mem _ ha)) hg.2
    unfold attrVals
    cases hv : attrVal ng m i a with
    | error e =>
      refine ⟨.err ?_, fun vs hv => by cases hv⟩
      rcases ha e hv with h1 | ⟨ho, hq, t, h2, h3⟩ | ⟨h1, t, h2, h3⟩
      · exact .inl h1
      · exact .inr (.inl ⟨ho, 0, a, t, rfl, hq, h2, h3⟩)
      · exact .inr (.inr ⟨h1, 0, t, by simp, h2, h3⟩)
    | ok v =>
      simp only
      cases hvs : attrVals ng m (i + 1) as with
      | error e =>
        refine ⟨.err ?_, fun vs hv => by cases hv⟩
        rcases b1 e hvs with h1 | ⟨ho, j, b, t, h0, hq, h2, h3⟩ | ⟨h1, j, t, h0, h2, h3⟩
        · exact .inl h1
        · exact .inr (.inl ⟨ho, j + 1, b, t, by simpa using h0, hq, by rw [← h2]; congr 1; omega, h3⟩)
        · exact .inr (.inr ⟨h1, j + 1, t, by simpa using h0, by rw [← h2]; congr 1; omega, h3⟩)
      | ok vs =>
        refine ⟨.ok _, fun ws hw => ?_⟩
        cases hw
        rcases b2 vs hvs with h1 | ⟨j, t, x, h0, h2, h3⟩
        · cases hs : isShort v with
          | false =>
            left
            intro w hw
            rcases List.mem_cons.1 hw with rfl | hw
            · exact hs
            · exact h1 w hw
          | true =>
            obtain ⟨t, x, h2, h3⟩ := short_text ht.1 hv hs
            exact .inr ⟨0, t, x, by simp, h2, h3⟩
        · exact .inr ⟨j + 1, t, x, by simpa using h0, by rw [← h2]; congr 1; omega, h3⟩

theorem kinds_calm {vs : List Val} {ls : List (List Abs)} (h : Kinds vs ls) (hs : ∀ v ∈ vs, isShort v = false) :
    Kinds vs (ls.map (fun l => l.filter (fun x => !x.short))) := by
  induction h with
  | nil => exact .nil
  | cons hv _ ih =>
    refine .cons ?_ (ih (fun v hv => hs v (List.mem_cons_of_mem _ hv)))
    refine List.mem_filter.2 ⟨hv, ?_⟩
    have := hs _ List.mem_cons_self
    unfold isShort at this
    simp [this]

/-- The check that every exception of a class is explained by its text. -/
def clearCheck (E : List Err) (c : Cls) : Bool :=
  (calmErrs c).all (fun e => E.contains e) &&
    (initErrs (c.attrs.zip (attrsAbs c.re 0 c.attrs)) [] c.init).all (fun e => (.typeErr :: .attribute :: E).contains e) &&
    decide (c.attrs.length ≤ c.pat.ng) && tameAll c.re 0 c.attrs

theorem build_cause {E K : List Err} (hK : toldErrs ⊆ K) {c : Cls} (hk : clearCheck K c = true) (ht : AllTy E c.attrs)
    (hto : ∀ a ∈ c.attrs, a.many = true → TyOut toldErrs a.ty) {s : Str} {m} (h : reMatch c.re s = some m) :
    Out (fun e => e ∈ K ∨ (e ∈ E ∧ ∃ j a t, c.attrs[j]? = some a ∧ a.ty.isOther = true ∧ cap m (j + 1) = some t ∧ a.ty.parse (strip t) = .error e) ∨
      (e = .overflow ∨ e = .value) ∧ (∃ j t, j < c.attrs.length ∧ cap m (j + 1) = some t ∧ Special (strip t)) ∨
      (e = .typeErr ∨ e = .attribute) ∧ ∃ j t x, j < c.attrs.length ∧ cap m (j + 1) = some t ∧ horizParse (strip t) = .ok x) (c.build m) := by
  simp only [clearCheck, Bool.and_eq_true, decide_eq_true_eq] at hk
  obtain ⟨⟨⟨k1, k2⟩, k3⟩, k4⟩ := hk
  obtain ⟨a1, a2⟩ := attrs_cause h (ng := c.pat.ng) c.attrs 0 (by omega) ht hto k4
  unfold Cls.build
  split
  · rename_i e he
    refine .err ?_
    rcases a1 e he with h1 | ⟨ho, j, a, t, h2, hq, h3, h4⟩ | ⟨h1, j, t, h2, h3, h4⟩
    · exact .inl (hK h1)
    · exact .inr (.inl ⟨ho, j, a, t, h2, hq, by rw [← h3]; congr 1; omega, h4⟩)
    · exact .inr (.inr (.inl ⟨h1, j, t, h2, by rw [← h3]; congr 1; omega, h4⟩))
  · rename_i vs hv
    have hkd := (attrs_sound h (ng := c.pat.ng) c.attrs 0 (by omega) ht.mem).2 vs hv
    rcases a2 vs hv with hs | ⟨j, t, x, h2, h3, h4⟩
    · unfold Cls.mk'
      split
      · rename_i e he
        have := init_sound (as := c.attrs) (kinds_calm hkd hs) c.init [] [] agree_nil e he
        refine .err (.inl ?_)
        simpa using List.all_eq_true.1 k1 e this
      · exact .ok _
    · unfold Cls.mk'
      split
      · rename_i e he
        refine .err ?_
        have := init_sound (as := c.attrs) hkd c.init [] [] agree_nil e he
        have hE := List.all_eq_true.1 k2 e this
        simp only [List.contains_iff_mem, List.mem_cons] at hE
        rcases hE with hE | hE | hE
        · exact .inr (.inr (.inr ⟨.inl hE, j, t, x, h2, by rw [← h3]; congr 1; omega, h4⟩))
        · exact .inr (.inr (.inr ⟨.inr hE, j, t, x, h2, by rw [← h3]; congr 1; omega, h4⟩))
        · exact .inl hE
      · exact .ok _

end Inp
