import Verif.Inp.RoundTrip
/-!
# Printed values fit the fields they are printed from
-/
namespace Inp
open Py Types

theorem unit_num {w : Str} (h : NumWord w) : unitOk (.ty (.base .int)) w = true ∧ unitOk (.ty (.base .real)) w = true :=
  ⟨(unitOk_iff (.ty (.base .int)) rfl 1 w).2 (full_num.2 h), (unitOk_iff (.ty (.base .real)) rfl 1 w).2 (full_num.2 h)⟩

theorem numWord_of {w : Str} (hne : w ≠ []) (h : ∀ c ∈ w, numCh c = true) : NumWord w := by
  have hh : ∀ c, numCh c = true → numHead c = true := by
    intro c hc
    rcases numCh_cases hc with h | rfl | rfl | rfl | rfl | rfl
    · exact digit_numHead h
    all_goals decide
  cases w with
  | nil => exact absurd rfl hne
  | cons c t => exact .num c t (hh c (h c (by simp))) (fun d hd => numHead_tail (hh d (h d (by simp [hd]))))

theorem numWord_bare {h : Horiz} (hb : Bare h) : NumWord h.str := by
  cases h with
  | rep n => have : n = none := hb
             subst this; exact .lit 'r' _ (by decide) rfl
  | ins n => have : n = none := hb
             subst this; exact .lit 'i' _ (by decide) rfl
  | jump n => have : n = none := hb
              subst this; exact .lit 'j' _ (by decide) rfl
  | log n => have : n = none := hb
             subst this
             first
               | exact .log _ rfl
               | exact .ilog _ rfl
  | mul x =>
    have hx : 0 < x := hb
    obtain ⟨k, rfl⟩ : ∃ k : Nat, x = k := ⟨x.toNat, by omega⟩
    exact .mul (natStr k) ['m'] (natStr_digits k) rfl

/-- A readable scalar prints a word of its type's pattern. -/
theorem sc_unit {k : Kind} {s : Sc} (h : ReadSc k s) : unitOk (.ty (.base k)) s.text = true := by
  have hst := (sc_round h).1
  cases k <;> cases s <;> try (exact False.elim h)
  · rename_i v
    cases v with
    | num n =>
      refine (unit_num (numWord_of ?_ ?_)).1
      · exact hst.entry.ne
      · intro c hc
        rcases intStr_chars n c hc with h | rfl
        · exact numCh_digit h
        · decide
    | hor x => exact (unit_num (numWord_bare h)).1
  · rename_i v
    cases v with
    | num n =>
      cases n with
      | fin d => exact (unit_num (numWord_of hst.entry.ne (Dec.str_chars d))).2
      | _ => exact False.elim h
    | hor x => exact (unit_num (numWord_bare h)).2
  · rename_i s
    refine (unitOk_iff (.ty (.base .str)) rfl 1 s).2 ⟨[], ?_⟩
    exact mt_plus_cls.2 ⟨hst.entry.ne, fun c hc => by simp [hst.entry.sp c hc], rfl⟩
  · rename_i z
    have hp := (sc_round h).2
    simp only [Kind.parse] at hp
    unfold zaidParse at hp
    unfold unitOk
    have : reMatch (anchored ((Pat.ty (.base .zaid)).re 1)) (Sc.zaid z).text = reMatch zaidRe (Sc.zaid z).text := rfl
    rw [this]
    cases hm : reMatch zaidRe (Sc.zaid z).text with
    | none => rw [hm] at hp; cases hp
    | some m => rfl
  · rename_i n
    have hn : n ≤ 9 := h
    have hall : ∀ n : Fin 10, unitOk (.ty (.base .dist)) (distStr n.1) = true := by decide +kernel
    exact hall ⟨n, by omega⟩
  · rename_i s
    have hp := (sc_round h).2
    simp only [Kind.parse] at hp
    unfold desigParse at hp
    unfold unitOk
    have : reMatch (anchored ((Pat.ty (.base .desig)).re 1)) (Sc.desig s).text = reMatch desigRe (Sc.desig s).text := rfl
    rw [this]
    cases hm : reMatch desigRe (Sc.desig s).text with
    | none => rw [hm] at hp; cases hp
    | some m => rfl

/-- The unit of a field is the pattern of its attribute's type. -/
def nativeFields : List Attr → List Field → Bool
  | [], [] => true
  | a :: as, f :: fs => f.unit.kind?.isSome && f.unit.kind? == a.ty.kind? && nativeFields as fs
  | _, _ => false

theorem std_fields {c : Cls} {h fs} (hst : c.std h fs = true) : okFields (c.attrs.drop h.ng) fs = true := by
  simp only [Cls.std, Cls.plain, Bool.and_eq_true] at hst
  exact hst.1.1.1.1.1.1.1.2

theorem fits_vals : ∀ (as : List Attr) (fs : List Field) (vs : List Val), okFields as fs = true → nativeFields as fs = true →
    ReadVals as vs → Present (fs.map (·.mode)) vs → Fits (fs.map Field.spec) (vs.map Val.words) := by
  intro as
  induction as with
  | nil =>
    intro fs vs ho hn hr hp
    cases fs with
    | cons f fs => cases ho
    | nil => cases vs with
      | nil => trivial
      | cons v vs => exact False.elim hr
  | cons a as ih =>
    intro fs vs ho hn hr hp
    cases fs with
    | nil => cases ho
    | cons f fs =>
      cases vs with
      | nil => exact False.elim hr
      | cons v vs =>
        simp only [okFields, nativeFields, Bool.and_eq_true, beq_iff_eq] at ho hn
        obtain ⟨hv, hvs⟩ := hr
        obtain ⟨p1, p2⟩ := hp
        have hi := ih fs vs ho.2 hn.2 hvs p2
        obtain ⟨k, hk⟩ := Option.isSome_iff_exists.1 hn.1.1
        have hak : ∀ k', a.ty = .base k' → k' = k := by
          intro k' e
          have := hn.1.2
          rw [hk, e] at this
          simpa [Ty.kind?] using this.symm
        have hu : ∀ s, ReadSc k s → unitOk f.unit s.text = true := fun s hs => by rw [unitOk_kind hk]; exact sc_unit hs
        rw [List.map_cons, List.map_cons]
        cases v with
        | none =>
          refine ⟨?_, hi⟩
          rcases p1 with p | p | p
          · exact .inl p
          · exact .inr p
          · exact absurd rfl p
        | obj i l => exact False.elim hv
        | sc s =>
          obtain ⟨hm, k', e, hs⟩ := hv
          rw [hak k' e] at hs
          refine ⟨by simp, ?_, fun _ => rfl, hi⟩
          intro w hw
          have : w = (Val.sc s).str := by simpa using hw
          subst this; exact hu s hs
        | tuple l =>
          obtain ⟨hm, hne, k', e, hs⟩ := hv
          rw [hak k' e] at hs
          refine ⟨by simpa using hne, ?_, ?_, hi⟩
          · intro w hw
            obtain ⟨x, hx, rfl⟩ := List.mem_map.1 hw
            obtain ⟨s, rfl, h⟩ := hs x hx
            exact hu s h
          · intro hmode
            exfalso
            have := ho.1
            unfold okField at this
            rcases hmode with hmode | hmode <;> (rw [hmode] at this; simp [hm] at this)

theorem okFields_length : ∀ {as : List Attr} {fs : List Field}, okFields as fs = true → as.length = fs.length
  | [], [], _ => rfl
  | _ :: _, _ :: _, h => by
    simp only [okFields, Bool.and_eq_true] at h
    simp [okFields_length h.2]
  | [], _ :: _, h => by cases h
  | _ :: _, [], h => by cases h

theorem fits_mem : ∀ {fs : List ((Str → Bool) × Mode)} {vs : Assign}, Fits fs vs → ∀ {w}, w ∈ Assign.flat vs →
    ∃ f ∈ fs, f.1 w = true := by
  intro fs
  induction fs with
  | nil =>
    intro vs h w hw
    cases vs with
    | nil => cases hw
    | cons v vs => exact False.elim h
  | cons f fs ih =>
    intro vs h w hw
    cases vs with
    | nil => exact False.elim h
    | cons v vs =>
      cases v with
      | none =>
        rw [flat_cons_none] at hw
        obtain ⟨g, hg, h'⟩ := ih h.2 hw
        exact ⟨g, by simp [hg], h'⟩
      | some ws =>
        rw [flat_cons_some] at hw
        rcases List.mem_append.1 hw with hw | hw
        · exact ⟨f, by simp, h.2.1 w hw⟩
        · obtain ⟨g, hg, h'⟩ := ih h.2.2.2 hw
          exact ⟨g, by simp [hg], h'⟩

/-- Entries filled from the left are the original ones exactly when nothing was left out before them. -/
theorem holes_iff : ∀ (fv : List Val), (∀ u ∈ fv, u.words = none ∧ u = .none ∨ ∃ w, u.words = some [w]) →
    ((Assign.flat (fv.map Val.words)).map (fun w => some [w]) ++
        List.replicate (fv.length - (Assign.flat (fv.map Val.words)).length) none = fv.map Val.words ↔
      fv.Pairwise (fun a b => a = .none → b = .none)) := by
  intro fv
  induction fv with
  | nil => intro _; simp [Assign.flat]
  | cons u fv ih =>
    intro h
    have hi := ih (fun x hx => h x (by simp [hx]))
    have hne : ∀ x ∈ fv, x.words = none → x = .none := by
      intro x hx hn
      rcases h x (by simp [hx]) with h' | ⟨w, h'⟩
      · exact h'.2
      · rw [hn] at h'; cases h'
    rw [List.pairwise_cons]
    rcases h u (by simp) with ⟨hu, rfl⟩ | ⟨w, hu⟩
    · rw [List.map_cons, hu, flat_cons_none]
      constructor
      · intro e
        have hnil : Assign.flat (fv.map Val.words) = [] := by
          cases hf : Assign.flat (fv.map Val.words) with
          | nil => rfl
          | cons a b => rw [hf] at e; simp at e
        rw [hnil] at e hi
        simp only [List.map_nil, List.nil_append, List.length_nil, Nat.sub_zero, List.length_cons, List.replicate_succ,
          List.cons.injEq, true_and] at e hi
        refine ⟨?_, hi.1 e⟩
        intro b hb _
        apply hne b hb
        have : b.words ∈ fv.map Val.words := List.mem_map.2 ⟨b, hb, rfl⟩
        rw [← e] at this
        exact (List.mem_replicate.1 this).2
      · rintro ⟨h1, h2⟩
        have hall : ∀ x ∈ fv, x = .none := fun x hx => h1 x hx rfl
        have hrep : fv.map Val.words = List.replicate fv.length none := by
          apply List.eq_replicate_iff.2
          refine ⟨by simp, ?_⟩
          intro b hb
          obtain ⟨x, hx, rfl⟩ := List.mem_map.1 hb
          rw [hall x hx]; rfl
        have hnil : Assign.flat (fv.map Val.words) = [] := by
          rw [hrep]
          simp [Assign.flat]
        rw [hnil, hrep]
        simp [List.replicate_succ]
    · rw [List.map_cons, hu, flat_cons_some]
      have hun : u ≠ .none := by rintro rfl; cases hu
      simp only [List.cons_append, List.nil_append, List.map_cons, List.length_cons, Nat.add_sub_add_right, List.cons.injEq, true_and]
      rw [hi]
      exact ⟨fun h => ⟨fun b _ e => absurd e hun, h⟩, fun h => h.2⟩

theorem readVals_mem : ∀ {as : List Attr} {vs : List Val}, ReadVals as vs → ∀ {v}, v ∈ vs → ∃ a ∈ as, ReadVal a v
  | [], [], _, _, hv => by cases hv
  | a :: as, u :: vs, h, v, hv => by
    rcases List.mem_cons.1 hv with rfl | hv
    · exact ⟨a, by simp, h.1⟩
    · obtain ⟨b, hb, h'⟩ := readVals_mem h.2 hv
      exact ⟨b, by simp [hb], h'⟩
  | [], _ :: _, h, _, _ => False.elim h
  | _ :: _, [], h, _, _ => False.elim h

end Inp
