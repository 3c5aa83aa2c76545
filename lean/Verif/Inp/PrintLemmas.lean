import Verif.Inp.RoundLemmas
/-!
# The text of a printed card, and uniqueness of assignments
-/
namespace Inp
open Py Types

/-! ## The first word -/

/-- The names of the attributes printed in the first word. -/
def Head.names (h : Head) : List String :=
  (if h.pre = .no then [] else ["prefix"]) ++ (if h.suf = .no then [] else ["suffix"]) ++
    (if h.des = .no then [] else ["designator"])

/-- Types of the attributes printed in the first word. -/
def headAttr (a : Attr) : Bool :=
  !a.many && match a.ty.kind? with
    | some k => (a.name == "prefix" && k == .str) || (a.name == "suffix" && k == .int) || (a.name == "designator" && k == .desig)
    | none => false

/-- A plain class whose attributes are named and typed consistently, and printed by the generic printers. -/
def Cls.std (c : Cls) (h : Head) (fs : List Field) : Bool :=
  c.plain h fs && c.info.kw == h.kw && h.kw.all (fun c => !c!"&=$()".contains c) &&
    c.info.attrs == c.attrs.map (·.name) && (c.info.attrs.take h.ng == h.names) &&
    (c.attrs.take h.ng).all headAttr && (c.attrs.drop h.ng).all (fun a => !special a.name && a.ty.kind?.isSome) &&
    (c.info.style == .card || c.info.style == .option)

theorem Head.ng_names (h : Head) : h.ng = h.names.length := by
  obtain ⟨p, k, s, d⟩ := h
  cases p <;> cases s <;> cases d <;> rfl

/-- The designator with its colon. -/
def desText : Option Str → Str
  | none => []
  | some d => ':' :: d

/-- Texts of the pieces of the first word. -/
def headText (kw : Str) (p s d : Option Str) : Str := orNil p ++ kw ++ orNil s ++ desText d

/-- What `HeadOk` says about the printed pieces. -/
theorem readHead_text (h : Head) (hok : h.ok = true) (p s d : Option Str)
    (hp : (h.pre = .no → p = none) ∧ ∀ t ∈ p, ∃ c ∈ h.pre.chars, t = [c])
    (hs : (h.suf = .no → s = none) ∧ (h.suf = .req → s ≠ none) ∧ ∀ t ∈ s, t ≠ [] ∧ Digits t)
    (hd : (h.des = .no → d = none) ∧ (h.des = .req → d ≠ none) ∧ ∀ t ∈ d, t ≠ []) :
    readHead h (headText h.kw p s d) =
      some ((if h.pre = .no then [] else [p]) ++ (if h.suf = .no then [] else [s]) ++ (if h.des = .no then [] else [d])) := by
  obtain ⟨pre, kw, suf, des⟩ := h
  simp only at hp hs hd ⊢
  have hcol : isDigit ':' = false := by decide
  have hpre : readPre pre (headText kw p s d) = (if pre = .no then [] else [p], headText kw none s d) := by
    unfold readPre
    by_cases h0 : pre = .no
    · rw [if_pos h0, if_pos h0, hp.1 h0]
    · rw [if_neg h0, if_neg h0]
      cases p with
      | none =>
        cases kw with
        | nil => simp [Head.ok] at hok
        | cons c k =>
          simp only [headText, orNil, Option.getD_none, List.nil_append, List.cons_append]
          rw [if_neg]
          simp only [Head.ok, Bool.and_eq_true, bne_iff_ne] at hok
          cases pre <;> simp [Pre.chars] <;> simp_all
      | some t =>
        obtain ⟨c, hc, rfl⟩ := hp.2 t rfl
        simp only [headText, orNil, Option.getD_some, Option.getD_none, List.nil_append, List.cons_append]
        rw [if_pos hc]
  have hkw : readKw kw (headText kw none s d) = some (orNil s ++ desText d) := by
    simp [readKw, headText, orNil]
  have hdes : readDes des (desText d) = some (if des = .no then [] else [d]) := by
    cases d with
    | none =>
      cases des with
      | no => rfl
      | req => exact absurd rfl (hd.2.1 rfl)
      | opt => rfl
    | some t =>
      cases t with
      | nil => exact absurd rfl (hd.2.2 [] rfl)
      | cons c t =>
        cases des with
        | no => exact absurd (hd.1 rfl) (by simp)
        | req => rfl
        | opt => rfl
  have htail : ∀ c ∈ (desText d).head?, isDigit c = false := by
    cases d with
    | none => simp [desText]
    | some t => intro c hc; simp [desText] at hc; subst hc; exact hcol
  have htw : ∀ (t u : Str), Digits t → (∀ c ∈ u.head?, isDigit c = false) → (t ++ u).takeWhile isDigit = t ∧ (t ++ u).dropWhile isDigit = u := by
    intro t u ht hu
    rw [List.takeWhile_append_of_pos ht, List.dropWhile_append_of_pos ht]
    cases u with
    | nil => simp
    | cons c u => have := hu c (by simp); simp [this]
  have hsuf : readSuf suf (orNil s ++ desText d) =
      some (if suf = .no then [] else [s], desText d) := by
    cases s with
    | none =>
      obtain ⟨t1, t2⟩ := htw [] _ (by intro c hc; cases hc) htail
      simp only [orNil, Option.getD_none, List.nil_append] at t1 t2 ⊢
      cases suf with
      | no => rfl
      | req => exact absurd rfl (hs.2.1 rfl)
      | opt => simp only [readSuf]; rw [t1, t2]; rfl
    | some t =>
      obtain ⟨hne, hdg⟩ := hs.2.2 t rfl
      obtain ⟨t1, t2⟩ := htw t _ hdg htail
      simp only [orNil, Option.getD_some] at t1 t2 ⊢
      cases suf with
      | no => exact absurd (hs.1 rfl) (by simp)
      | req => simp only [readSuf]; rw [t1, t2, if_neg hne]; rfl
      | opt => simp only [readSuf]; rw [t1, t2, if_neg hne]; rfl
  unfold readHead
  simp only [hpre, hkw, hsuf, hdes, Option.map_some]

theorem part_append_left {n : String} {a b : List (String × Option Str)} (h : n ∈ a.map (·.1)) :
    part n (a ++ b) = part n a := by
  induction a with
  | nil => simp at h
  | cons x a ih =>
    obtain ⟨m, p⟩ := x
    simp only [List.cons_append, part]
    by_cases hm : m = n
    · simp [hm]
    · rw [if_neg hm, if_neg hm]
      apply ih
      simp only [List.map_cons, List.mem_cons] at h
      rcases h with h | h
      · exact absurd h.symm hm
      · exact h

theorem part_not_mem {n : String} {b : List (String × Option Str)} (h : n ∉ b.map (·.1)) : part n b = none := by
  induction b with
  | nil => rfl
  | cons x a ih =>
    obtain ⟨m, p⟩ := x
    simp only [List.map_cons, List.mem_cons, not_or] at h
    rw [part, if_neg (fun e => h.1 e.symm), ih h.2]

theorem part_append_right {n : String} {a b : List (String × Option Str)} (h : n ∉ b.map (·.1)) :
    part n (a ++ b) = part n a := by
  by_cases ha : n ∈ a.map (·.1)
  · exact part_append_left ha
  · rw [part_not_mem ha, part_not_mem (by simp only [List.map_append, List.mem_append, not_or]; exact ⟨ha, h⟩)]

/-- The remaining attributes. -/
theorem bodyStr_fields {a b : List (String × Option Str)} (ha : ∀ x ∈ a, special x.1 = true) (hb : ∀ x ∈ b, special x.1 = false) :
    bodyStr (a ++ b) = join [' '] (b.filterMap (·.2)) := by
  unfold bodyStr
  rw [List.filterMap_append]
  have h1 : a.filterMap (fun p => if special p.1 then none else p.2) = [] := by
    rw [List.filterMap_eq_nil_iff]; intro x hx; simp [ha x hx]
  have h2 : b.filterMap (fun p => if special p.1 then none else p.2) = b.filterMap (·.2) := by
    clear h1 ha
    induction b with
    | nil => rfl
    | cons x b ih =>
      have := ih (fun y hy => hb y (by simp [hy]))
      simp only [List.filterMap_cons, hb x (by simp), this]; rfl
  rw [h1, h2]; rfl

/-- Joining printed attributes is joining their entries. -/
theorem join_words : ∀ vs : List Val, (∀ v ∈ vs, ∀ ws, v.words = some ws → ws ≠ []) → (∀ v ∈ vs, ∀ i l, v ≠ .obj i l) →
    join [' '] (vs.filterMap Val.text) = join [' '] (Assign.flat (vs.map Val.words)) := by
  have hj : ∀ (a b : List Str), a ≠ [] → b ≠ [] → join [' '] (a ++ b) = join [' '] a ++ ' ' :: join [' '] b := by
    intro a b ha hb
    induction a with
    | nil => exact absurd rfl ha
    | cons x a ih =>
      cases a with
      | nil => cases b with
        | nil => exact absurd rfl hb
        | cons y b => simp [join]
      | cons z a =>
        have := ih (by simp)
        simp only [List.cons_append, join] at this ⊢
        rw [this]; simp
  have htext : ∀ v : Val, (∀ i l, v ≠ .obj i l) → ∀ ws, v.words = some ws → v.text = some (join [' '] ws) := by
    intro v ho ws hw
    cases v with
    | none => cases hw
    | sc s => simp only [Val.words, Option.some.injEq] at hw; subst hw; simp [Val.text, Val.str, orNil, join]
    | tuple l =>
      simp only [Val.words, Option.some.injEq] at hw; subst hw
      simp only [Val.text, Val.parts_eq, List.map_map]
      rfl
    | obj i l => exact absurd rfl (ho i l)
  intro vs
  induction vs with
  | nil => intro _ _; rfl
  | cons v vs ih =>
    intro h ho
    have ihh := ih (fun u hu => h u (by simp [hu])) (fun u hu => ho u (by simp [hu]))
    cases hw : v.words with
    | none =>
      have : v.text = none := by cases v <;> first | rfl | cases hw
      rw [List.filterMap_cons_none this, List.map_cons, hw, flat_cons_none]; exact ihh
    | some ws =>
      have hne := h v (by simp) ws hw
      rw [List.filterMap_cons_some (htext v (ho v (by simp)) ws hw), List.map_cons, hw, flat_cons_some]
      by_cases hv : Assign.flat (vs.map Val.words) = []
      · have hnone : ∀ u ∈ vs, u.words = none := by
          intro u hu
          cases huw : u.words with
          | none => rfl
          | some us =>
            exfalso
            have : us ≠ [] := h u (by simp [hu]) us huw
            cases us with
            | nil => exact this rfl
            | cons x us =>
              have : x ∈ Assign.flat (vs.map Val.words) := by
                unfold Assign.flat
                rw [List.mem_flatMap]
                exact ⟨u.words, List.mem_map_of_mem hu, by rw [huw]; simp⟩
              rw [hv] at this; cases this
        have : vs.filterMap Val.text = [] := by
          rw [List.filterMap_eq_nil_iff]
          intro u hu
          have := hnone u hu
          cases u <;> first | rfl | cases this
        rw [this, hv, List.append_nil]; rfl
      · have : vs.filterMap Val.text ≠ [] := by
          intro e
          apply hv
          unfold Assign.flat
          rw [List.flatMap_eq_nil_iff]
          intro x hx
          obtain ⟨u, hu, rfl⟩ := List.mem_map.1 hx
          have := (List.filterMap_eq_nil_iff.1 e) u hu
          cases u <;> first | rfl | cases this
        rw [hj ws _ hne hv, ← ihh]
        have hj1 := hj [join [' '] ws] (vs.filterMap Val.text) (by simp) this
        simpa [join] using hj1

/-! ## Assignments -/

theorem assign_nil : ∀ (fs : List ((Str → Bool) × Mode)) (vs : Assign), Fits fs vs → (∀ v ∈ vs, v = none) → assign fs [] = some vs := by
  intro fs
  induction fs with
  | nil => intro vs h _; cases vs with
    | nil => rfl
    | cons v vs => cases h
  | cons f fs ih =>
    intro vs h hn
    obtain ⟨ok, m⟩ := f
    cases vs with
    | nil => cases h
    | cons v vs =>
      have hv := hn v (by simp)
      subst hv
      have := ih vs h.2 (fun u hu => hn u (by simp [hu]))
      rcases h.1 with rfl | rfl
      · simp [assign, takeOne, this]
      · simp [assign, takeMany, this]

theorem assign_req_len : ∀ (fs : List ((Str → Bool) × Mode)) (ws : List Str), (∀ f ∈ fs, f.2 = .req) → (assign fs ws).isSome →
    ws.length = fs.length := by
  intro fs
  induction fs with
  | nil => intro ws _ h; cases ws with
    | nil => rfl
    | cons w ws => simp [assign] at h
  | cons f fs ih =>
    intro ws hr h
    obtain ⟨ok, m⟩ := f
    have : m = .req := hr (ok, m) (by simp)
    subst this
    cases ws with
    | nil => simp [assign, takeOne] at h
    | cons w ws =>
      simp only [assign, takeOne] at h
      split at h
      · rw [Option.isSome_map] at h
        have := ih ws (fun g hg => hr g (by simp [hg])) h
        simp [this]
      · simp at h

theorem assign_req : ∀ (fs : List ((Str → Bool) × Mode)) (vs : Assign), (∀ f ∈ fs, f.2 = .req) → Fits fs vs →
    assign fs (Assign.flat vs) = some vs := by
  intro fs
  induction fs with
  | nil => intro vs _ h; cases vs with
    | nil => rfl
    | cons v vs => cases h
  | cons f fs ih =>
    intro vs hr h
    obtain ⟨ok, m⟩ := f
    have : m = .req := hr (ok, m) (by simp)
    subst this
    cases vs with
    | nil => cases h
    | cons v vs =>
      cases v with
      | none => obtain ⟨h1, _⟩ := h; rcases h1 with h1 | h1 <;> cases h1
      | some ws =>
        obtain ⟨h1, h2, h3, h4⟩ := h
        have := h3 (.inl rfl)
        match ws, this with
        | [w], _ =>
          rw [flat_cons_some]
          simp [assign, takeOne, h2 w (by simp), ih vs (fun g hg => hr g (by simp [hg])) h4]

theorem takeMore_exact (ok lazy next) (k : Nat) (vs : Assign) (hk : ∀ ws, (next ws).isSome → ws.length = k) :
    ∀ (b a t : List Str), (∀ w ∈ a, ok w = true) → next t = some vs → b = a ++ t → ∀ taken,
      takeMore ok lazy next taken b = some (some (taken ++ a) :: vs) := by
  intro b
  induction b with
  | nil =>
    intro a t ha ht hb taken
    obtain ⟨rfl, rfl⟩ := List.append_eq_nil_iff.1 hb.symm
    simp [takeMore, ht]
  | cons w b ih =>
    intro a t ha ht hb taken
    have htl : t.length = k := hk t (by rw [ht]; rfl)
    cases a with
    | nil =>
      simp only [List.nil_append] at hb
      subst hb
      have hmore : (if ok w then takeMore ok lazy next (taken ++ [w]) b else none) = none := by
        split
        · cases hm : takeMore ok lazy next (taken ++ [w]) b with
          | none => rfl
          | some r =>
            exfalso
            obtain ⟨a', b', vs', e, _, hn, _⟩ := takeMore_sound hm
            have := hk b' (by rw [hn]; rfl)
            have := congrArg List.length e
            simp at this htl
            omega
        · rfl
      simp only [takeMore, ht, hmore, Option.map_some, List.append_nil]
      cases lazy <;> rfl
    | cons x a =>
      simp only [List.cons_append, List.cons.injEq] at hb
      obtain ⟨rfl, rfl⟩ := hb
      have hhere : next (w :: (a ++ t)) = none := by
        cases hn : next (w :: (a ++ t)) with
        | none => rfl
        | some r =>
          have := hk _ (by rw [hn]; rfl)
          simp at this; omega
      have := ih a t (fun y hy => ha y (by simp [hy])) ht rfl (taken ++ [w])
      simp only [takeMore, hhere, ha w (by simp), if_true, this, Option.map_none]
      cases lazy <;> simp

/-- Canonical assignments are the ones found. -/
theorem assign_canon : ∀ (fs : List ((Str → Bool) × Mode)) (vs : Assign), Fits fs vs → Canon (fs.map (·.2)) vs →
    assign fs (Assign.flat vs) = some vs := by
  intro fs
  induction fs with
  | nil => intro vs h _; cases vs with
    | nil => rfl
    | cons v vs => cases h
  | cons f fs ih =>
    intro vs h hc
    obtain ⟨ok, m⟩ := f
    cases vs with
    | nil => cases h
    | cons v vs =>
      cases v with
      | none =>
        have hall : ∀ v ∈ vs, v = none := by
          cases m <;> exact hc
        have hfl : Assign.flat (none :: vs) = [] := by
          rw [flat_cons_none]; unfold Assign.flat
          rw [List.flatMap_eq_nil_iff]
          intro x hx; rw [hall x hx]; rfl
        rw [hfl]
        exact assign_nil _ _ h (by intro v hv; rcases List.mem_cons.1 hv with rfl | hv
                                   · rfl
                                   · exact hall v hv)
      | some ws =>
        obtain ⟨h1, h2, h3, h4⟩ := h
        rw [flat_cons_some]
        have hmany : (∀ m ∈ fs.map (·.2), m = .req) → ∀ lazy, takeMany ok lazy (assign fs) (ws ++ Assign.flat vs) = some (some ws :: vs) := by
          intro hr lazy
          have hr' : ∀ f ∈ fs, f.2 = .req := fun f hf => hr _ (List.mem_map_of_mem hf)
          cases ws with
          | nil => exact absurd rfl h1
          | cons w ws =>
            have := takeMore_exact ok lazy (assign fs) fs.length vs (fun us hu => assign_req_len fs us hr' hu)
              (ws ++ Assign.flat vs) ws (Assign.flat vs) (fun x hx => h2 x (by simp [hx])) (assign_req fs vs hr' h4) rfl [w]
            simp only [List.cons_append, takeMany, h2 w (by simp), if_true, this]
            rfl
        cases m with
        | req =>
          obtain ⟨w, rfl⟩ := List.length_eq_one_iff.1 (h3 (.inl rfl))
          simp [assign, takeOne, h2 w (by simp), ih vs h4 hc]
        | opt =>
          obtain ⟨w, rfl⟩ := List.length_eq_one_iff.1 (h3 (.inr rfl))
          simp [assign, takeOne, h2 w (by simp), ih vs h4 hc]
        | many => rw [assign]; exact hmany hc true
        | greedy => rw [assign]; exact hmany hc false
        | manyOpt => rw [assign, hmany hc true]; rfl

end Inp
