import Verif.Inp.TokLemmas
import Verif.Inp.AssignLemmas
/-!
# Classes made of a head and fields are read entry by entry

`flat_read`: for such a class, matching its pattern and converting its groups is `readWords`.
-/
namespace Inp
open Py Types

/-- Capturing groups inside units only in the last field. -/
def aligned : List Field → Bool
  | [] => true
  | [_] => true
  | f :: g :: fs => f.unit.ng == 0 && aligned (g :: fs)

def Ty.kind? : Ty → Option Kind
  | .base k => some k
  | .other _ _ _ _ => none

def Pat.kind? : Pat → Option Kind
  | .ty t => t.kind?
  | .ngrp p => p.kind?
  | _ => none

/-- Types whose lists split into their entries. -/
def Kind.tok : Kind → Bool
  | .int | .real | .str | .zaid | .dist | .desig => true
  | _ => false

/-- The attribute read from a field: one word for a single value; for a list, the unit is the pattern of
the element type (or the elements are strings). -/
def okField (a : Attr) (f : Field) : Bool :=
  match f.mode with
  | .req | .opt => !a.many
  | _ => a.many && (match a.ty.kind? with
      | some k => k.tok && (k == .str || f.unit.kind? == some k)
      | none => false)

def okFields : List Attr → List Field → Bool
  | [], [] => true
  | a :: as, f :: fs => okField a f && okFields as fs
  | _, _ => false

/-- One attribute for every group of the head and every field. -/
def Cls.plain (c : Cls) (h : Head) (fs : List Field) : Bool :=
  h.ok && fs.all (fun f => f.unit.word) && aligned fs &&
    (c.attrs.take h.ng).length == h.ng && (c.attrs.take h.ng).all (fun a => !a.many) && okFields (c.attrs.drop h.ng) fs

/-- Plain classes: a head and fields of scalar entries. -/
def Cls.isPlain (c : Cls) : Bool := match c.shape with | .flat h fs => c.plain h fs | .other _ => false

theorem Kind.tok_ok {k : Kind} (h : k.tok = true) : Tok (k.re 1) := by
  cases k with
  | int => exact tok_num
  | real => exact tok_num
  | str => exact tok_plus_cls (by intro c hc; simp [hc])
  | zaid => exact tok_zaid 1
  | dist => exact tok_dist 1
  | desig => exact tok_desig 1
  | _ => cases h

theorem Kind.tok_word {k : Kind} (h : k.tok = true) : k.word = true := by cases k <;> first | rfl | cases h

/-- Captured groups of the fields by number. -/
theorem good_get {n fs vs e} (h : Good n fs vs e) (ha : aligned fs = true) :
    (∀ i v, vs[i]? = some v → e.lookup (n + i) = v.map enc) ∧ ∀ x ∈ e, n ≤ x.1 := by
  induction h with
  | nil => exact ⟨by simp, by simp⟩
  | @some n f fs ws vs e1 e2 h1 h2 ih =>
    have ha' : aligned fs = true := by
      cases fs with
      | nil => rfl
      | cons g fs => simp only [aligned, Bool.and_eq_true] at ha; exact ha.2
    obtain ⟨i1, i2⟩ := ih ha'
    refine ⟨?_, ?_⟩
    · intro i v hv
      rw [lookup_append]
      cases i with
      | zero =>
        simp only [List.getElem?_cons_zero, Option.some.injEq] at hv
        subst hv
        rw [lookup_none (e := e2) (by intro x hx; have := i2 x hx; rw [f.ng_pat] at this; omega), Option.none_or]
        simp [List.lookup]
      | succ i =>
        simp only [List.getElem?_cons_succ] at hv
        cases fs with
        | nil => cases h2; simp at hv
        | cons g fs =>
          simp only [aligned, Bool.and_eq_true, beq_iff_eq] at ha
          have hng : f.pat.ng = 1 := by rw [f.ng_pat, ha.1]
          have := i1 i v hv
          rw [hng] at this h1
          have hn : n + 1 + i = n + (i + 1) := by omega
          rw [hn] at this
          rw [this, lookup_none (e := (n, enc ws) :: e1), Option.or_none]
          intro x hx
          rcases List.mem_cons.1 hx with rfl | hx
          · simp
          · have := h1 x hx; omega
    · intro x hx
      rcases List.mem_append.1 hx with hx | hx
      · have := i2 x hx; omega
      · rcases List.mem_cons.1 hx with rfl | hx
        · simp
        · have := h1 x hx; omega
  | @none n f fs vs e2 h2 ih =>
    have ha' : aligned fs = true := by
      cases fs with
      | nil => rfl
      | cons g fs => simp only [aligned, Bool.and_eq_true] at ha; exact ha.2
    obtain ⟨i1, i2⟩ := ih ha'
    refine ⟨?_, ?_⟩
    · intro i v hv
      cases i with
      | zero =>
        simp only [List.getElem?_cons_zero, Option.some.injEq] at hv
        subst hv
        rw [lookup_none (e := e2) (by intro x hx; have := i2 x hx; rw [f.ng_pat] at this; omega)]; rfl
      | succ i =>
        simp only [List.getElem?_cons_succ] at hv
        cases fs with
        | nil => cases h2; simp at hv
        | cons g fs =>
          simp only [aligned, Bool.and_eq_true, beq_iff_eq] at ha
          have hng : f.pat.ng = 1 := by rw [f.ng_pat, ha.1]
          have := i1 i v hv
          rw [hng] at this
          have hn : n + 1 + i = n + (i + 1) := by omega
          rw [hn] at this; exact this
    · intro x hx
      have := i2 x hx; omega

/-- The whole pattern on a first word and entries. -/
theorem flat_match (h : Head) (fs : List Field) (hok : h.ok = true) (hu : ∀ f ∈ fs, f.unit.word = true)
    (ha : aligned fs = true) (hd : Str) (ws : List Str) (hw : Words (hd :: ws)) :
    ((readHead h hd = none ∨ assign (fs.map Field.spec) ws = none) →
      reMatch (anchored ((Shape.flat h fs).pat.re 1)) (hd ++ enc ws) = none) ∧
    (∀ hv vs, readHead h hd = some hv → assign (fs.map Field.spec) ws = some vs →
      ∃ m, reMatch (anchored ((Shape.flat h fs).pat.re 1)) (hd ++ enc ws) = some m ∧ hv.length = h.ng ∧
        cap m 0 = some (hd ++ enc ws) ∧
        (∀ i v, hv[i]? = some v → cap m (1 + i) = v) ∧ (∀ i v, vs[i]? = some v → cap m (1 + h.ng + i) = v.map enc)) := by
  -- the continuation after the fields
  let k : St → Option (List (Nat × Str)) := fun st => run .eos st (fun st =>
    some ((0, (hd ++ enc ws).take ((hd ++ enc ws).length - st.rest.length)) :: st.caps))
  have hk : ∀ st, st.rest ≠ [] → k st = none := by
    intro st hs; show run .eos st _ = none; rw [run_eos, if_neg hs]
  have hs : ∀ st, st.rest = [] → (k st).isSome = true := by
    intro st hs; show (run .eos st _).isSome = true; rw [run_eos, if_pos hs]; rfl
  have hrun : reMatch (anchored ((Shape.flat h fs).pat.re 1)) (hd ++ enc ws) =
      run (headRe h 1) ⟨[], hd ++ enc ws, []⟩ (fun st => run (fieldsRe fs (1 + h.ng)) st k) := by
    unfold reMatch anchored
    rw [run_seq, run_bos, if_pos rfl, run_seq]
    simp only [Shape.pat]
    rw [run_cat_append]
    rfl
  rw [hrun]
  have hhw := (Pat.cat h.pats).facts (h.word hok) 1
  have key := run_word (headRe h 1) hhw.1 (noSp_mt hhw.2.1) hd (enc ws) [] [] (enc_bnd ws)
    (fun st => run (fieldsRe fs (1 + h.ng)) st k) (by
      intro u v e huv hv
      apply fieldsRe_blocked _ _ _ _ _ _ hk
      · intro c hc hcs
        subst hcs
        cases v with
        | nil => exact hv rfl
        | cons d ds =>
          simp at hc; subst hc
          have := (hw hd (by simp)).1 ' ' (by rw [huv]; simp)
          exact absurd this (by decide)
      · simp [hv])
  have hsem := fields_sem fs hu (1 + h.ng) k hk hs ws hw.tail
  constructor
  · rintro (h1 | h1)
    · apply key.2
      rintro ⟨e, he⟩
      obtain ⟨vs, _, _, h2⟩ := head_mt hok he
      rw [h1] at h2; cases h2
    · cases hr : readHead h hd with
      | none =>
        apply key.2
        rintro ⟨e, he⟩
        obtain ⟨vs, _, _, h2⟩ := head_mt hok he
        rw [hr] at h2; cases h2
      | some hv =>
        obtain ⟨e, he, hr⟩ := key.1 (head_full hr (hw hd (by simp)).1 1)
        rw [hr]
        exact (hsem _ _).1 h1
  · intro hv vs h1 h2
    obtain ⟨e, he, hr⟩ := key.1 (head_full h1 (hw hd (by simp)).1 1)
    obtain ⟨hv', hc, hl, h3⟩ := head_mt hok he
    rw [h1] at h3
    simp only [Option.some.injEq] at h3
    subst h3
    obtain ⟨e2, hg, hr2⟩ := (hsem (hd.reverse ++ []) (e ++ [])).2 vs h2
    obtain ⟨g1, g2⟩ := good_get hg ha
    refine ⟨(0, hd ++ enc ws) :: (e2 ++ e), ?_, hl, ?_, ?_, ?_⟩
    · rw [hr, hr2]
      show run .eos _ _ = _
      rw [run_eos, if_pos rfl]
      simp only [List.length_nil, Nat.sub_zero, List.take_length, List.append_nil]
    · simp [cap]
    · intro i v hi
      have hil : i < hv.length := (List.getElem?_eq_some_iff.1 hi).1
      unfold cap
      have : (1 + i == 0) = false := by simp
      rw [List.lookup, this, lookup_append, lookup_none (e := e2) (by intro x hx; have := g2 x hx; omega), Option.none_or]
      exact hc.get i v hi
    · intro i v hi
      unfold cap
      have : (1 + h.ng + i == 0) = false := by simp
      rw [List.lookup, this, lookup_append, g1 i v hi, lookup_none (e := e) (by
        intro x hx; have := hc.keys x hx; rw [hl] at this; omega), Option.or_none]

/-! ## Attributes -/

theorem readHead_words {h : Head} {hd hv} (hr : readHead h hd = some hv) (hs : NoSpace hd) :
    ∀ v ∈ hv, ∀ w ∈ v, NoSpace w ∧ w ≠ [] := by
  unfold readHead at hr
  split at hr
  · cases hr
  · rename_i t hk
    split at hr
    · cases hr
    · rename_i x u hf
      obtain ⟨d, hd', rfl⟩ := Option.map_eq_some_iff.1 hr
      have hp2 : ∀ c ∈ (readPre h.pre hd).2, isSpace c = false := by
        intro c hc
        apply hs
        unfold readPre at hc
        split at hc
        · exact hc
        · split at hc
          · exact hc
          · split at hc
            · exact List.mem_cons_of_mem _ hc
            · exact hc
      have ht : ∀ c ∈ t, isSpace c = false := by
        intro c hc
        unfold readKw at hk
        split at hk
        · simp only [Option.some.injEq] at hk
          subst hk
          exact hp2 c (List.mem_of_mem_drop hc)
        · cases hk
      have htw : ∀ c ∈ t.takeWhile isDigit, isSpace c = false := fun c hc => ht c (List.takeWhile_subset _ hc)
      have htd : ∀ c ∈ t.dropWhile isDigit, isSpace c = false := fun c hc => ht c (List.dropWhile_subset _ hc)
      have hu : ∀ c ∈ u, isSpace c = false := by
        unfold readSuf at hf
        split at hf
        · cases hf; exact ht
        · split at hf
          · cases hf
          · cases hf; exact htd
        · cases hf; exact htd
      intro v hv w hw
      cases v with
      | none => cases hw
      | some w' =>
        simp at hw; subst hw
        rw [List.mem_append, List.mem_append] at hv
        rcases hv with (hv | hv) | hv
        · unfold readPre at hv
          split at hv
          · cases hv
          · split at hv
            · simp at hv
            · rename_i c r
              split at hv
              · simp only [List.mem_singleton, Option.some.injEq] at hv
                subst hv
                exact ⟨fun x hx => by simp only [List.mem_singleton] at hx; subst hx; exact hs x (by simp), by simp⟩
              · simp at hv
        · unfold readSuf at hf
          split at hf
          · cases hf; cases hv
          · split at hf
            · cases hf
            · rename_i hne
              cases hf
              simp only [List.mem_singleton, Option.some.injEq] at hv
              subst hv
              exact ⟨htw, hne⟩
          · cases hf
            simp only [List.mem_singleton] at hv
            split at hv
            · cases hv
            · rename_i hne
              cases hv
              exact ⟨htw, hne⟩
        · unfold readDes at hd'
          split at hd' <;> cases hd'
          · cases hv
          · simp at hv
          all_goals
            simp only [List.mem_singleton, Option.some.injEq] at hv
            subst hv
            exact ⟨fun x hx => hu x (by simp only [List.mem_cons] at hx ⊢; exact .inr hx), by simp⟩

theorem strip_word {w : Str} (h1 : NoSpace w) (h2 : w ≠ []) : strip w = w := by
  have := strip_enc w [] (by intro x hx; simp only [List.mem_singleton] at hx; subst hx; exact ⟨h1, h2⟩)
  rw [enc_cons, strip_space_cons] at this
  simpa using this

/-- The value of an attribute from a captured group. -/
theorem attr_word (ng : Nat) (m) (i : Nat) (a : Attr) (hi : i + 1 ≤ ng) (hm : a.many = false) (v : Option Str)
    (hv : cap m (i + 1) = v) (hw : ∀ w ∈ v, NoSpace w ∧ w ≠ []) :
    attrVal ng m i a = readVal a (v.map ([·])) := by
  unfold attrVal
  rw [if_neg (by omega), hv]
  cases v with
  | none => rfl
  | some w =>
    obtain ⟨h1, h2⟩ := hw w (by simp)
    cases w with
    | nil => exact absurd rfl h2
    | cons c t =>
      simp only [Attr.parse, hm, Option.map_some, readVal, strip_word h1 h2, join]
      rfl

theorem unitOk_kind {p : Pat} {k : Kind} (hp : p.kind? = some k) (w : Str) : unitOk p w = unitOk (.ty (.base k)) w := by
  induction p with
  | ty t =>
    cases t with
    | base k' => simp only [Pat.kind?, Ty.kind?, Option.some.injEq] at hp; rw [hp]
    | other => cases hp
  | ngrp a ih => exact ih hp
  | _ => cases hp

theorem attr_field (ng : Nat) (m) (i : Nat) (a : Attr) (f : Field) (hi : i + 1 ≤ ng) (ho : okField a f = true)
    (hfw : f.unit.word = true) (v : Option (List Str)) (hv : cap m (i + 1) = v.map enc)
    (hw : ∀ ws ∈ v, ws ≠ [] ∧ (∀ w ∈ ws, unitOk f.unit w = true) ∧ ((f.mode = .req ∨ f.mode = .opt) → ws.length = 1) ∧ Words ws) :
    attrVal ng m i a = readVal a v := by
  unfold attrVal
  rw [if_neg (by omega), hv]
  cases v with
  | none => rfl
  | some ws =>
    obtain ⟨hne, hok, hl, hws⟩ := hw ws (by simp)
    cases ws with
    | nil => exact absurd rfl hne
    | cons w ws =>
      have hst : strip (enc (w :: ws)) = w ++ enc ws := strip_enc w ws hws
      simp only [Option.map_some, enc_cons] at hst ⊢
      rw [hst]
      unfold okField at ho
      have hsingle : (f.mode = .req ∨ f.mode = .opt) → a.many = false → a.parse (w ++ enc ws) = readVal a (some (w :: ws)) := by
        intro hm ham
        have : ws = [] := by simpa using hl hm
        subst this
        simp [Attr.parse, readVal, ham, join]
      have hmany : a.many = true → (match a.ty.kind? with
          | some k => k.tok && (k == .str || f.unit.kind? == some k) | none => false) = true →
          a.parse (w ++ enc ws) = readVal a (some (w :: ws)) := by
        intro ham hk
        split at hk
        · rename_i k hka
          simp only [Bool.and_eq_true, Bool.or_eq_true, beq_iff_eq] at hk
          have hty : a.ty = .base k := by
            cases hty : a.ty with
            | base k' => rw [hty] at hka; simp only [Ty.kind?, Option.some.injEq] at hka; rw [hka]
            | other => rw [hty] at hka; cases hka
          have hfull : ∀ x ∈ w :: ws, Full (k.re 1) x := by
            intro x hx
            rcases hk.2 with rfl | hfk
            · refine ⟨[], ?_⟩
              have := hws x hx
              exact mt_plus_cls.2 ⟨this.2, fun c hc => by simp [this.1 c hc], rfl⟩
            · have h1 := hok x hx
              rw [unitOk_kind hfk] at h1
              exact (unitOk_iff (.ty (.base k)) (Kind.tok_word hk.1) 1 x).1 h1
          obtain ⟨f1, f2, _⟩ := k.facts (Kind.tok_word hk.1) 1
          have := finditer_words (k.re 1) (Kind.tok_ok hk.1) f1 (noSp_mt f2) w ws hws hfull
          simp only [Attr.parse, ham, if_true, readVal, tupleParse, hty, Ty.re, this]
        · cases hk
      cases hm : f.mode with
      | req => rw [hm] at ho; exact hsingle (.inl hm) (by simpa using ho)
      | opt => rw [hm] at ho; exact hsingle (.inr hm) (by simpa using ho)
      | many => rw [hm] at ho; simp only [Bool.and_eq_true] at ho; exact hmany ho.1 ho.2
      | greedy => rw [hm] at ho; simp only [Bool.and_eq_true] at ho; exact hmany ho.1 ho.2
      | manyOpt => rw [hm] at ho; simp only [Bool.and_eq_true] at ho; exact hmany ho.1 ho.2

theorem attrs_fields (ng : Nat) (m) (fs : List Field) : ∀ (as : List Attr) (vs : Assign) (i : Nat),
    okFields as fs = true → (∀ f ∈ fs, f.unit.word = true) → Fits (fs.map Field.spec) vs → Words (Assign.flat vs) →
    (∀ j v, vs[j]? = some v → cap m (i + 1 + j) = v.map enc) → i + fs.length ≤ ng →
    attrVals ng m i as = readVals as vs := by
  induction fs with
  | nil =>
    intro as vs i ho _ hf _ _ _
    cases as with
    | nil => cases vs with
      | nil => rfl
      | cons v vs => cases hf
    | cons a as => cases ho
  | cons f fs ih =>
    intro as vs i ho hfw hf hws hc hng
    cases as with
    | nil => cases ho
    | cons a as =>
      cases vs with
      | nil => cases hf
      | cons v vs =>
        simp only [okFields, Bool.and_eq_true] at ho
        simp only [List.length_cons] at hng
        have h1 : attrVal ng m i a = readVal a v := by
          refine attr_field ng m i a f (by omega) ho.1 (hfw f (by simp)) v (by simpa using hc 0 v (by simp)) ?_
          intro ws hv
          simp at hv; subst hv
          obtain ⟨a1, a2, a3, _⟩ := hf
          exact ⟨a1, a2, a3, fun x hx => hws x (by rw [flat_cons_some]; simp [hx])⟩
        have h2 : attrVals ng m (i + 1) as = readVals as vs := by
          refine ih as vs (i + 1) ho.2 (fun g hg => hfw g (by simp [hg])) ?_ ?_ ?_ (by omega)
          · cases v with
            | none => exact hf.2
            | some ws => exact hf.2.2.2
          · intro x hx
            apply hws
            cases v with
            | none => exact hx
            | some ws => rw [flat_cons_some]; simp [hx]
          · intro j w hj
            have := hc (j + 1) w (by simpa using hj)
            rw [← this]; congr 1; omega
        simp only [attrVals, readVals, h1, h2]
        rfl

theorem attrs_head (ng : Nat) (m) (hv : List (Option Str)) : ∀ (as : List Attr) (bs : List Attr) (vs : Assign) (i : Nat),
    as.length = hv.length → (∀ a ∈ as, a.many = false) → (∀ v ∈ hv, ∀ w ∈ v, NoSpace w ∧ w ≠ []) →
    (∀ j v, hv[j]? = some v → cap m (i + 1 + j) = v) → i + hv.length ≤ ng →
    attrVals ng m (i + hv.length) bs = readVals bs vs →
    attrVals ng m i (as ++ bs) = readVals (as ++ bs) (hv.map (·.map ([·])) ++ vs) := by
  induction hv with
  | nil =>
    intro as bs vs i hl _ _ _ _ h
    have : as = [] := by simpa using hl
    subst this
    simpa using h
  | cons v hv ih =>
    intro as bs vs i hl hm hw hc hng h
    cases as with
    | nil => simp at hl
    | cons a as =>
      simp only [List.length_cons] at hng hl h
      have h1 : attrVal ng m i a = readVal a (v.map ([·])) :=
        attr_word ng m i a (by omega) (hm a (by simp)) v (by simpa using hc 0 v (by simp)) (hw v (by simp))
      have h2 := ih as bs vs (i + 1) (by omega) (fun b hb => hm b (by simp [hb])) (fun u hu => hw u (by simp [hu])) (by
        intro j w hj
        have := hc (j + 1) w (by simpa using hj)
        rw [← this]; congr 1; omega) (by omega) (by
          have : i + 1 + hv.length = i + (hv.length + 1) := by omega
          rw [this]; exact h)
      simp only [List.cons_append, List.map_cons, attrVals, readVals, h1, h2]
      rfl

/-- Reading of plain classes, entry by entry. -/
theorem flat_read (c : Cls) (h : Head) (fs : List Field) (hs : c.shape = .flat h fs) (hp : c.plain h fs = true)
    (hd : Str) (ws : List Str) (hw : Words (hd :: ws)) :
    (match reMatch c.re (hd ++ enc ws) with | none => .error .inp | some m => c.build m) = readWords c h fs hd ws ∧
    ∀ m, reMatch c.re (hd ++ enc ws) = some m → cap m 0 = some (hd ++ enc ws) := by
  simp only [Cls.plain, Bool.and_eq_true, List.all_eq_true, beq_iff_eq, Bool.not_eq_true'] at hp
  obtain ⟨⟨⟨⟨⟨hok, hu⟩, ha⟩, hlen⟩, hmany⟩, hof⟩ := hp
  have hre : c.re = anchored ((Shape.flat h fs).pat.re 1) := by simp [Cls.re, Cls.pat, hs]
  obtain ⟨m1, m2⟩ := flat_match h fs hok hu ha hd ws hw
  rw [hre]
  unfold readWords
  cases hr : readHead h hd with
  | none => rw [m1 (.inl hr)]; exact ⟨rfl, by intro m hm; cases hm⟩
  | some hv =>
    cases hf : assign (fs.map Field.spec) ws with
    | none => rw [m1 (.inr hf)]; exact ⟨rfl, by intro m hm; cases hm⟩
    | some vs =>
      obtain ⟨m, hm, hl, h0, g1, g2⟩ := m2 hv vs hr hf
      rw [hm]
      refine ⟨?_, by intro m' hm'; cases hm'; exact h0⟩
      obtain ⟨ft, fl⟩ := assign_sound hf
      have hng : c.pat.ng = h.ng + (Pat.cat (fs.map Field.pat)).ng := by
        simp only [Cls.pat, hs, Shape.pat, Pat.ng_cat_append]; rfl
      have hfl : fs.length ≤ (Pat.cat (fs.map Field.pat)).ng := by
        clear hm m1 m2 hu ha hof hs hre hf ft hng g2
        induction fs with
        | nil => simp
        | cons f fs ih => simp only [List.map_cons, Pat.cat, Pat.ng, List.length_cons, f.ng_pat]; omega
      have hat := attrs_fields c.pat.ng m fs (c.attrs.drop h.ng) vs h.ng hof hu ft (by rw [fl]; exact hw.tail) (by
        intro j v hj
        have := g2 j v hj
        rw [← this]; congr 1; omega) (by omega)
      have := attrs_head c.pat.ng m hv (c.attrs.take h.ng) (c.attrs.drop h.ng) vs 0 (by rw [hlen, hl]) (by simpa using hmany)
        (readHead_words hr (hw hd (by simp)).1) (by
          intro j v hj
          have := g1 j v hj
          rw [← this]) (by omega) (by rw [hl, Nat.zero_add]; exact hat)
      rw [List.take_append_drop] at this
      show c.build m = _
      unfold Cls.build
      rw [this]
      rfl

end Inp
