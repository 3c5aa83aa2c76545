import Verif.Inp.RowLemmas
import Verif.Inp.OptionRound
import Verif.Inp.BlankLemmas
/-!
# Reading cards whose lists are made of rows of several entries
-/
namespace Inp
open Py Types

/-! ## Rows of grouped numbers -/

/-- `(k₁) (k₂) …` -/
def rowPat : List Kind → Pat
  | [] => .lits c!""
  | [k] => .grp (.ty (.base k))
  | k :: ks => .seq (.grp (.ty (.base k))) (.seq (.lits c!" ") (rowPat ks))

/-- Kinds written as numbers. -/
def Kind.num (k : Kind) : Bool := match k with | .int | .real => true | _ => false

theorem Kind.num_re {k : Kind} (h : k.num = true) (n : Nat) : k.re n = numRe ∧ k.ng = 0 := by
  cases k <;> first | exact ⟨rfl, rfl⟩ | cases h

theorem row_num : Row numRe [Full numRe] :=
  row_one rfl (noSp_mt (Kind.facts .int rfl 1).2.1) (by
    intro e h
    have := (full_iff numRe rfl []).2 ⟨e, h⟩
    revert this
    decide +kernel) tok_num

theorem rowPat_row : ∀ (ks : List Kind) (k : Kind) (_ : (k :: ks).all Kind.num = true) (n : Nat),
    Row ((rowPat (k :: ks)).re n) ((k :: ks).map (fun _ => Full numRe)) ∧ (rowPat (k :: ks)).ng = (k :: ks).length ∧
    ((rowPat (k :: ks)).re n).groupsIn n (n + (k :: ks).length) ∧
    ∀ w ws e, Mt ((rowPat (k :: ks)).re n) (w ++ enc ws) e → Words (w :: ws) → Caps e n ((w :: ws).map some) := by
  intro ks
  induction ks with
  | nil =>
    intro k hk n
    simp only [List.all_cons, Bool.and_eq_true] at hk
    have hre : (rowPat [k]).re n = .grp n numRe := by
      show Re.grp n (k.re (n + 1)) = _
      rw [(Kind.num_re hk.1 _).1]
    have hng : (rowPat [k]).ng = 1 := by show 1 + k.ng = 1; rw [(Kind.num_re hk.1 0).2]
    have hg := (Kind.facts .int rfl n).2.2
    refine ⟨by rw [hre]; exact row_grp row_num n, hng, ?_, ?_⟩
    · rw [hre]
      exact ⟨Nat.le_refl _, by simp, hg.mono (Nat.le_refl _) (by show n + 0 ≤ _; omega)⟩
    · intro w ws e hm hw
      rw [hre] at hm
      obtain ⟨x, h1, rfl⟩ := mt_grp.1 hm
      obtain ⟨y, ys, h2, h3⟩ := row_num.mt _ _ h1
      have hl := h2.length
      simp at hl
      subst hl
      have hx : x = [] := h1.nil_caps (Kind.facts .int rfl 0).2.2
      have hws : ws = [] := by
        cases ws with
        | nil => rfl
        | cons v vs =>
          have := (row_num.ok _ (by simp) y h2.1).1 ' ' (by
            have : y = w ++ enc (v :: vs) := by simpa using h3.symm
            rw [this]; simp)
          exact absurd this (by decide)
      subst hws hx
      simpa using Caps.one n w
  | cons k' ks ih =>
    intro k hk n
    simp only [List.all_cons, Bool.and_eq_true] at hk
    obtain ⟨i1, i2, i3, i4⟩ := ih k' (by simpa using hk.2) (n + 1)
    have hre : (rowPat (k :: k' :: ks)).re n = .seq (.grp n numRe) (.seq (litRe c!" ") ((rowPat (k' :: ks)).re (n + 1))) := by
      show Re.seq (.grp n (k.re (n + 1))) (.seq (litRe c!" ") ((rowPat (k' :: ks)).re (n + (1 + k.ng) + 0))) = _
      rw [(Kind.num_re hk.1 _).1, (Kind.num_re hk.1 0).2]
    have hng : (rowPat (k :: k' :: ks)).ng = (k :: k' :: ks).length := by
      show 1 + k.ng + (0 + (rowPat (k' :: ks)).ng) = _
      rw [(Kind.num_re hk.1 0).2, i2]; simp; omega
    refine ⟨by rw [hre]; exact row_cons (row_grp row_num n) blank_lit i1, hng, ?_, ?_⟩
    · rw [hre]
      refine ⟨⟨Nat.le_refl _, by simp, (Kind.facts .int rfl n).2.2.mono (Nat.le_refl _) (by show n + 0 ≤ _; omega)⟩, blank_lit.groups _ _, ?_⟩
      refine i3.mono (by omega) ?_
      simp; omega
    · intro w ws e hm hw
      rw [hre] at hm
      obtain ⟨u, v, x, y, h1, h2, h3, rfl⟩ := mt_seq.1 hm
      obtain ⟨z, h8, rfl⟩ := mt_grp.1 h1
      obtain ⟨b, v', x', y', h4, h5, rfl, rfl⟩ := mt_seq.1 h2
      obtain ⟨rfl, rfl⟩ := (blank_lit.mt _ _).1 h4
      obtain ⟨c, cs, c1, rfl⟩ := i1.mt _ _ h5
      have hz : z = [] := h8.nil_caps (Kind.facts .int rfl 0).2.2
      subst hz
      obtain ⟨y1, ys, h6, h7⟩ := row_num.mt _ _ h8
      have hl := h6.length
      simp at hl
      subst hl
      have hu := row_num.ok _ (by simp) y1 h6.1
      simp only [enc_nil, List.append_nil] at h7
      subst h7
      have e1 : enc (u :: c :: cs) = enc (w :: ws) := by
        simp only [enc_cons]
        rw [h3]
        simp
      have hcw := c1.words i1.ok
      have e2 := enc_inj (by
        intro a ha
        rcases List.mem_cons.1 ha with rfl | ha
        · exact hu.1
        · exact (hcw a ha).1) (fun a ha => (hw a ha).1) e1
      injection e2 with e2 e3
      subst e2 e3
      have hc := i4 c cs y' h5 hcw
      have := (Caps.one n u).append (by simpa using hc)
      simpa using this

/-! ## Entries -/

/-- A class of entries that are rows of numbers. -/
structure RowEntry (d : Cls) (ks : List Kind) : Prop where
  shape : d.shape = .other (rowPat ks)
  types : d.attrs.map (·.ty) = ks.map .base
  one : ∀ a ∈ d.attrs, a.many = false
  style : d.info.style = .entry
  num : ks.all Kind.num = true
  ne : ks ≠ []

theorem row_vals : ∀ {as : List Attr} {ks : List Kind} {vs : List Val}, as.map (·.ty) = ks.map .base → (∀ a ∈ as, a.many = false) →
    ks.all Kind.num = true → ReadVals as vs → (∀ v ∈ vs, v ≠ .none) →
    All2 (ks.map (fun _ => Full numRe)) (vs.map Val.str) ∧ vs.map Val.words = (vs.map Val.str).map (fun w => some [w]) ∧
    (Val.parts vs).filterMap id = vs.map Val.str ∧ vs.length = as.length := by
  intro as
  induction as with
  | nil =>
    intro ks vs ht _ _ hr _
    cases ks with
    | cons => cases ht
    | nil => cases vs with
      | nil => exact ⟨trivial, rfl, rfl, rfl⟩
      | cons => exact hr.elim
  | cons a as ih =>
    intro ks vs ht ho hn hr hp
    cases ks with
    | nil => cases ht
    | cons k ks =>
      cases vs with
      | nil => exact hr.elim
      | cons v vs =>
        simp only [List.map_cons, List.cons.injEq] at ht
        simp only [List.all_cons, Bool.and_eq_true] at hn
        obtain ⟨i1, i2, i3, i4⟩ := ih ht.2 (fun b hb => ho b (by simp [hb])) hn.2 hr.2 (fun u hu => hp u (by simp [hu]))
        have h1 := hr.1
        cases v with
        | none => exact absurd rfl (hp _ (by simp))
        | tuple l => have := h1.1; rw [ho a (by simp)] at this; cases this
        | obj => exact h1.elim
        | sc s =>
          obtain ⟨-, k', hk', hs⟩ := h1
          rw [ht.1] at hk'
          cases hk'
          have := (unitOk_iff (.ty (.base k)) (by revert hn; cases k <;> simp [Kind.num, Pat.word, Kind.word]) 1 _).1 (sc_unit hs)
          rw [show (Pat.ty (.base k)).re 1 = k.re 1 from rfl, (Kind.num_re hn.1 1).1] at this
          refine ⟨⟨this, i1⟩, ?_, ?_, by simp [i4]⟩
          · simp only [List.map_cons, i2]; rfl
          · simp only [Val.parts, Val.text, List.map_cons]
            rw [List.filterMap_cons, i3]; rfl

theorem entry_item {d : Cls} {ks : List Kind} (h : RowEntry d ks) {vs : List Val} (hr : ReadVals d.attrs vs) (hp : ∀ v ∈ vs, v ≠ .none)
    {x : Val} (hm : d.mk' vs = .ok x) :
    All2 (ks.map (fun _ => Full numRe)) (vs.map Val.str) ∧ (∀ w ∈ vs.map Val.str, Stable w) ∧
      x.text = some (join [' '] (vs.map Val.str)) ∧ unionParse [d] (join [' '] (vs.map Val.str)) = .ok x := by
  obtain ⟨r1, r2, r3, r4⟩ := row_vals h.types h.one h.num hr hp
  obtain ⟨v1, v2⟩ := vals_round hr
  have hst : ∀ w ∈ vs.map Val.str, Stable w := by
    intro w hw
    apply v2
    rw [r2]
    simp only [Assign.flat, List.mem_flatMap]
    exact ⟨some [w], List.mem_map.2 ⟨w, hw, rfl⟩, by simp⟩
  refine ⟨r1, hst, ?_, ?_⟩
  · rw [Props.mk_obj hm]
    simp only [Val.text, objStr, h.style, r3]
  · cases ks with
    | nil => exact absurd rfl h.ne
    | cons k ks =>
      obtain ⟨p1, p2, p3, p4⟩ := rowPat_row ks k h.num 1
      generalize hws : vs.map Val.str = ws at *
      cases ws with
      | nil => exact r1.elim
      | cons w ws =>
        rw [join_enc]
        have hw : Words (w :: ws) := stable_words hst
        obtain ⟨h1, h2⟩ := spaced_single w ws [] (hst w (by simp)).entry (fun u hu => hst u (by simp [hu])) .nil
        have := spaced_prep h1
        rw [single_body, h2] at this
        obtain ⟨-, h3, -⟩ := this
        rw [List.nil_append, List.append_nil] at h3
        have hre : d.re = anchored ((rowPat (k :: ks)).re 1) := by simp [Cls.re, Cls.pat, h.shape, Shape.pat]
        have hfull := p1.full w ws r1
        obtain ⟨m, hm'⟩ := Option.isSome_iff_exists.1 ((full_iff _ p1.free _).2 hfull)
        obtain ⟨e, he, rfl⟩ := full_match p1.free hm'
        have hc := p4 w ws e he hw
        unfold unionParse
        rw [h3]
        simp only [firstMatch, hre]
        rw [show anchored ((rowPat (k :: ks)).re 1) = .seq .bos (.seq ((rowPat (k :: ks)).re 1) .eos) from rfl, hm']
        simp only [cap, List.lookup, beq_self_eq_true, if_true]
        have hng : d.pat.ng = (k :: ks).length := by simp [Cls.pat, h.shape, Shape.pat, p2]
        have hl : d.attrs.length = (w :: ws).length := by
          rw [← hws, List.length_map, r4]
        have hl2 : (k :: ks).length = (w :: ws).length := by
          have := congrArg List.length h.types
          simp only [List.length_map] at this
          rw [← this, hl]
        have := attrs_head d.pat.ng ((0, w ++ enc ws) :: e) ((w :: ws).map some) d.attrs [] [] 0 (by rw [hl, List.length_map]) h.one
          (by
            intro v hv u hu
            obtain ⟨y, hy, rfl⟩ := List.mem_map.1 hv
            simp at hu; subst hu
            exact hw _ hy)
          (by
            intro j v hj
            unfold cap
            have h0 : (0 + 1 + j == 0) = false := by simp
            rw [List.lookup, h0]
            simpa using hc.get j v hj) (by rw [hng, hl2]; simp) (by simp [attrVals, readVals])
        simp only [List.append_nil, List.map_map] at this
        unfold Cls.build
        rw [this]
        have : ((w :: ws).map ((fun x : Option Str => x.map ([·])) ∘ some)) = vs.map Val.words := by rw [r2]; rfl
        rw [this, v1]
        exact hm

/-! ## Cards -/

theorem free_cat (as bs : List Pat) : ∀ n, ((Pat.cat (as ++ bs)).re n).free =
    (((Pat.cat as).re n).free && ((Pat.cat bs).re (n + (Pat.cat as).ng)).free) := by
  induction as with
  | nil => intro n; simp [Pat.cat, Pat.re, litRe, Re.free, Pat.ng]
  | cons a as ih =>
    intro n
    simp only [List.cons_append, Pat.cat, Pat.re, Re.free, ih, Pat.ng, Bool.and_assoc, Nat.add_assoc]

/-- A list of rows in a card. -/
theorem rows_read (c : Cls) (h : Head) (u : Pat) (a : Attr) (as : List Attr) (hs : c.shape = .flat h [⟨u, .many⟩]) (hok : h.ok = true)
    (hat : c.attrs = as ++ [a]) (hl : as.length = h.ng) (hm : ∀ b ∈ as, b.many = false) (ham : a.many = true) {p ps q qs}
    (hu : Row (u.re (h.ng + 2)) (p :: ps)) (gu : (u.re (h.ng + 2)).groupsIn (h.ng + 2) (h.ng + 2 + u.ng)) (ht : Row (a.ty.re 1) (q :: qs))
    (hd : Str) (hv : List (Option Str)) (rows : List (List Str)) (hw : Words (hd :: rows.flatten)) (hr : readHead h hd = some hv)
    (hne : rows ≠ []) (h2 : ∀ x ∈ rows, All2 (p :: ps) x) (h3 : ∀ x ∈ rows, All2 (q :: qs) x) :
    (match reMatch c.re (hd ++ enc rows.flatten) with | none => (.error .inp : Res Val) | some m => c.build m) =
    (match readVals as (hv.map (·.map ([·]))) with
      | .error e => .error e
      | .ok xs => match rows.mapM (fun r => a.ty.parse (join [' '] r)) with
        | .error e => .error e
        | .ok ys => c.mk' (xs ++ [Val.tuple ys])) := by
  have hre : c.re = anchored ((Pat.cat (h.pats ++ [Field.pat ⟨u, .many⟩])).re 1) := by simp [Cls.re, Cls.pat, hs, Shape.pat]
  have hhw := (Pat.cat h.pats).facts (h.word hok) 1
  have hng : c.pat.ng = h.ng + (1 + u.ng) := by
    simp only [Cls.pat, hs, Shape.pat, List.map_cons, List.map_nil, Pat.ng_cat_append]
    show h.ng + (Field.pat ⟨u, .many⟩).ng = _
    rw [Field.ng_pat]
  have e1 : ∀ w e, Mt ((Pat.cat (h.pats ++ [Field.pat ⟨u, .many⟩])).re 1) w e ↔ ∃ u' v t x y z, Mt (headRe h 1) u' x ∧
      Mt (Re.plus false (.seq (litRe c!" ") (u.re (h.ng + 2)))) v y ∧ Mt .eps t z ∧ w = u' ++ (v ++ t) ∧
        e = z ++ ((1 + h.ng, v) :: y ++ x) := by
    intro w e
    rw [mt_cat_append]
    have hn : (1 + (Pat.cat h.pats).ng) + 1 + Pat.ng (.lits c!" ") = h.ng + 2 := by
      show 1 + h.ng + 1 + 0 = _; omega
    have : (Pat.cat [Field.pat ⟨u, .many⟩]).re (1 + (Pat.cat h.pats).ng) =
        .seq (.grp (1 + h.ng) (Re.plus false (.seq (litRe c!" ") (u.re (h.ng + 2))))) .eps := by
      show Re.seq (.grp (1 + h.ng) (Re.plus false (.seq (litRe c!" ") (u.re ((1 + (Pat.cat h.pats).ng) + 1 + Pat.ng (.lits c!" ")))))) .eps = _
      rw [hn]
    rw [this]
    constructor
    · rintro ⟨u', v, x, y, m1, m2, rfl, rfl⟩
      obtain ⟨v, t, x', y', m3, m4, rfl, rfl⟩ := mt_seq.1 m2
      obtain ⟨z, m5, rfl⟩ := mt_grp.1 m3
      exact ⟨u', v, t, x, z, y', m1, m5, m4, rfl, by simp⟩
    · rintro ⟨u', v, t, x, y, z, m1, m2, m3, rfl, rfl⟩
      exact ⟨u', v ++ t, x, z ++ (1 + h.ng, v) :: y, m1, mt_seq.2 ⟨v, t, _, z, mt_grp.2 ⟨y, m2, rfl⟩, m3, rfl, rfl⟩, rfl, by simp⟩
  have hfree : ((Pat.cat (h.pats ++ [Field.pat ⟨u, .many⟩])).re 1).free = true := by
    have hn : (1 + (Pat.cat h.pats).ng) + 1 + Pat.ng (.lits c!" ") = h.ng + 2 := by
      show 1 + h.ng + 1 + 0 = _; omega
    have : (Pat.cat [Field.pat ⟨u, .many⟩]).re (1 + (Pat.cat h.pats).ng) =
        .seq (.grp (1 + h.ng) (Re.plus false (.seq (litRe c!" ") (u.re (h.ng + 2))))) .eps := by
      show Re.seq (.grp (1 + h.ng) (Re.plus false (.seq (litRe c!" ") (u.re ((1 + (Pat.cat h.pats).ng) + 1 + Pat.ng (.lits c!" ")))))) .eps = _
      rw [hn]
    rw [free_cat, hhw.1, this]
    simp only [Re.free, Re.plus, blank_lit.free, hu.free, Bool.and_self]
  obtain ⟨m, x, y, z, r1, r2, r3, r4, r5, r6, -, -⟩ := rows_match (R := (Pat.cat (h.pats ++ [Field.pat ⟨u, .many⟩])).re 1)
    (H := headRe h 1) (s := litRe c!" ") (r := u.re (h.ng + 2)) (T := .eps) (p := p) (ps := ps) (g := 1 + h.ng) (lo := h.ng + 2 + u.ng) (b := false)
    e1 hfree (noSp_mt hhw.2.1) blank_lit hu (by
      intro t z hz c hc
      obtain ⟨rfl, -⟩ := mt_eps.1 hz
      cases hc) hhw.2.2 (by rw [show 1 + h.ng + 1 = h.ng + 2 by omega]; exact gu) ⟨0, trivial⟩ (by omega) (by omega)
    hd rows.flatten [] rows hw (by simp) (head_full hr (hw hd (by simp)).1 1) hne h2 ⟨[], .eps⟩ (by
      intro rows' tl' _ _ hf _
      obtain ⟨e, he⟩ := hf
      have := (mt_eps.1 he).1
      cases tl' with
      | nil => rfl
      | cons w t => simp at this)
  obtain ⟨hv', hc, hl', h3'⟩ := head_mt hok r2
  rw [hr] at h3'
  simp only [Option.some.injEq] at h3'
  subst h3'
  rw [hre, r1]
  show c.build m = _
  unfold Cls.build
  have ha : attrVal c.pat.ng m h.ng a = (rows.mapM (fun r => a.ty.parse (join [' '] r))).map .tuple := by
    unfold attrVal
    rw [if_neg (by omega), show h.ng + 1 = 1 + h.ng by omega, r6]
    have hne' : enc rows.flatten ≠ [] := by
      cases rows with
      | nil => exact absurd rfl hne
      | cons x xs =>
        have := enc_ne (h2 x (by simp))
        intro e
        simp only [List.flatten_cons, enc_append, List.append_eq_nil_iff] at e
        exact this e.1
    cases he : enc rows.flatten with
    | nil => exact absurd he hne'
    | cons ch t =>
      simp only [Attr.parse, ham, if_true, tupleParse]
      rw [← he, finditer_rows ht rows hne h3, List.mapM_map]
      rfl
  rw [hat]
  have key : ∀ (bs : List Attr) (us : List (Option Str)) (i : Nat), bs.length = us.length → (∀ b ∈ bs, b.many = false) →
      (∀ v ∈ us, ∀ w ∈ v, NoSpace w ∧ w ≠ []) → (∀ j v, us[j]? = some v → cap m (i + 1 + j) = v) → i + us.length = h.ng →
      attrVals c.pat.ng m i (bs ++ [a]) = (match readVals bs (us.map (·.map ([·]))) with
        | .error e => .error e
        | .ok xs => match rows.mapM (fun r => a.ty.parse (join [' '] r)) with
          | .error e => .error e
          | .ok ys => .ok (xs ++ [.tuple ys])) := by
    intro bs
    induction bs with
    | nil =>
      intro us i hi _ _ _ hn
      cases us with
      | cons => simp at hi
      | nil =>
        simp only [List.length_nil, Nat.add_zero] at hn
        subst hn
        simp only [List.nil_append, attrVals, ha, readVals]
        cases rows.mapM (fun r => a.ty.parse (join [' '] r)) <;> rfl
    | cons b bs ih =>
      intro us i hi hb hwd hc hn
      cases us with
      | nil => simp at hi
      | cons v us =>
        simp only [List.length_cons] at hn hi
        have h1 : attrVal c.pat.ng m i b = readVal b (v.map ([·])) :=
          attr_word _ m i b (by omega) (hb b (by simp)) v (by simpa using hc 0 v (by simp)) (hwd v (by simp))
        have h2 := ih us (i + 1) (by omega) (fun d hd => hb d (by simp [hd])) (fun d hd => hwd d (by simp [hd])) (by
          intro j w hj
          have := hc (j + 1) w (by simpa using hj)
          rw [← this]; congr 1; omega) (by omega)
        simp only [List.cons_append, List.map_cons, attrVals, readVals, h1, h2]
        cases readVal b (v.map ([·])) with
        | error => rfl
        | ok x' =>
          simp only
          cases readVals bs (us.map (·.map ([·]))) with
          | error => rfl
          | ok xs =>
            simp only
            cases rows.mapM (fun r => a.ty.parse (join [' '] r)) <;> rfl
  rw [key as hv 0 (by rw [hl, hl']) hm (readHead_words hr (hw hd (by simp)).1) (by
    intro j v hj
    rw [r5 (0 + 1 + j) (by omega) (by
      have := (List.getElem?_eq_some_iff.1 hj).1
      omega)]
    have := hc.get j v hj
    rw [← this]) (by omega)]
  cases readVals as (hv.map (·.map ([·]))) with
  | error => rfl
  | ok xs =>
    simp only
    cases rows.mapM (fun r => a.ty.parse (join [' '] r)) <;> rfl

end Inp
