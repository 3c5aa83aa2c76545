import Verif.Inp.RowRound
import Verif.Py.Caps
/-!
# Reading and printing materials without options
-/
set_option maxRecDepth 100000
namespace Inp
open Py Types

/-- Options that begin with a letter and have a first entry. -/
def Cls.keyed (c : Cls) : Bool :=
  match c.shape with
  | .flat h (f :: _) => h.pre == .no && (match h.kw with | k :: _ => !isDigit (lowerC k) | [] => false) && (f.mode == .req || f.mode == .many)
  | _ => false

theorem keyed_full {c : Cls} (hc : c.keyed = true) {n : Nat} {w : Str} (h : Full (c.pat.re n) w) :
    ∃ a t, w = a :: t ∧ isDigit a = false ∧ ' ' ∈ t := by
  unfold Cls.keyed at hc
  split at hc
  · rename_i hd f fs hs
    obtain ⟨pre, kw, suf, des⟩ := hd
    cases kw with
    | nil => simp at hc
    | cons k ks =>
      simp only [Bool.and_eq_true, Bool.or_eq_true, beq_iff_eq, Bool.not_eq_true'] at hc
      obtain ⟨⟨rfl, hk⟩, hf⟩ := hc
      obtain ⟨e, he⟩ := h
      rw [show c.pat = Pat.cat (Head.pats ⟨.no, k :: ks, suf, des⟩ ++ (f :: fs).map Field.pat) by simp [Cls.pat, hs, Shape.pat],
        mt_cat_append] at he
      obtain ⟨u, v, x, y, h1, h2, rfl, -⟩ := he
      have h1' : Mt (.seq (litRe (k :: ks)) ((Pat.cat (suf.pats ++ des.pats)).re (n + 0))) u x := h1
      obtain ⟨u1, u2, x1, x2, h3, -, rfl, -⟩ := mt_seq.1 h1'
      obtain ⟨h3, -⟩ := mt_lit.1 h3
      cases u1 with
      | nil => simp [lower] at h3
      | cons a u1 =>
        have ha : lowerC a = lowerC k := by simpa [lower] using (List.cons.inj h3).1
        refine ⟨a, u1 ++ u2 ++ v, by simp, ?_, ?_⟩
        · cases hd : isDigit a with
          | false => rfl
          | true => rw [← ha, lower_digit hd, hd] at hk; cases hk
        · simp only [List.map_cons, Pat.cat, Pat.re] at h2
          obtain ⟨v1, v2, y1, y2, h4, -, rfl, -⟩ := mt_seq.1 h2
          have key : ∃ t, v1 = ' ' :: t := by
            have k1 : ∀ {m w e}, Mt (.seq (litRe c!" ") (f.unit.re m)) w e → ∃ t, w = ' ' :: t := by
              intro m w e h
              obtain ⟨a1, a2, b1, b2, q1, -, rfl, -⟩ := mt_seq.1 h
              obtain ⟨rfl, -⟩ := (blank_lit.mt _ _).1 q1
              exact ⟨a2, rfl⟩
            rcases hf with hf | hf
            · simp only [Field.pat, hf, Pat.re] at h4
              obtain ⟨z, h5, -⟩ := mt_grp.1 h4
              exact k1 h5
            · simp only [Field.pat, hf, Pat.re, Re.plus] at h4
              obtain ⟨z, h5, -⟩ := mt_grp.1 h4
              obtain ⟨a1, a2, b1, b2, q1, -, rfl, -⟩ := mt_seq.1 h5
              obtain ⟨t, rfl⟩ := k1 q1
              exact ⟨t ++ a2, rfl⟩
          obtain ⟨t, rfl⟩ := key
          simp
  · cases hc

theorem flatten_tail {n : Nat} (hn : 0 < n) : ∀ (rows' rows : List (List Str)) (tl : List Str), (∀ x ∈ rows', x.length = n) →
    (∀ x ∈ rows, x.length = n) → rows.flatten = rows'.flatten ++ tl → tl = (rows.drop rows'.length).flatten := by
  intro rows'
  induction rows' with
  | nil => intro rows tl _ _ h; simpa using h.symm
  | cons x rows' ih =>
    intro rows tl h1 h2 h
    cases rows with
    | nil =>
      have := h1 x (by simp)
      simp only [List.flatten_nil, List.flatten_cons] at h
      have := congrArg List.length h
      simp at this
      omega
    | cons y rows =>
      simp only [List.flatten_cons, List.append_assoc] at h
      obtain ⟨-, e⟩ := List.append_inj h (by rw [h1 x (by simp), h2 y (by simp)])
      simpa using ih rows tl (fun z hz => h1 z (by simp [hz])) (fun z hz => h2 z (by simp [hz])) e

/-- The nuclide in the groups of a list of substances is a word. -/
theorem subst_star {b : Bool} {n : Nat} {w : Str} {e} (h : Mt (.star b (.seq (litRe c!" ") (Kind.re n .subst))) w e) :
    (w = [] ∧ e = []) ∨ ∃ z, e.lookup n = some z ∧ NoSpace z ∧ z ≠ [] := by
  have one : ∀ {w e}, Mt (.seq (litRe c!" ") (Kind.re n .subst)) w e → ∃ z, e.lookup n = some z ∧ NoSpace z ∧ z ≠ [] := by
    intro w e h
    obtain ⟨a1, a2, b1, b2, q1, q2, -, rfl⟩ := mt_seq.1 h
    obtain ⟨-, rfl⟩ := (blank_lit.mt _ _).1 q1
    obtain ⟨c1, c2, d1, d2, q3, q4, -, rfl⟩ := mt_seq.1 q2
    obtain ⟨x1, q5, rfl⟩ := mt_grp.1 q3
    obtain ⟨g1, g2, e1, e2, q6, q7, -, rfl⟩ := mt_seq.1 q4
    obtain ⟨x2, q8, rfl⟩ := mt_grp.1 q7
    obtain ⟨y1, y2, rfl⟩ := mt_plus_cls.1 q5
    obtain ⟨y3, y4, rfl⟩ := mt_plus_cls.1 q8
    obtain ⟨-, rfl⟩ := (blank_chr.mt _ _).1 q6
    refine ⟨c1, ?_, fun c hc => by simpa using y2 c hc, y1⟩
    have : (n == n + 1) = false := by simp
    simp [List.lookup, this]
  generalize hr : Re.star b (.seq (litRe c!" ") (Kind.re n .subst)) = r at h
  induction h with
  | starNil => exact .inl ⟨rfl, rfl⟩
  | starCons _ h1 h2 _ ih =>
    cases hr
    right
    rcases ih rfl with ⟨rfl, rfl⟩ | ⟨z, h3, h4, h5⟩
    · simpa using one h1
    · exact ⟨z, by rw [lookup_append, h3]; rfl, h4, h5⟩
  | _ => cases hr

/-- The options of materials in the order of their definition. -/
def matOpts : List Cls := [Tab.m_0_Gas, Tab.m_0_Estep, Tab.m_0_Hstep, Tab.m_0_Nlib, Tab.m_0_Plib, Tab.m_0_Pnlib, Tab.m_0_Elib, Tab.m_0_Hlib,
    Tab.m_0_Alib, Tab.m_0_Slib, Tab.m_0_Tlib, Tab.m_0_Dlib, Tab.m_0_Cond, Tab.m_0_Refi, Tab.m_0_Refc, Tab.m_0_Refs]

theorem matOpts_ty : Tab.T_m_0_MOption_0 = unionTy "m_0.MOption_0" matOpts := rfl

theorem m_options : ∀ c ∈ matOpts, c.keyed = true ∧ c.pat.base = true := by decide +kernel

theorem mat_good : ∀ c ∈ sortLen matOpts, c.pat.Good := by
  intro c hc
  rw [mem_sortLen] at hc
  exact Pat.base_good (m_options c hc).2

theorem mat_alt {n : Nat} {w : Str} (h : Full (altsRe (sortLen matOpts) n) w) : ∃ a t, w = a :: t ∧ isDigit a = false ∧ ' ' ∈ t := by
  obtain ⟨c, hc, hf⟩ := (alts_full _ mat_good n w).1 h
  rw [mem_sortLen] at hc
  exact keyed_full (m_options c hc).1 hf

/-- The pattern of the options of a material. -/
def matTail : Re := .opt true (.grp 5 (Re.plus false (.seq (litRe c!" ") (altsRe (sortLen matOpts) 6))))

theorem mat_match (rows : List (List Str)) (hd : Str) (hv : List (Option Str)) (hw : Words (hd :: rows.flatten))
    (hr : readHead ⟨.no, c!"m", .req, .no⟩ hd = some hv) (hne : rows ≠ [])
    (h2 : ∀ x ∈ rows, ∃ z d, x = [z, d] ∧ ∃ c ∈ z.head?, isDigit c = true) :
    ∃ m z, reMatch Tab.M_0.re (hd ++ enc rows.flatten) = some m ∧ (∀ i v, hv[i]? = some v → cap m (1 + i) = v) ∧
      cap m 2 = some (enc rows.flatten) ∧ cap m 3 = some z ∧ NoSpace z ∧ z ≠ [] := by
  have hok : (Head.mk .no c!"m" .req .no).ok = true := by decide +kernel
  have hng : (Head.mk .no c!"m" .req .no).ng = 1 := by decide +kernel
  have hhw := (Pat.cat (Head.mk .no c!"m" .req .no).pats).facts (Head.word hok) 1
  have hopt := alts_any (sortLen matOpts) mat_good 6
  have hsub : ∀ x ∈ rows, All2 (RowItem.ps .subst) x := by
    intro x hx
    obtain ⟨z, d, rfl, -⟩ := h2 x hx
    have h1 := hw z (List.mem_cons_of_mem _ (List.mem_flatten.2 ⟨_, hx, by simp⟩))
    have h3 := hw d (List.mem_cons_of_mem _ (List.mem_flatten.2 ⟨_, hx, by simp⟩))
    exact ⟨full_nonspace.2 ⟨h1.2, h1.1⟩, full_nonspace.2 ⟨h3.2, h3.1⟩, trivial⟩
  have hR : Tab.M_0.pat.re 1 = (Pat.cat ((Head.mk .no c!"m" .req .no).pats ++ [Field.pat ⟨.ty (.base .subst), .many⟩,
    Field.pat ⟨.ngrp (.ty Tab.T_m_0_MOption_0), .manyOpt⟩])).re 1 := rfl
  have e0 : (Pat.cat [Field.pat ⟨.ty (.base .subst), .many⟩, Field.pat ⟨.ngrp (.ty Tab.T_m_0_MOption_0), .manyOpt⟩]).re
      (1 + (Pat.cat (Head.mk .no c!"m" .req .no).pats).ng) =
      .seq (.grp 2 (Re.plus false (.seq (litRe c!" ") (Kind.re 3 .subst)))) (.seq matTail .eps) := rfl
  have e1 : ∀ w e, Mt (Tab.M_0.pat.re 1) w e ↔ ∃ u' v t x y z, Mt (headRe ⟨.no, c!"m", .req, .no⟩ 1) u' x ∧
      Mt (Re.plus false (.seq (litRe c!" ") (Kind.re 3 .subst))) v y ∧ Mt (.seq matTail .eps) t z ∧ w = u' ++ (v ++ t) ∧
        e = z ++ ((2, v) :: y ++ x) := by
    intro w e
    rw [hR, mt_cat_append, e0]
    constructor
    · rintro ⟨u', v, x, y, m1, m2, rfl, rfl⟩
      obtain ⟨v, t, x', y', m3, m4, rfl, rfl⟩ := mt_seq.1 m2
      obtain ⟨z, m5, rfl⟩ := mt_grp.1 m3
      exact ⟨u', v, t, x, z, y', m1, m5, m4, rfl, by simp⟩
    · rintro ⟨u', v, t, x, y, z, m1, m2, m3, rfl, rfl⟩
      exact ⟨u', v ++ t, x, z ++ (2, v) :: y, m1, mt_seq.2 ⟨v, t, _, z, mt_grp.2 ⟨y, m2, rfl⟩, m3, rfl, rfl⟩, rfl, by simp⟩
  have hfree : (Tab.M_0.pat.re 1).free = true := by
    rw [hR, free_cat, hhw.1, e0]
    simp only [matTail, Re.free, Re.plus, blank_lit.free, (row_subst 3).free, hopt.1, Bool.and_self]
  have tail : ∀ t z, Mt (.seq matTail .eps) t z → t = [] ∨ ∃ a s, t = ' ' :: a :: s ∧ isDigit a = false := by
    intro t z ht
    obtain ⟨t1, t2, z1, z2, q1, q2, rfl, -⟩ := mt_seq.1 ht
    obtain ⟨rfl, -⟩ := mt_eps.1 q2
    rcases mt_opt.1 q1 with ⟨rfl, -⟩ | q1
    · exact .inl rfl
    · obtain ⟨y, q3, -⟩ := mt_grp.1 q1
      obtain ⟨a1, a2, b1, b2, q4, -, rfl, -⟩ := mt_seq.1 q3
      obtain ⟨c1, c2, d1, d2, q5, q6, rfl, -⟩ := mt_seq.1 q4
      obtain ⟨rfl, -⟩ := (blank_lit.mt _ _).1 q5
      obtain ⟨a, s, rfl, ha, -⟩ := mat_alt ⟨_, q6⟩
      exact .inr ⟨a, s ++ a2, by simp, ha⟩
  obtain ⟨m, x, y, z, r1, r2, r3, r4, r5, r6, r7, -⟩ := rows_match (R := Tab.M_0.pat.re 1)
    (H := headRe ⟨.no, c!"m", .req, .no⟩ 1) (s := litRe c!" ") (r := Kind.re 3 .subst) (T := .seq matTail .eps) (g := 2) (lo := 5) (b := false)
    e1 hfree (noSp_mt hhw.2.1) blank_lit (row_subst 3) (by
      intro t z hz c hc
      rcases tail t z hz with rfl | ⟨a, s, rfl, -⟩
      · cases hc
      · simpa using hc.symm) hhw.2.2 (subst_groups 3) ⟨_, ⟨⟨by omega, by omega, ⟨⟨blank_lit.groups _ _, hopt.2.mono (by omega) (Nat.le_refl _)⟩,
        blank_lit.groups _ _, hopt.2.mono (by omega) (Nat.le_refl _)⟩⟩, trivial⟩⟩ (by omega) (by omega)
    hd rows.flatten [] rows hw (by simp) (head_full hr (hw hd (by simp)).1 1) hne hsub ⟨[], .seq .optNone .eps⟩ (by
      intro rows' tl' _ h3 hf h4
      obtain ⟨e, he⟩ := hf
      have h5 := flatten_tail (n := 2) (by omega) rows' rows tl' (fun x hx => (h3 x hx).length) (fun x hx => (hsub x hx).length) h4
      cases hd : rows.drop rows'.length with
      | nil => rw [hd] at h5; simpa using h5
      | cons x xs =>
        obtain ⟨z, d, rfl, c, hc, hdg⟩ := h2 x (List.mem_of_mem_drop (by rw [hd]; simp))
        rw [hd] at h5
        subst h5
        rcases tail _ _ he with h6 | ⟨a, s, h6, ha⟩
        · simp at h6
        · cases z with
          | nil => cases hc
          | cons c' z =>
            simp at hc
            subst hc
            simp only [List.flatten_cons, List.cons_append, List.nil_append, enc_cons, List.cons.injEq, true_and] at h6
            rw [← h6.1, hdg] at ha
            cases ha)
  obtain ⟨hv', hc, hl', h3'⟩ := head_mt hok r2
  rw [hr] at h3'
  simp only [Option.some.injEq] at h3'
  subst h3'
  obtain ⟨q, q1, q2, q3⟩ : ∃ z, y.lookup 3 = some z ∧ NoSpace z ∧ z ≠ [] := by
    have : Mt (.star false (.seq (litRe c!" ") (Kind.re 3 .subst))) (enc rows.flatten) y := by
      obtain ⟨a1, a2, b1, b2, q4, q5, e1, e2⟩ := mt_seq.1 r3
      rw [e1, e2]
      refine .starCons ?_ q4 q5
      rintro rfl
      obtain ⟨c1, c2, d1, d2, q5, q6, e3, -⟩ := mt_seq.1 q4
      obtain ⟨rfl, -⟩ := (blank_lit.mt _ _).1 q5
      cases e3
    rcases subst_star this with ⟨h, -⟩ | h
    · cases rows with
      | nil => exact absurd rfl hne
      | cons x xs =>
        have := enc_ne (hsub x (by simp))
        simp only [List.flatten_cons, enc_append, List.append_eq_nil_iff] at h
        exact absurd h.1 this
    · exact h
  refine ⟨m, q, r1, ?_, r6, by rw [r7 3 (by omega) (by omega), q1], q2, q3⟩
  intro i v hi
  have : i < hv.length := (List.getElem?_eq_some_iff.1 hi).1
  rw [hl', hng] at this
  rw [r5 (1 + i) (by omega) (by omega)]
  exact hc.get i v hi

theorem finditer_blankless {z : Str} (hz : NoSpace z) : finditer (Tab.T_m_0_MOption_0.re 1) z = [] := by
  cases h : finditer (Tab.T_m_0_MOption_0.re 1) z with
  | nil => rfl
  | cons t l =>
    have h1 : t ∈ finditer (Tab.T_m_0_MOption_0.re 1) z := by rw [h]; simp
    have h2 := finditer_full (alts_any (sortLen matOpts) mat_good 1).1 h1
    obtain ⟨a, s, rfl, -, hs⟩ := mat_alt h2
    obtain ⟨p, q, hpq⟩ := (finditer_infix h1).1
    have := hz ' ' (by rw [← hpq]; simp [hs])
    exact absurd this (by decide)

theorem zaid_digit {z : Zaid} (h : ReadSc .zaid (.zaid z)) : ∃ c ∈ z.str.head?, isDigit c = true := by
  obtain ⟨h1, h2, h3, h4⟩ := h
  obtain ⟨l1, d1, -⟩ := zfill3 z.z (by omega)
  have : ∃ t, z.str = zfill 3 (natStr z.z) ++ t := by
    unfold Zaid.str
    split <;> simp
  obtain ⟨t, ht⟩ := this
  cases hz : zfill 3 (natStr z.z) with
  | nil => rw [hz] at l1; simp at l1
  | cons c s =>
    refine ⟨c, by rw [ht, hz]; simp, d1 c (by rw [hz]; simp)⟩

theorem strip_blank (s : Str) : strip (s ++ [' ']) = strip s := by
  unfold strip lstrip rstrip
  by_cases h : ∀ c ∈ s, isSpace c = true
  · have e : s.dropWhile isSpace = [] := by
      rw [← List.append_nil s, List.dropWhile_append_of_pos h]; rfl
    rw [List.dropWhile_append_of_pos h, e]; decide
  · have e : (s ++ [' ']).dropWhile isSpace = s.dropWhile isSpace ++ [' '] := by
      induction s with
      | nil => simp at h
      | cons c s ih =>
        by_cases hc : isSpace c = true
        · simp only [List.cons_append, List.dropWhile_cons, hc, if_true]
          exact ih (fun h' => h (by intro d hd; rcases List.mem_cons.1 hd with rfl | hd; exact hc; exact h' d hd))
        · simp only [List.cons_append, List.dropWhile_cons, hc]; rfl
    rw [e, List.reverse_append]
    rfl

theorem mat_body (a b : Str) (o : Option Str) :
    objStr Tab.M_0.info [some a, some b, o] = postprocess (strip ('m' :: a ++ ' ' :: join [' '] (b :: o.toList))) := by
  have : objStr Tab.M_0.info [some a, some b, o] = postprocess (strip (headStr c!"m" [("suffix", some a), ("substances", some b), ("options", o)] ++
    ' ' :: bodyStr [("suffix", some a), ("substances", some b), ("options", o)])) := rfl
  have h1 : headStr c!"m" [("suffix", some a), ("substances", some b), ("options", o)] = 'm' :: a := by
    simp [headStr, part, orNil, List.find?]
  have h2 : bodyStr [("suffix", some a), ("substances", some b), ("options", o)] = join [' '] (b :: o.toList) := by
    cases o <;> simp [bodyStr, special]
  rw [this, h1, h2]

theorem mat_none (a b : Str) : objStr Tab.M_0.info [some a, some b, none] = postprocess (strip ('m' :: a ++ ' ' :: b)) :=
  mat_body a b none

theorem mat_empty (a b : Str) : objStr Tab.M_0.info [some a, some b, some []] = postprocess (strip ('m' :: a ++ ' ' :: b ++ [' '])) := by
  rw [mat_body]; simp [join]

/-- Printing and reading back a material. -/
theorem mat_round (n : Nat) (xs : List Val) (hne : xs ≠ []) (hx : ∀ x ∈ xs, RowItemVal .subst x) (o : Val) (ho : o = .none ∨ o = .tuple [])
    (v : Val) (hv : v = .obj Tab.M_0.info [.sc (.int (.num n)), .tuple xs, o]) :
    ∃ ws, Entry ('m' :: natStr n) ∧ (∀ w ∈ ws, Stable w) ∧ v.str = postprocess (join [' '] (('m' :: natStr n) :: ws)) ∧
      cardParse Tab.M_0 v.str = .ok (.obj Tab.M_0.info [.sc (.int (.num n)), .tuple xs, .tuple []], []) := by
  have hdg := natStr_digits n
  have hnn := natStr_ne_nil n
  have ok : ∃ rows : List (List Str), rows.length = xs.length ∧ (∀ x ∈ rows, ∃ z d, x = [z, d] ∧ ∃ c ∈ z.head?, isDigit c = true) ∧
      (∀ w ∈ rows.flatten, Stable w) ∧ xs.map Val.text = rows.map (fun y => some (join [' '] y)) ∧
      rows.mapM (fun y => (Ty.base .subst).parse (join [' '] y)) = .ok xs := by
    clear hv v hne
    induction xs with
    | nil => exact ⟨[], rfl, by simp, by simp, rfl, rfl⟩
    | cons x xs ih =>
      obtain ⟨rows, r1, r2, r3, r4, r5⟩ := ih (fun y hy => hx y (by simp [hy]))
      obtain ⟨z, d, rfl, hz⟩ := hx x (by simp)
      obtain ⟨ws, w1, w2, w3, w4⟩ := item_subst _ (hx _ List.mem_cons_self)
      have h1 := (sc_round hz).1
      have h2 := (sc_round (k := .real) (s := .real (.num (.fin d))) trivial).1
      have e1 : (Val.sc (.subst ⟨z, .num (.fin d)⟩)).text = some (join [' '] [z.str, (Sc.real (.num (.fin d))).text]) := by
        simp [Val.text, Sc.text, Substance.str, join]
      have e2 : join [' '] ws = join [' '] [z.str, (Sc.real (.num (.fin d))).text] := by
        rw [w3] at e1; exact Option.some.inj e1
      rw [e2] at w4
      refine ⟨[z.str, (Sc.real (.num (.fin d))).text] :: rows, by simp [r1], ?_, ?_, by simp only [List.map_cons, r4, e1], ?_⟩
      · intro y hy
        rcases List.mem_cons.1 hy with rfl | hy
        · exact ⟨_, _, rfl, zaid_digit hz⟩
        · exact r2 y hy
      · intro w hw
        simp only [List.flatten_cons, List.cons_append, List.nil_append, List.mem_cons] at hw
        rcases hw with rfl | rfl | hw
        · exact h1
        · exact h2
        · exact r3 w hw
      · rw [List.mapM_cons, w4, r5]; rfl
  obtain ⟨rows, r1, r2, r3, r4, r5⟩ := ok
  have hrne : rows ≠ [] := by
    intro e; subst e
    cases xs with
    | nil => exact hne rfl
    | cons => simp at r1
  have hxne : ∀ x ∈ rows, x ≠ [] := by
    intro x hx e; subst e
    obtain ⟨z, d, h, -⟩ := r2 _ hx
    cases h
  have hht : headText (Head.mk .no c!"m" .req .no).kw none (some (natStr n)) none = 'm' :: natStr n := by
    simp [headText, orNil, desText]
  have hrd : readHead ⟨.no, c!"m", .req, .no⟩ ('m' :: natStr n) = some [some (natStr n)] := by
    rw [← hht]
    exact readHead_text ⟨.no, c!"m", .req, .no⟩ (by decide +kernel) none (some (natStr n)) none ⟨fun _ => rfl, by simp⟩
      ⟨by simp, by simp, by intro t ht; simp at ht; subst ht; exact ⟨hnn, hdg⟩⟩ ⟨fun _ => rfl, by simp, by simp⟩
  have he : Entry ('m' :: natStr n) := by
    rw [← hht]
    exact headText_entry ⟨.no, c!"m", .req, .no⟩ (by decide +kernel) (by decide +kernel) none (some (natStr n)) none ⟨fun _ => rfl, by simp⟩
      (by intro t ht; simp at ht; subst ht; exact ⟨hnn, hdg⟩) (by simp)
  have hws : Words (('m' :: natStr n) :: rows.flatten) := by
    intro w hw
    rcases List.mem_cons.1 hw with rfl | hw
    · exact ⟨he.sp, he.ne⟩
    · exact ⟨(r3 w hw).entry.sp, (r3 w hw).entry.ne⟩
  have e1 : (Val.parts xs).map orNil = rows.map (join [' ']) := by
    rw [Val.parts_eq, r4, List.map_map]; rfl
  have hstr : v.str = postprocess (join [' '] (('m' :: natStr n) :: rows.flatten)) := by
    subst hv
    rw [obj_str, ← strip_text _ _ hws, ← join_rows rows hxne, ← e1]
    rcases ho with rfl | rfl
    · exact mat_none _ _
    · exact (mat_empty _ _).trans (congrArg postprocess (strip_blank _))
  refine ⟨rows.flatten, he, r3, hstr, ?_⟩
  obtain ⟨m, z, m1, m2, m3, m4, m5, m6⟩ := mat_match rows ('m' :: natStr n) _ hws hrd hrne r2
  rw [hstr]
  unfold cardParse
  rw [Props.C18_wrap_roundtrip _ _ (fun w hw => by
      rcases List.mem_cons.1 hw with rfl | hw
      · exact he
      · exact (r3 w hw).entry) (fun w hw => (r3 w hw).low) (fun w hw => (r3 w hw).cnt), join_enc]
  simp only [m1]
  have hng : ∃ k, Tab.M_0.pat.ng = 3 + k := ⟨Tab.M_0.pat.ng - 3, by decide +kernel⟩
  obtain ⟨k, hng⟩ := hng
  have a1 : attrVal Tab.M_0.pat.ng m 0 ⟨"suffix", .base .int, false, some .isNone⟩ = .ok (.sc (.int (.num n))) := by
    rw [attr_word _ m 0 _ (by omega) rfl (some (natStr n)) (by simpa using m2 0 _ rfl) (by
      intro w hw; simp at hw; subst hw
      exact ⟨fun c hc => isDigit_not_space (hdg c hc), hnn⟩)]
    exact (sc_round (k := .int) (s := .int (.num n)) trivial).2
  have a2 : attrVal Tab.M_0.pat.ng m 1 ⟨"substances", .base .subst, true, some .isNone⟩ = .ok (.tuple xs) := by
    unfold attrVal
    rw [if_neg (by omega), m3]
    cases he : enc rows.flatten with
    | nil =>
      cases rows with
      | nil => exact absurd rfl hrne
      | cons x l =>
        obtain ⟨z, d, rfl, -⟩ := r2 x (by simp)
        simp at he
    | cons c t =>
      simp only [Attr.parse, if_true, tupleParse]
      rw [← he]
      have := finditer_rows (row_subst 1) rows hrne (by
        intro x hx
        obtain ⟨z, d, rfl, -⟩ := r2 x hx
        have h1 := hws z (List.mem_cons_of_mem _ (List.mem_flatten.2 ⟨_, hx, by simp⟩))
        have h3 := hws d (List.mem_cons_of_mem _ (List.mem_flatten.2 ⟨_, hx, by simp⟩))
        exact ⟨full_nonspace.2 ⟨h1.2, h1.1⟩, full_nonspace.2 ⟨h3.2, h3.1⟩, trivial⟩)
      rw [show (Ty.base .subst).re 1 = Kind.re 1 .subst from rfl, this, List.mapM_map]
      show Except.map Val.tuple (rows.mapM (fun y => (Ty.base .subst).parse (join [' '] y))) = _
      rw [r5]; rfl
  have a3 : attrVal Tab.M_0.pat.ng m 2 ⟨"options", Tab.T_m_0_MOption_0, true, none⟩ = .ok (.tuple []) := by
    unfold attrVal
    rw [if_neg (by omega), m4]
    cases z with
    | nil => exact absurd rfl m6
    | cons c t =>
      simp only [Attr.parse, if_true, tupleParse]
      rw [strip_word m5 m6, finditer_blankless m5]; rfl
  have hb : Tab.M_0.build m = .ok (.obj Tab.M_0.info [.sc (.int (.num n)), .tuple xs, .tuple []]) := by
    unfold Cls.build
    rw [show Tab.M_0.attrs = [⟨"suffix", .base .int, false, some .isNone⟩, ⟨"substances", .base .subst, true, some .isNone⟩,
      ⟨"options", Tab.T_m_0_MOption_0, true, none⟩] from rfl]
    simp only [attrVals, a1, a2, a3]
    rfl
  rw [hb]

end Inp
