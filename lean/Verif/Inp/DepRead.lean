import Verif.Inp.RowOption
import Verif.Inp.Feed
/-!
# Reading and printing sources that depend on another source
-/
set_option maxRecDepth 100000
namespace Inp
open Py Types

/-- The first word of such a card. -/
def depHead : Head := ⟨.no, c!"ds", .req, .no⟩

/-- The number of the card (src/pymcnp/inp/Ds_1.py:18, 80). -/
def depSuffix : Attr :=
  ⟨"suffix", .base .int, false, some (.or .isNone (.not (.and (.cmp .ge 1 0) (.cmp .le 999 0))))⟩

/-- Pairs of values; pairs of a distribution and a value; distributions (src/pymcnp/inp/Ds_1.py:14-21, Ds_2.py:14-21, Ds_3.py:13-20). -/
structure Dep where
  c : Cls
  letter : Char
  /-- the list -/
  a : Attr
  /-- whether the list takes as many entries as it can first -/
  greedy : Bool

def depCards : List Dep := [
  ⟨Tab.Ds_1, 't', ⟨"ijs", Tab.T_ds_1_Variables, true, some .isNone⟩, false⟩,
  ⟨Tab.Ds_2, 'q', ⟨"vss", Tab.T_ds_2_Variables, true, some .isNone⟩, false⟩,
  ⟨Tab.Ds_3, 's', ⟨"distributions", .base .dist, true, some .isNone⟩, true⟩]

/-- The words of an element of the list. -/
def Dep.ps (d : Dep) : List (Str → Prop) :=
  match d.letter with
  | 't' => [Full numRe, Full numRe]
  | 'q' => [Full (Kind.re 1 .dist), Full numRe]
  | _ => [Full (Kind.re 1 .dist)]

/-- What the words are read as: the number of the card, and one element from every row. -/
def Dep.read (d : Dep) (s : Str) (rows : List (List Str)) : Res Val :=
  match intParse s with
  | .error e => .error e
  | .ok n => match rows.mapM (fun y => d.a.ty.parse (join [' '] y)) with
    | .error e => .error e
    | .ok ys => d.c.mk' [.sc (.int n), .tuple ys]

/-- The pattern of the card. -/
def depRe (l : Str) (b : Bool) (r : Re) : Re :=
  .seq (litRe c!"ds") (.seq (.grp 1 (Re.plus true .digit)) (.seq (litRe l) (.grp 2 (Re.plus b (.seq (litRe c!" ") r)))))

theorem dist_full_any (n : Nat) {w : Str} (h : Full (Kind.re 1 .dist) w) : Full (Kind.re n .dist) w := by
  obtain ⟨e, he⟩ := h
  rcases mt_alt.1 he with h | h
  · obtain ⟨u, v, x, y, h1, h2, rfl, rfl⟩ := mt_seq.1 h
    obtain ⟨z, h3, rfl⟩ := mt_grp.1 h2
    exact ⟨_, mt_alt.2 (.inl (mt_seq.2 ⟨u, v, x, _, h1, mt_grp.2 ⟨z, h3, rfl⟩, rfl, rfl⟩))⟩
  · exact ⟨_, mt_alt.2 (.inr h)⟩

theorem row_dist (n : Nat) : Row (Kind.re n .dist) [Full (Kind.re n .dist)] :=
  row_one (Kind.facts .dist rfl n).1 (noSp_mt (Kind.facts .dist rfl n).2.1) (by
    intro e h
    rcases mt_alt.1 h with h | h
    · obtain ⟨u, v, x, y, h1, -, h3, -⟩ := mt_seq.1 h
      obtain ⟨c, -, rfl, -⟩ := mt_cls.1 h1
      simp at h3
    · obtain ⟨c, -, h3, -⟩ := mt_cls.1 h
      cases h3) (tok_dist n)

theorem space_lower {d : Char} (h : isSpace d = true) : lowerC d = d := by
  unfold lowerC
  split
  · rename_i hu
    simp only [Bool.and_eq_true, decide_eq_true_eq] at hu
    obtain ⟨n, hn, rfl⟩ := upper_cases hu
    have : ∀ n : Fin 26, isSpace (Char.ofNat (65 + n.1)) = false := by decide +kernel
    rw [this ⟨n, hn⟩] at h; cases h
  · rfl

/-- How a card is read. -/
theorem dep_match {l : Char} {b : Bool} {r : Re} {p ps} (hl : isSpace l = false) (hll : lowerC l = l) (hr : Row r (p :: ps))
    (gr : ∃ hi, r.groupsIn 3 hi) {hd tw : Str} {rows : List (List Str)} (hw : Words (hd :: tw :: rows.flatten)) {s : Str}
    (h1 : readHead depHead hd = some [some s]) (ht : lower tw = [l]) (hne : rows ≠ []) (hx : ∀ x ∈ rows, All2 (p :: ps) x) :
    ∃ m, reMatch (anchored (depRe [' ', l] b r)) (hd ++ enc (tw :: rows.flatten)) = some m ∧ cap m 1 = some s ∧
      cap m 2 = some (enc rows.flatten) := by
  have hlit : lower (' ' :: tw) = lower [' ', l] := by
    show ' ' :: lower tw = ' ' :: lowerC l :: []
    rw [ht, hll]
  have hf : (depRe [' ', l] b r).free = true := by
    simp only [depRe, Re.free, Re.plus, hr.free, Bool.and_true, Bool.and_self, Re.digit]
    rfl
  have hH : headRe depHead 1 = .seq (litRe c!"ds") (.seq (.grp 1 (Re.plus true .digit)) .eps) := rfl
  obtain ⟨x0, m0⟩ := head_full h1 (hw hd (by simp)).1 1
  rw [hH] at m0
  obtain ⟨a1, a2, x1, x2, m1, m2, rfl, -⟩ := mt_seq.1 m0
  obtain ⟨a2, a3, y1, y2, m3, m4, rfl, -⟩ := mt_seq.1 m2
  obtain ⟨rfl, -⟩ := mt_eps.1 m4
  obtain ⟨y1, m5⟩ := full_plus_rows b blank_lit hr rows hne hx
  have full : Full (depRe [' ', l] b r) ((a1 ++ (a2 ++ [])) ++ enc (tw :: rows.flatten)) := by
    refine ⟨_, mt_seq.2 ⟨a1, a2 ++ (' ' :: tw ++ enc rows.flatten), _, _, m1, mt_seq.2 ⟨a2, _, _, _, m3, mt_seq.2 ⟨' ' :: tw, enc rows.flatten, _, _,
      mt_lit.2 ⟨hlit, rfl⟩, mt_grp.2 ⟨_, m5, rfl⟩, rfl, rfl⟩, rfl, rfl⟩, by simp, rfl⟩⟩
  obtain ⟨m, hm⟩ := Option.isSome_iff_exists.1 ((full_iff _ hf _).2 full)
  refine ⟨m, hm, ?_⟩
  obtain ⟨e, he, rfl⟩ := full_match hf hm
  obtain ⟨u1, u2, x1, x2, n1, n2, e1, rfl⟩ := mt_seq.1 he
  obtain ⟨u2, u3, x2, x3, n3, n4, rfl, rfl⟩ := mt_seq.1 n2
  obtain ⟨u3, u4, x3, x4, n5, n6, rfl, rfl⟩ := mt_seq.1 n4
  obtain ⟨z, n7, rfl⟩ := mt_grp.1 n6
  obtain ⟨l1, rfl⟩ := mt_lit.1 n5
  obtain ⟨rows', k1, k2, rfl⟩ := mt_plus_rows blank_lit hr n7
  have hu : Mt (headRe depHead 1) (u1 ++ (u2 ++ [])) (([] ++ x2) ++ x1) := by
    rw [hH]
    exact mt_seq.2 ⟨u1, u2 ++ [], x1, [] ++ x2, n1, mt_seq.2 ⟨u2, [], x2, [], n3, mt_eps.2 ⟨rfl, rfl⟩, rfl, rfl⟩, rfl, rfl⟩
  have hnos : NoSpace (u1 ++ (u2 ++ [])) := noSp_mt ((Pat.cat depHead.pats).facts (depHead.word (by decide)) 1).2.1 _ _ hu
  obtain ⟨b1, u3, rfl⟩ : ∃ c t, u3 = c :: t := by
    cases u3 with
    | nil => cases l1
    | cons c t => exact ⟨c, t, rfl⟩
  simp only [lower, List.map_cons, List.map_nil, List.cons.injEq] at l1
  obtain ⟨l2, l3⟩ := l1
  have hb : b1 = ' ' := by
    have := lower_blank (w := [b1]) (by simpa [lower] using l2)
    simpa using this
  subst hb
  have hu3 : NoSpace u3 := by
    cases u3 with
    | nil => simp at l3
    | cons c t =>
      simp only [List.map_cons, List.cons.injEq, List.map_eq_nil_iff] at l3
      obtain ⟨l3, rfl⟩ := l3
      intro d hd
      simp only [List.mem_singleton] at hd
      subst hd
      cases hs : isSpace d with
      | false => rfl
      | true =>
        have : lowerC d = d := space_lower hs
        rw [this, hll] at l3
        subst l3
        rw [hl] at hs; cases hs
  have bnd : ∀ l : List Str, Bnd (enc l) := enc_bnd
  have e2 : (a1 ++ (a2 ++ [])) ++ enc (tw :: rows.flatten) = (u1 ++ (u2 ++ [])) ++ (' ' :: u3 ++ enc rows'.flatten) := by
    rw [e1]; simp
  obtain ⟨q1, q2⟩ := words_eq (hw _ (by simp)).1 hnos (bnd _) (by intro c hc; simp at hc; subst hc; decide) e2
  rw [enc_cons] at q2
  have q3 : tw ++ enc rows.flatten = u3 ++ enc rows'.flatten := by simpa using q2
  obtain ⟨rfl, q4⟩ := words_eq (hw tw (by simp)).1 hu3 (bnd _) (bnd _) q3
  have hcap := (head_mt (h := depHead) (by decide) hu)
  obtain ⟨vs, c1, -, c3⟩ := hcap
  rw [← q1, h1] at c3
  simp only [Option.some.injEq] at c3
  subst c3
  have c4 := c1.get 0 (some s) rfl
  obtain ⟨hi, gr⟩ := gr
  have gz : ∀ a ∈ z, 3 ≤ a.1 := by
    intro a ha
    have : (Re.seq (litRe c!" ") r).groupsIn 3 hi := ⟨blank_lit.groups _ _, gr⟩
    exact (n7.groups (lo := 3) (hi := hi) ⟨this, this⟩ a ha).1
  have gx : ∀ a ∈ x2 ++ x1, a.1 < 2 := by
    intro a ha
    exact ((hu.groups (lo := 1) (hi := 2) ((Pat.cat depHead.pats).facts (depHead.word (by decide)) 1).2.2) a (by simpa using ha)).2
  constructor
  · unfold cap
    have e0 : (1 == 0) = false := rfl
    rw [List.lookup, e0]
    simp only [List.append_nil, List.cons_append, List.append_assoc, List.nil_append] at c4 ⊢
    rw [List.lookup, show (1 == 2) = false from rfl]
    simp only
    rw [lookup_append, lookup_none (e := z) (by intro a ha; have := gz a ha; omega), Option.none_or]
    exact c4
  · unfold cap
    rw [List.lookup, show (2 == 0) = false from rfl]
    simp [List.lookup, q4]

/-- Everything about a card of the table. -/
structure Dep.Ok (d : Dep) : Prop where
  re : ∃ r p ps, d.c.pat.re 1 = depRe [' ', d.letter] d.greedy r ∧ Row r (p :: ps) ∧ (∃ hi, r.groupsIn 3 hi) ∧ ∀ x, All2 d.ps x → All2 (p :: ps) x
  ng : 2 ≤ d.c.pat.ng
  attrs : d.c.attrs = [depSuffix, d.a]
  many : d.a.many = true
  elem : ∃ q qs, Row (d.a.ty.re 1) (q :: qs) ∧ ∀ x, All2 d.ps x → All2 (q :: qs) x
  letter : isSpace d.letter = false ∧ lowerC d.letter = d.letter

theorem row_pair (n : Nat) : Row (Re.seq (.grp n (Kind.re (n + 1) .dist)) (.seq (litRe c!" ") (.grp (n + 2) numRe)))
    [Full (.grp n (Kind.re (n + 1) .dist)), Full (.grp (n + 2) numRe)] :=
  row_cons (row_one (row_grp (row_dist (n + 1)) n).free (by
      intro w e h
      obtain ⟨z, h, -⟩ := mt_grp.1 h
      exact noSp_mt (Kind.facts .dist rfl (n + 1)).2.1 _ _ h) (by
      intro e h
      obtain ⟨z, h, -⟩ := mt_grp.1 h
      exact ((row_dist (n + 1)).ok _ List.mem_cons_self [] ⟨_, h⟩).2 rfl) (row_grp (row_dist (n + 1)) n).tok) blank_lit
    (row_one (row_grp row_num (n + 2)).free (by
      intro w e h
      obtain ⟨z, h, -⟩ := mt_grp.1 h
      exact noSp_mt (Kind.facts .int rfl 1).2.1 _ _ h) (by
      intro e h
      obtain ⟨z, h, -⟩ := mt_grp.1 h
      exact (row_num.ok _ List.mem_cons_self [] ⟨_, h⟩).2 rfl) (row_grp row_num (n + 2)).tok)

theorem pair_groups (n : Nat) : (Re.seq (.grp n (Kind.re (n + 1) .dist)) (.seq (litRe c!" ") (.grp (n + 2) numRe))).groupsIn n (n + 3) :=
  ⟨⟨Nat.le_refl _, by omega, (Kind.facts .dist rfl (n + 1)).2.2.mono (by omega) (by show n + 1 + 1 ≤ _; omega)⟩, blank_lit.groups _ _,
    by omega, by omega, (Kind.facts .int rfl (n + 2)).2.2.mono (by omega) (by show n + 2 + 0 ≤ _; omega)⟩

theorem pair_all {n : Nat} (x : List Str) (h : All2 [Full (Kind.re 1 .dist), Full numRe] x) :
    All2 [Full (.grp n (Kind.re (n + 1) .dist)), Full (.grp (n + 2) numRe)] x := by
  rcases x with _ | ⟨a, _ | ⟨b, _ | ⟨c, x⟩⟩⟩
  · exact h.elim
  · exact h.2.elim
  · obtain ⟨⟨e1, h1⟩, ⟨e2, h2⟩, -⟩ := h
    obtain ⟨e3, h3⟩ := dist_full_any (n + 1) ⟨e1, h1⟩
    exact ⟨⟨_, mt_grp.2 ⟨e3, h3, rfl⟩⟩, ⟨_, mt_grp.2 ⟨e2, h2, rfl⟩⟩, trivial⟩
  · exact h.2.2.elim

theorem dist_all {n : Nat} (x : List Str) (h : All2 [Full (Kind.re 1 .dist)] x) : All2 [Full (Kind.re n .dist)] x := by
  rcases x with _ | ⟨a, _ | ⟨b, x⟩⟩
  · exact h.elim
  · exact ⟨dist_full_any n h.1, trivial⟩
  · exact h.2.elim

theorem depCards_ok : ∀ d ∈ depCards, d.Ok := by
  intro d hd
  simp only [depCards, List.mem_cons, List.not_mem_nil, or_false] at hd
  rcases hd with rfl | rfl | rfl
  · have f := rowPat_row [.real] .real rfl
    exact ⟨⟨_, _, _, rfl, (f 3).1, ⟨_, (f 3).2.2.1⟩, fun x h => h⟩, by decide +kernel, rfl, rfl, ⟨_, _, (f 1).1, fun x h => h⟩, by decide, by decide⟩
  · refine ⟨⟨_, _, _, rfl, row_pair 3, ⟨6, ?_⟩, pair_all⟩, by decide +kernel, rfl, rfl, ⟨_, _, row_pair 1, pair_all⟩, by decide, by decide⟩
    exact pair_groups 3
  · exact ⟨⟨_, _, _, rfl, row_dist 3, ⟨_, (Kind.facts .dist rfl 3).2.2⟩, dist_all⟩, by decide +kernel, rfl, rfl, ⟨_, _, row_dist 1, dist_all⟩, by decide, by decide⟩

/-- Reading the words of a card. -/
theorem dep_words {d : Dep} (ok : d.Ok) {hd tw : Str} {rows : List (List Str)} (hw : Words (hd :: tw :: rows.flatten)) {s : Str}
    (h1 : readHead depHead hd = some [some s]) (ht : lower tw = [d.letter]) (hne : rows ≠ []) (hx : ∀ x ∈ rows, All2 d.ps x) :
    (match reMatch d.c.re (hd ++ enc (tw :: rows.flatten)) with | none => (.error .inp : Res Val) | some m => d.c.build m) = d.read s rows := by
  obtain ⟨r, p, ps, e1, hr, gr, hp⟩ := ok.re
  obtain ⟨q, qs, e2, hq⟩ := ok.elem
  obtain ⟨m, hm, c1, c2⟩ := dep_match (b := d.greedy) ok.letter.1 ok.letter.2 hr gr hw h1 ht hne (fun x h => hp x (hx x h))
  have hre : d.c.re = anchored (depRe [' ', d.letter] d.greedy r) := by rw [← e1]; rfl
  rw [hre, hm]
  show d.c.build m = _
  unfold Cls.build
  have ha : attrVal d.c.pat.ng m 1 d.a = (rows.mapM (fun r => d.a.ty.parse (join [' '] r))).map .tuple := by
    unfold attrVal
    rw [if_neg (by have := ok.ng; omega), c2]
    have hne' : enc rows.flatten ≠ [] := by
      cases rows with
      | nil => exact absurd rfl hne
      | cons x xs =>
        have := enc_ne (hp x (hx x (by simp)))
        intro e
        simp only [List.flatten_cons, enc_append, List.append_eq_nil_iff] at e
        exact this e.1
    cases he : enc rows.flatten with
    | nil => exact absurd he hne'
    | cons ch t =>
      simp only [Attr.parse, ok.many, if_true, tupleParse]
      rw [← he, finditer_rows e2 rows hne (fun x h => hq x (hx x h)), List.mapM_map]
      rfl
  have hs : attrVal d.c.pat.ng m 0 depSuffix = (intParse s).map (fun n => .sc (.int n)) := by
    rw [attr_word _ m 0 depSuffix (by have := ok.ng; omega) rfl (some s) c1 (fun w hw' => readHead_words h1 (hw hd (by simp)).1 _ (by simp) w hw')]
    rfl
  rw [ok.attrs]
  simp only [attrVals, hs, ha, Dep.read]
  cases intParse s with
  | error => rfl
  | ok n =>
    simp only [Except.map]
    cases rows.mapM (fun r => d.a.ty.parse (join [' '] r)) <;> rfl

/-! ## What the elements are read as -/

theorem asTy_parse (nm : String) (d : Cls) : (Cls.asTy nm d).parse = unionParse [d] := rfl

/-- What a distribution `x v` with a value that depends on it is read as: the distribution, and its number as the dependent value. -/
def distShifted (x : Char) (v : Str) : Res Val :=
  match distParse (x :: v) with
  | .error e => .error e
  | .ok n => match realParse v with
    | .error e => .error e
    | .ok y => Tab.ds_2_Variables.mk' [.sc (.dist n), .sc (.real y)]

/-- The number of a distribution takes the place of the value that depends on it. -/
theorem pair_shift {x : Char} {v w : Str} (hx : x = 'd' ∨ x = 'D') (hne : v ≠ []) (hv : Digits v) (hw : Full numRe w) (h1 : Stable (x :: v))
    (h2 : Stable w) : unionParse [Tab.ds_2_Variables] (join [' '] [x :: v, w]) =
      distShifted x v := by
  obtain ⟨s1, s2⟩ := spaced_single (x :: v) [w] [] h1.entry (by intro u hu; simp only [List.mem_singleton] at hu; subst hu; exact h2) .nil
  have hp := (spaced_prep s1).2.1
  rw [single_body, s2, List.nil_append, List.append_nil] at hp
  rw [join_enc]
  refine union_one hp ?_
  have hwd : Words [x :: v, w] := by
    intro u hu
    simp only [List.mem_cons, List.not_mem_nil, or_false] at hu
    rcases hu with rfl | rfl
    · exact ⟨h1.entry.sp, by simp⟩
    · exact ⟨h2.entry.sp, h2.entry.ne⟩
  have hre : Tab.ds_2_Variables.re = anchored (Re.seq (.grp 1 (Kind.re 2 .dist)) (.seq (litRe c!" ") (.grp 3 numRe))) := rfl
  have hd : Full (Kind.re 1 .dist) (x :: v) := by
    refine ⟨_, mt_alt.2 (.inl (mt_seq.2 ⟨[x], v, [], _, mt_cls.2 ⟨x, by rcases hx with rfl | rfl <;> rfl, rfl, rfl⟩, mt_grp.2 ⟨_, mt_plus_cls.2 ⟨hne, hv, rfl⟩, rfl⟩, rfl, rfl⟩))⟩
  have full := (row_pair 1).full (x :: v) [w] (pair_all (n := 1) [x :: v, w] ⟨hd, hw, trivial⟩)
  obtain ⟨m, hm⟩ := Option.isSome_iff_exists.1 ((full_iff _ (row_pair 1).free _).2 full)
  obtain ⟨e, he, rfl⟩ := full_match (row_pair 1).free hm
  rw [hre]
  rw [show anchored (Re.seq (.grp 1 (Kind.re 2 .dist)) (.seq (litRe c!" ") (.grp 3 numRe))) = .seq .bos (.seq (Re.seq (.grp 1 (Kind.re 2 .dist)) (.seq (litRe c!" ") (.grp 3 numRe))) .eos) from rfl, hm]
  simp only
  obtain ⟨u1, u2, x1, x2, n1, n2, e1, rfl⟩ := mt_seq.1 he
  obtain ⟨u2, u3, x2, x3, n3, n4, rfl, rfl⟩ := mt_seq.1 n2
  obtain ⟨rfl, rfl⟩ := (blank_lit.mt _ _).1 n3
  obtain ⟨z1, n5, rfl⟩ := mt_grp.1 n1
  obtain ⟨z3, n6, rfl⟩ := mt_grp.1 n4
  obtain ⟨rfl, e2⟩ := words_eq (hwd (x :: v) (by simp)).1 (noSp_mt (Kind.facts .dist rfl 2).2.1 _ _ n5) (enc_bnd _)
    (by intro c hc; simp at hc; subst hc; decide) e1
  have hz : z1 = [(2, v)] := by
    rcases mt_alt.1 n5 with h | h
    · obtain ⟨a, b, y1, y2, q1, q2, q3, rfl⟩ := mt_seq.1 h
      obtain ⟨c, -, rfl, rfl⟩ := mt_cls.1 q1
      obtain ⟨z, q4, rfl⟩ := mt_grp.1 q2
      have : z = [] := q4.nil_caps (by exact ⟨trivial, trivial⟩)
      subst this
      simp only [List.cons_append, List.nil_append, List.cons.injEq] at q3
      rw [← q3.2]
      rfl
    · obtain ⟨c, q1, q2, -⟩ := mt_cls.1 h
      simp only [List.cons.injEq] at q2
      obtain ⟨rfl, -⟩ := q2
      rcases hx with rfl | rfl <;> simp at q1
  have hz3 : z3 = [] := n6.nil_caps (Kind.facts .int rfl 0).2.2
  subst hz hz3
  have hvs : NoSpace v := fun c hc => h1.entry.sp c (by simp [hc])
  unfold Cls.build
  have b1 := attr_word Tab.ds_2_Variables.pat.ng ((0, x :: v ++ enc [w]) :: ([(1 + 2, u3)] ++ [] ++ [(1, x :: v), (2, v)])) 0
    ⟨"independent", .base .dist, false, some .isNone⟩ (by decide +kernel) rfl (some (x :: v)) rfl (by intro u hu; cases hu; exact ⟨h1.entry.sp, by simp⟩)
  have b2 := attr_word Tab.ds_2_Variables.pat.ng ((0, x :: v ++ enc [w]) :: ([(1 + 2, u3)] ++ [] ++ [(1, x :: v), (2, v)])) (0 + 1)
    ⟨"dependent", .base .real, false, some .isNone⟩ (by decide +kernel) rfl (some v) rfl (by intro u hu; cases hu; exact ⟨hvs, hne⟩)
  have ha : Tab.ds_2_Variables.attrs = [⟨"independent", .base .dist, false, some .isNone⟩, ⟨"dependent", .base .real, false, some .isNone⟩] := rfl
  rw [ha]
  simp only [attrVals]
  rw [b1, b2]
  have c1 : readVal ⟨"independent", .base .dist, false, some .isNone⟩ (Option.map (fun x => [x]) (some (x :: v))) = (distParse (x :: v)).map (fun n => Val.sc (.dist n)) := rfl
  have c2 : readVal ⟨"dependent", .base .real, false, some .isNone⟩ (Option.map (fun x => [x]) (some v)) = (realParse v).map (fun n => Val.sc (.real n)) := rfl
  rw [c1, c2]
  unfold distShifted
  cases distParse (x :: v) with
  | error => rfl
  | ok n => cases realParse v <;> rfl

/-! ## Printing -/

/-- Values of the list that can be written. -/
def DepItem (d : Dep) (x : Val) : Prop :=
  ∃ ws, All2 d.ps ws ∧ (∀ w ∈ ws, Stable w) ∧ x.text = some (join [' '] ws) ∧ d.a.ty.parse (join [' '] ws) = .ok x

theorem dep_items {d : Dep} : ∀ (xs : List Val), (∀ x ∈ xs, DepItem d x) →
    ∃ rows : List (List Str), rows.length = xs.length ∧ (∀ y ∈ rows, All2 d.ps y) ∧ (∀ w ∈ rows.flatten, Stable w) ∧
      xs.map Val.text = rows.map (fun y => some (join [' '] y)) ∧ rows.mapM (fun y => d.a.ty.parse (join [' '] y)) = .ok xs := by
  intro xs
  induction xs with
  | nil => intro _; exact ⟨[], rfl, by simp, by simp, rfl, rfl⟩
  | cons x xs ih =>
    intro h
    obtain ⟨rows, r1, r2, r3, r4, r5⟩ := ih (fun y hy => h y (by simp [hy]))
    obtain ⟨ws, w1, w2, w3, w4⟩ := h x (by simp)
    refine ⟨ws :: rows, by simp [r1], ?_, ?_, by simp [r4, w3], ?_⟩
    · intro y hy
      rcases List.mem_cons.1 hy with rfl | hy
      · exact w1
      · exact r2 y hy
    · intro w hw
      rw [List.flatten_cons, List.mem_append] at hw
      rcases hw with hw | hw
      · exact w2 w hw
      · exact r3 w hw
    · rw [List.mapM_cons, w4, r5]; rfl

theorem dep_text {d : Dep} (hd : d ∈ depCards) (n : Nat) (xs : List Val) : (Val.obj d.c.info [.sc (.int (.num n)), .tuple xs]).str =
    'd' :: 's' :: natStr n ++ ' ' :: d.letter :: ' ' :: join [' '] ((Val.parts xs).map orNil) := by
  simp only [depCards, List.mem_cons, List.not_mem_nil, or_false] at hd
  rcases hd with rfl | rfl | rfl <;> rfl

theorem dep_round {d : Dep} (hd : d ∈ depCards) (n : Nat) (xs : List Val) (hne : xs ≠ []) (hx : ∀ x ∈ xs, DepItem d x) (v : Val)
    (hmk : d.c.mk' [.sc (.int (.num n)), .tuple xs] = .ok v) : cardParse d.c v.str = .ok (v, []) := by
  have ok := depCards_ok d hd
  have hdg := natStr_digits n
  have hnn := natStr_ne_nil n
  obtain ⟨rows, r1, r2, r3, r4, r5⟩ := dep_items xs hx
  obtain ⟨q, qs, -, hq⟩ := ok.elem
  have hrne : rows ≠ [] := by
    intro e; subst e
    cases xs with
    | nil => exact hne rfl
    | cons => simp at r1
  have hxne : ∀ x ∈ rows, x ≠ [] := by
    intro x hx e; subst e
    exact hq _ (r2 _ hx)
  have hfne : rows.flatten ≠ [] := by
    cases rows with
    | nil => exact absurd rfl hrne
    | cons x l =>
      have := hxne x (by simp)
      simp [this]
  have hht : headText depHead.kw none (some (natStr n)) none = 'd' :: 's' :: natStr n := by
    simp [headText, orNil, desText, depHead]
  have hrd : readHead depHead ('d' :: 's' :: natStr n) = some [some (natStr n)] := by
    rw [← hht]
    exact readHead_text depHead (by decide +kernel) none (some (natStr n)) none ⟨fun _ => rfl, by simp⟩
      ⟨by simp [depHead], by simp, by intro t ht; simp at ht; subst ht; exact ⟨hnn, hdg⟩⟩ ⟨fun _ => rfl, by simp [depHead], by simp⟩
  have he : Entry ('d' :: 's' :: natStr n) := by
    rw [← hht]
    exact headText_entry depHead (by decide +kernel) (by decide +kernel) none (some (natStr n)) none ⟨fun _ => rfl, by simp⟩
      (by intro t ht; simp at ht; subst ht; exact ⟨hnn, hdg⟩) (by simp)
  have hlet : Stable [d.letter] := by
    simp only [depCards, List.mem_cons, List.not_mem_nil, or_false] at hd
    rcases hd with rfl | rfl | rfl <;> exact ⟨by decide, by decide, by decide +kernel⟩
  have hst : ∀ w ∈ [d.letter] :: rows.flatten, Stable w := by
    intro w hw
    rcases List.mem_cons.1 hw with rfl | hw
    · exact hlet
    · exact r3 w hw
  have e1 : (Val.parts xs).map orNil = rows.map (join [' ']) := by
    rw [Val.parts_eq, r4, List.map_map]; rfl
  have hobj := Props.mk_obj hmk
  have hstr : v.str = ('d' :: 's' :: natStr n) ++ enc ([d.letter] :: rows.flatten) := by
    rw [hobj, dep_text hd, e1, join_rows rows hxne]
    cases hf : rows.flatten with
    | nil => exact absurd hf hfne
    | cons w ws => rw [join_enc]; simp
  obtain ⟨s1, s2⟩ := spaced_single _ _ [] he hst .nil
  obtain ⟨hp, -, hw⟩ := spaced_prep s1
  rw [single_body, s2, List.nil_append, List.append_nil] at hp
  rw [s2] at hw
  have hread := dep_words ok hw hrd (by show [lowerC d.letter] = _; rw [ok.letter.2]) hrne r2
  unfold cardParse
  rw [hstr, hp]
  simp only
  have hi : intParse (natStr n) = .ok (.num n) := Props.C02_integer_roundtrip (n : Int)
  rw [Dep.read, hi, r5] at hread
  simp only at hread
  rw [hmk] at hread
  cases hm : reMatch d.c.re (('d' :: 's' :: natStr n) ++ enc ([d.letter] :: rows.flatten)) with
  | none => rw [hm] at hread; cases hread
  | some m =>
    rw [hm] at hread
    simp only at hread ⊢
    rw [hread]

end Inp
