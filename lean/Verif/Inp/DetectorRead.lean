import Verif.Inp.DetectorSpec
import Verif.Inp.TallyRead
import Verif.Inp.RowRound
import Verif.Inp.SurfaceRead
/-!
# Reading point and ring detectors
-/
set_option maxRecDepth 100000
namespace Inp
open Py Types

theorem mt_assoc {a b c : Re} {w : Str} {e : List (Nat × Str)} : Mt (.seq a (.seq b c)) w e ↔ Mt (.seq (.seq a b) c) w e := by
  constructor
  · intro h
    obtain ⟨u, v, x, y, h1, h2, rfl, rfl⟩ := mt_seq.1 h
    obtain ⟨u', v', x', y', h3, h4, rfl, rfl⟩ := mt_seq.1 h2
    exact mt_seq.2 ⟨u ++ u', v', x' ++ x, y', mt_seq.2 ⟨u, u', x, x', h1, h3, rfl, rfl⟩, h4, by simp, by simp⟩
  · intro h
    obtain ⟨u, v, x, y, h1, h2, rfl, rfl⟩ := mt_seq.1 h
    obtain ⟨u', v', x', y', h3, h4, rfl, rfl⟩ := mt_seq.1 h1
    exact mt_seq.2 ⟨u', v' ++ v, x', y ++ y', h3, mt_seq.2 ⟨v', v, y', y, h4, h2, rfl, rfl⟩, by simp, by simp⟩

theorem mt_congr {a b b' : Re} (h : ∀ w e, Mt b w e ↔ Mt b' w e) {w : Str} {e : List (Nat × Str)} :
    Mt (.seq a b) w e ↔ Mt (.seq a b') w e := by
  rw [mt_seq, mt_seq]
  constructor
  · rintro ⟨u, v, x, y, h1, h2, h3, h4⟩; exact ⟨u, v, x, y, h1, (h v y).1 h2, h3, h4⟩
  · rintro ⟨u, v, x, y, h1, h2, h3, h4⟩; exact ⟨u, v, x, y, h1, (h v y).2 h2, h3, h4⟩

/-- The pattern of the request for no direct contribution. -/
def ndRe (g : Nat) : Re := .opt true (.grp g (litRe c!" nd"))

/-- A word of any characters. -/
abbrev anyRe : Re := .plus true .nonspace

theorem all2_any : ∀ (k : Nat) (y : List Str), All2 (List.replicate k (Full anyRe)) y ↔ y.length = k ∧ Words y
  | 0, [] => ⟨fun _ => ⟨rfl, by intro w hw; cases hw⟩, fun _ => trivial⟩
  | 0, _ :: _ => ⟨fun h => h.elim, fun h => by cases h.1⟩
  | k + 1, [] => ⟨fun h => h.elim, fun h => by cases h.1⟩
  | k + 1, w :: y => by
    rw [List.replicate_succ]
    show (Full anyRe w ∧ All2 _ y) ↔ _
    rw [all2_any k y, full_nonspace]
    constructor
    · rintro ⟨⟨h1, h2⟩, h3, h4⟩
      exact ⟨by simp [h3], by
        intro v hv
        rcases List.mem_cons.1 hv with rfl | hv
        · exact ⟨h2, h1⟩
        · exact h4 v hv⟩
    · rintro ⟨h1, h2⟩
      exact ⟨⟨(h2 w (by simp)).2, (h2 w (by simp)).1⟩, by simpa using h1, h2.tail⟩

theorem all2_num : ∀ (ks : List Kind) (y : List Str), All2 (ks.map (fun _ => Full numRe)) y ↔ y.length = ks.length ∧ ∀ w ∈ y, NumWord w
  | [], [] => ⟨fun _ => ⟨rfl, by intro w hw; cases hw⟩, fun _ => trivial⟩
  | [], _ :: _ => ⟨fun h => h.elim, fun h => by cases h.1⟩
  | k :: ks, [] => ⟨fun h => h.elim, fun h => by cases h.1⟩
  | k :: ks, w :: y => by
    show (Full numRe w ∧ All2 _ y) ↔ _
    rw [all2_num ks y, full_num]
    constructor
    · rintro ⟨h1, h3, h4⟩
      exact ⟨by simp [h3], by
        intro v hv
        rcases List.mem_cons.1 hv with rfl | hv
        · exact h1
        · exact h4 v hv⟩
    · rintro ⟨h1, h2⟩
      exact ⟨h2 w (by simp), by simpa using h1, fun v hv => h2 v (by simp [hv])⟩

/-- What follows the list. -/
theorem full_nd {g : Nat} {tl : List Str} (hw : Words tl) : Full (ndRe g) (enc tl) ↔ tl = [] ∨ ∃ w, tl = [w] ∧ lower w = c!"nd" := by
  constructor
  · rintro ⟨e, h⟩
    rcases mt_opt.1 h with ⟨h, -⟩ | h
    · left
      cases tl with
      | nil => rfl
      | cons w t => simp at h
    · right
      obtain ⟨x, h1, -⟩ := mt_grp.1 h
      have hl := (mt_lit.1 h1).1
      cases tl with
      | nil => simp [lower] at hl
      | cons w t =>
        simp only [enc_cons, lower, List.map_cons, List.cons.injEq] at hl
        cases t with
        | nil => exact ⟨w, rfl, by rw [lower]; have := hl.2; rw [enc_nil, List.append_nil] at this; rw [this]; decide⟩
        | cons v t =>
          exfalso
          have h2 := hl.2
          have hm : ' ' ∈ lower (w ++ enc (v :: t)) := by
            simp only [lower, List.map_append, enc_cons, List.map_cons, List.mem_append, List.mem_cons]
            right; left; decide
          rw [show lower (w ++ enc (v :: t)) = _ from h2] at hm
          revert hm; decide
  · rintro (rfl | ⟨w, rfl, h⟩)
    · exact ⟨[], mt_opt.2 (.inl ⟨rfl, rfl⟩)⟩
    · refine ⟨_, mt_opt.2 (.inr (mt_grp.2 ⟨[], mt_lit.2 ⟨?_, rfl⟩, rfl⟩))⟩
      simp only [enc_cons, enc_nil, List.append_nil, lower, List.map_cons]
      rw [show w.map lowerC = _ from h]
      decide

theorem mt_nd {g : Nat} {w : Str} {z : List (Nat × Str)} (h : Mt (ndRe g) w z) : z.lookup g = if w = [] then none else some w := by
  rcases mt_opt.1 h with ⟨rfl, rfl⟩ | h
  · rfl
  · obtain ⟨x, h1, rfl⟩ := mt_grp.1 h
    have hne : w ≠ [] := by
      rintro rfl
      have := (mt_lit.1 h1).1
      simp [lower] at this
    rw [if_neg hne]
    simp [List.lookup]

/-- Rows of the same length and at most one more word. -/
theorem rows_unique {k : Nat} (hk : 2 ≤ k) {rows rows' : List (List Str)} {tl tl' : List Str} (h1 : ∀ y ∈ rows, y.length = k)
    (h2 : ∀ y ∈ rows', y.length = k) (h3 : tl.length ≤ 1) (h4 : tl'.length ≤ 1) (e : rows.flatten ++ tl = rows'.flatten ++ tl') : tl' = tl := by
  have len : ∀ (l : List (List Str)), (∀ y ∈ l, y.length = k) → l.flatten.length = k * l.length := by
    intro l hl
    induction l with
    | nil => simp
    | cons y l ih =>
      simp only [List.flatten_cons, List.length_append, List.length_cons, hl y (by simp), ih (fun z hz => hl z (by simp [hz])), Nat.mul_add]
      omega
  have e1 := congrArg List.length e
  simp only [List.length_append, len _ h1, len _ h2] at e1
  have : tl.length = tl'.length := by
    have a1 := congrArg (· % k) e1
    simp only [Nat.mul_add_mod] at a1
    rw [Nat.mod_eq_of_lt (by omega), Nat.mod_eq_of_lt (by omega)] at a1
    exact a1
  have e2 := congrArg List.reverse e
  simp only [List.reverse_append] at e2
  have := (List.append_inj e2 (by simp [this])).1
  simpa using this.symm

/-- A row of `k + 1` words. -/
def anyRow : Nat → Re
  | 0 => anyRe
  | k + 1 => .seq anyRe (.seq (litRe c!" ") (anyRow k))

theorem row_any : ∀ k, Row (anyRow k) (List.replicate (k + 1) (Full anyRe))
  | 0 => row_nonspace
  | k + 1 => row_cons row_nonspace blank_lit (row_any k)

theorem any_groups : ∀ k a b, (anyRow k).groupsIn a b
  | 0, _, _ => ⟨trivial, trivial⟩
  | k + 1, a, b => ⟨⟨trivial, trivial⟩, blank_lit.groups _ _, any_groups k a b⟩

/-- A card of detectors: a first word, rows of `k + 1` words and what follows. -/
structure Det (c : Cls) (H : Re) (k : Nat) (as : List Attr) (a b : Attr) (d : Cls) (ks : List Kind) : Prop where
  pat : ∀ w e, Mt (c.pat.re 1) w e ↔
    Mt (.seq H (.seq (.grp (as.length + 1) (Re.plus false (.seq (litRe c!" ") (anyRow k)))) (ndRe (as.length + 2)))) w e
  free : (c.pat.re 1).free = true
  ng : c.pat.ng = as.length + 2
  nos : NoSp H
  groups : H.groupsIn 1 (as.length + 1)
  attrs : c.attrs = as ++ [a, b]
  one : ∀ x ∈ as, x.many = false
  many : a.many = true
  last : b.many = false
  ty : ∃ n, a.ty = d.asTy n
  entry : RowEntry d ks
  len : ks.length = k + 1
  two : 1 ≤ k

theorem attrs_front (ng : Nat) (m : List (Nat × Str)) (rest : List Attr) : ∀ (bs : List Attr) (us : List (Option Str)) (i : Nat),
    bs.length = us.length → (∀ b ∈ bs, b.many = false) → (∀ v ∈ us, ∀ w ∈ v, NoSpace w ∧ w ≠ []) →
    (∀ j v, us[j]? = some v → cap m (i + 1 + j) = v) → i + us.length ≤ ng →
    attrVals ng m i (bs ++ rest) = (match readVals bs (us.map (·.map ([·]))) with
      | .error e => .error e
      | .ok xs => (attrVals ng m (i + us.length) rest).map (xs ++ ·)) := by
  intro bs
  induction bs with
  | nil =>
    intro us i hi _ _ _ hn
    cases us with
    | cons => simp at hi
    | nil =>
      simp only [List.nil_append, List.map_nil, readVals, List.length_nil, Nat.add_zero]
      cases attrVals ng m i rest <;> rfl
  | cons b bs ih =>
    intro us i hi hb hwd hc hn
    cases us with
    | nil => simp at hi
    | cons v us =>
      simp only [List.length_cons] at hn hi
      have h1 : attrVal ng m i b = readVal b (v.map ([·])) :=
        attr_word _ m i b (by omega) (hb b (by simp)) v (by simpa using hc 0 v (by simp)) (hwd v (by simp))
      have h2 := ih us (i + 1) (by omega) (fun d hd => hb d (by simp [hd])) (fun d hd => hwd d (by simp [hd])) (by
        intro j w hj
        have := hc (j + 1) w (by simpa using hj)
        rw [← this]; congr 1; omega) (by omega)
      simp only [List.cons_append, List.map_cons, attrVals, readVals, h1, h2, List.length_cons]
      rw [show i + 1 + us.length = i + (us.length + 1) by omega]
      cases readVal b (v.map ([·])) with
      | error => rfl
      | ok x' =>
        simp only
        cases readVals bs (us.map (·.map ([·]))) with
        | error => rfl
        | ok xs =>
          simp only
          cases attrVals ng m (i + (us.length + 1)) rest <;> rfl

theorem entry_read {d : Cls} {ks : List Kind} (h : RowEntry d ks) {ws : List Str} (hl : ws.length = ks.length) (hn : ∀ w ∈ ws, NumWord w)
    (hst : ∀ w ∈ ws, Stable w) : unionParse [d] (join [' '] ws) = entryRead d ws := by
  have r1 := (all2_num ks ws).2 ⟨hl, hn⟩
  cases ks with
  | nil => exact absurd rfl h.ne
  | cons k ks =>
    obtain ⟨p1, p2, p3, p4⟩ := rowPat_row ks k h.num 1
    cases ws with
    | nil => exact r1.elim
    | cons w ws =>
      rw [join_enc]
      have hw : Words (w :: ws) := stable_words hst
      obtain ⟨h1, h2⟩ := spaced_single w ws [] (hst w (by simp)).entry (fun u hu => hst u (by simp [hu])) .nil
      have := spaced_prep h1
      rw [single_body, h2] at this
      obtain ⟨-, h3, -⟩ := this
      rw [List.nil_append, List.append_nil] at h3
      have hre : d.re = anchored ((rowPat (k :: ks)).re 1) := by simp [Cls.re, Cls.pat, h.shape, Shape.pat]
      have hfull := p1.full w ws r1
      obtain ⟨m, hm'⟩ := Option.isSome_iff_exists.1 ((full_iff _ p1.free _).2 hfull)
      obtain ⟨e, he, rfl⟩ := full_match p1.free hm'
      have hc := p4 w ws e he hw
      unfold unionParse
      rw [h3]
      simp only [firstMatch, hre]
      rw [show anchored ((rowPat (k :: ks)).re 1) = .seq .bos (.seq ((rowPat (k :: ks)).re 1) .eos) from rfl, hm']
      simp only [cap, List.lookup, beq_self_eq_true, if_true]
      have hng : d.pat.ng = (k :: ks).length := by simp [Cls.pat, h.shape, Shape.pat, p2]
      have hl2 : d.attrs.length = (w :: ws).length := by
        have := congrArg List.length h.types
        simp only [List.length_map] at this
        rw [this, hl]
      have := attrs_head d.pat.ng ((0, w ++ enc ws) :: e) ((w :: ws).map some) d.attrs [] [] 0 (by rw [hl2, List.length_map]) h.one
        (by
          intro v hv u hu
          obtain ⟨y, hy, rfl⟩ := List.mem_map.1 hv
          simp at hu; subst hu
          exact hw _ hy)
        (by
          intro j v hj
          unfold cap
          have h0 : (0 + 1 + j == 0) = false := by simp
          rw [List.lookup, h0]
          simpa using hc.get j v hj) (by rw [hng, ← hl]; simp) (by simp [attrVals, readVals])
      simp only [List.append_nil, List.map_map] at this
      unfold Cls.build
      rw [this]
      rfl

/-- What the pattern of a card of detectors accepts. -/
theorem det_iff {c : Cls} {H : Re} {k : Nat} {as : List Attr} {a b : Attr} {d : Cls} {ks : List Kind} (D : Det c H k as a b d ks)
    (hd : Str) (ws : List Str) (hw : Words (hd :: ws)) :
    (reMatch c.re (hd ++ enc ws)).isSome = true ↔ Full H hd ∧ ∃ rows tl, rows ≠ [] ∧ (∀ y ∈ rows, y.length = k + 1) ∧
      (tl = [] ∨ ∃ w, tl = [w] ∧ lower w = c!"nd") ∧ ws = rows.flatten ++ tl := by
  have hre : c.re = anchored (c.pat.re 1) := rfl
  rw [hre, show anchored (c.pat.re 1) = .seq .bos (.seq (c.pat.re 1) .eos) from rfl, full_iff _ D.free]
  have hrow := row_any k
  constructor
  · rintro ⟨e, he⟩
    obtain ⟨u, v, x, y, h1, h2, h3, rfl⟩ := mt_seq.1 ((D.pat _ _).1 he)
    obtain ⟨v', t, y1, z, h4, h5, rfl, rfl⟩ := mt_seq.1 h2
    obtain ⟨y2, h6, rfl⟩ := mt_grp.1 h4
    obtain ⟨rows, k1, k2, rfl⟩ := mt_plus_rows blank_lit hrow h6
    have hw' : Words rows.flatten := by
      intro w h
      obtain ⟨a, ha, hwa⟩ := List.mem_flatten.1 h
      exact (k2 a ha).words hrow.ok w hwa
    have bt : Bnd (enc rows.flatten ++ t) := by
      cases rows with
      | nil => exact absurd rfl k1
      | cons a rows' =>
        have := k2 a (by simp)
        cases a with
        | nil => exact this.elim
        | cons w a => intro c hc; simp at hc; subst hc; decide
    have eu : u = hd ∧ enc rows.flatten ++ t = enc ws := by
      obtain ⟨q, q1, q2⟩ := prefix_word (D.nos _ _ h1) (enc_bnd ws) h3
      cases q with
      | nil => exact ⟨by simpa using q1.symm, by simpa using q2⟩
      | cons c q =>
        have := bt c (by rw [q2]; simp)
        have h3 := (hw hd (by simp)).1 c (by rw [q1]; simp)
        rw [h3] at this; cases this
    obtain ⟨rfl, e2⟩ := eu
    have hT : ∀ c ∈ t.head?, c = ' ' := by
      rcases mt_opt.1 h5 with ⟨rfl, -⟩ | h5
      · intro c hc; cases hc
      · obtain ⟨x', h7, -⟩ := mt_grp.1 h5
        have := (mt_lit.1 h7).1
        intro c hc
        cases t with
        | nil => cases hc
        | cons d t =>
          simp at hc; subst hc
          simp only [lower, List.map_cons, List.cons.injEq] at this
          exact lower_space.1 this.1
    obtain ⟨tl, q1, rfl⟩ := enc_prefix hw' hw.tail hT e2
    refine ⟨⟨_, h1⟩, rows, tl, k1, fun y hy => ((all2_any _ y).1 (k2 y hy)).1, ?_, q1⟩
    exact (full_nd (fun w h => hw.tail w (by rw [q1]; simp [h]))).1 ⟨_, h5⟩
  · rintro ⟨⟨x, h1⟩, rows, tl, k1, k2, k3, rfl⟩
    have h2 : ∀ y ∈ rows, All2 (List.replicate (k + 1) (Full anyRe)) y := by
      intro y hy
      refine (all2_any _ y).2 ⟨k2 y hy, fun w h => hw.tail w ?_⟩
      exact List.mem_append.2 (.inl (List.mem_flatten.2 ⟨y, hy, h⟩))
    obtain ⟨y, m2⟩ := full_plus_rows false blank_lit hrow rows k1 h2
    obtain ⟨z, m3⟩ := (full_nd (g := as.length + 2) (tl := tl) (fun w h => hw.tail w (by simp [h]))).2 k3
    exact ⟨_, (D.pat _ _).2 (mt_seq.2 ⟨hd, enc rows.flatten ++ enc tl, x, _, h1,
      mt_seq.2 ⟨enc rows.flatten, enc tl, _, z, mt_grp.2 ⟨y, m2, rfl⟩, m3, rfl, rfl⟩, by simp, rfl⟩)⟩

/-- Reading a card of detectors whose entries are numbers. -/
theorem det_read {c : Cls} {H : Re} {k : Nat} {as : List Attr} {a b : Attr} {d : Cls} {ks : List Kind} (D : Det c H k as a b d ks)
    (hd : Str) (hv : List (Option Str)) (rows : List (List Str)) (tl : List Str) (hw : Words (hd :: (rows.flatten ++ tl)))
    (hf : Full H hd) (hc : ∀ x, Mt H hd x → Caps x 1 hv) (hl : hv.length = as.length) (hvw : ∀ v ∈ hv, ∀ w ∈ v, NoSpace w ∧ w ≠ [])
    (hne : rows ≠ []) (hk : ∀ y ∈ rows, y.length = k + 1)
    (hn : ∀ y ∈ rows, ∀ w ∈ y, NumWord w) (hst : ∀ y ∈ rows, ∀ w ∈ y, Stable w) (ht : tl = [] ∨ ∃ w, tl = [w] ∧ lower w = c!"nd") :
    (match reMatch c.re (hd ++ enc (rows.flatten ++ tl)) with | none => (.error .inp : Res Val) | some m => c.build m) =
    (match readVals as (hv.map (·.map ([·]))) with
      | .error e => .error e
      | .ok xs => match rows.mapM (entryRead d) with
        | .error e => .error e
        | .ok ys => match readVal b (if tl = [] then none else some tl) with
          | .error e => .error e
          | .ok z => c.mk' (xs ++ [Val.tuple ys, z])) := by
  have hre : c.re = anchored (c.pat.re 1) := rfl
  have h2 : ∀ y ∈ rows, All2 (List.replicate (k + 1) (Full anyRe)) y := by
    intro y hy
    refine (all2_any _ y).2 ⟨hk y hy, fun w h => hw.tail w ?_⟩
    exact List.mem_append.2 (.inl (List.mem_flatten.2 ⟨y, hy, h⟩))
  have htw : Words tl := fun w h => hw.tail w (by simp [h])
  have e1 : ∀ w e, Mt (c.pat.re 1) w e ↔ ∃ u v t x y z, Mt H u x ∧ Mt (Re.plus false (.seq (litRe c!" ") (anyRow k))) v y ∧
      Mt (ndRe (as.length + 2)) t z ∧ w = u ++ (v ++ t) ∧ e = z ++ ((as.length + 1, v) :: y ++ x) := by
    intro w e
    rw [D.pat]
    constructor
    · intro h
      obtain ⟨u, v, x, y, h1, h2, rfl, rfl⟩ := mt_seq.1 h
      obtain ⟨v', t, y1, z, h4, h5, rfl, rfl⟩ := mt_seq.1 h2
      obtain ⟨y2, h6, rfl⟩ := mt_grp.1 h4
      exact ⟨u, v', t, x, y2, z, h1, h6, h5, rfl, by simp⟩
    · rintro ⟨u, v, t, x, y, z, h1, h2, h3, rfl, rfl⟩
      exact mt_seq.2 ⟨u, v ++ t, x, _, h1, mt_seq.2 ⟨v, t, _, z, mt_grp.2 ⟨y, h2, rfl⟩, h3, rfl, rfl⟩, rfl, by simp⟩
  obtain ⟨m, x, y, z, r1, r2, r3, r4, r5, r6, -, r7⟩ := rows_match (R := c.pat.re 1) (H := H) (s := litRe c!" ") (r := anyRow k)
    (T := ndRe (as.length + 2)) (p := Full anyRe) (ps := List.replicate k (Full anyRe)) (g := as.length + 1) (lo := as.length + 2) (b := false)
    e1 D.free D.nos blank_lit (row_any k) (by
      intro t z hz c hc
      rcases mt_opt.1 hz with ⟨rfl, -⟩ | h5
      · cases hc
      · obtain ⟨x', h7, -⟩ := mt_grp.1 h5
        have := (mt_lit.1 h7).1
        cases t with
        | nil => cases hc
        | cons d t =>
          simp at hc; subst hc
          simp only [lower, List.map_cons, List.cons.injEq] at this
          exact lower_space.1 this.1) D.groups (any_groups k _ _) ⟨as.length + 3, by
        exact ⟨Nat.le_refl _, by omega, by simp [litRe, Re.chrI, Re.groupsIn]⟩⟩ (by omega) (by omega)
    hd _ tl rows hw rfl hf hne h2 ((full_nd htw).2 ht) (by
      intro rows' tl' q1 q2 q3 q4
      have htw' : Words tl' := fun w h => hw.tail w (by rw [q4]; simp [h])
      have : ∀ {l : List Str}, (l = [] ∨ ∃ w, l = [w] ∧ lower w = c!"nd") → l.length ≤ 1 := by
        rintro l (rfl | ⟨w, rfl, -⟩) <;> simp
      exact rows_unique (k := k + 1) (by have := D.two; omega) hk (fun y hy => ((all2_any (k + 1) y).1 (q2 y hy)).1) (this ht)
        (this ((full_nd htw').1 q3)) q4)
  rw [hre, r1]
  show c.build m = _
  unfold Cls.build
  have hcx := hc x r2
  obtain ⟨nm, hty⟩ := D.ty
  have hn2 : ∀ y ∈ rows, All2 (ks.map (fun _ => Full numRe)) y := fun y hy => (all2_num ks y).2 ⟨by rw [hk y hy, D.len], hn y hy⟩
  have hrowd : ∃ q qs, Row (a.ty.re 1) (q :: qs) ∧ (q :: qs) = ks.map (fun _ => Full numRe) := by
    cases hks : ks with
    | nil => exact absurd hks D.entry.ne
    | cons k0 ks0 =>
      refine ⟨Full numRe, ks0.map (fun _ => Full numRe), ?_, rfl⟩
      have := (rowPat_row ks0 k0 (by rw [← hks]; exact D.entry.num) 1).1
      have hs := D.entry.shape
      rw [hty]
      rw [show (d.asTy nm).re 1 = (rowPat (k0 :: ks0)).re 1 by simp [Cls.asTy, Ty.re, Cls.pat, hs, Shape.pat, hks]]
      exact this
  obtain ⟨q, qs, hrow, hqs⟩ := hrowd
  have ha : attrVal c.pat.ng m as.length a = (rows.mapM (entryRead d)).map .tuple := by
    unfold attrVal
    rw [if_neg (by rw [D.ng]; omega), r6]
    have hne' : enc rows.flatten ≠ [] := by
      cases rows with
      | nil => exact absurd rfl hne
      | cons x xs =>
        have := enc_ne (h2 x (by simp))
        intro e
        simp only [List.flatten_cons, enc_append, List.append_eq_nil_iff] at e
        exact this e.1
    cases he : enc rows.flatten with
    | nil => exact absurd he hne'
    | cons ch t =>
      simp only [Attr.parse, D.many, if_true, tupleParse]
      rw [← he, finditer_rows hrow rows hne (by rw [hqs]; exact hn2), List.mapM_map]
      have : ∀ (l : List (List Str)), (∀ y ∈ l, y ∈ rows) → l.mapM (a.ty.parse ∘ join [' ']) = l.mapM (entryRead d) := by
        intro l hl
        induction l with
        | nil => rfl
        | cons y l ih =>
          have hy := hl y (by simp)
          have e1 : a.ty.parse (join [' '] y) = entryRead d y := by
            rw [hty]
            exact entry_read D.entry (by rw [hk y hy, D.len]) (hn y hy) (hst y hy)
          rw [List.mapM_cons, List.mapM_cons, ih (fun z hz => hl z (by simp [hz])), Function.comp, e1]
      rw [this rows (fun y hy => hy)]
  have hb : attrVal c.pat.ng m (as.length + 1) b = readVal b (if tl = [] then none else some tl) := by
    unfold attrVal
    rw [if_neg (by rw [D.ng]; omega), r7 (as.length + 2) (Nat.le_refl _), mt_nd r4]
    rcases ht with rfl | ⟨w, rfl, hwn⟩
    · rfl
    · have hww := htw w (by simp)
      simp only [enc_cons, enc_nil, List.append_nil, reduceCtorEq, if_false]
      have : strip (' ' :: w) = w := by
        have := strip_enc w [] (by intro v hv; rw [List.mem_singleton.1 hv]; exact hww)
        simpa using this
      rw [this]
      simp only [Attr.parse, D.last, readVal, join]
      rfl
  rw [D.attrs, attrs_front c.pat.ng m [a, b] as hv 0 hl.symm D.one hvw (by
    intro j v hj
    have hjl := (List.getElem?_eq_some_iff.1 hj).1
    rw [r5 (0 + 1 + j) (by omega) (by omega)]
    have := hcx.get j v hj
    rw [← this]) (by rw [D.ng]; omega)]
  cases readVals as (hv.map (·.map ([·]))) with
  | error => rfl
  | ok xs =>
    simp only [attrVals, Nat.zero_add, hl, ha, hb]
    cases rows.mapM (entryRead d) with
    | error => rfl
    | ok ys =>
      simp only [Except.map]
      cases readVal b (if tl = [] then none else some tl) <;> rfl

/-! ## First words -/

/-- The pattern of the designator. -/
def desRe (n : Nat) : Re := (Pat.opt (.ngrp (.seq (.lits c!":") (.grp (.plus true (.cls (.one .S))))))).re n

/-- The pattern of the prefix. -/
def preRe : Re := .opt true (.grp 1 (.cls (CC.set false [.ch '*', .ch '+']).test))

/-- The pattern of the number. -/
def numberRe : Re := .grp 2 (.seq (.star true (.cls (CC.one .d).test)) (.cls (CC.set false [.ch '5']).test))

/-- The pattern of the first word of rings. -/
def ringHead : Re := .seq preRe (.seq (litRe c!"f") (.seq numberRe (.seq (.grp 3 (.cls (CC.set false [.ch 'x', .ch 'y', .ch 'z']).test)) (desRe 4))))

/-- The pattern of the first word of points. -/
def pointHead : Re := .seq preRe (.seq (litRe c!"f") (.seq numberRe (desRe 3)))

theorem desRe_eq (n : Nat) : desRe n = .opt true (.seq (litRe c!":") (.grp n (Re.plus true (.cls (CC.one .S).test)))) := rfl

theorem mt_des {n : Nat} {w : Str} {e : List (Nat × Str)} : Mt (desRe n) w e ↔
    ∃ d : Option Str, (∀ s ∈ d, s ≠ [] ∧ NoSpace s) ∧ w = colon d ∧ e = (d.map (fun s => (n, s))).toList := by
  rw [desRe_eq, mt_opt]
  constructor
  · rintro (⟨rfl, rfl⟩ | h)
    · exact ⟨none, by simp, rfl, rfl⟩
    · obtain ⟨u, v, x, y, h1, h2, rfl, rfl⟩ := mt_seq.1 h
      obtain ⟨l1, rfl⟩ := mt_lit.1 h1
      obtain ⟨z, h3, rfl⟩ := mt_grp.1 h2
      obtain ⟨k1, k2, rfl⟩ := mt_plus_cls.1 h3
      have hu : u = [':'] := lower_colon l1
      subst hu
      exact ⟨some v, by
        intro s hs
        simp at hs; subst hs
        exact ⟨k1, fun c hc => by have := k2 c hc; simpa [CC.test, CI.test] using this⟩, rfl, rfl⟩
  · rintro ⟨d, hd, rfl, rfl⟩
    cases d with
    | none => left; exact ⟨rfl, rfl⟩
    | some s =>
      right
      obtain ⟨h1, h2⟩ := hd s rfl
      exact mt_seq.2 ⟨[':'], s, [], [(n, s)], mt_lit.2 ⟨rfl, rfl⟩, mt_grp.2 ⟨[], mt_plus_cls.2 ⟨h1, fun c hc => by simp [CC.test, CI.test, h2 c hc], rfl⟩, rfl⟩, rfl, rfl⟩

theorem star_plus {c : Char} : (CC.set false [.ch '*', .ch '+']).test c = true ↔ c = '*' ∨ c = '+' := by
  constructor
  · intro h
    simp only [CC.test, List.any_cons, List.any_nil, Bool.or_false, bne_iff_ne, ne_eq, Bool.not_eq_false, Bool.or_eq_true, CI.test, beq_iff_eq] at h
    have key : ∀ x : Char, (x = '*' ∨ x = '+') → lowerC c = lowerC x → c = x := by
      intro x hx h
      unfold lowerC at h
      split at h
      · rename_i hu
        exfalso
        simp only [Bool.and_eq_true, decide_eq_true_eq] at hu
        have h1 : 65 ≤ c.toNat := hu.1
        have h2 : c.toNat ≤ 90 := hu.2
        have h3 : c.toNat = 65 ∨ c.toNat = 66 ∨ c.toNat = 67 ∨ c.toNat = 68 ∨ c.toNat = 69 ∨ c.toNat = 70 ∨ c.toNat = 71 ∨ c.toNat = 72 ∨ c.toNat = 73 ∨
          c.toNat = 74 ∨ c.toNat = 75 ∨ c.toNat = 76 ∨ c.toNat = 77 ∨ c.toNat = 78 ∨ c.toNat = 79 ∨ c.toNat = 80 ∨ c.toNat = 81 ∨ c.toNat = 82 ∨
          c.toNat = 83 ∨ c.toNat = 84 ∨ c.toNat = 85 ∨ c.toNat = 86 ∨ c.toNat = 87 ∨ c.toNat = 88 ∨ c.toNat = 89 ∨ c.toNat = 90 := by omega
        revert h
        rcases hx with rfl | rfl <;>
        rcases h3 with h | h | h | h | h | h | h | h | h | h | h | h | h | h | h | h | h | h | h | h | h | h | h | h | h | h <;> rw [h] <;> decide
      · rw [h]; rcases hx with rfl | rfl <;> decide
    rcases h with h | h
    · exact .inl (key _ (.inl rfl) h)
    · exact .inr (key _ (.inr rfl) h)
  · rintro (rfl | rfl) <;> decide

theorem mt_pre {w : Str} {e : List (Nat × Str)} : Mt preRe w e ↔
    ∃ p : Option Char, (∀ c ∈ p, c = '*' ∨ c = '+') ∧ w = p.toList ∧ e = (p.map (fun c => (1, [c]))).toList := by
  rw [preRe, mt_opt]
  constructor
  · rintro (⟨rfl, rfl⟩ | h)
    · exact ⟨none, by simp, rfl, rfl⟩
    · obtain ⟨z, h3, rfl⟩ := mt_grp.1 h
      obtain ⟨c, hc, rfl, rfl⟩ := mt_cls.1 h3
      exact ⟨some c, by intro d hd; simp at hd; subst hd; exact star_plus.1 hc, rfl, rfl⟩
  · rintro ⟨p, hp, rfl, rfl⟩
    cases p with
    | none => left; exact ⟨rfl, rfl⟩
    | some c => right; exact mt_grp.2 ⟨[], mt_cls.2 ⟨c, star_plus.2 (hp c rfl), rfl, rfl⟩, rfl⟩

theorem mt_number {w : Str} {e : List (Nat × Str)} : Mt numberRe w e ↔
    (∀ c ∈ w, isDigit c = true) ∧ w.getLast? = some '5' ∧ e = [(2, w)] := by
  rw [numberRe]
  have h5 : ∀ c, (CC.set false ([.ch '5'] : List CI)).test c = true ↔ c ∈ ['5'] := fun c => digit_in (ds := ['5']) (by decide)
  constructor
  · intro h
    obtain ⟨z, h3, rfl⟩ := mt_grp.1 h
    obtain ⟨u, v, x, y, h1, h2, rfl, rfl⟩ := mt_seq.1 h3
    obtain ⟨k, rfl⟩ := mt_star_cls.1 h1
    obtain ⟨c, hc, rfl, rfl⟩ := mt_cls.1 h2
    have := (h5 c).1 hc
    simp at this
    subst this
    refine ⟨?_, by simp, by simp⟩
    intro d hd
    rcases List.mem_append.1 hd with hd | hd
    · exact k d hd
    · rw [List.mem_singleton.1 hd]; decide
  · rintro ⟨h1, h2, rfl⟩
    have hne : w ≠ [] := by rintro rfl; cases h2
    obtain ⟨i, c, rfl⟩ : ∃ i c, w = i ++ [c] := ⟨w.dropLast, w.getLast hne, (List.dropLast_concat_getLast hne).symm⟩
    simp at h2
    subst h2
    exact mt_grp.2 ⟨[], mt_seq.2 ⟨i, ['5'], [], [], mt_star_cls.2 ⟨fun d hd => h1 d (by simp [hd]), rfl⟩,
      mt_cls.2 ⟨'5', (h5 '5').2 (by simp), rfl, rfl⟩, rfl, rfl⟩, rfl⟩

theorem mt_f {w : Str} {e : List (Nat × Str)} : Mt (litRe c!"f") w e ↔ ∃ c, lowerC c = 'f' ∧ w = [c] ∧ e = [] := by
  rw [mt_lit]
  constructor
  · rintro ⟨h, rfl⟩
    cases w with
    | nil => simp [lower] at h
    | cons c w =>
      cases w with
      | nil =>
        simp only [lower, List.map_cons, List.map_nil, List.cons.injEq, and_true] at h
        exact ⟨c, h.trans (by decide), rfl, rfl⟩
      | cons => simp [lower] at h
  · rintro ⟨c, h, rfl, rfl⟩
    exact ⟨by simp only [lower, List.map_cons, List.map_nil, h]; decide, rfl⟩

theorem axis_in {c : Char} : (CC.set false [.ch 'x', .ch 'y', .ch 'z']).test c = true ↔ lowerC c ∈ ['x', 'y', 'z'] := by
  simp only [CC.test, List.any_cons, List.any_nil, Bool.or_false, bne_iff_ne, ne_eq, Bool.not_eq_false, Bool.or_eq_true, CI.test, beq_iff_eq,
    List.mem_cons, List.not_mem_nil, or_false]
  rw [show lowerC 'x' = 'x' by decide, show lowerC 'y' = 'y' by decide, show lowerC 'z' = 'z' by decide]

theorem caps_opt (n : Nat) (d : Option Str) : Caps ((d.map (fun s => (n, s))).toList) n [d] := by
  cases d with
  | none => exact Caps.skip n
  | some s => exact Caps.one n s

theorem caps_pre (n : Nat) (d : Option Char) : Caps ((d.map (fun c => (n, [c]))).toList) n [d.map ([·])] := by
  cases d with
  | none => exact Caps.skip n
  | some s => exact Caps.one n [s]

theorem mt_point {w : Str} {e : List (Nat × Str)} (h : Mt pointHead w e) : ∃ h : DetWord, h.Ok ∧ h.axis = none ∧ w = h.text ∧ Caps e 1 h.parts := by
  obtain ⟨u1, v1, x1, y1, m1, m2, rfl, rfl⟩ := mt_seq.1 h
  obtain ⟨u2, v2, x2, y2, m3, m4, rfl, rfl⟩ := mt_seq.1 m2
  obtain ⟨u3, v3, x3, y3, m5, m6, rfl, rfl⟩ := mt_seq.1 m4
  obtain ⟨p, p1, rfl, rfl⟩ := mt_pre.1 m1
  obtain ⟨f, f1, rfl, rfl⟩ := mt_f.1 m3
  obtain ⟨n1, n2, rfl⟩ := mt_number.1 m5
  obtain ⟨d, d1, rfl, rfl⟩ := mt_des.1 m6
  refine ⟨⟨p, f, u3, none, d⟩, ⟨p1, f1, n1, n2, by simp, d1⟩, rfl, by simp [DetWord.text], ?_⟩
  have := ((caps_pre 1 p).append (Caps.one 2 u3)).append (us := [d]) (caps_opt 3 d)
  simpa [DetWord.parts] using this

theorem mt_ring {w : Str} {e : List (Nat × Str)} (h : Mt ringHead w e) : ∃ h : DetWord, h.Ok ∧ h.axis.isSome = true ∧ w = h.text ∧ Caps e 1 h.parts := by
  obtain ⟨u1, v1, x1, y1, m1, m2, rfl, rfl⟩ := mt_seq.1 h
  obtain ⟨u2, v2, x2, y2, m3, m4, rfl, rfl⟩ := mt_seq.1 m2
  obtain ⟨u3, v3, x3, y3, m5, m6, rfl, rfl⟩ := mt_seq.1 m4
  obtain ⟨u4, v4, x4, y4, m7, m8, rfl, rfl⟩ := mt_seq.1 m6
  obtain ⟨p, p1, rfl, rfl⟩ := mt_pre.1 m1
  obtain ⟨f, f1, rfl, rfl⟩ := mt_f.1 m3
  obtain ⟨n1, n2, rfl⟩ := mt_number.1 m5
  obtain ⟨z, m9, rfl⟩ := mt_grp.1 m7
  obtain ⟨a, a1, rfl, rfl⟩ := mt_cls.1 m9
  obtain ⟨d, d1, rfl, rfl⟩ := mt_des.1 m8
  refine ⟨⟨p, f, u3, some a, d⟩, ⟨p1, f1, n1, n2, by intro c hc; simp at hc; subst hc; exact axis_in.1 a1, d1⟩, rfl, by simp [DetWord.text], ?_⟩
  have := (((caps_pre 1 p).append (Caps.one 2 u3)).append (Caps.one 3 [a])).append (us := [d]) (caps_opt 4 d)
  simpa [DetWord.parts] using this

theorem full_point {h : DetWord} (ok : h.Ok) (ha : h.axis = none) : Full pointHead h.text := by
  obtain ⟨p, f, n, a, d⟩ := h
  subst ha
  exact ⟨_, mt_seq.2 ⟨p.toList, _, _, _, mt_pre.2 ⟨p, ok.pre, rfl, rfl⟩, mt_seq.2 ⟨[f], _, _, _, mt_f.2 ⟨f, ok.f, rfl, rfl⟩,
    mt_seq.2 ⟨n, _, _, _, mt_number.2 ⟨ok.num, ok.five, rfl⟩, mt_des.2 ⟨d, ok.des, rfl, rfl⟩, rfl, rfl⟩, rfl, rfl⟩, rfl, rfl⟩⟩

theorem full_ring {h : DetWord} (ok : h.Ok) (ha : h.axis.isSome = true) : Full ringHead h.text := by
  obtain ⟨p, f, n, a, d⟩ := h
  cases a with
  | none => cases ha
  | some a =>
  exact ⟨_, mt_seq.2 ⟨p.toList, _, _, _, mt_pre.2 ⟨p, ok.pre, rfl, rfl⟩, mt_seq.2 ⟨[f], _, _, _, mt_f.2 ⟨f, ok.f, rfl, rfl⟩,
    mt_seq.2 ⟨n, _, _, _, mt_number.2 ⟨ok.num, ok.five, rfl⟩, mt_seq.2 ⟨[a], _, _, _, mt_grp.2 ⟨[], mt_cls.2 ⟨a, axis_in.2 (ok.axis a rfl), rfl, rfl⟩, rfl⟩,
      mt_des.2 ⟨d, ok.des, rfl, rfl⟩, rfl, rfl⟩, rfl, rfl⟩, rfl, rfl⟩, rfl, rfl⟩⟩

theorem digits_split {a b s t : Str} (ha : ∀ c ∈ a, isDigit c = true) (hb : ∀ c ∈ b, isDigit c = true)
    (hs : ∀ c ∈ s.head?, isDigit c = false) (ht : ∀ c ∈ t.head?, isDigit c = false) (e : a ++ s = b ++ t) : a = b ∧ s = t := by
  induction a generalizing b with
  | nil =>
    cases b with
    | nil => exact ⟨rfl, e⟩
    | cons c b =>
      simp only [List.nil_append] at e
      have h1 := hs c (by rw [e]; simp)
      rw [hb c (by simp)] at h1; cases h1
  | cons x a ih =>
    cases b with
    | nil =>
      simp only [List.nil_append] at e
      have h1 := ht x (by rw [← e]; simp)
      rw [ha x (by simp)] at h1; cases h1
    | cons c b =>
      simp only [List.cons_append, List.cons.injEq] at e
      obtain ⟨rfl, e⟩ := e
      obtain ⟨rfl, rfl⟩ := ih (fun c hc => ha c (by simp [hc])) (fun c hc => hb c (by simp [hc])) e
      exact ⟨rfl, rfl⟩

theorem axis_char {c : Char} (h : lowerC c ∈ ['x', 'y', 'z']) : isDigit c = false ∧ c ≠ ':' := by
  constructor
  · cases hd : isDigit c with
    | false => rfl
    | true =>
      rw [lower_digit hd] at h
      simp only [List.mem_cons, List.not_mem_nil, or_false] at h
      rcases h with rfl | rfl | rfl <;> revert hd <;> decide
  · rintro rfl
    revert h; decide

/-- The parts of a first word are determined by the word. -/
theorem DetWord.inj {h h' : DetWord} (ok : h.Ok) (ok' : h'.Ok) (e : h.text = h'.text) : h = h' := by
  obtain ⟨p, f, n, a, d⟩ := h
  obtain ⟨p', f', n', a', d'⟩ := h'
  have pf : ∀ {c : Char}, (c = '*' ∨ c = '+') → lowerC c ≠ 'f' := by rintro c (rfl | rfl) <;> decide
  have e1 : p = p' ∧ f = f' ∧ n ++ (a.toList ++ colon d) = n' ++ (a'.toList ++ colon d') := by
    cases p with
    | none =>
      cases p' with
      | none => simpa [DetWord.text] using e
      | some c =>
        simp [DetWord.text] at e
        exact absurd (e.1 ▸ ok.f) (pf (ok'.pre c rfl))
    | some c =>
      cases p' with
      | none =>
        simp [DetWord.text] at e
        exact absurd (e.1.symm ▸ ok'.f) (pf (ok.pre c rfl))
      | some c' => simpa [DetWord.text] using e
  obtain ⟨rfl, rfl, e2⟩ := e1
  clear e
  have tail : ∀ {a : Option Char} {d : Option Str}, (∀ c ∈ a, lowerC c ∈ ['x', 'y', 'z']) → ∀ c ∈ (a.toList ++ colon d).head?, isDigit c = false := by
    intro a d ha c hc
    cases a with
    | none =>
      cases d with
      | none => cases hc
      | some d => simp [colon] at hc; subst hc; decide
    | some a => simp at hc; subst hc; exact (axis_char (ha a rfl)).1
  obtain ⟨e3, e⟩ := digits_split ok.num ok'.num (tail ok.axis) (tail ok'.axis) e2
  simp only at e3
  subst e3
  clear e2
  have cd : ∀ {d d' : Option Str}, colon d = colon d' → d = d' := by
    intro d d' h
    cases d <;> cases d' <;> simp [colon] at h ⊢
    exact h
  cases a with
  | none =>
    cases a' with
    | none => simp only [Option.toList_none, List.nil_append] at e; rw [cd e]
    | some a' =>
      cases d with
      | none => simp [colon] at e
      | some d =>
        simp [colon] at e
        exact absurd e.1.symm (axis_char (ok'.axis a' rfl)).2
  | some a =>
    cases a' with
    | none =>
      cases d' with
      | none => simp [colon] at e
      | some d =>
        simp [colon] at e
        exact absurd e.1 (axis_char (ok.axis a rfl)).2
    | some a' =>
      simp only [Option.toList_some, List.cons_append, List.nil_append, List.cons.injEq] at e
      rw [e.1, cd e.2]

/-! ## The cards -/

/-- Points: the attributes before the list. -/
def pointAttrs : List Attr := Tab.F_1.attrs.take 3

/-- Rings: the attributes before the list. -/
def ringAttrs : List Attr := Tab.F_2.attrs.take 4

theorem noSp_head : NoSp pointHead ∧ NoSp ringHead := by
  have hp := (Pat.facts (.seq (.opt (.grp (.cls (.set false [.ch '*', .ch '+'])))) (.seq (.lits c!"f") (.seq (tallySuf ['5'])
    (.opt (.ngrp (.seq (.lits c!":") (.grp (.plus true (.cls (.one .S)))))))))) (by decide +kernel) 1)
  have hr := (Pat.facts (.seq (.opt (.grp (.cls (.set false [.ch '*', .ch '+'])))) (.seq (.lits c!"f") (.seq (tallySuf ['5'])
    (.seq (.grp (.cls (.set false [.ch 'x', .ch 'y', .ch 'z'])))
    (.opt (.ngrp (.seq (.lits c!":") (.grp (.plus true (.cls (.one .S))))))))))) (by decide +kernel) 1)
  exact ⟨noSp_mt hp.2.1, noSp_mt hr.2.1⟩

theorem pointPat : Tab.F_1.pat.re 1 = .seq preRe (.seq (litRe c!"f") (.seq numberRe (.seq (desRe 3)
    (.seq (.grp 4 (Re.plus false (.seq (litRe c!" ") (anyRow 3)))) (ndRe 5))))) := rfl

theorem ringPat : Tab.F_2.pat.re 1 = .seq preRe (.seq (litRe c!"f") (.seq numberRe (.seq (.grp 3 (.cls (CC.set false [.ch 'x', .ch 'y', .ch 'z']).test)) (.seq (desRe 4)
    (.seq (.grp 5 (Re.plus false (.seq (litRe c!" ") (anyRow 2)))) (ndRe 6)))))) := rfl

theorem point_det : Det Tab.F_1 pointHead 3 pointAttrs ⟨"spheres", Tab.T_f_1_Sphere, true, some .isNone⟩
    ⟨"nd", .base .str, false, some (.and .notNone (.not (.eqStr "nd")))⟩ Tab.f_1_Sphere [.real, .real, .int, .int] where
  pat := by
    intro w e
    rw [pointPat]
    show _ ↔ Mt (.seq (.seq preRe (.seq (litRe c!"f") (.seq numberRe (desRe 3)))) _) w e
    rw [← mt_assoc]
    apply mt_congr; intro w e
    rw [← mt_assoc]
    apply mt_congr; intro w e
    rw [← mt_assoc]
    rfl
  free := by rw [pointPat]; rfl
  ng := rfl
  nos := noSp_head.1
  groups := (Pat.facts (.seq (.opt (.grp (.cls (.set false [.ch '*', .ch '+'])))) (.seq (.lits c!"f") (.seq (tallySuf ['5'])
    (.opt (.ngrp (.seq (.lits c!":") (.grp (.plus true (.cls (.one .S)))))))))) (by decide +kernel) 1).2.2
  attrs := rfl
  one := by decide +kernel
  many := rfl
  last := rfl
  ty := ⟨_, rfl⟩
  entry := ⟨rfl, rfl, by simp [Tab.f_1_Sphere], rfl, rfl, by simp⟩
  len := rfl
  two := by omega

theorem ring_det : Det Tab.F_2 ringHead 2 ringAttrs ⟨"rings", Tab.T_f_2_Ring, true, some .isNone⟩
    ⟨"nd", .base .str, false, some (.and .notNone (.not (.eqStr "nd")))⟩ Tab.f_2_Ring [.real, .real, .int] where
  pat := by
    intro w e
    rw [ringPat]
    show _ ↔ Mt (.seq (.seq preRe (.seq (litRe c!"f") (.seq numberRe (.seq _ (desRe 4))))) _) w e
    rw [← mt_assoc]
    apply mt_congr; intro w e
    rw [← mt_assoc]
    apply mt_congr; intro w e
    rw [← mt_assoc]
    apply mt_congr; intro w e
    rw [← mt_assoc]
    rfl
  free := by rw [ringPat]; rfl
  ng := rfl
  nos := noSp_head.2
  groups := (Pat.facts (.seq (.opt (.grp (.cls (.set false [.ch '*', .ch '+'])))) (.seq (.lits c!"f") (.seq (tallySuf ['5'])
    (.seq (.grp (.cls (.set false [.ch 'x', .ch 'y', .ch 'z'])))
    (.opt (.ngrp (.seq (.lits c!":") (.grp (.plus true (.cls (.one .S))))))))))) (by decide +kernel) 1).2.2
  attrs := rfl
  one := by decide +kernel
  many := rfl
  last := rfl
  ty := ⟨_, rfl⟩
  entry := ⟨rfl, rfl, by simp [Tab.f_2_Ring], rfl, rfl, by simp⟩
  len := rfl
  two := by omega

end Inp
