import Verif.Inp.TransRead
import Verif.Inp.FreeRead
import Verif.Inp.CellSpec
import Verif.Inp.LikeSpec
/-!
# Reading `trcl` options
-/
set_option maxRecDepth 100000
namespace Inp
open Py Types

/-- The head of a `trcl` option. -/
def trclHead : Head := ⟨.star, c!"trcl", .no, .no⟩

/-- An option that holds a transformation of form `k`. -/
structure TrclCls (c : Cls) (k : Nat) : Prop where
  shape : c.shape = .flat trclHead [⟨.ty (.base (.trans k)), .req⟩]
  attrs : ∃ a b, c.attrs = [⟨"prefix", .base .str, false, a⟩, ⟨"transformation", .base (.trans k), false, b⟩]

theorem trcl_pat {c : Cls} {k : Nat} (ok : TrclCls c k) :
    c.pat = Pat.cat (trclHead.pats ++ [Field.pat ⟨.ty (.base (.trans k)), .req⟩]) := by
  simp [Cls.pat, ok.shape, Shape.pat]

theorem trcl_parts {c : Cls} {k : Nat} (ok : TrclCls c k) {w : Str} {e} : Mt (c.pat.re 1) w e ↔
    ∃ u t x ps, Mt (headRe trclHead 1) u x ∧ TransText k t ps ∧ w = u ++ ' ' :: t ∧ e = (2, ' ' :: t) :: (capsOf 3 ps ++ x) := by
  rw [trcl_pat ok, mt_cat_append]
  have : (Pat.cat [Field.pat ⟨.ty (.base (.trans k)), .req⟩]).re (1 + (Pat.cat trclHead.pats).ng) =
      .seq (.grp 2 (.seq (litRe c!" ") (transRe k 3))) .eps := rfl
  rw [this]
  constructor
  · rintro ⟨u, v, x, y, m1, m2, rfl, rfl⟩
    obtain ⟨v, t, x', y', m3, m4, rfl, rfl⟩ := mt_seq.1 m2
    obtain ⟨z, m5, rfl⟩ := mt_grp.1 m3
    obtain ⟨b, t', x2, y2, m6, m7, rfl, rfl⟩ := mt_seq.1 m5
    obtain ⟨rfl, rfl⟩ := mt_eps.1 m4
    obtain ⟨ps, h1, rfl⟩ := (trans_mt k 3 _ _).1 m7
    obtain ⟨rfl, rfl⟩ := (blank_lit.mt _ _).1 m6
    exact ⟨u, t', x, ps, m1, h1, by simp, by simp⟩
  · rintro ⟨u, t, x, ps, m1, h1, rfl, rfl⟩
    refine ⟨u, ' ' :: t, x, (2, ' ' :: t) :: capsOf 3 ps, m1, mt_seq.2 ⟨' ' :: t, [], (2, ' ' :: t) :: capsOf 3 ps, [], mt_grp.2 ⟨capsOf 3 ps, ?_, rfl⟩, .eps, by simp, by simp⟩, rfl, by simp⟩
    exact mt_seq.2 ⟨[' '], t, [], capsOf 3 ps, (blank_lit.mt _ _).2 ⟨rfl, rfl⟩, (trans_mt k 3 _ _).2 ⟨ps, h1, rfl⟩, rfl, by simp⟩

theorem trcl_head_facts : (headRe trclHead 1).free = true ∧ (headRe trclHead 1).noSp := by
  have := (Pat.cat trclHead.pats).facts (trclHead.word (by decide)) 1
  exact ⟨this.1, this.2.1⟩

theorem trcl_free {c : Cls} {k : Nat} (ok : TrclCls c k) : (c.pat.re 1).free = true := by
  rw [trcl_pat ok, free_cat]
  have h1 : ((Pat.cat trclHead.pats).re 1).free = true := trcl_head_facts.1
  rw [h1]
  have : (Pat.cat [Field.pat ⟨.ty (.base (.trans k)), .req⟩]).re (1 + (Pat.cat trclHead.pats).ng) =
      .seq (.grp 2 (.seq (litRe c!" ") (transRe k 3))) .eps := rfl
  rw [this]
  simp [Re.free, transRe_free]
  rfl

/-- How the text of such an option is taken apart. -/
theorem trcl_match {c : Cls} {k : Nat} (ok : TrclCls c k) (hd : Str) (ws : List Str) (hw : Words (hd :: ws)) :
    ((readHead trclHead hd = none ∨ ws = [] ∨ ∀ ps, ¬ TransText k (join [' '] ws) ps) → reMatch c.re (hd ++ enc ws) = none) ∧
    (∀ hv ps, readHead trclHead hd = some hv → ws ≠ [] → TransText k (join [' '] ws) ps →
      ∃ x, reMatch c.re (hd ++ enc ws) = some ((0, hd ++ enc ws) :: (2, enc ws) :: (capsOf 3 ps ++ x)) ∧ Caps x 1 hv ∧ hv.length = 1) := by
  have hfree := trcl_free ok
  have parts : ∀ e, Mt (c.pat.re 1) (hd ++ enc ws) e → ∃ x ps, Mt (headRe trclHead 1) hd x ∧ ws ≠ [] ∧ TransText k (join [' '] ws) ps ∧
      e = (2, enc ws) :: (capsOf 3 ps ++ x) := by
    intro e he
    obtain ⟨u, t, x, ps, m1, h1, h2, rfl⟩ := (trcl_parts ok).1 he
    obtain ⟨q, q1, q2⟩ := prefix_word (noSp_mt trcl_head_facts.2 _ _ m1) (enc_bnd ws) h2
    have hq : q = [] := by
      cases q with
      | nil => rfl
      | cons c q =>
        simp only [List.cons_append, List.cons.injEq] at q2
        have h3 := (hw hd (by simp)).1 c (by rw [q1]; simp)
        rw [← q2.1] at h3
        exact absurd h3 (by decide)
    subst hq
    simp only [List.append_nil, List.nil_append] at q1 q2
    subst q1
    cases ws with
    | nil => cases q2
    | cons w ws =>
      rw [enc_cons, List.cons.injEq] at q2
      refine ⟨x, ps, m1, by simp, ?_, by rw [enc_cons, ← q2.2]⟩
      rw [join_enc, ← q2.2]
      exact h1
  refine ⟨fun h => ?_, fun hv ps hr hne ht => ?_⟩
  · cases hm : reMatch c.re (hd ++ enc ws) with
    | none => rfl
    | some m =>
      obtain ⟨e, he, -⟩ := full_match hfree hm
      obtain ⟨x, ps, m1, h1, h3, -⟩ := parts e he
      obtain ⟨vs, -, -, h2⟩ := head_mt (h := trclHead) (by decide) m1
      rcases h with h | h | h
      · rw [h] at h2; cases h2
      · exact absurd h h1
      · exact absurd h3 (h ps)
  · obtain ⟨x0, hx0⟩ := head_full hr (hw hd (by simp)).1 1
    have full : Full (c.pat.re 1) (hd ++ enc ws) := by
      cases ws with
      | nil => exact absurd rfl hne
      | cons w ws =>
        rw [join_enc] at ht
        exact ⟨_, (trcl_parts ok).2 ⟨hd, w ++ enc ws, x0, ps, hx0, ht, by rw [enc_cons], rfl⟩⟩
    obtain ⟨m, hm⟩ := Option.isSome_iff_exists.1 ((full_iff _ hfree _).2 full)
    obtain ⟨e, he, rfl⟩ := full_match hfree hm
    obtain ⟨x, qs, m1, h1, h5, rfl⟩ := parts e he
    obtain ⟨vs, h2, h3, h4⟩ := head_mt (h := trclHead) (by decide) m1
    rw [hr] at h4
    cases h4
    rw [ht.uniq h5]
    exact ⟨x, hm, h2, h3⟩

theorem trcl_head {star : Bool} {hd : Str} (h : TrclWord star hd) :
    readHead trclHead hd = some [if star then some ['*'] else none] := by
  obtain ⟨kw, h1, rfl⟩ := h
  have hlen : kw.length = 4 := by
    have := congrArg List.length h1
    simpa [lower] using this
  have hk : readKw trclHead.kw kw = some [] := by
    unfold readKw
    have : trclHead.kw.length = kw.length := by rw [hlen]; rfl
    rw [this, List.take_length, List.drop_length, h1, if_pos (by decide)]
  cases star with
  | true =>
    have : readPre trclHead.pre ((if true = true then ['*'] else []) ++ kw) = ([some ['*']], kw) := rfl
    unfold readHead
    rw [this]
    simp only [hk]
    rfl
  | false =>
    have : readPre trclHead.pre ((if false = true then ['*'] else []) ++ kw) = ([none], kw) := by
      cases kw with
      | nil => rfl
      | cons c kw =>
        have hc : c ≠ '*' := by
          rintro rfl
          rw [show lower ('*' :: kw) = '*' :: lower kw from rfl] at h1
          exact absurd (List.cons.inj h1).1 (by decide)
        simp [readPre, trclHead, Pre.chars, hc]
    unfold readHead
    rw [this]
    simp only [hk]
    rfl

/-- Everything about one of the ten classes. -/
structure TrclOk (c : Cls) (k : Nat) : Prop extends TrclCls c k where
  make : ∀ (star : Bool) (rs : List RealVal) (m : Option IntVal),
    c.mk' [if star then .sc (.str ['*']) else .none, .sc (.trans k rs m)] =
      .ok (.obj c.info [if star then .sc (.str ['*']) else .none, .sc (.trans k rs m)])

theorem trclOf_ok (like : Bool) (k : Nat) (hk : k < 5) : TrclOk (trclOf like k) k := by
  have : k = 0 ∨ k = 1 ∨ k = 2 ∨ k = 3 ∨ k = 4 := by omega
  rcases this with rfl | rfl | rfl | rfl | rfl <;> cases like <;>
    exact ⟨⟨rfl, _, _, rfl⟩, fun star rs m => by cases star <;> rfl⟩

theorem readTrans_form {k : Nat} {ps : List Str} {v : Val} (h : readTrans k ps = .ok v) : ∃ rs m, v = .sc (.trans k rs m) := by
  unfold readTrans at h
  split at h
  · cases h
  · rename_i rs _
    split at h
    · cases h; exact ⟨_, _, rfl⟩
    · split at h
      · cases h
      · split at h
        · cases h; exact ⟨_, _, rfl⟩
        · cases h
      · cases h

/-- Building the option from the groups. -/
theorem trcl_build {c : Cls} {k : Nat} (ok : TrclOk c k) (star : Bool) (ws ps : List Str) (hw : Words ws) (hne : ws ≠ [])
    (ht : TransText k (join [' '] ws) ps) (s : Str) (x) (hc : Caps x 1 [if star then some ['*'] else none]) :
    c.build ((0, s) :: (2, enc ws) :: (capsOf 3 ps ++ x)) = readTrcl c star k ps := by
  obtain ⟨a, b, hat⟩ := ok.attrs
  have hng : 2 ≤ c.pat.ng := by
    rw [trcl_pat ok.toTrclCls, Pat.ng_cat_append]
    have h1 : (Pat.cat trclHead.pats).ng = 1 := rfl
    have h2 : (Pat.cat [Field.pat ⟨.ty (.base (.trans k)), .req⟩]).ng = 1 + (0 + (trCount k + 1)) + 0 := rfl
    omega
  generalize hM : (0, s) :: (2, enc ws) :: (capsOf 3 ps ++ x) = m
  have hcap1 : cap m 1 = if star then some ['*'] else none := by
    have h0 : ∀ g, 1 < g → ∀ qs : List Str, (capsOf g qs ++ x).lookup 1 = x.lookup 1 := by
      intro g hg qs
      induction qs generalizing g with
      | nil => rfl
      | cons q qs ih =>
        have : ((1 : Nat) == g) = false := by simp; omega
        have hx : ∀ y : List (Nat × Str), ((g, q) :: y).lookup 1 = y.lookup 1 := by
          intro y; simp only [List.lookup, this]
        have := ih (g + 1) (by omega)
        rw [List.lookup_append] at this
        rw [capsOf, List.append_assoc, List.singleton_append, List.lookup_append, hx]
        exact this
    have h1 := hc.get 0 _ (by simp : [if star then some ['*'] else none][0]? = some (if star then some ['*'] else none))
    rw [← hM]
    have h2 := h0 3 (by omega) ps
    simp only [cap, List.lookup, show ((1 : Nat) == 0) = false from rfl, show ((1 : Nat) == 2) = false from rfl, h2]
    exact h1
  have hcap2 : cap m 2 = some (enc ws) := by rw [← hM]; rfl
  have hst : strip (enc ws) = join [' '] ws := by
    cases ws with
    | nil => exact absurd rfl hne
    | cons w ws => rw [strip_enc w ws hw, join_enc]
  have hen : ∃ d t, enc ws = d :: t := by
    cases ws with
    | nil => exact absurd rfl hne
    | cons w ws => exact ⟨_, _, enc_cons w ws⟩
  have a1 : attrVal c.pat.ng m 0 ⟨"prefix", .base .str, false, a⟩ = .ok (if star then .sc (.str ['*']) else .none) := by
    unfold attrVal
    rw [if_neg (by omega), hcap1]
    cases star <;> rfl
  have a2 : attrVal c.pat.ng m 1 ⟨"transformation", .base (.trans k), false, b⟩ = readTrans k ps := by
    unfold attrVal
    rw [if_neg (by omega), hcap2]
    obtain ⟨d, t, hdt⟩ := hen
    rw [hdt] at hst ⊢
    simp only [hst]
    rw [← (trans_read k _).1 ps ht]
    rfl
  unfold Cls.build readTrcl
  rw [hat]
  simp only [attrVals, a1, a2]
  cases hr : readTrans k ps with
  | error e => rfl
  | ok v =>
    obtain ⟨rs, y, rfl⟩ := readTrans_form hr
    exact ok.make star rs y

/-! ## Among the options of a cell -/

/-- A stand-in for any option `trcl` with entries. -/
def trclAny : FreeCard where
  c := ⟨Tab.cell_Trcl_1.info, .flat trclHead [⟨anyText, .req⟩], [⟨"prefix", .base .str, false, none⟩, ⟨"transformation", .base .str, false, none⟩], []⟩
  h := trclHead
  as := [⟨"prefix", .base .str, false, none⟩]
  a := ⟨"transformation", .base .str, false, none⟩

theorem trclAny_ok : trclAny.Ok := ⟨rfl, by decide, rfl, rfl, by decide, rfl, rfl⟩

/-- The options before and after `trcl`. -/
def besideTrcl (like : Bool) : List Cls × List Cls := ((optionsOf like).take 10, (optionsOf like).drop 16)

theorem trcl_split (like : Bool) : optionsOf like =
    (besideTrcl like).1 ++ ([trclOf like 0, trclOf like 1, trclOf like 2, trclOf like 3, trclOf like 4, trclNumber like] ++ (besideTrcl like).2) := by
  cases like <;> rfl

theorem beside_apart : ∀ like : Bool, ((besideTrcl like).1 ++ (besideTrcl like).2).all (fun c => trclAny.c.pat.apart c.pat) = true := by
  decide +kernel

theorem beside_none (like : Bool) {star : Bool} {hd : Str} {ws : List Str} (hw : Words (hd :: ws)) (h : TrclWord star hd) (hne : ws ≠ []) :
    ∀ c ∈ (besideTrcl like).1 ++ (besideTrcl like).2, reMatch c.re (hd ++ enc ws) = none := by
  intro c hc
  obtain ⟨x, hx, -⟩ := (free_match trclAny_ok hd ws hw).2 _ (trcl_head h) hne
  refine apart_sound (List.all_eq_true.1 (beside_apart like) c hc) _ ?_
  have : reMatch (anchored (trclAny.c.pat.re 1)) (hd ++ enc ws) = reMatch trclAny.c.re (hd ++ enc ws) := rfl
  rw [this, hx]
  rfl

theorem firstMatch_skip {s : Str} : ∀ {pre cs : List Cls}, (∀ c ∈ pre, reMatch c.re s = none) → firstMatch s (pre ++ cs) = firstMatch s cs
  | [], _, _ => rfl
  | c :: pre, cs, h => by
    rw [List.cons_append, firstMatch, h c (by simp)]
    exact firstMatch_skip (fun d hd => h d (by simp [hd]))

theorem firstMatch_hit {s : Str} {c : Cls} {m} (h : reMatch c.re s = some m) (h0 : cap m 0 = some s) (cs : List Cls) :
    firstMatch s (c :: cs) = some (c, m) := by
  rw [firstMatch, h]
  simp only [h0, if_true]

/-- An option of five forms among the others. -/
theorem trcl_first (like : Bool) {star : Bool} {hd : Str} {ws ps : List Str} {k : Nat} (hw : Words (hd :: ws)) (h : TrclWord star hd)
    (ht : TransText k (join [' '] ws) ps) (hf : trclForm ps.length = some k) :
    ∃ m, firstMatch (hd ++ enc ws) (optionsOf like) = some (trclOf like k, m) ∧ (trclOf like k).build m = readTrcl (trclOf like k) star k ps := by
  have hne : ws ≠ [] := by
    rintro rfl
    have hk := trCount_big k
    obtain ⟨o, c, ho, hc, e⟩ := ht.text
    have hl := ht.len
    have : join [' '] ps = [] := by
      have := congrArg List.length e
      simp only [join, List.length_append, List.length_nil] at this
      exact List.eq_nil_of_length_eq_zero (by omega)
    match ps with
    | [] => simp at hl; omega
    | [p] => simp at hl; omega
    | p :: q :: l => rw [join_enc, enc_cons] at this; simp at this
  have hk5 : k < 5 := by
    unfold trclForm at hf
    repeat' split at hf
    all_goals first | (cases hf; omega) | cases hf
  obtain ⟨x, hm, hc, -⟩ := (trcl_match (trclOf_ok like k hk5).toTrclCls hd ws hw).2 _ ps (trcl_head h) hne ht
  refine ⟨_, ?_, trcl_build (trclOf_ok like k hk5) star ws ps (fun w h => hw w (by simp [h])) hne ht (hd ++ enc ws) x hc⟩
  rw [trcl_split, firstMatch_skip (fun c hc => beside_none like hw h hne c (by simp [hc]))]
  have before : ∀ j, j < k → reMatch (trclOf like j).re (hd ++ enc ws) = none := by
    intro j hj
    refine (trcl_match (trclOf_ok like j (by omega)).toTrclCls hd ws hw).1 (.inr (.inr ?_))
    intro qs hq
    have := hq.uniq ht
    subst this
    have h3 := hq.len
    unfold trclForm at hf
    have hj5 : j = 0 ∨ j = 1 ∨ j = 2 ∨ j = 3 ∨ j = 4 := by omega
    rcases hj5 with rfl | rfl | rfl | rfl | rfl <;> simp only [trCount] at h3 <;>
      (repeat' split at hf) <;> first | cases hf | skip
    all_goals omega
  have hit := firstMatch_hit (c := trclOf like k) hm rfl
  have hkk : k = 0 ∨ k = 1 ∨ k = 2 ∨ k = 3 ∨ k = 4 := by omega
  rcases hkk with rfl | rfl | rfl | rfl | rfl
  · exact hit _
  · exact (firstMatch_skip (pre := [trclOf like 0]) (by simpa using before 0 (by omega))).trans (hit _)
  · refine (firstMatch_skip (pre := [trclOf like 0, trclOf like 1]) ?_).trans (hit _)
    simp [before]
  · refine (firstMatch_skip (pre := [trclOf like 0, trclOf like 1, trclOf like 2]) ?_).trans (hit _)
    simp [before]
  · refine (firstMatch_skip (pre := [trclOf like 0, trclOf like 1, trclOf like 2, trclOf like 3]) ?_).trans (hit _)
    simp [before]

/-- An option of none of the forms. -/
theorem trcl_other (like : Bool) {star : Bool} {hd : Str} {ws : List Str} (hw : Words (hd :: ws)) (h : TrclWord star hd) (hne : ws ≠ [])
    (hn : ∀ k ps, k < 5 → ¬ TransText k (join [' '] ws) ps) :
    firstMatch (hd ++ enc ws) (optionsOf like) = firstMatch (hd ++ enc ws) [trclNumber like] := by
  rw [trcl_split, firstMatch_skip (fun c hc => beside_none like hw h hne c (by simp [hc]))]
  have no : ∀ k, k < 5 → reMatch (trclOf like k).re (hd ++ enc ws) = none := fun k hk =>
    (trcl_match (trclOf_ok like k hk).toTrclCls hd ws hw).1 (.inr (.inr fun ps => hn k ps hk))
  have e : [trclOf like 0, trclOf like 1, trclOf like 2, trclOf like 3, trclOf like 4, trclNumber like] ++ (besideTrcl like).2 =
    [trclOf like 0, trclOf like 1, trclOf like 2, trclOf like 3, trclOf like 4] ++ (trclNumber like :: (besideTrcl like).2) := rfl
  rw [e, firstMatch_skip (by simp [no])]
  have rest : firstMatch (hd ++ enc ws) (besideTrcl like).2 = none := by
    have := firstMatch_skip (s := hd ++ enc ws) (pre := (besideTrcl like).2) (cs := []) (fun c hc => beside_none like hw h hne c (by simp [hc]))
    rw [List.append_nil] at this
    rw [this]; rfl
  rw [firstMatch, firstMatch, rest]
  rfl

end Inp
