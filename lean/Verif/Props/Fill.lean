import Verif.Props.DeepCells
/-!
# Cells filled with a universe: C100

`FillWord`, `readFill` and `Deep` are specified in `Verif/Inp/DeepSpec.lean`, `TransText` and `readTrans` in `Verif/Inp/TransSpec.lean`.
-/
set_option maxRecDepth 100000
namespace Props
open Py Types Inp

/-! ## Helper lemmas -/

theorem universe_check {env : List (String × Val)} {k : IntVal}
    (h : Chk.eval env (.sc (.int k)) (.or .isNone (.not (.or (.cmp .eq 10000000000 0) (.and (.cmp .ge 0 0) (.cmp .le 99999999 0))))) = .ok false) :
    ∃ n, k = .num n ∧ (n = 10000000000 ∨ (0 ≤ n ∧ n ≤ 99999999)) := by
  cases k with
  | hor x => cases h
  | num n =>
    refine ⟨n, rfl, ?_⟩
    have h0 : n * 10 ^ 0 = n := by simp
    simp only [Chk.eval, cmpVal, Except.bind, Except.map, Cmp.holds, h0] at h
    by_cases e1 : n = 10000000000
    · exact .inl e1
    · right
      have e1' : (compare n 10000000000 == .eq) = false := by
        rw [beq_eq_false_iff_ne, ne_eq, Int.compare_eq_eq]; exact e1
      rw [e1'] at h
      by_cases e2 : 0 ≤ n
      · refine ⟨e2, ?_⟩
        have e2' : (compare n 0 != .lt) = true := by
          rw [bne_iff_ne, ne_eq, Int.compare_eq_lt]; omega
        rw [e2'] at h
        by_cases e3 : n ≤ 99999999
        · exact e3
        · have e3' : (compare n 99999999 != .gt) = false := by
            rw [bne_eq_false_iff_eq, Int.compare_eq_gt]; omega
          rw [e3'] at h
          cases h
      · have e2' : (compare n 0 != .lt) = false := by
          rw [bne_eq_false_iff_eq, Int.compare_eq_lt]; omega
        rw [e2'] at h
        cases h

theorem allOk_get {α : Type} : ∀ {rs : List (Res α)} {vs : List α}, allOk rs = .ok vs → rs = vs.map .ok
  | [], vs, h => by cases h; rfl
  | r :: rs, vs, h => by
    unfold allOk at h
    cases r with
    | error e => cases h
    | ok v =>
      simp only at h
      cases hr : allOk rs with
      | error e => rw [hr] at h; cases h
      | ok ws =>
        rw [hr] at h
        cases h
        rw [allOk_get hr]
        rfl

theorem fill_opts {like : Bool} {os1 os2 : List DOpt} {o : DOpt} {ov : Val} (h : optionsRead like (os1 ++ o :: os2) = .ok ov) :
    ∃ l v, ov = .tuple l ∧ l.length = os1.length + 1 + os2.length ∧ l[os1.length]? = some v ∧ o.read like = .ok v := by
  have e : optionsRead like (os1 ++ o :: os2) = (allOk ((os1 ++ o :: os2).map (DOpt.read like))).map .tuple := by
    cases os1 <;> rfl
  rw [e] at h
  cases ha : allOk ((os1 ++ o :: os2).map (DOpt.read like)) with
  | error x => rw [ha] at h; cases h
  | ok l =>
    rw [ha] at h
    cases h
    have hm := allOk_get ha
    have hl : l.length = os1.length + 1 + os2.length := by
      have := congrArg List.length hm
      simp at this
      omega
    have hi : os1.length < l.length := by omega
    refine ⟨l, l[os1.length], rfl, hl, List.getElem?_eq_getElem hi, ?_⟩
    have := congrArg (fun x => x[os1.length]?) hm
    simp [hi] at this
    exact this

theorem fill_prep (like star : Bool) (n : Int) (t : Option (List Dec × Option Int)) :
    preprocess (fillObj (fillOf like) star n t).str = fillWord0 star ++ enc (intStr n :: fillWords t) ∧
    Words (fillWord0 star :: intStr n :: fillWords t) := by
  have he : Entry (fillWord0 star) := by cases star <;> decide
  have hst : ∀ w ∈ intStr n :: fillWords t, Stable w := by
    intro w hw
    rcases List.mem_cons.1 hw with rfl | hw
    · exact plain_int n
    · exact fillWords_stable t w hw
  have go : ∀ g1, Ws g1 → (fillObj (fillOf like) star n t).str = [] ++ (fillWord0 star ++ (body (single (intStr n :: fillWords t)) ++ g1)) →
      preprocess (fillObj (fillOf like) star n t).str = fillWord0 star ++ enc (intStr n :: fillWords t) ∧
      Words (fillWord0 star :: intStr n :: fillWords t) := by
    intro g1 hg e
    obtain ⟨h1, h2⟩ := spaced_single (fillWord0 star) _ g1 he hst hg
    obtain ⟨-, h3, h4⟩ := spaced_prep h1
    rw [e]
    rw [h2] at h3 h4
    exact ⟨h3, h4⟩
  rw [fill_text] at go ⊢
  cases t with
  | none => exact go [] .nil (by rw [single_body]; simp [fillWords, enc])
  | some x =>
    obtain ⟨ds, m⟩ := x
    cases m with
    | none =>
      refine go [' '] (.sp .nil) ?_
      rw [single_body]
      cases ds with
      | nil => simp [fillWords, trclWords, sysText, join, enc]
      | cons d ds =>
        simp only [List.map_cons, List.cons_append, fillWords, trclWords, List.append_nil, sysText, List.nil_append]
        rw [join_enc, enc_append, enc_cons, enc_cons]
        simp [enc]
    | some k =>
      refine go [] .nil ?_
      rw [single_body]
      cases ds with
      | nil => simp [fillWords, trclWords, sysText, join, enc]
      | cons d ds =>
        simp only [List.map_cons, List.cons_append, fillWords, trclWords, List.append_nil, sysText, List.nil_append]
        rw [join_enc, enc_cons, enc_cons]

/-! ## C100 – the option `fill` -/

/-- What an option holds: its star, the universe `n` and the transformation `t`. -/
def Filled (like star : Bool) (n : Int) (t v : Val) : Prop :=
  v = .obj (fillOf like).info [if star then .sc (.str ['*']) else .none, .sc (.int (.num n)), t]

/-- **C100, what is read:** an option that is read from a star or none, the word `u` and the pieces `ps` holds the star, the universe that `u` denotes, which is
between 0 and 99999999 or 10000000000, and the transformation of the pieces, and none if there are none. -/
theorem C100_holds (like star : Bool) (u : Str) (ps : List Str) (v : Val) (h : readFill (fillOf like) star u ps = .ok v) :
    ∃ n t, intParse u = .ok (.num n) ∧ (n = 10000000000 ∨ (0 ≤ n ∧ n ≤ 99999999)) ∧
      (ps = [] → t = .none) ∧ (ps ≠ [] → readTrans 0 ps = .ok t) ∧ Filled like star n t v := by
  unfold readFill at h
  cases hu : intParse u with
  | error e => rw [hu] at h; cases h
  | ok k =>
    rw [hu] at h
    simp only at h
    cases ht : (if ps = [] then (.ok .none : Res Val) else readTrans 0 ps) with
    | error e => rw [ht] at h; cases h
    | ok t =>
      rw [ht] at h
      simp only at h
      have hv := mk_obj h
      have hk : ∃ n, k = .num n ∧ (n = 10000000000 ∨ (0 ≤ n ∧ n ≤ 99999999)) := by
        have hrun : runInit ((fillOf like).attrs.zip [if star then .sc (.str ['*']) else .none, .sc (.int k), t]) []
            ["prefix", "universe", "transformation"] = .ok () := by
          have hi : (fillOf like).init = ["prefix", "universe", "transformation"] := by cases like <;> rfl
          unfold Cls.mk' at h
          rw [hi] at h
          split at h
          · cases h
          · assumption
        have ha : (fillOf like).attrs = Tab.cell_Fill_1.attrs := by cases like <;> rfl
        rw [ha] at hrun
        obtain ⟨a, x, env, -, -, hrun⟩ := init_cons hrun
        obtain ⟨a, x, env', hf, hs, -⟩ := init_cons hrun
        have hf' : some (⟨"universe", .base .int, false, some (.or .isNone (.not (.or (.cmp .eq 10000000000 0) (.and (.cmp .ge 0 0) (.cmp .le 99999999 0)))))⟩,
          Val.sc (.int k)) = some (a, x) := hf
        cases hf'
        exact universe_check ((set_ok hs).2 _ rfl)
      obtain ⟨n, rfl, hn⟩ := hk
      refine ⟨n, t, rfl, hn, ?_, ?_, hv⟩
      · intro h0; rw [if_pos h0] at ht; cases ht; rfl
      · intro h0; rw [if_neg h0] at ht; exact ht

/-- **C100, reading options:** among all options of a cell, or of a cell made like another, `fill` with a universe and perhaps a transformation of twelve entries
is read as the option that holds them, whatever blank space and line breaks separate the entries. Missing: transformations of
fewer entries or given by their number, which are read alone (`C100_form`, `C100_form_number`) but not in whole cells (`C100_violated`,
`C100_cell_lost`), and lattices, which are the subject of C106. -/
theorem C100_option_partial (like star : Bool) (g0 w0 : Str) (l : List (Gap × Str)) (g1 : Str) (hs : Spaced g0 w0 l g1) (hw : FillWord star w0)
    (u : Str) (ws ps : List Str) (he : entries l = u :: ws) (hu : unitOk (.ty (.base .int)) u = true)
    (ht : (ws = [] ∧ ps = []) ∨ TransText 0 (join [' '] ws) ps) :
    unionParse (optionsOf like) (g0 ++ (w0 ++ (body l ++ g1))) = readFill (fillOf like) star u ps := by
  obtain ⟨-, hp, hws⟩ := spaced_prep hs
  rw [he] at hp hws
  obtain ⟨m, h1, h2⟩ := fill_first like hws hw (int_full hu) ht
  unfold unionParse
  rw [hp, h1]
  exact h2

/-- **C100, whole cells:** in a cell that is read, the option at the place of `fill` holds the universe and the transformation that stand there, whatever
options come before and after it. Missing: as in `C100_option_partial`. -/
theorem C100_cell_partial (g0 n : Str) (l : List (Gap × Str)) (g1 : Str) (h : Spaced g0 n l g1)
    (m : Str) (d : Option Str) (gws : List Str) (os1 os2 : List DOpt) (star : Bool) (hd u : Str) (ws ps : List Str)
    (he : entries l = m :: (d.toList ++ (gws ++ optWords ((os1 ++ .fill star hd u ws ps :: os2).map DOpt.opt))))
    (hd0 : d = none ↔ m = c!"0") (hg : gws ≠ []) (hgw : ∀ w ∈ gws, geoWord w = true) (ho : Deep false (os1 ++ .fill star hd u ws ps :: os2))
    (v : Val) (hv : cardParse Tab.Cell (g0 ++ (n ++ (body l ++ g1))) = .ok (v, [])) :
    ∃ nv mv dv gv opts x k t, v = .obj Tab.Cell.info [nv, mv, dv, gv, .tuple opts] ∧ opts.length = os1.length + 1 + os2.length ∧
      opts[os1.length]? = some x ∧ intParse u = .ok (.num k) ∧ (ps = [] → t = .none) ∧ (ps ≠ [] → readTrans 0 ps = .ok t) ∧ Filled false star k t x := by
  rw [C69_moved_partial g0 n l g1 h m d gws _ he hd0 hg hgw ho] at hv
  cases hr : readDeepCell n m d gws (os1 ++ .fill star hd u ws ps :: os2) with
  | error e => rw [hr] at hv; cases hv
  | ok v' =>
    rw [hr] at hv
    cases hv
    unfold readDeepCell readCellWith at hr
    split at hr
    · cases hr
    split at hr
    · cases hr
    split at hr
    · cases hr
    split at hr
    · cases hr
    split at hr
    · cases hr
    next ov hov =>
    obtain ⟨opts, x, rfl, h1, h2, h3⟩ := fill_opts hov
    obtain ⟨k, t, h4, -, h5, h6, h7⟩ := C100_holds false star u ps x h3
    exact ⟨_, _, _, _, opts, x, k, t, mk_obj hr, h1, h2, h4, h5, h6, h7⟩

/-- **C100, `like` cards:** the same for cells made like another. Missing: as in `C100_option_partial`. -/
theorem C100_like_partial (g0 n : Str) (l : List (Gap × Str)) (g1 : Str) (h : Spaced g0 n l g1)
    (lk m bt : Str) (os1 os2 : List DOpt) (star : Bool) (hd u : Str) (ws ps : List Str)
    (he : entries l = lk :: m :: bt :: optWords ((os1 ++ .fill star hd u ws ps :: os2).map DOpt.opt))
    (h1 : lower lk = c!"like") (h2 : lower bt = c!"but") (ho : Deep true (os1 ++ .fill star hd u ws ps :: os2))
    (v : Val) (hv : cardParse Tab.Like (g0 ++ (n ++ (body l ++ g1))) = .ok (v, [])) :
    ∃ nv mv opts x k t, v = .obj Tab.Like.info [nv, mv, .tuple opts] ∧ opts.length = os1.length + 1 + os2.length ∧
      opts[os1.length]? = some x ∧ intParse u = .ok (.num k) ∧ (ps = [] → t = .none) ∧ (ps ≠ [] → readTrans 0 ps = .ok t) ∧ Filled true star k t x := by
  rw [C72_moved_partial g0 n l g1 h lk m bt _ he h1 h2 ho] at hv
  cases hr : readDeepLike n m (os1 ++ .fill star hd u ws ps :: os2) with
  | error e => rw [hr] at hv; cases hv
  | ok v' =>
    rw [hr] at hv
    cases hv
    unfold readDeepLike readLikeWith at hr
    split at hr
    · cases hr
    split at hr
    · cases hr
    split at hr
    · cases hr
    next ov hov =>
    obtain ⟨opts, x, rfl, h1, h2, h3⟩ := fill_opts hov
    obtain ⟨k, t, h4, -, h5, h6, h7⟩ := C100_holds true star u ps x h3
    exact ⟨_, _, opts, x, k, t, mk_obj hr, h1, h2, h4, h5, h6, h7⟩

/-- **C100, printing options:** an option with a universe that the constructor accepts and no transformation, or one of twelve finite numbers with the system 1, -1
or none, is printed as a text that, among all options of a cell, is read as the same option. Missing: as in
`C100_option_partial`. -/
theorem C100_roundtrip_partial (like star : Bool) (n : Int) (hn : n = 10000000000 ∨ (0 ≤ n ∧ n ≤ 99999999)) (t : Option (List Dec × Option Int))
    (ht : ∀ x ∈ t, x.1.length = 12 ∧ SysOk x.2) :
    unionParse (optionsOf like) (fillObj (fillOf like) star n t).str = .ok (fillObj (fillOf like) star n t) := by
  obtain ⟨hp, hw⟩ := fill_prep like star n t
  have hu : unitOk (.ty (.base .int)) (intStr n) = true := sc_unit (k := .int) (s := .int (.num n)) trivial
  have hpl : Placed0 (fillWords t) (fillWords t) := by
    rcases (fill_ok_pieces ht).1 with ⟨-, h⟩ | h
    · exact .inl ⟨h, h⟩
    · exact .inr h
  obtain ⟨x, h3, h4⟩ := fill_first (star := star) like hw ⟨c!"fill", by decide, rfl⟩ (int_full hu) hpl
  unfold unionParse
  rw [hp, h3]
  simp only
  rw [h4]
  exact opt_reads like (x := .fill star n t) ⟨hn, ht⟩

/-- **C100 does not hold:** a transformation of nine or three entries, or one given by its number, is lost in a whole cell without a word, though the class made for
it reads it; a lattice keeps the first of its universes (the patterns are tried by the length of their texts, inp/_symbol.py:47, types/Tuple.py:61). -/
theorem C100_violated :
    (cardParse Tab.Cell c!"1 0 -1 fill 5 (1 2 3) imp:n 1").map (fun p => p.1.str) = .ok c!"1 0  -1 fill 5 imp:n 1" ∧
    (cardParse Tab.Cell c!"1 0 -1 *fill 5 (1 2 3 4 5 6 7 8 9)").map (fun p => p.1.str) = .ok c!"1 0  -1 *fill 5" ∧
    (cardParse Tab.Cell c!"1 0 -1 fill 5 7 imp:n 1").map (fun p => p.1.str) = .ok c!"1 0  -1 fill 5 imp:n 1" ∧
    (cardParse Tab.Like c!"2 like 1 but fill 5 (7)").map (fun p => p.1.str) = .ok c!"2 like 1 but fill 5" ∧
    (cardParse Tab.Cell c!"1 0 -1 lat 1 fill 0:1 0:1 0:0 2 3 4 5").map (fun p => p.1.str) = .ok c!"1 0  -1 lat 1 fill 0:1 0:1 0:0 2" ∧
    (unionParse [Tab.cell_Fill_5] c!"fill 5 1 2 3").map Val.str = .ok c!"fill 5 1 2 3 " ∧
    (unionParse [Tab.cell_Fill_6] c!"fill 5 7").map Val.str = .ok c!"fill 5 7" := by
  decide +kernel

/-! ## Examples -/

/-- `*FILL 5 (1 2 3 1 0 0 0 1 0 0 0 1)` between two other options, and `fill 7` last. -/
def exFill : DOpt := .fill true c!"*FILL" c!"5" [c!"(1", c!"2", c!"3", c!"1", c!"0", c!"0", c!"0", c!"1", c!"0", c!"0", c!"0", c!"1)"]
  [c!"1", c!"2", c!"3", c!"1", c!"0", c!"0", c!"0", c!"1", c!"0", c!"0", c!"0", c!"1"]

theorem exFill_deep : Deep false ([.plain Tab.cell_U c!"u" [c!"2"]] ++ exFill :: [.fill false c!"fill" c!"7" [] [], .plain Tab.cell_Imp c!"imp:n" [c!"1"]]) := by
  refine ⟨⟨by simp [optionsOf, cellOptions], by decide +kernel⟩,
    ⟨⟨c!"FILL", by decide, rfl⟩, by decide +kernel, .inr ⟨⟨.inl rfl, by decide, by decide, ['('], [')'], .inr rfl, .inr rfl, by decide +kernel⟩, .inl (by decide +kernel)⟩⟩,
    ⟨⟨c!"fill", by decide, rfl⟩, by decide +kernel, .inl ⟨rfl, rfl, ?_⟩⟩, ⟨by simp [optionsOf, cellOptions], by decide +kernel⟩, trivial⟩
  intro w hw
  cases hw
  exact ⟨'i', by decide, by decide⟩

/-- The text of a cell with these options is read, and prints as it should. -/
example : (cardParse Tab.Cell c!"3 0 -1 u 2 *FILL 5 (1 2 3 1 0 0 0 1 0 0 0 1) fill 7 imp:n 1").map (fun p => (p.1.str, p.2)) =
    .ok (c!"3 0  -1 u 2 *fill 5 1 2 3 1 0 0 0 1 0 0 0 1  fill 7 imp:n 1", []) := by
  have h := (spaced_single c!"3" [c!"0", c!"-1", c!"u", c!"2", c!"*FILL", c!"5", c!"(1", c!"2", c!"3", c!"1", c!"0", c!"0", c!"0", c!"1", c!"0", c!"0", c!"0", c!"1)",
    c!"fill", c!"7", c!"imp:n", c!"1"] [] (by decide) (fun w hw => by
      have h : Entry w ∧ LowerShort w ∧ countedEntry w = none := by revert w; decide +kernel
      exact ⟨h.1, h.2.1, h.2.2⟩) .nil)
  have := C69_moved_partial [] c!"3" _ [] h.1 c!"0" none [c!"-1"] _ (h.2.trans (by decide +kernel)) (by decide) (by decide) (by decide) exFill_deep
  rw [single_body] at this
  have e : c!"3 0 -1 u 2 *FILL 5 (1 2 3 1 0 0 0 1 0 0 0 1) fill 7 imp:n 1" = [] ++ (c!"3" ++ (enc [c!"0", c!"-1", c!"u", c!"2", c!"*FILL", c!"5", c!"(1", c!"2", c!"3", c!"1", c!"0", c!"0", c!"0", c!"1", c!"0", c!"0", c!"0", c!"1)",
    c!"fill", c!"7", c!"imp:n", c!"1"] ++ [])) := by decide +kernel
  rw [e, this]
  decide +kernel

/-- Twelve entries and a system, in a `like` card. -/
example : unionParse (optionsOf true) (fillObj Tab.like_Fill_1 true 5 (some (List.replicate 12 ⟨false, 1, 0⟩, some (-1)))).str =
    .ok (fillObj Tab.like_Fill_1 true 5 (some (List.replicate 12 ⟨false, 1, 0⟩, some (-1)))) :=
  C100_roundtrip_partial true true 5 (by omega) _ (by intro x hx; cases hx; exact ⟨rfl, by simp [SysOk]⟩)

example : (readFill Tab.cell_Fill_1 false c!"99999999" []).map Val.str = .ok c!"fill 99999999" ∧ readFill Tab.cell_Fill_1 false c!"100000000" [] = .error .inp ∧
    readFill Tab.cell_Fill_1 false c!"-1" [] = .error .inp ∧ (fillObj Tab.cell_Fill_1 false 5 none).str = c!"fill 5" := by decide +kernel
