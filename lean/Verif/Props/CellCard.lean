import Verif.Inp.CellRound
import Verif.Inp.Whole
import Verif.Props.Geometry
/-!
# Cell cards: C69

`readCell`, `cellOptions` and `geoWord` are specified in `Verif/Inp/CellSpec.lean`, `Owned` in `Verif/Inp/OptionSpec.lean`.
-/
set_option maxRecDepth 100000
namespace Props
open Py Types Inp

/-! ## C69 – cells are read entry by entry and round trip -/

theorem cell_parse (s n m : Str) (d : Option Str) (gws : List Str) (os : List (Cls × Opt))
    (hp : cardPreprocess s = (n ++ enc (m :: (d.toList ++ (gws ++ optWords (os.map (·.2))))), []))
    (hn : Entry n) (hs : ∀ w ∈ m :: (d.toList ++ (gws ++ optWords (os.map (·.2)))), Stable w)
    (hd : d = none ↔ m = c!"0") (hg : gws ≠ []) (hgw : ∀ w ∈ gws, geoWord w = true) (ho : Owned cellOptions os) :
    cardParse Tab.Cell s = (readCell n m d gws os).map (fun v => (v, [])) := by
  have := cell_read n m d gws os hn hs hd hg hgw ho
  unfold cardParse
  rw [hp]
  simp only
  rw [← this]
  cases reMatch Tab.Cell.re (n ++ enc (m :: (d.toList ++ (gws ++ optWords (os.map (·.2)))))) with
  | none => rfl
  | some x =>
    simp only
    cases Tab.Cell.build x <;> rfl

/-- A cell card is read as its entries say, whatever blank space and line breaks separate them: number, material, density
unless the material is `0`, then the geometry up to the first option, then the options one by one. Missing: options that the
patterns cut short, for which the claim is false (`C69_violated`). -/
theorem C69_read_partial (g0 n : Str) (l : List (Gap × Str)) (g1 : Str) (h : Spaced g0 n l g1)
    (m : Str) (d : Option Str) (gws : List Str) (os : List (Cls × Opt))
    (he : entries l = m :: (d.toList ++ (gws ++ optWords (os.map (·.2)))))
    (hd : d = none ↔ m = c!"0") (hg : gws ≠ []) (hgw : ∀ w ∈ gws, geoWord w = true) (ho : Owned cellOptions os) :
    cardParse Tab.Cell (g0 ++ (n ++ (body l ++ g1))) = (readCell n m d gws os).map (fun v => (v, [])) := by
  obtain ⟨h1, -, -⟩ := spaced_prep h
  have hst := entries_stable h
  rw [he] at h1 hst
  exact cell_parse _ n m d gws os h1 h.word hst hd hg hgw ho

/-- `12 3 -7.86  (-1:2) &⏎ #4 imp:n 1 u 5`. -/
example : cardParse Tab.Cell c!"12 3 -7.86  (-1:2) &\n #4 imp:n 1 u 5" =
    (readCell c!"12" c!"3" (some c!"-7.86") [c!"(-1:2)", c!"#4"]
      [(Tab.cell_Imp, c!"imp:n", [c!"1"]), (Tab.cell_U, c!"u", [c!"5"])]).map (fun v => (v, [])) := by
  have := C69_read_partial [] c!"12" [(.ws c!" ", c!"3"), (.ws c!" ", c!"-7.86"), (.ws c!"  ", c!"(-1:2)"), (.ws c!" &\n ", c!"#4"),
    (.ws c!" ", c!"imp:n"), (.ws c!" ", c!"1"), (.ws c!" ", c!"u"), (.ws c!" ", c!"5")] [] ⟨.nil, by decide, by
      intro x hx
      simp only [List.mem_cons, List.not_mem_nil, or_false] at hx
      rcases hx with rfl | rfl | rfl | rfl | rfl | rfl | rfl | rfl
      · exact ⟨⟨.sp .nil, by simp⟩, by decide⟩
      · exact ⟨⟨.sp .nil, by simp⟩, by decide⟩
      · exact ⟨⟨.sp (.sp .nil), by simp⟩, by decide⟩
      · exact ⟨⟨.sp (.amp 0 (.sp .nil)), by simp⟩, by decide⟩
      · exact ⟨⟨.sp .nil, by simp⟩, by decide⟩
      · exact ⟨⟨.sp .nil, by simp⟩, by decide⟩
      · exact ⟨⟨.sp .nil, by simp⟩, by decide⟩
      · exact ⟨⟨.sp .nil, by simp⟩, by decide⟩, .nil, by decide, by decide, by decide⟩
    c!"3" (some c!"-7.86") [c!"(-1:2)", c!"#4"] [(Tab.cell_Imp, c!"imp:n", [c!"1"]), (Tab.cell_U, c!"u", [c!"5"])]
    (by decide +kernel) (by decide) (by decide) (by decide)
    ⟨by simp [cellOptions], by decide +kernel, by simp [cellOptions], by decide +kernel, trivial⟩
  exact this

/-- … and that is a cell with these parts. -/
example : (readCell c!"12" c!"3" (some c!"-7.86") [c!"(-1:2)", c!"#4"]
      [(Tab.cell_Imp, c!"imp:n", [c!"1"]), (Tab.cell_U, c!"u", [c!"5"])]).map Val.str = .ok c!"12 3 -7.86 (-1:2) #4 imp:n 1 u 5" := by
  decide +kernel

/-- A void cell without options. -/
example : (readCell c!"7" c!"0" none [c!"1", c!"-2"] []).map Val.str = .ok c!"7 0  1 -2 " := by decide +kernel

/-- What the constructor guarantees. -/
theorem C69_range (n m : Int) (d g o v : Val)
    (h : Tab.Cell.mk' [.sc (.int (.num n)), .sc (.int (.num m)), d, g, o] = .ok v) :
    (1 ≤ n ∧ n ≤ 99999999) ∧ (0 ≤ m ∧ m ≤ 99999999) ∧ (d = .none ↔ m = 0) ∧ g ≠ .none := by
  have hrun : runInit (Tab.Cell.attrs.zip [.sc (.int (.num n)), .sc (.int (.num m)), d, g, o]) []
      ["number", "material", "density", "geometry", "options"] = .ok () := by
    unfold Cls.mk' at h
    split at h
    · cases h
    · assumption
  obtain ⟨a, x, env, hf, hs, hrun⟩ := init_cons hrun
  have hf' : some (⟨"number", (.base .int), false, (some (.or .isNone (.not (.and (.cmp .ge (1) 0) (.cmp .le (99999999) 0)))))⟩,
    Val.sc (.int (.num n))) = some (a, x) := hf
  cases hf'
  obtain ⟨rfl, h1⟩ := set_ok hs
  have h1 := h1 _ rfl
  obtain ⟨a, x, env, hf, hs, hrun⟩ := init_cons hrun
  have hf' : some (⟨"material", (.base .int), false, (some (.or .isNone (.not (.and (.cmp .ge (0) 0) (.cmp .le (99999999) 0)))))⟩,
    Val.sc (.int (.num m))) = some (a, x) := hf
  cases hf'
  obtain ⟨rfl, h2⟩ := set_ok hs
  have h2 := h2 _ rfl
  obtain ⟨a, x, env, hf, hs, hrun⟩ := init_cons hrun
  have hf' : some (⟨"density", (.base .real), false, (some (.or (.and .notNone (.self "material" (.cmp .eq (0) 0))) (.and .isNone (.self "material" (.cmp .ne (0) 0)))))⟩,
    d) = some (a, x) := hf
  cases hf'
  obtain ⟨rfl, h3⟩ := set_ok hs
  have h3 := h3 _ rfl
  obtain ⟨a, x, env, hf, hs, -⟩ := init_cons hrun
  have hf' : some (⟨"geometry", (.base .geo), false, (some .isNone)⟩, g) = some (a, x) := hf
  cases hf'
  obtain ⟨-, h4⟩ := set_ok hs
  have h4 := h4 _ rfl
  refine ⟨?_, ?_, ?_, ?_⟩
  · have e : (Chk.eval [] (.sc (.int (.num n))) (.and (.cmp .ge 1 0) (.cmp .le 99999999 0))).map (!·) = .ok false := h1
    rw [range_eval] at e
    simpa [Except.map] using e
  · have e : (Chk.eval [("number", .sc (.int (.num n)))] (.sc (.int (.num m))) (.and (.cmp .ge 0 0) (.cmp .le 99999999 0))).map (!·) = .ok false := h2
    rw [range_eval] at e
    simpa [Except.map] using e
  · have hz : ∀ (x : Val) (op : Cmp), Chk.eval [("material", .sc (.int (.num m))), ("number", .sc (.int (.num n)))] x (.self "material" (.cmp op 0 0)) =
        .ok (op.holds (compare (m * 10 ^ 0) 0)) := fun x op => rfl
    have hm : m * 10 ^ 0 = m := by simp
    have he : ∀ x : Val, x ≠ .none → Chk.eval [("material", .sc (.int (.num m))), ("number", .sc (.int (.num n)))] x
        (.or (.and .notNone (.self "material" (.cmp .eq (0) 0))) (.and .isNone (.self "material" (.cmp .ne (0) 0)))) = .ok false → m ≠ 0 := by
      intro x hx e hm0
      subst hm0
      cases x with
      | none => exact hx rfl
      | sc _ => simp [Chk.eval, Except.bind, getAttr, List.lookup, cmpVal, Cmp.holds] at e
      | tuple _ => simp [Chk.eval, Except.bind, getAttr, List.lookup, cmpVal, Cmp.holds] at e
      | obj _ _ => simp [Chk.eval, Except.bind, getAttr, List.lookup, cmpVal, Cmp.holds] at e
    constructor
    · rintro rfl
      have e : (.ok (Cmp.ne.holds (compare (m * 10 ^ 0) 0)) : Res Bool) = .ok false := h3
      rw [hm] at e
      simpa [Cmp.holds] using e
    · intro hm0
      by_cases hd : d = .none
      · exact hd
      · exact absurd hm0 (he d hd h3)
  · rintro rfl
    have e : (.ok true : Res Bool) = .ok false := h4
    cases e

/-- Both limits. -/
example : ∃ v, Tab.Cell.mk' [.sc (.int (.num 99999999)), .sc (.int (.num 0)), .none, .sc (.geo (.digit ['1'])), .none] = .ok v := ⟨_, rfl⟩

theorem cell_round (n m : Int) (d : Option Dec) (g : Ast) (hg : ∃ s, geoParse s = .ok g)
    (os : List (Cls × Val × Opt)) (hos : ∀ x ∈ os, OptVal x.1 x.2.1 x.2.2)
    (ho : Owned cellOptions (os.map (fun x => (x.1, x.2.2)))) (v : Val)
    (hmk : Tab.Cell.mk' [.sc (.int (.num n)), .sc (.int (.num m)), d.elim .none (fun x => .sc (.real (.num (.fin x)))),
      .sc (.geo g), optsVal (os.map (·.2.1))] = .ok v) :
    cardParse Tab.Cell v.str = .ok (v, []) ∧ ∃ ws, CardWords ws ∧ v.str = printWords ws := by
  obtain ⟨s, hs⟩ := hg
  obtain ⟨w, ws, hgt, hgw⟩ := wf_geo (geoParse_wf hs)
  have hgs := C11_geometry_stable s g hs
  obtain ⟨hnr, -, hdm, -⟩ := C69_range _ _ _ _ _ _ hmk
  have hn := plain_int n
  have hm := plain_int m
  have hmc : lower (intStr m) ∉ shorthand := not_short_of (fun c hc => by
      rcases intStr_chars m c hc with h | rfl
      · exact numCh_digit h
      · decide)
  have hdS : ∀ x ∈ d, Stable (x.str) ∧ lower x.str ∉ shorthand := fun x _ =>
    ⟨plain_num (Dec.str_ne_nil x) (Dec.str_chars x), not_short_of (Dec.str_chars x)⟩
  have hd' : (d.map Dec.str = none) ↔ intStr m = c!"0" := by
    have h0 : intStr m = c!"0" ↔ m = 0 := by
      constructor
      · intro h
        have h1 := C02_integer_roundtrip m
        have h2 := C02_integer_roundtrip 0
        have e : (IntVal.num m).str = (IntVal.num 0).str := h
        rw [e, h2] at h1
        simpa using h1.symm
      · rintro rfl; rfl
    rw [h0, ← hdm]
    cases d <;> simp
  have hstw : ∀ w ∈ optWords (os.map (·.2.2)), Stable w := by
    intro w hw
    obtain ⟨i, hi, hw⟩ := List.mem_flatMap.1 hw
    obtain ⟨x, hx, rfl⟩ := List.mem_map.1 hi
    rcases List.mem_cons.1 hw with rfl | hw
    · exact (hos x hx).first
    · exact (optval_facts (hos x hx)).2.1 w hw
  -- the printed text
  have hoT : orNil (optsVal (os.map (·.2.1))).text = join [' '] (optWords (os.map (·.2.2))) := by
    rw [optsVal_text os hos]
    cases h : optWords (os.map (·.2.2)) with
    | nil => rfl
    | cons y ys =>
      have e : (optsVal ((y :: ys).map (fun w => Val.sc (.str w)))).text = some (join [' '] ((Val.parts ((y :: ys).map (fun w => Val.sc (.str w)))).map orNil)) := rfl
      rw [e, Val.parts_eq, List.map_map, List.map_map]
      exact congrArg (join [' ']) ((List.map_congr_left (fun y _ => rfl)).trans (List.map_id _))
  have hstr : v.str = postprocess (join [' '] [intStr n, intStr m, orNil (d.map Dec.str), g.str, join [' '] (optWords (os.map (·.2.2)))]) := by
    rw [mk_obj hmk, obj_str]
    have hdt : Val.text (d.elim .none (fun x => .sc (.real (.num (.fin x))))) = d.map Dec.str := by cases d <;> rfl
    show objStr ⟨"Cell", .cell, c!"", ["number", "material", "density", "geometry", "options"]⟩ _ = _
    simp only [Val.parts, hdt]
    rw [← hoT]
    rfl
  have htail : ∃ tl, (tl = [] ∨ tl = [[]]) ∧ v.str =
      postprocess (intStr n ++ enc ([intStr m, orNil (d.map Dec.str)] ++ ((w :: ws) ++ optWords (os.map (·.2.2)) ++ tl))) := by
    rw [hstr, hgt]
    cases h : optWords (os.map (·.2.2)) with
    | nil => exact ⟨[[]], .inr rfl, by simp [join, enc_append]⟩
    | cons y ys => exact ⟨[], .inl rfl, by simp [join, join_enc_cons, enc_append]⟩
  obtain ⟨tl, htl, hstr'⟩ := htail
  have hpw : ∀ x ∈ [intStr m, orNil (d.map Dec.str)], x = [] ∨ (Stable x ∧ lower x ∉ shorthand) := by
    intro x hx
    simp only [List.mem_cons, List.not_mem_nil, or_false] at hx
    rcases hx with rfl | rfl
    · exact .inr ⟨hm, hmc⟩
    · cases d with
      | none => exact .inl rfl
      | some x => exact .inr (hdS x rfl)
  have hrw : ∀ x ∈ (w :: ws) ++ optWords (os.map (·.2.2)), Stable x := by
    intro x hx
    rcases List.mem_append.1 hx with hx | hx
    · exact (hgw x hx).stable.1
    · exact hstw x hx
  refine ⟨?_, by
    rw [hstr']
    exact blank_words _ _ _ _ ⟨hn.entry, int_hash n⟩ (int_short n (by omega)) hpw hrw htl⟩
  have hpre : cardPreprocess v.str = (intStr n ++ enc (intStr m :: ((d.map Dec.str).toList ++ ((w :: ws) ++ optWords (os.map (·.2.2))))), []) := by
    rw [hstr', blank_roundtrip (intStr n) [intStr m, orNil (d.map Dec.str)] ((w :: ws) ++ optWords (os.map (·.2.2))) tl hn.entry hpw hrw htl]
    congr 2
    have h1 : (intStr m != []) = true := by simpa using hm.entry.ne
    cases d with
    | none => simp [orNil, h1]
    | some x =>
      have h2 : (x.str != []) = true := by simpa using (hdS x rfl).1.entry.ne
      simp [orNil, h1, h2]
  have hmm : (os.map (fun x => (x.1, x.2.2))).map (·.2) = os.map (·.2.2) := by rw [List.map_map]; rfl
  rw [cell_parse v.str (intStr n) (intStr m) (d.map Dec.str) (w :: ws) (os.map (fun x => (x.1, x.2.2))) (by rw [hmm]; exact hpre) hn.entry
    (by
      rw [hmm]
      intro x hx
      simp only [List.mem_cons, List.mem_append] at hx
      rcases hx with rfl | hx | hx | hx
      · exact hm
      · cases d with
        | none => cases hx
        | some y => simp only [Option.map_some, Option.toList_some, List.mem_singleton] at hx; subst hx; exact (hdS y rfl).1
      · exact (hgw x (List.mem_cons.2 hx)).stable.1
      · exact hstw x hx)
    hd' (by simp) (fun x hx => (hgw x hx).stable.2) ho]
  have hread : readCell (intStr n) (intStr m) (d.map Dec.str) (w :: ws) (os.map (fun x => (x.1, x.2.2))) = .ok v := by
    have e1 : intParse (intStr n) = .ok (.num n) := C02_integer_roundtrip n
    have e2 : intParse (intStr m) = .ok (.num m) := C02_integer_roundtrip m
    have e3 : readVal ⟨"density", .base .real, false, none⟩ ((d.map Dec.str).map ([·])) = .ok (d.elim .none (fun x => .sc (.real (.num (.fin x))))) := by
      cases d with
      | none => rfl
      | some x => exact (sc_round (k := .real) (s := .real (.num (.fin x))) trivial).2
    unfold readCell
    rw [e1]; simp only
    rw [e2]; simp only
    rw [e3]; simp only
    rw [join_enc_cons, ← hgt, hgs]
    simp only
    cases os with
    | nil => exact hmk
    | cons x os =>
      have := readOwned_vals (x :: os) hos
      simp only [List.map_cons] at this ⊢
      rw [this]
      exact hmk
  rw [hread]
  rfl

/-- Every printed cell made of readable parts is read back unchanged: any number, material and finite density the
constructor accepts, any geometry the reader can produce, and options with at least one entry and filled from the left, if
every printed option is the one its class finds. Missing: options without entries or with an unset entry before a set one,
and fills; the claim is false for some of them (`C69_violated`). -/
theorem C69_roundtrip_partial (n m : Int) (d : Option Dec) (g : Ast) (hg : ∃ s, geoParse s = .ok g)
    (os : List (Cls × Val × Opt)) (hos : ∀ x ∈ os, OptVal x.1 x.2.1 x.2.2)
    (ho : Owned cellOptions (os.map (fun x => (x.1, x.2.2)))) (v : Val)
    (hmk : Tab.Cell.mk' [.sc (.int (.num n)), .sc (.int (.num m)), d.elim .none (fun x => .sc (.real (.num (.fin x)))),
      .sc (.geo g), optsVal (os.map (·.2.1))] = .ok v) :
    cardParse Tab.Cell v.str = .ok (v, []) :=
  (cell_round n m d g hg os hos ho v hmk).1

/-- `12 3 -7.86 (-1:2) #4 u 5` is printed and read back. -/
example : ∃ v, Tab.Cell.mk' [.sc (.int (.num 12)), .sc (.int (.num 3)), .sc (.real (.num (.fin ⟨true, 786, -2⟩))),
      .sc (.geo (.inter (.paren (.union (.unary .minus (.digit ['1'])) (.digit ['2']))) (.unary .hash (.digit ['4'])))),
      .tuple [.obj Tab.cell_U.info [.sc (.int (.num 5))]]] = .ok v ∧
    v.str = c!"12 3 -7.86 (-1:2) #4 u 5" ∧ cardParse Tab.Cell v.str = .ok (v, []) := by
  refine ⟨_, rfl, by decide +kernel, ?_⟩
  refine C69_roundtrip_partial 12 3 (some ⟨true, 786, -2⟩)
    (.inter (.paren (.union (.unary .minus (.digit ['1'])) (.digit ['2']))) (.unary .hash (.digit ['4'])))
    ⟨c!"(-1:2) #4", by decide +kernel⟩
    [(Tab.cell_U, .obj Tab.cell_U.info [.sc (.int (.num 5))], (c!"u", [c!"5"]))] ?_ ?_ _ (by decide +kernel)
  · intro x hx
    simp only [List.mem_cons, List.not_mem_nil, or_false] at hx
    subst hx
    refine ⟨⟨⟨.no, c!"u", .no, .no⟩, _, [], [.sc (.int (.num 5))], rfl, by decide +kernel, .inl (by decide +kernel), rfl,
        ⟨[], [], [], rfl, rfl, rfl, rfl⟩, ?_, ?_, ?_, by decide +kernel, by decide +kernel⟩, by decide, by decide +kernel, by decide, by decide, by decide⟩
    · exact ⟨⟨rfl, .int, rfl, trivial⟩, trivial⟩
    · exact ⟨.inr (.inr (by simp)), trivial⟩
    · exact trivial
  · exact ⟨by simp [cellOptions], by decide +kernel, trivial⟩

/-- Lattice fills keep one universe, fills lose their transformation, temperatures after the first one are lost
(the patterns of lists are lazy, types/Tuple.py:61), and the parentheses of a transformation are not printed. -/
theorem C69_violated :
    (cardParse Tab.Cell c!"1 0 -1 fill 0:1 0:0 0:0 1 2").map (·.1.str) = .ok c!"1 0  -1 fill 0:1 0:0 0:0 1" ∧
    (cardParse Tab.Cell c!"1 0 -1 fill 5 (3)").map (·.1.str) = .ok c!"1 0  -1 fill 5" ∧
    (cardParse Tab.Cell c!"1 0 -1 tmp1 1 2 3").map (·.1.str) = .ok c!"1 0  -1 tmp1 1" ∧
    (cardParse Tab.Cell c!"1 0 -1 trcl (1 2 3)").map (·.1.str) = .ok c!"1 0  -1 trcl 1 2 3 " := by
  decide +kernel

end Props
