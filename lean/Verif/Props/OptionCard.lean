import Verif.Inp.OptionRound
import Verif.Inp.Whole
/-!
# Cards with options: C68

`Owned`, `Cls.takes` and `readOwnedCard` are specified in `Verif/Inp/OptionSpec.lean`.
-/
set_option maxRecDepth 100000
namespace Props
open Py Types Inp

theorem rows_hash : optRows.all (fun r => r.h.kw != [] && (lower r.h.kw).head? != some '#') = true := by decide +kernel

/-! ## C68 – options are read one by one -/

/-- A card that ends in a list of options is read as its entries say, whatever blank space and line breaks separate
them: the entries before the first option go to the card, and every option gets exactly the entries after its keyword.
Missing: lists of several entries in an option, for which the claim is false (`C68_list_violated`), and options with nested
options. -/
theorem C68_read_partial (r : OptRow) (hr : r ∈ optRows) (g0 w0 : Str) (l : List (Gap × Str)) (g1 : Str) (h : Spaced g0 w0 l g1)
    (gws : List Str) (os : List (Cls × Opt)) (he : entries l = gws ++ optWords (os.map (·.2)))
    (hg : gws.length = r.gs.length) (hne : r.mode = .many → os ≠ []) (ho : Owned r.plain os) :
    cardParse r.c (g0 ++ (w0 ++ (body l ++ g1))) = (readOwnedCard r.c r.h r.gs w0 gws os).map (fun v => (v, [])) := by
  obtain ⟨h1, -, hw⟩ := spaced_prep h
  have hst := entries_stable h
  rw [he] at h1 hw hst
  exact optcard_parse hr _ w0 gws os h1 hw hst hg hne ho

/-- The same for the cards whose options differ in their keywords: only the keyword and the entries of an option
decide how it is read. -/
theorem C68_keyword_partial (r : OptRow) (hr : r ∈ keywordRows) (g0 w0 : Str) (l : List (Gap × Str)) (g1 : Str)
    (h : Spaced g0 w0 l g1) (gws : List Str) (os : List (Cls × Opt)) (he : entries l = gws ++ optWords (os.map (·.2)))
    (hg : gws.length = r.gs.length) (hne : r.mode = .many → os ≠ []) (ho : Taken r.plain os) :
    cardParse r.c (g0 ++ (w0 ++ (body l ++ g1))) = (readOwnedCard r.c r.h r.gs w0 gws os).map (fun v => (v, [])) := by
  refine C68_read_partial r (keywordRows_sub r hr) g0 w0 l g1 h gws os he hg hne ?_
  have hk := keywordRows_plain r hr
  clear he hne
  induction os with
  | nil => trivial
  | cons o os ih =>
    obtain ⟨c, hd, ws⟩ := o
    exact ⟨ho.1, keyworded_owns hk ho.1 ho.2.1, ih ho.2.2⟩

/-- `fmesh14:n  geom xyz origin 0 -1.5 0 &⏎ imesh 10 iints 5`. -/
example : cardParse Tab.Fmesh c!"fmesh14:n  geom xyz origin 0 -1.5 0 &\n imesh 10 iints 5" =
    (readOwnedCard Tab.Fmesh rowFmesh.h [] c!"fmesh14:n" []
      [(Tab.fmesh_Geom.plainly, c!"geom", [c!"xyz"]), (Tab.fmesh_Origin, c!"origin", [c!"0", c!"-1.5", c!"0"]), (Tab.fmesh_Imesh, c!"imesh", [c!"10"]),
        (Tab.fmesh_Iints, c!"iints", [c!"5"])]).map (fun v => (v, [])) := by
  have := C68_keyword_partial rowFmesh (by simp [keywordRows]) [] c!"fmesh14:n" [(.ws c!"  ", c!"geom"), (.ws c!" ", c!"xyz"),
    (.ws c!" ", c!"origin"), (.ws c!" ", c!"0"),
    (.ws c!" ", c!"-1.5"), (.ws c!" ", c!"0"), (.ws c!" &\n ", c!"imesh"), (.ws c!" ", c!"10"), (.ws c!" ", c!"iints"),
    (.ws c!" ", c!"5")] [] ⟨.nil, by decide, by
      intro x hx
      simp only [List.mem_cons, List.not_mem_nil, or_false] at hx
      rcases hx with rfl | rfl | rfl | rfl | rfl | rfl | rfl | rfl | rfl | rfl
      · exact ⟨⟨.sp (.sp .nil), by simp⟩, by decide⟩
      · exact ⟨⟨.sp .nil, by simp⟩, by decide⟩
      · exact ⟨⟨.sp .nil, by simp⟩, by decide⟩
      · exact ⟨⟨.sp .nil, by simp⟩, by decide⟩
      · exact ⟨⟨.sp .nil, by simp⟩, by decide⟩
      · exact ⟨⟨.sp .nil, by simp⟩, by decide⟩
      · exact ⟨⟨.sp (.amp 0 (.sp .nil)), by simp⟩, by decide⟩
      · exact ⟨⟨.sp .nil, by simp⟩, by decide⟩
      · exact ⟨⟨.sp .nil, by simp⟩, by decide⟩
      · exact ⟨⟨.sp .nil, by simp⟩, by decide⟩, .nil, by decide, by decide, by decide⟩
    [] [(Tab.fmesh_Geom.plainly, c!"geom", [c!"xyz"]), (Tab.fmesh_Origin, c!"origin", [c!"0", c!"-1.5", c!"0"]), (Tab.fmesh_Imesh, c!"imesh", [c!"10"]),
        (Tab.fmesh_Iints, c!"iints", [c!"5"])] (by decide +kernel) rfl (by intro h; cases h)
    ⟨mem_plain Tab.fmesh_Geom (by simp [rowFmesh]), by decide +kernel, mem_plain Tab.fmesh_Origin (by simp [rowFmesh]), by decide +kernel,
      mem_plain Tab.fmesh_Imesh (by simp [rowFmesh]), by decide +kernel, mem_plain Tab.fmesh_Iints (by simp [rowFmesh]), by decide +kernel, trivial⟩
  exact this

/-- … and that is a card with the four options. -/
example : (readOwnedCard Tab.Fmesh rowFmesh.h [] c!"fmesh14:n" []
      [(Tab.fmesh_Geom.plainly, c!"geom", [c!"xyz"]), (Tab.fmesh_Origin, c!"origin", [c!"0", c!"-1.5", c!"0"]), (Tab.fmesh_Imesh, c!"imesh", [c!"10"]),
        (Tab.fmesh_Iints, c!"iints", [c!"5"])]).map Val.str = .ok c!"fmesh14:n geom xyz origin 0 -1.5 0 imesh 10 iints 5" := by
  decide +kernel

/-- `sdef x d1 y 0.5`: the classes tried before cannot begin there. -/
example : Owned rowSdef.cs [(Tab.sdef_X_1, c!"x", [c!"d1"]), (Tab.sdef_Y_0, c!"y", [c!"0.5"])] :=
  ⟨by simp [rowSdef], by decide +kernel, by simp [rowSdef], by decide +kernel, trivial⟩

theorem option_round (r : OptRow) (hr : r ∈ optRows) (hv gv : List Val) (hh : HeadOk r.h hv)
    (hgv : ReadVals (r.c.attrs.dropLast.drop r.h.ng) gv) (hp : Present (r.gs.map (·.mode)) gv)
    (os : List (Cls × Val × Opt)) (hos : ∀ x ∈ os, OptVal x.1 x.2.1 x.2.2) (hne : r.mode = .many → os ≠ [])
    (ho : Owned r.plain (os.map (fun x => (x.1, x.2.2)))) (v : Val)
    (hmk : r.c.mk' (hv ++ gv ++ [optsVal (os.map (·.2.1))]) = .ok v) :
    cardParse r.c v.str = .ok (v, []) ∧ (v.headWord.length ≤ 78 → ∃ ws, CardWords ws ∧ v.str = printWords ws) := by
  have hpr := List.all_eq_true.1 rows_printed r hr
  simp only [OptRow.printed, Bool.and_eq_true, beq_iff_eq] at hpr
  obtain ⟨⟨⟨p1, p2⟩, p3⟩, p4⟩ := hpr
  obtain ⟨as, a, oc⟩ := optRows_ok r hr
  have hdl : r.c.attrs.dropLast = as := by rw [oc.attrs]; simp
  obtain ⟨-, -, -, -, -, -, -, f3, f4⟩ := std_facts r.front r.h r.gs p1 hv gv hh hgv
  have hfit := fits_vals _ _ _ (std_fields p1) p2 hgv hp
  obtain ⟨hcan, hlen⟩ := canon_req oc.req hfit
  have hass := assign_canon _ _ hfit hcan
  -- the options as words
  have hstw : ∀ w ∈ optWords (os.map (·.2.2)), Stable w := by
    intro w hw
    obtain ⟨i, hi, hw⟩ := List.mem_flatMap.1 hw
    obtain ⟨x, hx, rfl⟩ := List.mem_map.1 hi
    rcases List.mem_cons.1 hw with rfl | hw
    · exact (hos x hx).first
    · exact (optval_facts (hos x hx)).2.1 w hw
  have hng : r.h.ng ≤ r.c.attrs.dropLast.length := by
    have h1 := hgv.length
    have h2 := congrArg (fun x : Res (List Val) => (x.map List.length)) f3
    simp only [Cls.std, Cls.plain, Bool.and_eq_true, beq_iff_eq] at p1
    have := p1.1.1.1.1.1.1.1.1.1.2
    rw [List.length_take] at this
    simp only [OptRow.front] at this
    omega
  have hrw : ReadVals (r.wordy.attrs.drop r.h.ng)
      (gv ++ [optsVal ((optWords (os.map (·.2.2))).map (fun w => .sc (.str w)))]) := by
    have : r.wordy.attrs.drop r.h.ng = r.c.attrs.dropLast.drop r.h.ng ++ [⟨"options", .base .str, true, none⟩] := by
      unfold OptRow.wordy
      simp only
      rw [List.drop_append_of_le_length hng]
    rw [this]
    refine readVals_append hgv ⟨?_, trivial⟩
    cases hl : optWords (os.map (·.2.2)) with
    | nil => exact trivial
    | cons w ws =>
      refine ⟨rfl, by simp, .str, rfl, ?_⟩
      intro v hv
      obtain ⟨w', hw', rfl⟩ := List.mem_map.1 hv
      exact ⟨_, rfl, hstw w' (by rw [hl]; exact hw')⟩
  obtain ⟨hd, he, hst', h5, hb, hrd, hw, hrv, hl⟩ := std_facts r.wordy r.h _ p3 hv _ hh hrw
  have hflat : Assign.flat ((gv ++ [optsVal ((optWords (os.map (·.2.2))).map (fun w => .sc (.str w)))]).map Val.words) =
      Assign.flat (gv.map Val.words) ++ optWords (os.map (·.2.2)) := by
    unfold Assign.flat
    rw [List.map_append, List.flatMap_append]
    congr 1
    cases optWords (os.map (·.2.2)) with
    | nil => rfl
    | cons w ws =>
      simp only [List.map_cons, optsVal, List.map_nil, Val.words, List.flatMap_cons, List.flatMap_nil, List.append_nil, Option.getD_some]
      rw [List.map_map]
      exact congrArg (w :: ·) ((List.map_congr_left (fun y _ => rfl)).trans (List.map_id ws))
  rw [hflat] at hst' hb
  have hws : Words (hd :: (Assign.flat (gv.map Val.words) ++ optWords (os.map (·.2.2)))) := by
    intro w hw
    rcases List.mem_cons.1 hw with rfl | hw
    · exact ⟨he.sp, he.ne⟩
    · exact ⟨(hst' w hw).entry.sp, (hst' w hw).entry.ne⟩
  have hparts : Val.parts (hv ++ gv ++ [optsVal (os.map (·.2.1))]) =
      Val.parts (hv ++ (gv ++ [optsVal ((optWords (os.map (·.2.2))).map (fun w => .sc (.str w)))])) := by
    rw [Val.parts_eq, Val.parts_eq, List.append_assoc]
    simp only [List.map_append, List.map_cons, List.map_nil]
    rw [optsVal_text os hos]
  have hinfo : r.wordy.info = r.c.info := rfl
  rw [hinfo] at h5 hb
  have hstr : v.str = postprocess (join [' '] (hd :: (Assign.flat (gv.map Val.words) ++ optWords (os.map (·.2.2))))) := by
    rw [mk_obj hmk, obj_str]
    unfold objStr
    simp only [p4]
    rw [hparts, h5, hb, strip_text hd _ hws]
  refine ⟨?_, fun hlen => by
    rw [hstr]
    have e : v.headWord = hd := by rw [mk_obj hmk, Val.headWord, hparts, h5]
    exact words_print hd _ he (hash_head r.h hd _ hrd (by
      have := List.all_eq_true.1 rows_hash r hr
      simpa using this)) (by rw [← e]; exact hlen) hst'⟩
  have hpre : cardPreprocess v.str = (hd ++ enc (Assign.flat (gv.map Val.words) ++ optWords (os.map (·.2.2))), []) := by
    rw [hstr, C18_wrap_roundtrip hd _ (fun w hw => by
      rcases List.mem_cons.1 hw with rfl | hw
      · exact he
      · exact (hst' w hw).entry) (fun w hw => (hst' w hw).low) (fun w hw => (hst' w hw).cnt), join_enc]
  have hmm : (os.map (fun x => (x.1, x.2.2))).map (·.2) = os.map (·.2.2) := by rw [List.map_map]; rfl
  rw [optcard_parse hr v.str hd (Assign.flat (gv.map Val.words)) (os.map (fun x => (x.1, x.2.2)))
    (by rw [hmm]; exact hpre) (by rw [hmm]; exact hws) (by rw [hmm]; exact hst') hlen
    (by intro hm h0; exact hne hm (List.map_eq_nil_iff.1 h0)) ho]
  have hread : readOwnedCard r.c r.h r.gs hd (Assign.flat (gv.map Val.words)) (os.map (fun x => (x.1, x.2.2))) = .ok v := by
    have f3' : readVals r.c.attrs.dropLast ((hv.map Val.text).map (·.map ([·])) ++ gv.map Val.words) = .ok (hv ++ gv) := by
      rw [← hw]; exact f3
    unfold readOwnedCard
    rw [hrd, hass]
    simp only
    rw [f3']
    simp only
    cases os with
    | nil => exact hmk
    | cons x os =>
      have := readOwned_vals (x :: os) hos
      simp only [List.map_cons] at this ⊢
      rw [this]
      exact hmk
  rw [hread]
  rfl

/-- A card made of readable values and options, each option with at least one entry and filled from the left, is read back
unchanged, if every printed option is the one its class finds. Missing: options without entries, with an unset entry before a
set one, or with nested options. -/
theorem C68_roundtrip_partial (r : OptRow) (hr : r ∈ optRows) (hv gv : List Val) (hh : HeadOk r.h hv)
    (hgv : ReadVals (r.c.attrs.dropLast.drop r.h.ng) gv) (hp : Present (r.gs.map (·.mode)) gv)
    (os : List (Cls × Val × Opt)) (hos : ∀ x ∈ os, OptVal x.1 x.2.1 x.2.2) (hne : r.mode = .many → os ≠ [])
    (ho : Owned r.plain (os.map (fun x => (x.1, x.2.2)))) (v : Val)
    (hmk : r.c.mk' (hv ++ gv ++ [optsVal (os.map (·.2.1))]) = .ok v) :
    cardParse r.c v.str = .ok (v, []) :=
  (option_round r hr hv gv hh hgv hp os hos hne ho v hmk).1

/-- `fmesh14:n geom cyl factor 2.5 imesh 10` is printed and read back. -/
example : ∃ v, Tab.Fmesh.mk' [.sc (.int (.num 14)), .sc (.desig ['n']),
      .tuple [.obj Tab.fmesh_Geom.info [.sc (.str c!"cyl")], .obj Tab.fmesh_Factor.info [.sc (.real (.num (.fin ⟨false, 25, -1⟩)))],
        .obj Tab.fmesh_Imesh.info [.tuple [.sc (.real (.num (.fin ⟨false, 10, 0⟩)))]]]] = .ok v ∧
    v.str = c!"fmesh14:n geom cyl factor 2.5 imesh 10" ∧ cardParse Tab.Fmesh v.str = .ok (v, []) := by
  refine ⟨_, rfl, by decide +kernel, ?_⟩
  refine C68_roundtrip_partial rowFmesh (by simp [optRows]) [.sc (.int (.num 14)), .sc (.desig ['n'])] []
    ?_ trivial trivial
    [(Tab.fmesh_Geom.plainly, .obj Tab.fmesh_Geom.info [.sc (.str c!"cyl")], (c!"geom", [c!"cyl"])),
     (Tab.fmesh_Factor, .obj Tab.fmesh_Factor.info [.sc (.real (.num (.fin ⟨false, 25, -1⟩)))], (c!"factor", [c!"2.5"])),
     (Tab.fmesh_Imesh, .obj Tab.fmesh_Imesh.info [.tuple [.sc (.real (.num (.fin ⟨false, 10, 0⟩)))]], (c!"imesh", [c!"10"]))]
    ?_ (by intro h; cases h) ?_ _ (by decide +kernel)
  · exact ⟨[], [.sc (.int (.num 14))], [.sc (.desig ['n'])], rfl, rfl, ⟨14, rfl⟩, ['n'], rfl, by decide +kernel, by decide, by decide, by decide⟩
  · intro x hx
    simp only [List.mem_cons, List.not_mem_nil, or_false] at hx
    rcases hx with rfl | rfl | rfl
    · refine ⟨⟨⟨.no, c!"geom", .no, .no⟩, _, [], [.sc (.str c!"cyl")], rfl, by decide +kernel,
        .inr ⟨by simp [Val.words], by simp only [Val.words]; decide +kernel, by simp [Val.words], trivial⟩, rfl,
        ⟨[], [], [], rfl, rfl, rfl, rfl⟩, ?_, ?_, ?_, by decide +kernel, by decide +kernel⟩, by decide, by decide +kernel, by decide, by decide, by decide⟩
      · exact ⟨⟨rfl, .str, rfl, by decide, by decide, by decide⟩, trivial⟩
      · exact ⟨.inr (.inr (by simp)), trivial⟩
      · exact trivial
    · refine ⟨⟨⟨.no, c!"factor", .no, .no⟩, _, [], [.sc (.real (.num (.fin ⟨false, 25, -1⟩)))], rfl, by decide +kernel, .inl (by decide +kernel), rfl,
        ⟨[], [], [], rfl, rfl, rfl, rfl⟩, ?_, ?_, ?_, by decide +kernel, by decide +kernel⟩, by decide, by decide +kernel, by decide, by decide, by decide⟩
      · exact ⟨⟨rfl, .real, rfl, trivial⟩, trivial⟩
      · exact ⟨.inr (.inr (by simp)), trivial⟩
      · exact trivial
    · refine ⟨⟨⟨.no, c!"imesh", .no, .no⟩, _, [], [.tuple [.sc (.real (.num (.fin ⟨false, 10, 0⟩)))]], rfl, by decide +kernel, .inl (by decide +kernel), rfl,
        ⟨[], [], [], rfl, rfl, rfl, rfl⟩, ?_, ?_, ?_, by decide +kernel, by decide +kernel⟩, by decide, by decide +kernel, by decide, by decide, by decide⟩
      · exact ⟨⟨rfl, by simp, .real, rfl, by simp [ReadSc]⟩, trivial⟩
      · exact ⟨.inr (.inr (by simp)), trivial⟩
      · intro m hm; cases hm
  · exact ⟨mem_plain Tab.fmesh_Geom (by simp [rowFmesh]), by decide +kernel, mem_plain Tab.fmesh_Factor (by simp [rowFmesh]), by decide +kernel,
      mem_plain Tab.fmesh_Imesh (by simp [rowFmesh]), by decide +kernel, trivial⟩

/-- A search for an option finds one of a class with the longest name among the classes whose options can begin there, so a
keyword is not cut short by another keyword that it begins with. -/
theorem C68_longest_first (r : OptRow) (hr : r ∈ optRows) (nm : String) (s : Str) (m : List (Nat × Str))
    (h : reMatch ((unionTy nm r.cs).re 1) s = some m) :
    ∃ c ∈ r.cs, ∃ t rest, cap m 0 = some t ∧ s = t ++ rest ∧ Full (c.pat.re 1) t ∧
      ∀ d ∈ r.cs, c.info.name.length < d.info.name.length → d.begins s = false := by
  obtain ⟨as, a, oc⟩ := optRows_ok r hr
  exact union_first nm r.cs oc.good s m h

/-- `origin 0 0 0` and what follows it. -/
example : (reMatch ((unionTy "fmesh.FmeshOption" rowFmesh.cs).re 1) c!"origin 0 0 0 imesh 10").map (cap · 0) =
    some (some c!"origin 0 0 0") := by decide +kernel

/-- A list after a keyword loses all but its first entry: the pattern of the list is lazy and nothing follows it when the
options are found one by one (types/Tuple.py:61).  `iints 5 10 20` is read as `iints 5`, `cell 1 2 3` as `cell 1`, and a
vector as its first component. -/
theorem C68_list_violated :
    (cardParse Tab.Fmesh c!"fmesh14:n iints 5 10 20").map (·.1.str) = .ok c!"fmesh14:n iints 5" ∧
    (cardParse Tab.Kpert c!"kpert1 cell 1 2 3 mat 4").map (·.1.str) = .ok c!"kpert1 cell 1 mat 4" ∧
    (cardParse Tab.Bfld c!"bfld1 const field 3 vec 1 0 0").map (·.1.str) = .ok c!"bfld1 const field 3 vec 1" := by
  decide +kernel

/-- A direction cosine that begins with `0` is read as distribution number zero: `0` is a distribution for the reader
(types/Distribution.py:17) and distributions are tried first (inp/sdef/__init__.py:20-22). -/
theorem C68_direction_violated :
    (cardParse Tab.Sdef c!"sdef dir 0.5 vec 0 0 1").map (·.1.str) = .ok c!"sdef dir d0 vec 0 0 1" ∧
    (cardParse Tab.Sdef c!"sdef dir 0").map (·.1.str) = .ok c!"sdef dir d0" := by
  decide +kernel

/-- A particle that depends on another variable loses its distribution: `fcel` is read as the name of a particle. -/
theorem C68_particle_violated :
    (cardParse Tab.Sdef c!"sdef par fcel d1").map (·.1.str) = .ok c!"sdef par fcel" := by
  decide +kernel

end Props
