import Verif.Inp.LikeRead
import Verif.Props.CellCard
/-!
# `like` cards: C72

`readLike` and `likeOptions` are specified in `Verif/Inp/LikeSpec.lean`, `Owned` in `Verif/Inp/OptionSpec.lean`.
-/
set_option maxRecDepth 100000
namespace Props
open Py Types Inp

/-! ## C72 – `like` cards are read entry by entry and round trip -/

theorem like_parse (s n lk m bt : Str) (os : List (Cls × Opt))
    (hp : cardPreprocess s = (n ++ enc (lk :: m :: bt :: optWords (os.map (·.2))), []))
    (hn : Entry n) (hs : ∀ w ∈ lk :: m :: bt :: optWords (os.map (·.2)), Stable w)
    (h1 : lower lk = c!"like") (h2 : lower bt = c!"but") (ho : Owned likeOptions os) :
    cardParse Tab.Like s = (readLike n m os).map (fun v => (v, [])) := by
  have := like_read n lk m bt os hn hs h1 h2 ho
  unfold cardParse
  rw [hp]
  simp only
  rw [← this]
  cases reMatch Tab.Like.re (n ++ enc (lk :: m :: bt :: optWords (os.map (·.2)))) with
  | none => rfl
  | some x =>
    simp only
    cases Tab.Like.build x <;> rfl

/-- A `like` card is read as its entries say, in any case and whatever blank space and line breaks separate them: number, `like`, the other
cell, `but`, then the options one by one. Missing: options that the patterns cut short, for which the claim is false as in
`C69_violated`. -/
theorem C72_read_partial (g0 n : Str) (l : List (Gap × Str)) (g1 : Str) (h : Spaced g0 n l g1)
    (lk m bt : Str) (os : List (Cls × Opt)) (he : entries l = lk :: m :: bt :: optWords (os.map (·.2)))
    (h1 : lower lk = c!"like") (h2 : lower bt = c!"but") (ho : Owned likeOptions os) :
    cardParse Tab.Like (g0 ++ (n ++ (body l ++ g1))) = (readLike n m os).map (fun v => (v, [])) := by
  obtain ⟨h0, -, -⟩ := spaced_prep h
  have hst := entries_stable h
  rw [he] at h0 hst
  exact like_parse _ n lk m bt os h0 h.word hst h1 h2 ho

/-- `7 LIKE 3  BUT &⏎ imp:n 1 mat 5`. -/
example : cardParse Tab.Like c!"7 LIKE 3  BUT &\n imp:n 1 mat 5" =
    (readLike c!"7" c!"3" [(Tab.like_Imp, c!"imp:n", [c!"1"]), (Tab.like_Mat, c!"mat", [c!"5"])]).map (fun v => (v, [])) := by
  have := C72_read_partial [] c!"7" [(.ws c!" ", c!"LIKE"), (.ws c!" ", c!"3"), (.ws c!"  ", c!"BUT"), (.ws c!" &\n ", c!"imp:n"),
    (.ws c!" ", c!"1"), (.ws c!" ", c!"mat"), (.ws c!" ", c!"5")] [] ⟨.nil, by decide, by
      intro x hx
      simp only [List.mem_cons, List.not_mem_nil, or_false] at hx
      rcases hx with rfl | rfl | rfl | rfl | rfl | rfl | rfl
      · exact ⟨⟨.sp .nil, by simp⟩, by decide⟩
      · exact ⟨⟨.sp .nil, by simp⟩, by decide⟩
      · exact ⟨⟨.sp (.sp .nil), by simp⟩, by decide⟩
      · exact ⟨⟨.sp (.amp 0 (.sp .nil)), by simp⟩, by decide⟩
      · exact ⟨⟨.sp .nil, by simp⟩, by decide⟩
      · exact ⟨⟨.sp .nil, by simp⟩, by decide⟩
      · exact ⟨⟨.sp .nil, by simp⟩, by decide⟩, .nil, by decide, by decide, by decide⟩
    c!"LIKE" c!"3" c!"BUT" [(Tab.like_Imp, c!"imp:n", [c!"1"]), (Tab.like_Mat, c!"mat", [c!"5"])]
    (by decide +kernel) (by decide) (by decide)
    ⟨by simp [likeOptions], by decide +kernel, by simp [likeOptions], by decide +kernel, trivial⟩
  exact this

/-- … and that is a card with these parts. -/
example : (readLike c!"7" c!"3" [(Tab.like_Imp, c!"imp:n", [c!"1"]), (Tab.like_Mat, c!"mat", [c!"5"])]).map Val.str =
    .ok c!"7 like 3 but imp:n 1 mat 5" := by decide +kernel

/-- What the constructor guarantees. -/
theorem C72_range (n m : Int) (o v : Val)
    (h : Tab.Like.mk' [.sc (.int (.num n)), .sc (.int (.num m)), o] = .ok v) :
    (1 ≤ n ∧ n ≤ 99999999) ∧ (1 ≤ m ∧ m ≤ 99999999) := by
  have hrun : runInit (Tab.Like.attrs.zip [.sc (.int (.num n)), .sc (.int (.num m)), o]) []
      ["number", "cell", "options"] = .ok () := by
    unfold Cls.mk' at h
    split at h
    · cases h
    · assumption
  obtain ⟨a, x, env, hf, hs, hrun⟩ := init_cons hrun
  have hf' : some (⟨"number", (.base .int), false, (some (.or .isNone (.not (.and (.cmp .ge (1) 0) (.cmp .le (99999999) 0)))))⟩,
    Val.sc (.int (.num n))) = some (a, x) := hf
  cases hf'
  obtain ⟨rfl, h1⟩ := set_ok hs
  have h1 := h1 _ rfl
  obtain ⟨a, x, env, hf, hs, hrun⟩ := init_cons hrun
  have hf' : some (⟨"cell", (.base .int), false, (some (.or .isNone (.not (.and (.cmp .ge (1) 0) (.cmp .le (99999999) 0)))))⟩,
    Val.sc (.int (.num m))) = some (a, x) := hf
  cases hf'
  obtain ⟨-, h2⟩ := set_ok hs
  have h2 := h2 _ rfl
  refine ⟨?_, ?_⟩
  · have e : (Chk.eval [] (.sc (.int (.num n))) (.and (.cmp .ge 1 0) (.cmp .le 99999999 0))).map (!·) = .ok false := h1
    rw [range_eval] at e
    simpa [Except.map] using e
  · have e : (Chk.eval [("number", .sc (.int (.num n)))] (.sc (.int (.num m))) (.and (.cmp .ge 1 0) (.cmp .le 99999999 0))).map (!·) = .ok false := h2
    rw [range_eval] at e
    simpa [Except.map] using e

/-- Both limits. -/
example : ∃ v, Tab.Like.mk' [.sc (.int (.num 99999999)), .sc (.int (.num 1)), .none] = .ok v := ⟨_, rfl⟩

/-- How a `like` card prints, as words, and what the reader makes of it. -/
theorem like_text (n m : Int) (os : List (Cls × Val × Opt)) (hos : ∀ x ∈ os, OptVal x.1 x.2.1 x.2.2) (v : Val)
    (hmk : Tab.Like.mk' [.sc (.int (.num n)), .sc (.int (.num m)), optsVal (os.map (·.2.1))] = .ok v) :
    (∀ w ∈ c!"like" :: intStr m :: c!"but" :: optWords (os.map (·.2.2)), Stable w) ∧
    cardPreprocess v.str = (intStr n ++ enc (c!"like" :: intStr m :: c!"but" :: optWords (os.map (·.2.2))), []) ∧
    ∃ ws, CardWords ws ∧ v.str = printWords ws := by
  obtain ⟨hnr, -⟩ := C72_range _ _ _ _ hmk
  have hn := plain_int n
  have hstw : ∀ w ∈ optWords (os.map (·.2.2)), Stable w := by
    intro w hw
    obtain ⟨i, hi, hw⟩ := List.mem_flatMap.1 hw
    obtain ⟨x, hx, rfl⟩ := List.mem_map.1 hi
    rcases List.mem_cons.1 hw with rfl | hw
    · exact (hos x hx).first
    · exact (optval_facts (hos x hx)).2.1 w hw
  have hst : ∀ w ∈ c!"like" :: intStr m :: c!"but" :: optWords (os.map (·.2.2)), Stable w := by
    intro x hx
    simp only [List.mem_cons] at hx
    rcases hx with rfl | rfl | rfl | hx
    · exact ⟨by decide, by decide, by decide⟩
    · exact plain_int m
    · exact ⟨by decide, by decide, by decide⟩
    · exact hstw x hx
  have hoT : orNil (optsVal (os.map (·.2.1))).text = join [' '] (optWords (os.map (·.2.2))) := by
    rw [optsVal_text os hos]
    cases h : optWords (os.map (·.2.2)) with
    | nil => rfl
    | cons y ys =>
      have e : (optsVal ((y :: ys).map (fun w => Val.sc (.str w)))).text = some (join [' '] ((Val.parts ((y :: ys).map (fun w => Val.sc (.str w)))).map orNil)) := rfl
      rw [e, Val.parts_eq, List.map_map, List.map_map]
      exact congrArg (join [' ']) ((List.map_congr_left (fun y _ => rfl)).trans (List.map_id _))
  have hstr : v.str = postprocess (intStr n ++ c!" like " ++ intStr m ++ c!" but " ++ join [' '] (optWords (os.map (·.2.2)))) := by
    rw [mk_obj hmk, obj_str]
    show objStr ⟨"Like", .like, c!"", ["number", "cell", "options"]⟩ _ = _
    simp only [Val.parts]
    rw [← hoT]
    rfl
  have htail : ∃ tl, (tl = [] ∨ tl = [[]]) ∧ v.str =
      postprocess (intStr n ++ enc ([] ++ ((c!"like" :: intStr m :: c!"but" :: optWords (os.map (·.2.2))) ++ tl))) := by
    rw [hstr]
    cases h : optWords (os.map (·.2.2)) with
    | nil => exact ⟨[[]], .inr rfl, by simp [join]⟩
    | cons y ys => exact ⟨[], .inl rfl, by simp [join_enc_cons]⟩
  obtain ⟨tl, htl, hstr'⟩ := htail
  refine ⟨hst, ?_, ?_⟩
  · rw [hstr', blank_roundtrip (intStr n) [] _ tl hn.entry (by simp) hst htl]
    rfl
  · rw [hstr']
    exact blank_words _ _ _ _ ⟨hn.entry, int_hash n⟩ (int_short n (by omega)) (by simp) hst htl

/-- Every printed `like` card is read back unchanged: any numbers the constructor accepts, and options with at least
one entry and filled from the left, if every printed option is the one its class finds. Missing: options without entries or
with an unset entry before a set one. -/
theorem C72_roundtrip_partial (n m : Int) (os : List (Cls × Val × Opt)) (hos : ∀ x ∈ os, OptVal x.1 x.2.1 x.2.2)
    (ho : Owned likeOptions (os.map (fun x => (x.1, x.2.2)))) (v : Val)
    (hmk : Tab.Like.mk' [.sc (.int (.num n)), .sc (.int (.num m)), optsVal (os.map (·.2.1))] = .ok v) :
    cardParse Tab.Like v.str = .ok (v, []) := by
  obtain ⟨hst, hpre, -⟩ := like_text n m os hos v hmk
  have hmm : (os.map (fun x => (x.1, x.2.2))).map (·.2) = os.map (·.2.2) := by rw [List.map_map]; rfl
  rw [like_parse v.str (intStr n) c!"like" (intStr m) c!"but" (os.map (fun x => (x.1, x.2.2))) (by rw [hmm]; exact hpre) (plain_int n).entry
    (by rw [hmm]; exact hst) (by decide) (by decide) ho]
  have hread : readLike (intStr n) (intStr m) (os.map (fun x => (x.1, x.2.2))) = .ok v := by
    have e1 : intParse (intStr n) = .ok (.num n) := C02_integer_roundtrip n
    have e2 : intParse (intStr m) = .ok (.num m) := C02_integer_roundtrip m
    unfold readLike
    rw [e1]; simp only
    rw [e2]; simp only
    cases os with
    | nil => exact hmk
    | cons x os =>
      have := readOwned_vals (x :: os) hos
      simp only [List.map_cons] at this ⊢
      rw [this]
      exact hmk
  rw [hread]
  rfl

/-- `7 like 3 but mat 5` is printed and read back. -/
example : ∃ v, Tab.Like.mk' [.sc (.int (.num 7)), .sc (.int (.num 3)),
      .tuple [.obj Tab.like_Mat.info [.sc (.int (.num 5))]]] = .ok v ∧
    v.str = c!"7 like 3 but mat 5" ∧ cardParse Tab.Like v.str = .ok (v, []) := by
  refine ⟨_, rfl, by decide +kernel, ?_⟩
  refine C72_roundtrip_partial 7 3
    [(Tab.like_Mat, .obj Tab.like_Mat.info [.sc (.int (.num 5))], (c!"mat", [c!"5"]))] ?_ ?_ _ (by decide +kernel)
  · intro x hx
    simp only [List.mem_cons, List.not_mem_nil, or_false] at hx
    subst hx
    refine ⟨⟨⟨.no, c!"mat", .no, .no⟩, _, [], [.sc (.int (.num 5))], rfl, by decide +kernel, .inl (by decide +kernel), rfl,
        ⟨[], [], [], rfl, rfl, rfl, rfl⟩, ?_, ?_, ?_, by decide +kernel, by decide +kernel⟩, by decide, by decide +kernel, by decide, by decide, by decide⟩
    · exact ⟨⟨rfl, .int, rfl, trivial⟩, trivial⟩
    · exact ⟨.inr (.inr (by simp)), trivial⟩
    · exact trivial
  · exact ⟨by simp [likeOptions], by decide +kernel, trivial⟩

end Props
