import Verif.Inp.OptionLost
import Verif.Props.LikeCard
/-!
# C69, C72 – lists in the options of cells
-/
set_option maxRecDepth 100000
namespace Props
open Py Types Inp

/-- The options of a card as an attribute. -/
def longVal (os : List Long) : Res Val := if os = [] then .ok .none else (readOwned (cutShort os)).map .tuple

theorem long_tuple (cs : List Cls) (hg : ∀ c ∈ cs, c.pat.Good) (hb : ∀ c ∈ cs, c.pat.nb = true) (n1 : (cs.map (·.info.name)).Nodup)
    (n2 : ((sortLen cs).map (·.info.name)).Nodup) (os : List Long) (ho : OwnedLong cs os) (hst : ∀ w ∈ longWords os, Stable w)
    (nm : String) (hd : Str) (ws : List Str) (js : List Opt) (h : os.map (fun x => (x.2.1.1, x.2.1.2 ++ x.2.2)) = (hd, ws) :: js) :
    tupleParse (unionTy nm cs) (hd ++ enc (ws ++ optWords js)) = longVal os := by
  cases os with
  | nil => cases h
  | cons x os =>
    obtain ⟨c, ⟨hd', ws'⟩, ex⟩ := x
    simp only [List.map_cons, List.cons.injEq, Prod.mk.injEq] at h
    obtain ⟨⟨rfl, rfl⟩, rfl⟩ := h
    rw [← longWords_opts, List.append_assoc]
    have hwl : Words (longWords ((c, (hd', ws'), ex) :: os)) := fun w h => ⟨(hst w h).entry.sp, (hst w h).entry.ne⟩
    unfold tupleParse longVal
    have e1 : (unionTy nm cs).re 1 = altsRe (sortLen cs) 1 := rfl
    have e2 : (unionTy nm cs).parse = unionParse cs := rfl
    have := long_split cs hg hb n1 n2 os c hd' ws' ex hwl ho [] _ (Nat.le_refl _)
    rw [e1, e2]
    have e3 : finditer (altsRe (sortLen cs) 1) (hd' ++ enc (ws' ++ (ex ++ longWords os))) =
        ((c, (hd', ws'), ex) :: os).map (fun x => x.2.1.1 ++ enc x.2.1.2) := this
    rw [e3, long_mapM cs hg n1 n2 _ ho hst]
    simp

theorem readCell_with (n m : Str) (d : Option Str) (gws : List Str) (os : List Long) :
    readCellWith n m d gws (longVal os) = readCell n m d gws (cutShort os) := by
  unfold readCellWith readCell
  cases intParse n with
  | error e => rfl
  | ok nv =>
    cases intParse m with
    | error e => rfl
    | ok mv =>
      simp only
      cases readVal ⟨"density", .base .real, false, none⟩ (d.map ([·])) with
      | error e => rfl
      | ok dv =>
        cases geoParse (join [' '] gws) with
        | error e => rfl
        | ok gv =>
          cases os with
          | nil => rfl
          | cons o os =>
            simp only [longVal, cutShort, List.map_cons, reduceCtorEq, if_false]
            cases readOwned ((o.1, o.2.1) :: os.map (fun x => (x.1, x.2.1))) with
            | error e => rfl
            | ok ys => rfl

theorem readLike_with (n m : Str) (os : List Long) : readLikeWith n m (longVal os) = readLike n m (cutShort os) := by
  unfold readLikeWith readLike
  cases intParse n with
  | error e => rfl
  | ok nv =>
    cases intParse m with
    | error e => rfl
    | ok mv =>
      cases os with
      | nil => rfl
      | cons o os =>
        simp only [longVal, cutShort, List.map_cons, reduceCtorEq, if_false]
        cases readOwned ((o.1, o.2.1) :: os.map (fun x => (x.1, x.2.1))) with
        | error e => rfl
        | ok ys => rfl

/-- The entries after those that an option of a cell is found with are lost without an error: the cell is read as if they were
not there, whatever blank space and line breaks separate the entries. -/
theorem C69_lists_lost (g0 n : Str) (l : List (Gap × Str)) (g1 : Str) (h : Spaced g0 n l g1)
    (m : Str) (d : Option Str) (gws : List Str) (os : List Long)
    (he : entries l = m :: (d.toList ++ (gws ++ longWords os)))
    (hd : d = none ↔ m = c!"0") (hg : gws ≠ []) (hgw : ∀ w ∈ gws, geoWord w = true) (ho : OwnedLong cellOptions os) :
    cardParse Tab.Cell (g0 ++ (n ++ (body l ++ g1))) = (readCell n m d gws (cutShort os)).map (fun v => (v, [])) := by
  obtain ⟨h1, -, hw⟩ := spaced_prep h
  have hst := entries_stable h
  rw [he] at h1 hw hst
  have hsl : ∀ w ∈ longWords os, Stable w := fun w hx => hst w (by simp [hx])
  have hwl : Words (longWords os) := fun w h => ⟨(hsl w h).entry.sp, (hsl w h).entry.ne⟩
  have key := cell_read_with n m d gws (os.map (fun x => (x.2.1.1, x.2.1.2 ++ x.2.2))) (longVal os)
    (by rw [← longWords_opts]; exact hw) hd hg hgw (long_fulls cellOptions_good os ho hwl)
    (by
      intro i hi
      cases os with
      | nil => cases hi
      | cons o os =>
        obtain ⟨c, ⟨hd', ws'⟩, ex⟩ := o
        simp only [List.map_cons, List.head?_cons, Option.mem_def, Option.some.injEq] at hi
        subst hi
        obtain ⟨hc, ho1, -⟩ := ho
        unfold owns at ho1
        rw [Bool.and_eq_true] at ho1
        exact takes_start hc ho1.1)
    (by intro h0; rw [List.map_eq_nil_iff.1 h0]; rfl)
    (long_tuple cellOptions cellOptions_good cellOptions_nb cellOptions_names.1 cellOptions_names.2 os ho hsl)
  rw [← longWords_opts, readCell_with] at key
  unfold cardParse
  rw [h1]
  simp only
  rw [← key]
  cases reMatch Tab.Cell.re (n ++ enc (m :: (d.toList ++ (gws ++ longWords os)))) with
  | none => rfl
  | some x =>
    simp only
    cases Tab.Cell.build x <;> rfl

/-- The same for `like` cards. -/
theorem C72_lists_lost (g0 n : Str) (l : List (Gap × Str)) (g1 : Str) (h : Spaced g0 n l g1)
    (lk m bt : Str) (os : List Long) (he : entries l = lk :: m :: bt :: longWords os)
    (e1 : lower lk = c!"like") (e2 : lower bt = c!"but") (ho : OwnedLong likeOptions os) :
    cardParse Tab.Like (g0 ++ (n ++ (body l ++ g1))) = (readLike n m (cutShort os)).map (fun v => (v, [])) := by
  obtain ⟨h1, -, hw⟩ := spaced_prep h
  have hst := entries_stable h
  rw [he] at h1 hw hst
  have hsl : ∀ w ∈ longWords os, Stable w := fun w hx => hst w (by simp [hx])
  have hwl : Words (longWords os) := fun w h => ⟨(hsl w h).entry.sp, (hsl w h).entry.ne⟩
  have key := like_read_with n lk m bt (os.map (fun x => (x.2.1.1, x.2.1.2 ++ x.2.2))) (longVal os)
    (by rw [← longWords_opts]; exact hw) e1 e2 (long_fulls likeOptions_good os ho hwl)
    (by intro h0; rw [List.map_eq_nil_iff.1 h0]; rfl)
    (long_tuple likeOptions likeOptions_good likeOptions_nb likeOptions_names.1 likeOptions_names.2 os ho hsl)
  rw [← longWords_opts, readLike_with] at key
  unfold cardParse
  rw [h1]
  simp only
  rw [← key]
  cases reMatch Tab.Like.re (n ++ enc (lk :: m :: bt :: longWords os)) with
  | none => rfl
  | some x =>
    simp only
    cases Tab.Like.build x <;> rfl

/-- `3 0 -1 tmp1 2 3 4 u 5` is read as `3 0 -1 tmp1 2 u 5`. -/
example : cardParse Tab.Cell c!"3 0 -1 tmp1 2 3 4 u 5" =
    (readCell c!"3" c!"0" none [c!"-1"] [(Tab.cell_Tmp, (c!"tmp1", [c!"2"])), (Tab.cell_U, (c!"u", [c!"5"]))]).map (fun v => (v, [])) := by
  have hsp := spaced_single c!"3" [c!"0", c!"-1", c!"tmp1", c!"2", c!"3", c!"4", c!"u", c!"5"] [] (by decide +kernel)
    (by
      intro w hw
      simp only [List.mem_cons, List.not_mem_nil, or_false] at hw
      rcases hw with rfl | rfl | rfl | rfl | rfl | rfl | rfl | rfl <;> exact ⟨by decide +kernel, by decide +kernel, by decide +kernel⟩) .nil
  exact C69_lists_lost [] c!"3" _ [] hsp.1 c!"0" none [c!"-1"]
    [(Tab.cell_Tmp, (c!"tmp1", [c!"2"]), [c!"3", c!"4"]), (Tab.cell_U, (c!"u", [c!"5"]), [])] hsp.2 (by simp) (by simp) (by decide +kernel)
    ⟨by simp [cellOptions], by decide +kernel, by decide +kernel, by decide +kernel,
      by simp [cellOptions], by decide +kernel, by decide +kernel, by decide +kernel, trivial⟩

/-- … and that is printed without the lost temperatures. -/
example : (readCell c!"3" c!"0" none [c!"-1"] [(Tab.cell_Tmp, (c!"tmp1", [c!"2"])), (Tab.cell_U, (c!"u", [c!"5"]))]).map Val.str =
    .ok c!"3 0  -1 tmp1 2 u 5" := by decide +kernel

/-- `3 like 2 but tmp1 2 3` is read as `3 like 2 but tmp1 2`. -/
example : cardParse Tab.Like c!"3 like 2 but tmp1 2 3" =
    (readLike c!"3" c!"2" [(Tab.like_Tmp, (c!"tmp1", [c!"2"]))]).map (fun v => (v, [])) := by
  have hsp := spaced_single c!"3" [c!"like", c!"2", c!"but", c!"tmp1", c!"2", c!"3"] [] (by decide +kernel)
    (by
      intro w hw
      simp only [List.mem_cons, List.not_mem_nil, or_false] at hw
      rcases hw with rfl | rfl | rfl | rfl | rfl | rfl <;> exact ⟨by decide +kernel, by decide +kernel, by decide +kernel⟩) .nil
  exact C72_lists_lost [] c!"3" _ [] hsp.1 c!"like" c!"2" c!"but"
    [(Tab.like_Tmp, (c!"tmp1", [c!"2"]), [c!"3"])] hsp.2 (by decide) (by decide)
    ⟨by simp [likeOptions], by decide +kernel, by decide +kernel, by decide +kernel, trivial⟩

end Props
