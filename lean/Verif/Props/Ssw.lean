import Verif.Inp.SswRead
import Verif.Props.OptionCard
/-!
# C27 – surface source cards
-/
set_option maxRecDepth 100000
namespace Props
open Py Types Inp

/-- Reading a surface source card, however it is spaced: the first number is the only surface, all further numbers are cells,
and the options are read one by one. -/
theorem C27_ssw (a : Str) (ys : List Str) (os : List (Cls × Opt)) (g0 : Str) (l : List (Gap × Str)) (g1 : Str)
    (ht : Spaced g0 c!"ssw" l g1) (he : entries l = a :: (ys ++ optWords (os.map (·.2))))
    (ha : unitOk (.ty (.base .int)) a = true) (hy : ∀ w ∈ ys, unitOk (.ty (.base .int)) w = true)
    (ho : Owned sswOptions os) (hst : ∀ i ∈ os.map (·.2), Entry i.1 ∧ ∀ w ∈ i.2, Stable w) :
    cardParse Tab.Ssw (g0 ++ (c!"ssw" ++ (body l ++ g1))) = (readSsw [a] ys os).map (fun v => (v, [])) := by
  obtain ⟨h1, -, hw⟩ := spaced_prep ht
  rw [he] at h1 hw
  unfold cardParse
  rw [h1]
  simp only
  rw [← ssw_read a ys os hw.tail ha hy ho hst]
  cases reMatch Tab.Ssw.re (c!"ssw" ++ enc (a :: (ys ++ optWords (os.map (·.2))))) with
  | none => rfl
  | some m =>
    simp only
    cases Tab.Ssw.build m <;> rfl

/-- `ssw 1 2 3 sym 1`: one surface and two cells. -/
example : cardParse Tab.Ssw c!"ssw 1 2 3 sym 1" =
    .ok (.obj Tab.Ssw.info [.tuple [.sc (.int (.num 1))], .tuple [.sc (.int (.num 2)), .sc (.int (.num 3))],
      .tuple [.obj Tab.ssw_Sym.info [.sc (.int (.num 1))]]], []) := by
  have hsp := spaced_single c!"ssw" [c!"1", c!"2", c!"3", c!"sym", c!"1"] [] (by decide +kernel)
    (by
      intro w hw
      simp only [List.mem_cons, List.not_mem_nil, or_false] at hw
      rcases hw with rfl | rfl | rfl | rfl | rfl <;> exact ⟨by decide +kernel, by decide +kernel, by decide +kernel⟩) .nil
  have := C27_ssw c!"1" [c!"2", c!"3"] [(Tab.ssw_Sym, (c!"sym", [c!"1"]))] [] _ [] hsp.1 hsp.2 (by decide +kernel) (by decide +kernel)
    ⟨by simp [sswOptions], by decide +kernel, trivial⟩ (by
      intro i hi
      simp only [List.map_cons, List.map_nil, List.mem_singleton] at hi
      subst hi
      refine ⟨by decide +kernel, ?_⟩
      intro w hw
      simp only [List.mem_singleton] at hw
      subst hw
      exact ⟨by decide +kernel, by decide +kernel, by decide +kernel⟩)
  exact Eq.trans this (by decide +kernel)

/-- The card with words in place of its options. -/
def sswWordy : Cls :=
  { Tab.Ssw with shape := .flat sswHead [sswFirst, sswNext, ⟨.grp (.ty (.base .str)), .manyOpt⟩],
                 attrs := Tab.Ssw.attrs.take 2 ++ [⟨"options", .base .str, true, none⟩] }

/-- Whole numbers or shorthand that can stand in the lists. -/
def Wholes (xs : List Val) : Prop := ∀ v ∈ xs, ∃ s, v = .sc s ∧ ReadSc .int s

theorem listed_vals (a : Attr) (ha : a.many = true ∧ a.ty = .base .int) (xs : List Val) (hx : Wholes xs) : ReadVal a (optsVal xs) := by
  cases xs with
  | nil => trivial
  | cons x xs => exact ⟨ha.1, by simp, .int, ha.2, hx⟩

theorem listed_words (xs : List Val) : (optsVal xs).words = listed? (xs.map Val.str) := by
  cases xs with
  | nil => rfl
  | cons x xs => exact (if_neg (by simp)).symm

/-- A surface source card that is printed and read back keeps its numbers in their order and its options, but only its first
surface stays a surface: the others become the first cells. -/
theorem C27_ssw_round (x : Val) (xs ys : List Val) (os : List (Cls × Val × Opt)) (hx : Wholes (x :: xs)) (hy : Wholes ys)
    (hos : ∀ o ∈ os, OptVal o.1 o.2.1 o.2.2) (ho : Owned sswOptions (os.map (fun o => (o.1, o.2.2)))) :
    cardParse Tab.Ssw (Val.obj Tab.Ssw.info [.tuple (x :: xs), optsVal ys, optsVal (os.map (·.2.1))]).str =
      .ok (.obj Tab.Ssw.info [.tuple [x], optsVal (xs ++ ys), optsVal (os.map (·.2.1))], []) := by
  have hxy : Wholes (xs ++ ys) := by
    intro v hv
    rcases List.mem_append.1 hv with h | h
    · exact hx v (List.mem_cons_of_mem _ h)
    · exact hy v h
  have hstw : ∀ w ∈ optWords (os.map (·.2.2)), Stable w := by
    intro w hw
    obtain ⟨i, hi, hw⟩ := List.mem_flatMap.1 hw
    obtain ⟨o, ho, rfl⟩ := List.mem_map.1 hi
    rcases List.mem_cons.1 hw with rfl | hw
    · exact (hos o ho).first
    · exact (optval_facts (hos o ho)).2.1 w hw
  have hwv : ReadVal ⟨"options", .base .str, true, none⟩ (optsVal ((optWords (os.map (·.2.2))).map (fun w => .sc (.str w)))) := by
    cases hl : optWords (os.map (·.2.2)) with
    | nil => exact trivial
    | cons w ws =>
      refine ⟨rfl, by simp, .str, rfl, ?_⟩
      intro v hv
      obtain ⟨w', hw', rfl⟩ := List.mem_map.1 hv
      exact ⟨_, rfl, hstw w' (by rw [hl]; exact hw')⟩
  have hrw : ReadVals (sswWordy.attrs.drop sswHead.ng)
      [.tuple (x :: xs), optsVal ys, optsVal ((optWords (os.map (·.2.2))).map (fun w => .sc (.str w)))] :=
    ⟨listed_vals _ ⟨rfl, rfl⟩ (x :: xs) hx, listed_vals _ ⟨rfl, rfl⟩ ys hy, hwv, trivial⟩
  obtain ⟨hd, he, hst', h5, hb, hrd, -⟩ := std_facts sswWordy sswHead [sswFirst, sswNext, ⟨.grp (.ty (.base .str)), .manyOpt⟩] (by decide +kernel) [] _ ⟨[], [], [], rfl, rfl, rfl, rfl⟩ hrw
  have hhd : hd = c!"ssw" := by
    rw [← h5]
    rfl
  subst hhd
  have hflat : Assign.flat (([.tuple (x :: xs), optsVal ys, optsVal ((optWords (os.map (·.2.2))).map (fun w => .sc (.str w)))] : List Val).map Val.words) =
      x.str :: ((xs ++ ys).map Val.str ++ optWords (os.map (·.2.2))) := by
    simp only [List.map_cons, List.map_nil, listed_words, Assign.flat, List.flatMap_cons, List.flatMap_nil, List.append_nil]
    have e : ∀ l : List Str, (listed? l).getD [] = l := by
      intro l
      cases l with
      | nil => rfl
      | cons y l => rw [show listed? (y :: l) = some (y :: l) from if_neg (by simp)]; rfl
    have e2 : (optWords (os.map (·.2.2))).map (fun w => (Val.sc (.str w)).str) = optWords (os.map (·.2.2)) :=
      (List.map_congr_left (fun y _ => rfl)).trans (List.map_id _)
    rw [e, e, List.map_map]
    simp only [Function.comp_def, e2, Val.words, Option.getD_some, List.map_cons, List.map_append, List.cons_append, List.append_assoc]
  rw [hflat] at hst' hb
  have hws : Words (c!"ssw" :: (x.str :: ((xs ++ ys).map Val.str ++ optWords (os.map (·.2.2))))) := by
    intro w hw
    rcases List.mem_cons.1 hw with rfl | hw
    · exact ⟨he.sp, he.ne⟩
    · exact ⟨(hst' w hw).entry.sp, (hst' w hw).entry.ne⟩
  have hparts : Val.parts [.tuple (x :: xs), optsVal ys, optsVal (os.map (·.2.1))] =
      Val.parts ([] ++ [.tuple (x :: xs), optsVal ys, optsVal ((optWords (os.map (·.2.2))).map (fun w => .sc (.str w)))]) := by
    rw [Val.parts_eq, Val.parts_eq]
    simp only [List.nil_append, List.map_cons, List.map_nil]
    rw [optsVal_text os hos]
  have hinfo : sswWordy.info = Tab.Ssw.info := rfl
  rw [hinfo] at h5 hb
  have hstr : (Val.obj Tab.Ssw.info [.tuple (x :: xs), optsVal ys, optsVal (os.map (·.2.1))]).str =
      postprocess (join [' '] (c!"ssw" :: (x.str :: ((xs ++ ys).map Val.str ++ optWords (os.map (·.2.2)))))) := by
    rw [obj_str]
    unfold objStr
    rw [show Tab.Ssw.info.style = .card from rfl]
    simp only
    rw [hparts, h5, hb, strip_text _ _ hws]
  have hpre := C18_wrap_roundtrip c!"ssw" (x.str :: ((xs ++ ys).map Val.str ++ optWords (os.map (·.2.2)))) (fun w hw => by
      rcases List.mem_cons.1 hw with rfl | hw
      · exact he
      · exact (hst' w hw).entry) (fun w hw => (hst' w hw).low) (fun w hw => (hst' w hw).cnt)
  rw [← hstr, join_enc] at hpre
  have hmm : (os.map (fun o => (o.1, o.2.2))).map (·.2) = os.map (·.2.2) := by rw [List.map_map]; rfl
  have hrv : ReadVals (Tab.Ssw.attrs.take 2) [.tuple [x], optsVal (xs ++ ys)] :=
    ⟨listed_vals _ ⟨rfl, rfl⟩ [x] (fun v hv => hx v (by simp only [List.mem_singleton] at hv; simp [hv])), listed_vals _ ⟨rfl, rfl⟩ _ hxy, trivial⟩
  have hfit := fits_vals (Tab.Ssw.attrs.take 2) [sswFirst, sswNext] _ (by decide +kernel) (by decide +kernel) hrv
    ⟨.inr (.inr (by simp)), .inr (.inl rfl), trivial⟩
  simp only [List.map_cons, List.map_nil, Field.spec, listed_words] at hfit
  have ha : unitOk (.ty (.base .int)) x.str = true := hfit.2.1 _ (by simp [Val.words])
  have hyy : ∀ w ∈ (xs ++ ys).map Val.str, unitOk (.ty (.base .int)) w = true := by
    cases hl : (xs ++ ys).map Val.str with
    | nil => simp
    | cons w ws =>
      rw [hl] at hfit
      exact hfit.2.2.2.2.1
  have hread := ssw_read x.str ((xs ++ ys).map Val.str) (os.map (fun o => (o.1, o.2.2))) (by rw [hmm]; exact hws.tail) ha hyy ho (by
    rw [hmm]
    intro i hi
    have hm : ∀ w ∈ i.1 :: i.2, Stable w := fun w hw => hstw w (List.mem_flatMap.2 ⟨i, hi, hw⟩)
    exact ⟨(hm i.1 (by simp)).entry, fun w hw => hm w (by simp [hw])⟩)
  rw [hmm] at hread
  have hval : readSsw [x.str] ((xs ++ ys).map Val.str) (os.map (fun o => (o.1, o.2.2))) =
      .ok (.obj Tab.Ssw.info [.tuple [x], optsVal (xs ++ ys), optsVal (os.map (·.2.1))]) := by
    have h1 := (vals_round hrv).1
    simp only [List.map_cons, List.map_nil, listed_words] at h1
    unfold readSsw
    rw [show listed? [x.str] = (Val.tuple [x]).words from if_neg (by simp), h1]
    have h2 : optionsVal (os.map (fun o => (o.1, o.2.2))) = .ok (optsVal (os.map (·.2.1))) := by
      cases os with
      | nil => rfl
      | cons o os =>
        have := readOwned_vals (o :: os) hos
        simp only [List.map_cons, optionsVal] at this ⊢
        rw [this]
        rfl
    rw [h2]
    rfl
  unfold cardParse
  rw [hpre]
  simp only
  cases hm : reMatch Tab.Ssw.re (c!"ssw" ++ enc (x.str :: ((xs ++ ys).map Val.str ++ optWords (os.map (·.2.2))))) with
  | none => rw [hm, hval] at hread; cases hread
  | some m =>
    rw [hm, hval] at hread
    simp only at hread ⊢
    rw [hread]

/-- So a printed surface source card is read back unchanged if and only if it has one surface. -/
theorem C27_ssw_exact (x : Val) (xs ys : List Val) (os : List (Cls × Val × Opt)) (hx : Wholes (x :: xs)) (hy : Wholes ys)
    (hos : ∀ o ∈ os, OptVal o.1 o.2.1 o.2.2) (ho : Owned sswOptions (os.map (fun o => (o.1, o.2.2)))) :
    cardParse Tab.Ssw (Val.obj Tab.Ssw.info [.tuple (x :: xs), optsVal ys, optsVal (os.map (·.2.1))]).str =
      .ok (.obj Tab.Ssw.info [.tuple (x :: xs), optsVal ys, optsVal (os.map (·.2.1))], []) ↔ xs = [] := by
  rw [C27_ssw_round x xs ys os hx hy hos ho]
  constructor
  · intro h
    simp only [Except.ok.injEq, Prod.mk.injEq, Val.obj.injEq, List.cons.injEq, Val.tuple.injEq, true_and] at h
    exact h.1.1.symm
  · rintro rfl
    rfl

/-- Any numbers, with the option `sym 1`. -/
example (x : Int) (xs ys : List Int) :
    cardParse Tab.Ssw (Val.obj Tab.Ssw.info [.tuple ((x :: xs).map (fun n => .sc (.int (.num n)))), optsVal (ys.map (fun n => .sc (.int (.num n)))),
        .tuple [.obj Tab.ssw_Sym.info [.sc (.int (.num 1))]]]).str =
      .ok (.obj Tab.Ssw.info [.tuple ((x :: xs).map (fun n => .sc (.int (.num n)))), optsVal (ys.map (fun n => .sc (.int (.num n)))),
        .tuple [.obj Tab.ssw_Sym.info [.sc (.int (.num 1))]]], []) ↔ xs = [] := by
  have hn : ∀ l : List Int, Wholes (l.map (fun n => .sc (.int (.num n)))) := by
    intro l v hv
    obtain ⟨n, -, rfl⟩ := List.mem_map.1 hv
    exact ⟨_, rfl, trivial⟩
  have := C27_ssw_exact (.sc (.int (.num x))) (xs.map (fun n => .sc (.int (.num n)))) (ys.map (fun n => .sc (.int (.num n))))
    [(Tab.ssw_Sym, .obj Tab.ssw_Sym.info [.sc (.int (.num 1))], (c!"sym", [c!"1"]))] (hn (x :: xs)) (hn ys) (by
      intro o ho
      simp only [List.mem_singleton] at ho
      subst ho
      refine ⟨⟨⟨.no, c!"sym", .no, .no⟩, _, [], [.sc (.int (.num 1))], rfl, by decide +kernel, .inl (by decide +kernel), rfl,
        ⟨[], [], [], rfl, rfl, rfl, rfl⟩, ⟨⟨rfl, .int, rfl, trivial⟩, trivial⟩, ⟨.inr (.inr (by simp)), trivial⟩, trivial, by decide +kernel,
        by decide +kernel⟩, by decide, by decide +kernel, by decide +kernel, by decide +kernel, by decide +kernel⟩)
    ⟨by simp [sswOptions], by decide +kernel, trivial⟩
  rw [List.map_eq_nil_iff] at this
  exact this

end Props
