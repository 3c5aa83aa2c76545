import Verif.Inp.LikeSpec
import Verif.Inp.CellRead
/-!
# `like` cards are read entry by entry
-/
set_option maxRecDepth 100000
namespace Inp
open Py Types

theorem likeOptions_good : ∀ c ∈ likeOptions, c.pat.Good := by
  have : likeOptions.all (·.pat.base) = true := by decide +kernel
  intro c hc
  exact Pat.base_good (List.all_eq_true.1 this c hc)

theorem likeOptions_nb : ∀ c ∈ likeOptions, c.pat.nb = true := by
  have : likeOptions.all (·.pat.nb) = true := by decide +kernel
  exact List.all_eq_true.1 this

theorem likeOptions_names : (likeOptions.map (·.info.name)).Nodup ∧ ((sortLen likeOptions).map (·.info.name)).Nodup := by
  decide +kernel

theorem like_ty : Tab.T_like_LikeOption = unionTy "like.LikeOption" likeOptions := rfl

/-- The field of the options. -/
def likeField : Field := ⟨.ngrp (.ty (unionTy "like.LikeOption" likeOptions)), .manyOpt⟩

theorem like_re : Tab.Like.re = anchored (.seq (.grp 1 wordRe) (.seq (litRe c!" like ") (.seq (.grp 2 wordRe)
    (.seq (litRe c!" but") (likeField.pat.re 3))))) := rfl

theorem like_ng : 3 ≤ Tab.Like.pat.ng := by decide +kernel

theorem likeField_aligned : aligned [likeField] = true := by decide +kernel

theorem like_options (s : Str) : Tab.Like.attrs[2].parse s = tupleParse (unionTy "like.LikeOption" likeOptions) s := by
  have h : Tab.Like.attrs[2] = ⟨"options", Tab.T_like_LikeOption, true, none⟩ := rfl
  rw [h, like_ty]
  simp only [Attr.parse, if_true]

/-- A literal that begins with a blank needs a blank. -/
theorem lit_none {α : Type} (l : Str) (r : Re) (k : St → Option α) : Blocked (fun st => run (.seq (litRe (' ' :: l)) r) st k) := by
  rintro ⟨prev, rest, caps⟩ h
  simp only
  rw [run_seq, litRe, run_seq, Re.chrI]
  cases rest with
  | nil => rfl
  | cons c cs =>
    have : c ≠ ' ' := h c (by simp)
    simp only [run_cls_cons, beq_iff_eq, lower_space, this, if_false]

/-- Owned options are matched by their classes. -/
theorem owned_full {cs : List Cls} (hg : ∀ c ∈ cs, c.pat.Good) : ∀ os : List (Cls × Opt), Owned cs os →
    (∀ x ∈ os, Words (x.2.1 :: x.2.2)) → ∀ i ∈ os.map (·.2), ∃ d ∈ cs, Full (d.pat.re 1) (i.1 ++ enc i.2)
  | [], _, _ => by simp
  | (c, hd, ws) :: os, ho, hw => by
    obtain ⟨hc, ho1, ho2⟩ := ho
    unfold owns at ho1
    rw [Bool.and_eq_true] at ho1
    intro i hi
    rcases List.mem_cons.1 hi with rfl | hi
    · exact ⟨c, hc, takes_full ho1.1 (hg c hc) (hw (c, hd, ws) (by simp))⟩
    · exact owned_full hg os ho2 (fun x hx => hw x (by simp [hx])) i hi

/-- The captures of a `like` card. -/
theorem like_match (n lk m bt : Str) (l : List Opt) (hw : Words (n :: lk :: m :: bt :: optWords l))
    (h1 : lower lk = c!"like") (h2 : lower bt = c!"but")
    (hf : ∀ i ∈ l, ∃ d ∈ likeOptions, Full (d.pat.re 1) (i.1 ++ enc i.2)) :
    ∃ e, Good 3 [likeField] [if l = [] then none else some (optWords l)] e ∧
      reMatch Tab.Like.re (n ++ enc (lk :: m :: bt :: optWords l)) =
        some ((0, n ++ enc (lk :: m :: bt :: optWords l)) :: (e ++ (2, m) :: (1, n) :: [])) := by
  obtain ⟨n1, n2⟩ := hw n (by simp)
  obtain ⟨m1, m2⟩ := hw m (by simp)
  generalize hs : n ++ enc (lk :: m :: bt :: optWords l) = s
  have hk : ∀ st, st.rest ≠ [] → finish s st = none := fun st h => finish_none _ st h
  have hss : ∀ st, st.rest = [] → (finish s st).isSome = true := by
    rintro ⟨p, r, cp⟩ hs
    simp only at hs; subst hs
    rw [finish_end]; rfl
  have hlast : ∀ prev caps, ∃ e3, Good 3 [likeField] [if l = [] then none else some (optWords l)] e3 ∧
      run (likeField.pat.re 3) ⟨prev, enc (optWords l), caps⟩ (finish s) = some ((0, s) :: (e3 ++ caps)) := by
    intro prev caps
    have hfr : ∀ st, run (likeField.pat.re 3) st (finish s) = run (fieldsRe [likeField] 3) st (finish s) := by
      intro st
      rw [fieldsRe_cons, run_seq]
      rfl
    rw [hfr]
    by_cases hle : l = []
    · subst hle
      refine ⟨[], .none .nil, ?_⟩
      rw [show optWords [] = [] from rfl, enc_nil, last_none likeField rfl, finish_end]
      rfl
    · obtain ⟨e3, h4, h5⟩ := last_options likeField (.inl rfl) (unionTy_good "like.LikeOption" likeOptions likeOptions_good) 3 l hle (by
        intro i hi
        obtain ⟨d, hd1, hd2⟩ := hf i hi
        exact (alts_full (sortLen likeOptions) (fun x hx => likeOptions_good x ((mem_sortLen _).1 hx)) _ _).2
          ⟨d, (mem_sortLen _).2 hd1, hd2⟩) prev caps (finish s) hk hss
      rw [if_neg hle]
      exact ⟨e3, h4, by rw [h5, finish_end]⟩
  obtain ⟨e, he, hrun⟩ := hlast ((' ' :: bt).reverse ++ (m.reverse ++ ((' ' :: lk ++ [' ']).reverse ++ (n.reverse ++ [])))) ((2, m) :: (1, n) :: [])
  refine ⟨e, he, ?_⟩
  have h0 : reMatch Tab.Like.re s = run (.seq (.grp 1 wordRe) (.seq (litRe c!" like ") (.seq (.grp 2 wordRe)
    (.seq (litRe c!" but") (likeField.pat.re 3))))) ⟨[], s, []⟩ (finish s) := by
    unfold reMatch
    rw [like_re]
    unfold anchored
    rw [run_seq, run_bos, if_pos rfl, run_seq]
    rfl
  rw [h0, run_seq, run_grp, ← hs, word_run n _ n1 n2 (enc_bnd _)]
  · simp only [take_consumed]
    rw [hs, run_seq]
    have ht : enc (lk :: m :: bt :: optWords l) = (' ' :: lk ++ [' ']) ++ (m ++ enc (bt :: optWords l)) := by simp
    rw [ht, run_lit_ok c!" like " (' ' :: lk ++ [' ']) (by
      have : lower (' ' :: lk ++ [' ']) = ' ' :: (lower lk ++ [' ']) := by simp [lower]; decide
      rw [this, h1]; rfl), run_seq, run_grp, word_run m _ m1 m2 (enc_bnd _)]
    · simp only [take_consumed]
      rw [run_seq]
      have ht2 : enc (bt :: optWords l) = (' ' :: bt) ++ enc (optWords l) := by simp
      rw [ht2, run_lit_ok c!" but" (' ' :: bt) (by
        have : lower (' ' :: bt) = ' ' :: lower bt := by simp [lower]; decide
        rw [this, h2]; rfl)]
      exact hrun
    · intro st h
      exact lit_none c!"but" _ _ _ h
  · intro st h
    exact lit_none c!"like " _ _ _ h

/-- A `like` card with its entries is read by them, if its options are read as `r`. -/
theorem like_read_with (n lk m bt : Str) (is : List Opt) (r : Res Val)
    (hw : Words (n :: lk :: m :: bt :: optWords is)) (h1 : lower lk = c!"like") (h2 : lower bt = c!"but")
    (hf : ∀ i ∈ is, ∃ d ∈ likeOptions, Full (d.pat.re 1) (i.1 ++ enc i.2))
    (h0 : is = [] → r = .ok .none)
    (hr : ∀ nm hd ws js, is = (hd, ws) :: js → tupleParse (unionTy nm likeOptions) (hd ++ enc (ws ++ optWords js)) = r) :
    (match reMatch Tab.Like.re (n ++ enc (lk :: m :: bt :: optWords is)) with
      | none => .error .inp | some m => Tab.Like.build m) = readLikeWith n m r := by
  obtain ⟨e, he, hm⟩ := like_match n lk m bt is hw h1 h2 hf
  obtain ⟨g1, g2⟩ := good_get he likeField_aligned
  rw [hm]
  simp only
  generalize hM : (0, n ++ enc (lk :: m :: bt :: optWords is)) :: (e ++ (2, m) :: (1, n) :: []) = M
  have hno : ∀ i, i < 3 → e.lookup i = none := by
    intro i hi
    rw [List.lookup_eq_none_iff]
    intro x hx
    have := g2 x hx
    simp only [beq_eq_false_iff_ne, bne_iff_ne, ne_eq]
    omega
  have hlk : ∀ i, 0 < i → i < 3 → cap M i = ((2, m) :: (1, n) :: []).lookup i := by
    intro i h0 hi
    rw [← hM, cap, List.lookup_cons, show (i == 0) = false by simp; omega]
    simp only [List.lookup_append, hno i hi, Option.none_or]
  have hng := like_ng
  have a0 : attrVal Tab.Like.pat.ng M 0 Tab.Like.attrs[0] = (intParse n).map (fun v => .sc (.int v)) :=
    attr_word _ M 0 Tab.Like.attrs[0] (by omega) rfl (some n) (by rw [hlk 1 (by omega) (by omega)]; rfl) (by
      intro w hw'; cases hw'; exact hw n (by simp))
  have a1 : attrVal Tab.Like.pat.ng M 1 Tab.Like.attrs[1] = (intParse m).map (fun v => .sc (.int v)) :=
    attr_word _ M 1 Tab.Like.attrs[1] (by omega) rfl (some m) (by rw [hlk 2 (by omega) (by omega)]; rfl) (by
      intro w hw'; cases hw'; exact hw m (by simp))
  have a2 : attrVal Tab.Like.pat.ng M 2 Tab.Like.attrs[2] = r := by
    have hcap : cap M 3 = (if is = [] then none else some (optWords is)).map enc := by
      have := g1 0 _ rfl
      rw [← hM, cap, List.lookup_cons, show ((3 : Nat) == 0) = false by rfl]
      simp only [List.lookup_append]
      rw [show 3 + 0 = 3 from rfl] at this
      rw [this]
      cases is with
      | nil => rfl
      | cons o os => rfl
    cases is with
    | nil =>
      unfold attrVal
      rw [if_neg (by omega), hcap, h0 rfl]
      rfl
    | cons o is =>
      obtain ⟨hd', ws'⟩ := o
      have hwo : Words (hd' :: (ws' ++ optWords is)) := by
        intro x hx
        exact hw x (by simp only [List.mem_cons]; exact .inr (.inr (.inr (.inr (by simpa [optWords, Opt.words] using hx)))))
      rw [attr_text _ M 2 _ (by omega) hd' (ws' ++ optWords is) hcap hwo]
      rw [like_options]
      exact hr _ _ _ _ rfl
  have hat : Tab.Like.attrs = [Tab.Like.attrs[0], Tab.Like.attrs[1], Tab.Like.attrs[2]] := rfl
  unfold Cls.build readLikeWith
  rw [hat]
  simp only [attrVals, a0, a1, a2]
  cases intParse n with
  | error e => rfl
  | ok nv =>
    cases intParse m with
    | error e => rfl
    | ok mv =>
      simp only [Except.map]
      cases r <;> rfl

/-- A `like` card with its entries is read by them. -/
theorem like_read (n lk m bt : Str) (os : List (Cls × Opt)) (hn : Entry n)
    (hs : ∀ w ∈ lk :: m :: bt :: optWords (os.map (·.2)), Stable w)
    (h1 : lower lk = c!"like") (h2 : lower bt = c!"but") (ho : Owned likeOptions os) :
    (match reMatch Tab.Like.re (n ++ enc (lk :: m :: bt :: optWords (os.map (·.2)))) with
      | none => .error .inp | some m => Tab.Like.build m) = readLike n m os := by
  have hw : Words (n :: lk :: m :: bt :: optWords (os.map (·.2))) := by
    intro w hw
    rcases List.mem_cons.1 hw with rfl | hw
    · exact ⟨hn.sp, hn.ne⟩
    · exact ⟨(hs w hw).entry.sp, (hs w hw).entry.ne⟩
  obtain ⟨s1, s2⟩ := owned_splits likeOptions_good likeOptions_names.1 likeOptions_names.2 os ho
    (fun x hx => hw x (by simp only [List.mem_cons]; exact .inr (.inr (.inr (.inr hx)))))
  have hmemo : ∀ i ∈ os.map (·.2), ∀ w ∈ i.1 :: i.2, Stable w := by
    intro i hi w hwi
    refine hs w ?_
    simp only [List.mem_cons]
    exact .inr (.inr (.inr (List.mem_flatMap.2 ⟨i, hi, hwi⟩)))
  have hf := owned_full likeOptions_good os ho (by
    intro x hx w hwx
    have := hmemo x.2 (List.mem_map.2 ⟨x, hx, rfl⟩) w hwx
    exact ⟨this.entry.sp, this.entry.ne⟩)
  have := like_read_with n lk m bt (os.map (·.2)) (match os with | [] => .ok .none | o :: os => (readOwned (o :: os)).map .tuple) hw h1 h2 hf
    (by intro h; cases os with | nil => rfl | cons o os => cases h)
    (by
      intro nm hd' ws' js h
      cases os with
      | nil => cases h
      | cons o os =>
        obtain ⟨c, h1, h2⟩ := o
        cases h
        exact owned_tuple _ likeOptions likeOptions_good likeOptions_nb c hd' ws' os s1 s2 hmemo)
  rw [this]
  unfold readLikeWith readLike
  cases intParse n with
  | error e => rfl
  | ok nv =>
    cases intParse m with
    | error e => rfl
    | ok mv =>
      cases os with
      | nil => rfl
      | cons o os =>
        simp only
        cases readOwned (o :: os) with
        | error e => rfl
        | ok ys => rfl

end Inp
