import Verif.Inp.ErrCause
import Verif.State.Whole
import Verif.Inp.SurfaceRead
/-!
# C86: reading an input fails only with the documented errors

The documentation of the readers (src/pymcnp/inp/_card.py:15-41, src/pymcnp/types/Union.py:28-50,
src/pymcnp/Inp.py:209-244) names `InpError` and `TypesError`.  Proved here, for every text: which data cards raise nothing
else; what the others raise; that a `TypeError` or `AttributeError` comes from a shorthand (`j`, `2r`, ...) and an
`OverflowError` or `ValueError` from an infinite number; and that reading a file raises nothing else than reading one
of its lines does.  The groups of cards are listed in Verif/Inp/ErrSpec.lean.
-/
set_option maxRecDepth 100000
namespace Props
open Py Types Inp Ptrac State

/-- The text of the `i`-th entry of a card. -/
def entryText (c : Cls) (s : Str) (i : Nat) : Option Str :=
  (reMatch c.re (cardPreprocess s).1).bind (fun m => cap m (i + 1))

/-- Some entry is a number that is infinite or not a number. -/
def EndlessEntry (c : Cls) (s : Str) : Prop :=
  ∃ i t d, i < c.attrs.length ∧ entryText c s i = some t ∧ realParse (strip t) = .ok (.num d) ∧ ∀ f, d ≠ .fin f

/-- Some entry is a shorthand. -/
def ShorthandEntry (c : Cls) (s : Str) : Prop :=
  ∃ i t x, i < c.attrs.length ∧ entryText c s i = some t ∧ horizParse (strip t) = .ok x

theorem told_cases {e : Err} (h : e ∈ toldErrs) : e = .inp ∨ e = .types := by
  simpa [toldErrs] using h

/-- **C86**: reading one of the 110 quiet data cards from any text raises `InpError` or `TypesError`, or succeeds. -/
theorem C86_told {c : Cls} (hc : c ∈ quietCards) (s : Str) {e : Err} (h : cardParse c s = .error e) : e = .inp ∨ e = .types :=
  told_cases (card_sound (by decide) (quiet_ok c hc) s e h)

/-- Both happen. -/
example : cardParse Tab.Vol c!"vol x" = .error .inp ∧ cardParse Tab.Imp c!"imp:n 1 0" ≠ .error .inp ∧
    Tab.Vol ∈ quietCards ∧ Tab.Imp ∈ quietCards := by
  refine ⟨by decide +kernel, by decide +kernel, ?_, ?_⟩ <;> simp [quietCards]

theorem groups : ∀ c ∈ dataCards, c ∈ quietCards ∨ c ∈ plainCards ∨ c ∈ oddCards := by
  simp only [dataCards, List.forall_mem_cons]
  simp only [quietCards, plainCards, oddCards, List.mem_cons, true_or, or_true, true_and, List.not_mem_nil, false_imp_iff,
    implies_true]

/-- **C86**: every data card is quiet, plain or odd; a plain one raises `InpError`, `TypesError`, `TypeError` or
`AttributeError`; an odd one those or `OverflowError`, `ValueError`, `IndexError`, `AssertionError` or what the model leaves
open.  Missing: the plain and the odd cards are not quiet. -/
theorem C86_card_partial {c : Cls} (hc : c ∈ dataCards) (s : Str) {e : Err} (h : cardParse c s = .error e) :
    (e = .inp ∨ e = .types) ∨ c ∈ plainCards ∧ (e = .typeErr ∨ e = .attribute) ∨ c ∈ oddCards ∧ e ∈ fullErrs := by
  have hcov := groups c hc
  rcases hcov with hq | hp | ho
  · exact .inl (C86_told hq s h)
  · have := card_sound (by decide) (plain_ok c hp) s e h
    simp only [shorthandErrs, List.mem_cons, List.not_mem_nil, or_false] at this
    grind
  · exact .inr (.inr ⟨ho, card_sound (by decide) (odd_ok c ho) s e h⟩)

/-- The other exceptions happen. -/
example : cardParse Tab.Nps c!"nps j" = .error .typeErr ∧ Tab.Nps ∈ plainCards ∧
    cardParse Tab.F_4 c!"f4:n (1]" = .error .assertion ∧ Tab.F_4 ∈ oddCards := by
  refine ⟨by decide +kernel, by simp [plainCards], by decide +kernel, by simp [oddCards]⟩

/-- The plain cards without options. -/
def clearCards : List Cls :=
  [Tab.Cosyp, Tab.Ctme, Tab.Dbcn, Tab.Fic, Tab.Fip, Tab.Fir, Tab.Hsrc, Tab.Kcode, Tab.Lcc, Tab.Lea, Tab.Leb,
   Tab.Lost, Tab.Mgopt, Tab.Nps, Tab.Phys_0, Tab.Phys_1, Tab.Phys_3, Tab.Phys_4, Tab.Sb_1, Tab.Sp_1, Tab.Wwg,
   Tab.Wwp]

theorem clear_ok {c : Cls} (hc : c ∈ clearCards) : clearCheck toldErrs c = true ∧ AllTy toldErrs c.attrs := by
  have h1 : clearCards.all (clearCheck toldErrs) = true := by decide +kernel
  have h2 : clearCards.all (fun c => baseOnly c.attrs) = true := by decide +kernel
  exact ⟨List.all_eq_true.1 h1 c hc, base_all (List.all_eq_true.1 h2 c hc)⟩

/-- **C86**: what raises the other exceptions when a plain card without options is read: `TypeError` and `AttributeError` only
when some entry is a shorthand.  Missing: these cases raise at all, instead of an `InpError`. -/
theorem C86_cause_partial {c : Cls} (hc : c ∈ clearCards) (s : Str) {e : Err} (h : cardParse c s = .error e) :
    (e = .inp ∨ e = .types) ∨ (e = .typeErr ∨ e = .attribute) ∧ ShorthandEntry c s := by
  obtain ⟨h1, h2⟩ := clear_ok hc
  have hs := card_sound (by decide) (okAll (E := shorthandErrs) (cs := clearCards) (by decide +kernel) c hc) s e h
  unfold cardParse at h
  split at h
  · cases h; exact .inl (.inl rfl)
  · rename_i m hm
    split at h
    · rename_i e' he
      cases h
      have hcap : ∀ i, entryText c s i = cap m (i + 1) := fun i => by unfold entryText; rw [hm]; rfl
      rcases build_cause (fun _ h => h) h1 h2 (fun a ha _ => h2.mem a ha) hm _ he with
        h3 | ⟨h3, _⟩ | ⟨h3, _⟩ | ⟨h3, j, t, x, h4, h5, h6⟩
      · exact .inl (told_cases h3)
      · exact .inl (told_cases h3)
      · exfalso
        rcases h3 with rfl | rfl <;> revert hs <;> decide
      · exact .inr ⟨h3, j, t, x, h4, by rw [hcap]; exact h5, h6⟩
    · cases h

/-- It happens. -/
example : cardParse Tab.Nps c!"nps j" = .error .typeErr ∧ entryText Tab.Nps c!"nps j" 0 = some c!" j" ∧
    horizParse c!"j" = .ok (.jump none) := by
  refine ⟨?_, ?_, ?_⟩ <;> decide +kernel

theorem union_error {cs : List Cls} {s : Str} {e : Err} (h : cardUnion cs s = .error e) :
    e = .types ∨ ∃ c ∈ cs, cardParse c s = .error e ∧ e.isLibrary = false := by
  induction cs with
  | nil => cases h; exact .inl rfl
  | cons c cs ih =>
    unfold cardUnion at h
    split at h
    · cases h
    · rename_i e' he
      split at h
      · rcases ih h with h1 | ⟨d, hd, h1⟩
        · exact .inl h1
        · exact .inr ⟨d, List.mem_cons_of_mem _ hd, h1⟩
      · rename_i hl
        cases h
        exact .inr ⟨c, List.mem_cons_self, he, by simpa using hl⟩

/-- **C86**: reading a data card from any text (`Data.from_mcnp`) raises `TypesError`, or what a plain or an odd card
raises that finds itself in the text; so it raises no other exception when only quiet cards find themselves there.
Missing: as for the cards. -/
theorem C86_data_partial {s : Str} {e : Err} (h : cardUnion dataCards s = .error e) :
    e = .types ∨ ∃ c ∈ dataCards, c.recognises s = true ∧ cardParse c s = .error e ∧
      (c ∈ plainCards ∧ (e = .typeErr ∨ e = .attribute) ∨ c ∈ oddCards ∧ e ∈ fullErrs) := by
  rcases union_error h with h1 | ⟨c, hc, h1, h2⟩
  · exact .inl h1
  · rcases C86_card_partial hc s h1 with (rfl | rfl) | h3
    · cases h2
    · cases h2
    · refine .inr ⟨c, hc, ?_, h1, h3⟩
      unfold cardParse at h1
      unfold Cls.recognises
      split at h1
      · cases h1; cases h2
      · rename_i m hm; rw [hm]; rfl

/-- A quiet text: no card finds itself in it, and the error is the documented one. -/
example : cardUnion dataCards c!"foo 1" = .error .types := by decide +kernel

/-- **C86**, violated: a jump or a repetition raises `TypeError` or `AttributeError`, an infinite entry `OverflowError`, one that
is not a number `ValueError`, and an open parenthesis `IndexError` or `AssertionError`. -/
theorem C86_data_violated :
    cardUnion dataCards c!"nps j" = .error .typeErr ∧ cardUnion dataCards c!"kcode r" = .error .typeErr ∧
    cardUnion dataCards c!"rand seed j" = .error .attribute ∧ cardUnion dataCards c!"phys:e 1 inf" = .error .overflow ∧
    cardUnion dataCards c!"phys:e 1 nan" = .error .value ∧ cardUnion dataCards c!"f4:n (1" = .error .index ∧
    cardUnion dataCards c!"f4:n (1]" = .error .assertion := by
  refine ⟨?_, ?_, ?_, ?_, ?_, ?_, ?_⟩ <;> decide +kernel

/-- The shape of a surface is a plane through three points, whose coordinates have the texts `us`. -/
def PlaneTexts (s : Str) (us : List (Option Str)) : Prop :=
  ∃ t m, entryText Tab.Surface s 3 = some t ∧ reMatch Tab.surface_P_1.re (preprocess (strip t)) = some m ∧
    us = (List.range 9).map (fun i => cap m (i + 1))

theorem mem_two {c a b : Cls} {l : List Cls} (h : c ∈ a :: b :: l) : c = b ∨ c ∈ a :: l := by
  rcases List.mem_cons.1 h with rfl | h
  · exact .inr List.mem_cons_self
  · rcases List.mem_cons.1 h with rfl | h
    · exact .inl rfl
    · exact .inr (List.mem_cons_of_mem _ h)

theorem other_told : ∀ c ∈ Tab.surface_P_0 :: surfaceOptions.drop 2, ClsOk toldErrs c :=
  okAll (by decide +kernel)

theorem plane_build {t : Str} {m} {e : Err} (hm : reMatch Tab.surface_P_1.re t = some m) (h : Tab.surface_P_1.build m = .error e)
    (hn : ¬ e ∈ toldErrs) :
    e = .arith ∨ (e = .typeErr ∨ e = .attribute) ∧ ∃ i u x, i < 9 ∧ cap m (i + 1) = some u ∧ horizParse (strip u) = .ok x := by
  have hbase : baseOnly Tab.surface_P_1.attrs = true := by decide +kernel
  have hk : clearCheck (.arith :: toldErrs) Tab.surface_P_1 = true := by decide +kernel
  have hl : Tab.surface_P_1.attrs.length = 9 := rfl
  rcases build_cause (E := []) (K := .arith :: toldErrs) (fun _ h => List.mem_cons_of_mem _ h) hk (base_all hbase)
      (fun a ha _ => (base_all hbase).mem a ha) hm _ h with
    h3 | ⟨h3, _⟩ | ⟨h3, _⟩ | ⟨h3, j, t, x, h4, h5, h6⟩
  · rcases List.mem_cons.1 h3 with h3 | h3
    · exact .inl h3
    · exact absurd h3 hn
  · cases h3
  · exfalso
    have := ((okAll (E := planeErrs) (cs := [Tab.surface_P_1]) (by decide +kernel) _ List.mem_cons_self).build hm).1 _ h
    rcases h3 with rfl | rfl <;> revert this <;> decide
  · exact .inr ⟨h3, j, t, x, hl ▸ h4, h5, h6⟩

theorem plane_error {t : Str} {e : Err} (h : unionParse surfaceOptions t = .error e) (hn : ¬ e ∈ toldErrs) :
    ∃ m, reMatch Tab.surface_P_1.re (preprocess t) = some m ∧
      (e = .arith ∨ (e = .typeErr ∨ e = .attribute) ∧ ∃ i u x, i < 9 ∧ cap m (i + 1) = some u ∧ horizParse (strip u) = .ok x) := by
  unfold unionParse at h
  split at h
  · cases h; exact absurd (by decide) hn
  · rename_i c m hm
    obtain ⟨hc, hm⟩ := firstMatch_some hm
    rcases mem_two hc with hc | hc
    · rw [hc] at h hm
      exact ⟨m, hm, plane_build hm h hn⟩
    · exact absurd ((other_told c hc).build hm |>.1 _ h) hn

theorem unionTy_parse (nm : String) (cs : List Cls) (s : Str) : (unionTy nm cs).parse s = unionParse cs s := rfl

theorem only_option {j : Nat} {a : Attr} (h : Tab.Surface.attrs[j]? = some a) (ho : a.ty.isOther = true) :
    j = 3 ∧ a.ty = Tab.T_surface_SurfaceOption := by
  obtain ⟨a0, a1, a2, he, h0, h1, h2⟩ : ∃ a0 a1 a2, Tab.Surface.attrs = [a0, a1, a2, ⟨"option", Tab.T_surface_SurfaceOption, false, some .isNone⟩] ∧
      a0.ty.isOther = false ∧ a1.ty.isOther = false ∧ a2.ty.isOther = false := ⟨_, _, _, rfl, rfl, rfl, rfl⟩
  rw [he] at h
  match j, h with
  | 0, h => cases h; rw [h0] at ho; cases ho
  | 1, h => cases h; rw [h1] at ho; cases ho
  | 2, h => cases h; rw [h2] at ho; cases ho
  | 3, h => cases h; exact ⟨rfl, rfl⟩
  | j + 4, h => cases h

/-- **C86**: reading a surface from any text (`Surface.from_mcnp`) raises `TypesError`, or what the surface card does:
`OverflowError` or `ValueError` only when its number is infinite or not a number, `TypeError` or `AttributeError` only when its number
or a coordinate of a plane through three points is a shorthand, and the `ArithmeticError` of `decimal` only when its shape is
such a plane.  Missing: these cases raise at all, instead of an `InpError`. -/
theorem C86_surface_partial {s : Str} {e : Err} (h : cardUnion surfaceCards s = .error e) :
    e = .types ∨ cardParse Tab.Surface s = .error e ∧
      ((e = .overflow ∨ e = .value) ∧ EndlessEntry Tab.Surface s ∨
       (e = .typeErr ∨ e = .attribute) ∧ (ShorthandEntry Tab.Surface s ∨ ∃ us u x, PlaneTexts s us ∧ some u ∈ us ∧ horizParse (strip u) = .ok x) ∨
       e = .arith ∧ ∃ us, PlaneTexts s us) := by
  rcases union_error h with h1 | ⟨c, hc, h1, h2⟩
  · exact .inl h1
  · rcases List.mem_cons.1 hc with rfl | hc
    · refine .inr ⟨h1, ?_⟩
      have hnt : ¬ e ∈ toldErrs := by
        intro h3
        rcases told_cases h3 with rfl | rfl <;> cases h2
      have ht : AllTy planeErrs Tab.Surface.attrs := ⟨trivial, trivial, trivial, T_surface_SurfaceOption_out, trivial⟩
      have hmany : ∀ a ∈ Tab.Surface.attrs, a.many = true → TyOut toldErrs a.ty := by
        have : Tab.Surface.attrs.all (fun a => !a.many) = true := by decide +kernel
        intro a ha hm
        have := List.all_eq_true.1 this a ha
        rw [hm] at this; cases this
      unfold cardParse at h1
      split at h1
      · cases h1; cases h2
      · rename_i m hm
        split at h1
        · rename_i e' he
          cases h1
          have hcap : ∀ i, entryText Tab.Surface s i = cap m (i + 1) := fun i => by unfold entryText; rw [hm]; rfl
          rcases build_cause (fun _ h => h) (by decide +kernel) ht hmany hm _ he with
            h3 | ⟨_, j, a, t, h4, h5, h6, h7⟩ | ⟨h3, j, t, h4, h5, d, h6, h7⟩ | ⟨h3, j, t, x, h4, h5, h6⟩
          · exact absurd h3 hnt
          · obtain ⟨rfl, hty⟩ := only_option h4 h5
            rw [hty, surface_ty, unionTy_parse] at h7
            obtain ⟨m', h8, h9⟩ := plane_error h7 hnt
            rcases h9 with h9 | ⟨h9, i, u, x, h10, h11, h12⟩
            · exact .inr (.inr ⟨h9, _, t, m', by rw [hcap]; exact h6, h8, rfl⟩)
            · exact .inr (.inl ⟨h9, .inr ⟨_, u, x, ⟨t, m', by rw [hcap]; exact h6, h8, rfl⟩,
                List.mem_map.2 ⟨i, List.mem_range.2 h10, h11⟩, h12⟩⟩)
          · exact .inl ⟨h3, j, t, d, h4, by rw [hcap]; exact h5, h6, h7⟩
          · exact .inr (.inl ⟨h3, .inl ⟨j, t, x, h4, by rw [hcap]; exact h5, h6⟩⟩)
        · cases h1
    · rw [List.mem_singleton.1 hc] at h1
      rcases C86_told (c := Tab.Comment) (by simp [quietCards]) s h1 with rfl | rfl <;> cases h2

/-- **C86**, violated: the number of a surface may be endless or a shorthand; so may the coordinates of points; and coordinates may be
too large to subtract. -/
theorem C86_surface_violated : cardUnion surfaceCards c!"inf px 1" = .error .overflow ∧
    cardUnion surfaceCards c!"j px 1" = .error .typeErr ∧
    cardUnion surfaceCards c!"1 p j 0 0 0 1 0 0 0 1" = .error .typeErr ∧
    cardUnion surfaceCards c!"1 p 0 0 0 j 0 0 0 0 1" = .error .attribute ∧
    cardUnion surfaceCards c!"1 p 0e1000000 0 0 1e1000000 0 0 0 0 1" = .error .arith := by
  refine ⟨?_, ?_, ?_, ?_, ?_⟩ <;> decide +kernel

/-- A surface that is read and a text that is not one. -/
example : (∃ v, cardUnion surfaceCards c!"1 px 1" = .ok v) ∧ cardUnion surfaceCards c!"1 foo 1" = .error .types := by
  refine ⟨⟨_, rfl⟩, by decide +kernel⟩

/-- **C86**: reading a cell from any text (`Cell.from_mcnp`) raises `TypesError`, or what the cell card or the `like` card does:
`TypeError`, `AttributeError`, `OverflowError`, `ValueError`, `IndexError`, `AssertionError` or what the model leaves open.  Missing: the
causes. -/
theorem C86_cell_partial {s : Str} {e : Err} (h : cardUnion cellCards s = .error e) :
    e = .types ∨ e ∈ fullErrs ∧ (cardParse Tab.Cell s = .error e ∨ cardParse Tab.Like s = .error e) := by
  rcases union_error h with h1 | ⟨c, hc, h1, h2⟩
  · exact .inl h1
  · simp only [cellCards, List.mem_cons, List.not_mem_nil, or_false] at hc
    rcases hc with rfl | rfl | rfl
    · exact .inr ⟨card_sound (by decide) Cell_ok s e h1, .inl h1⟩
    · exact .inr ⟨card_sound (by decide) Like_ok s e h1, .inr h1⟩
    · rcases C86_told (c := Tab.Comment) (by simp [quietCards]) s h1 with rfl | rfl <;> cases h2

/-- **C86**, violated: the number of a cell may be endless, its material a shorthand. -/
theorem C86_cell_violated : cardUnion cellCards c!"inf 0 -1" = .error .overflow ∧
    cardUnion cellCards c!"nan 0 -1" = .error .value ∧ cardUnion cellCards c!"1 j 1 1" = .error .typeErr := by
  decide +kernel

theorem readAll_error {α : Type} {rd : Str → Res α} {ls : List Str} {e : Err} (h : readAll rd ls = .error e) :
    ∃ l ∈ ls, rd l = .error e := by
  induction ls with
  | nil => cases h
  | cons l ls ih =>
    unfold readAll at h
    cases hl : rd l with
    | error e' =>
      rw [hl] at h
      cases h
      exact ⟨l, List.mem_cons_self, hl⟩
    | ok x =>
      rw [hl] at h
      cases hr : readAll rd ls with
      | error e' =>
        rw [hr] at h
        cases h
        obtain ⟨k, hk, h2⟩ := ih hr
        exact ⟨k, List.mem_cons_of_mem _ hk, h2⟩
      | ok xs => rw [hr] at h; cases h

theorem hold_objs (p : Str → Res Val) (vs : List Val) : holdItems p (vs.map .obj) = .ok vs := by
  induction vs with
  | nil => rfl
  | cons v vs ih => simp only [List.map_cons, holdItems, ih]

theorem unionRead_error {cs : List Cls} {s : Str} {e : Err} (h : unionRead cs s = .error e) : cardUnion cs s = .error e := by
  unfold unionRead at h
  cases hc : cardUnion cs s with
  | error e' => rw [hc] at h; cases h; rfl
  | ok v => rw [hc] at h; cases h

/-- **C86**: reading an input file from any text (`Inp.from_mcnp`) raises `InpError` or `TypesError`, or what one of its lines
raises: a cell, a surface or a data line, read as a card of its block.  Missing: those lines (`C86_cell_partial`,
`C86_surface_partial`, `C86_data_partial`). -/
theorem C86_file_partial {s : Str} {e : Err} (h : inpRead s = .error e) :
    (e = .inp ∨ e = .types) ∨ ∃ x l, sections s = .ok x ∧
      (l ∈ x.cells ∧ e ∈ fullErrs ∧ (cardParse Tab.Cell l = .error e ∨ cardParse Tab.Like l = .error e) ∨
       l ∈ x.surfaces ∧ cardParse Tab.Surface l = .error e ∧
         ((e = .overflow ∨ e = .value) ∧ EndlessEntry Tab.Surface l ∨
          (e = .typeErr ∨ e = .attribute) ∧
            (ShorthandEntry Tab.Surface l ∨ ∃ us u x, PlaneTexts l us ∧ some u ∈ us ∧ horizParse (strip u) = .ok x) ∨
          e = .arith ∧ ∃ us, PlaneTexts l us) ∨
       l ∈ x.data ∧ ∃ c, (c ∈ plainCards ∧ (e = .typeErr ∨ e = .attribute) ∨ c ∈ oddCards ∧ e ∈ fullErrs) ∧
         c.recognises l = true ∧ cardParse c l = .error e) := by
  unfold inpRead at h
  cases hf : fileRead (unionRead cellCards) (unionRead surfaceCards) (unionRead dataCards) s with
  | error e' =>
    rw [hf] at h
    cases h
    unfold fileRead at hf
    cases hx : sections s with
    | error e' =>
      rw [hx] at hf
      cases hf
      unfold sections at hx
      split at hx
      · cases hx; exact .inl (.inl rfl)
      · cases hx
    | ok x =>
      rw [hx] at hf
      simp only [bind, Except.bind] at hf
      cases hc : readAll (unionRead cellCards) x.cells with
      | error e' =>
        rw [hc] at hf
        cases hf
        obtain ⟨l, hl, h1⟩ := readAll_error hc
        rcases C86_cell_partial (unionRead_error h1) with h2 | h2
        · exact .inl (.inr h2)
        · exact .inr ⟨x, l, rfl, .inl ⟨hl, h2⟩⟩
      | ok cs =>
        rw [hc] at hf
        simp only at hf
        cases hc : readAll (unionRead surfaceCards) x.surfaces with
        | error e' =>
          rw [hc] at hf
          cases hf
          obtain ⟨l, hl, h1⟩ := readAll_error hc
          rcases C86_surface_partial (unionRead_error h1) with h2 | h2
          · exact .inl (.inr h2)
          · exact .inr ⟨x, l, rfl, .inr (.inl ⟨hl, h2⟩)⟩
        | ok ss =>
          rw [hc] at hf
          simp only at hf
          cases hc : readAll (unionRead dataCards) x.data with
          | error e' =>
            rw [hc] at hf
            cases hf
            obtain ⟨l, hl, h1⟩ := readAll_error hc
            rcases C86_data_partial (unionRead_error h1) with h2 | ⟨c, _, h2, h3, h4⟩
            · exact .inl (.inr h2)
            · exact .inr ⟨x, l, rfl, .inr (.inr ⟨hl, c, h4, h2, h3⟩)⟩
          | ok ds =>
            rw [hc] at hf
            simp only at hf
            split at hf
            · cases hf
            · cases hf; exact .inl (.inl rfl)
  | ok f =>
    rw [hf] at h
    simp only [setCells, hold_objs] at h
    split at h
    · rename_i e' he
      cases h
      split at he
      · cases he; exact .inl (.inl rfl)
      · cases he
    · cases h

/-- A text without blocks, and a file with a line that raises `TypeError`. -/
example : inpRead c!"title" = .error .inp ∧
    inpRead c!"title\n1 0 -1 imp:n=1\n\n1 so 1\n\nnps j\n" = .error .typeErr := by
  decide +kernel

end Props
