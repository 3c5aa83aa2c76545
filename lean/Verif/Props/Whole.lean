import Verif.State.Whole
import Verif.Props.CellCard
import Verif.Props.DeepCells
import Verif.Props.Comment
import Verif.Props.Surface
import Verif.Props.DataCard
import Verif.Props.OptionCard
import Verif.Props.File
import Verif.Props.CellState
import Verif.Inp.MaterialRead
import Verif.Inp.TallyRead
import Verif.Inp.KeywordRead
import Verif.Inp.FreeRead
/-!
# Whole input files: C71
-/
set_option maxRecDepth 100000
namespace Props
open Py Types Inp State

/-! ## Specification: cards made of readable parts -/

/-- A card of the cell block made of readable parts: a cell as in `C69_roundtrip_partial`, a `like` card as in
`C72_roundtrip_partial`, either with transformations among its options as in `C69_moved_roundtrip_partial` and
`C72_moved_roundtrip_partial`, a comment as in `C73_roundtrip_partial`. -/
inductive GoodCell : Val → Prop
  | comment (ws : List Str) (hs : ∀ w ∈ ws, Stable w) : GoodCell (readComment ws)
  | like (n m : Int) (os : List (Cls × Val × Opt)) (hos : ∀ x ∈ os, OptVal x.1 x.2.1 x.2.2)
      (ho : Owned likeOptions (os.map (fun x => (x.1, x.2.2)))) (v : Val)
      (hmk : Tab.Like.mk' [.sc (.int (.num n)), .sc (.int (.num m)), optsVal (os.map (·.2.1))] = .ok v) : GoodCell v
  | mk (n m : Int) (d : Option Dec) (g : Ast) (hg : ∃ s, geoParse s = .ok g)
      (os : List (Cls × Val × Opt)) (hos : ∀ x ∈ os, OptVal x.1 x.2.1 x.2.2)
      (ho : Owned Inp.cellOptions (os.map (fun x => (x.1, x.2.2)))) (v : Val)
      (hmk : Tab.Cell.mk' [.sc (.int (.num n)), .sc (.int (.num m)), d.elim .none (fun x => .sc (.real (.num (.fin x)))),
        .sc (.geo g), optsVal (os.map (·.2.1))] = .ok v) : GoodCell v
  | movedLike (n m : Int) (os : List DVal) (hos : ∀ x ∈ os, x.Ok) (ho : Deep true (os.map DVal.opt))
      (hsh : ∀ w ∈ optWords ((os.map DVal.opt).map DOpt.opt), lower w ∉ shorthand) (v : Val)
      (hmk : Tab.Like.mk' [.sc (.int (.num n)), .sc (.int (.num m)), optsVal (os.map (·.val true))] = .ok v) : GoodCell v
  | moved (n m : Int) (d : Option Dec) (g : Ast) (hg : ∃ s, geoParse s = .ok g)
      (os : List DVal) (hos : ∀ x ∈ os, x.Ok) (ho : Deep false (os.map DVal.opt))
      (hsh : ∀ w ∈ optWords ((os.map DVal.opt).map DOpt.opt), lower w ∉ shorthand) (v : Val)
      (hmk : Tab.Cell.mk' [.sc (.int (.num n)), .sc (.int (.num m)), d.elim .none (fun x => .sc (.real (.num (.fin x)))),
        .sc (.geo g), optsVal (os.map (·.val false))] = .ok v) : GoodCell v

/-- A card of the surface block made of readable parts: a surface as in `C66_roundtrip_partial`, with a number that fits
on the line, or a comment. -/
inductive GoodSurface : Val → Prop
  | comment (ws : List Str) (hs : ∀ w ∈ ws, Stable w) : GoodSurface (readComment ws)
  | mk (c : Cls) (hc : c ∈ surfaceOptions) (h : Head) (fs : List Field) (hs : c.shape = .flat h fs)
      (fv : List Val) (hr : ReadVals c.attrs fv) (hp : Present (fs.map (·.mode)) fv)
      (hcan : Canon (fs.map (·.mode)) (fv.map Val.words)) (o : Val) (ho : c.mk' fv = .ok o)
      (sign : Option Char) (hsign : ∀ x ∈ sign, x = '+' ∨ x = '*') (n : IntVal) (hn : ReadSc .int (.int n))
      (t : Option IntVal) (ht : ∀ x ∈ t, ReadSc .int (.int x)) (v : Val)
      (hmk : Tab.Surface.mk' [sign.elim .none (fun x => .sc (.str [x])), .sc (.int n), t.elim .none (fun x => .sc (.int x)), o] = .ok v)
      (hl : (sign.toList ++ n.str).length ≤ 78) : GoodSurface v

/-- No class with the keyword of `c` that stands before it among the data cards reads the text. -/
def Unclaimed (c : Cls) (s : Str) : Prop :=
  ∀ d ∈ dataCards.takeWhile (·.info.name != c.info.name), d.word = c.word → ∃ e : Err, cardParse d s = .error e ∧ e.isLibrary = true

/-- A data card made of readable parts: a card with entries as in `C23_card_partial` or a card with options as in
`C68_roundtrip_partial`; a card whose entries cannot slide, with a keyword, with rows of entries, a material or a tally as in
C92; a card that ends in a text as in C95; all with a first word that fits on the line and that no earlier class of their keyword reads; or a comment. -/
inductive GoodData : Val → Prop
  | comment (ws : List Str) (hs : ∀ w ∈ ws, Stable w) : GoodData (readComment ws)
  | flat (c : Cls) (hd : c ∈ dataCards) (h : Head) (fs : List Field) (hs : c.shape = .flat h fs) (hst : c.std h fs = true)
      (hn : nativeFields (c.attrs.drop h.ng) fs = true) (hc : c.info.style = .card) (hv fv : List Val) (ho : HeadOk h hv)
      (hr : ReadVals (c.attrs.drop h.ng) fv) (hp : Present (fs.map (·.mode)) fv)
      (hcan : Canon (fs.map (·.mode)) (fv.map Val.words)) (v : Val) (hmk : c.mk' (hv ++ fv) = .ok v)
      (hl : v.headWord.length ≤ 78) (hu : Unclaimed c v.str) : GoodData v
  | options (r : OptRow) (hr : r ∈ optRows) (hd : r.c ∈ dataCards) (hv gv : List Val) (hh : HeadOk r.h hv)
      (hgv : ReadVals (r.c.attrs.dropLast.drop r.h.ng) gv) (hp : Present (r.gs.map (·.mode)) gv)
      (os : List (Cls × Val × Opt)) (hos : ∀ x ∈ os, OptVal x.1 x.2.1 x.2.2) (hne : r.mode = .many → os ≠ [])
      (ho : Owned r.plain (os.map (fun x => (x.1, x.2.2)))) (v : Val)
      (hmk : r.c.mk' (hv ++ gv ++ [optsVal (os.map (·.2.1))]) = .ok v)
      (hl : v.headWord.length ≤ 78) (hu : Unclaimed r.c v.str) : GoodData v

  | apart (c : Cls) (hd : c ∈ dataCards) (h : Head) (fs : List Field) (hs : c.plainly.shape = .flat h fs) (hst : c.plainly.std h fs = true)
      (hc : c.info.style = .card) (hv fv : List Val) (ho : HeadOk h hv) (hr : ReadVals (c.attrs.drop h.ng) fv)
      (hf : Fits (fs.map Field.spec) (fv.map Val.words)) (ha : Apart (fs.map Field.spec) (fv.map Val.words))
      (v : Val) (hmk : c.mk' (hv ++ fv) = .ok v) (hl : v.headWord.length ≤ 78) (hu : Unclaimed c v.str) : GoodData v
  | keyword (r : KwCard) (hr : r ∈ kwCards) (n : Nat) (o : Option Str) (ho : ∀ w ∈ o, w ∈ r.kws) (xs : List Val) (hne : xs ≠ [])
      (hx : ∀ x ∈ xs, ∃ s, x = .sc s ∧ ReadSc r.k s) (hk : o = none → xs.length = 1 ∨ ∀ x ∈ xs.head?, lower x.str ∉ r.kws)
      (v : Val) (hmk : r.c.mk' [.sc (.int (.num n)), o.elim .none (fun w => .sc (.str w)), .tuple xs] = .ok v)
      (hl : v.headWord.length ≤ 78) (hu : Unclaimed r.c v.str) : GoodData v
  | rows (r : RowCard) (hr : r ∈ rowCards) (hv xs : List Val) (hh : HeadOk r.h hv) (hne : xs ≠ []) (hx : ∀ x ∈ xs, RowItemVal r.item x)
      (v : Val) (hmk : r.c.mk' (hv ++ [.tuple xs]) = .ok v) (hl : v.headWord.length ≤ 78) : GoodData v
  | material (n : Nat) (xs : List Val) (hne : xs ≠ []) (hx : ∀ x ∈ xs, RowItemVal .subst x) (hl : (natStr n).length ≤ 77) :
      GoodData (.obj Tab.M_0.info [.sc (.int (.num n)), .tuple xs, .tuple []])
  | tally (c : Cls) (ds : List Char) (hx : (c, ds) ∈ tallyCards) (hv : List Val) (hh : HeadOk tallyHead hv) (xs : List Val)
      (hne : xs ≠ []) (hxs : ∀ x ∈ xs, ∃ s, x = .sc s ∧ ReadSc .int s) (t : Val) (ht : t = .none ∨ t = .sc (.str c!"t"))
      (v : Val) (hmk : c.mk' (hv ++ [.tuple xs, t]) = .ok v) (hl : v.headWord.length ≤ 78) (hu : Unclaimed c v.str) : GoodData v

  | text (r : FreeCard) (hr : r ∈ freeCards) (hv : List Val) (ws : List Str) (hh : HeadOk r.h hv) (hne : ws ≠ []) (hx : ∀ w ∈ ws, Stable w)
      (v : Val) (hmk : r.c.mk' (hv ++ [.sc (.str (join [' '] ws))]) = .ok v) (hl : v.headWord.length ≤ 78) : GoodData v

/-! ## Helper lemmas -/

/-- The first class of a keyword has no rivals. -/
theorem first_unclaimed {c : Cls} {s : Str}
    (h : (dataCards.takeWhile (·.info.name != c.info.name)).all (fun d => d.word != c.word) = true) : Unclaimed c s := by
  intro d hd hw
  have := List.all_eq_true.1 h d hd
  simp [hw] at this

theorem rows_first : rowCards.all (fun r => (dataCards.takeWhile (·.info.name != r.c.info.name)).all (fun d => d.word != r.c.word) &&
    (r.h.kw != [] && (lower r.h.kw).head? != some '#')) = true := by decide +kernel

theorem rows_data {r : RowCard} (h : r ∈ rowCards) : r.c ∈ dataCards := by
  simp only [rowCards, List.mem_cons, List.not_mem_nil, or_false] at h
  rcases h with rfl | rfl | rfl | rfl | rfl <;> simp [dataCards]

theorem free_first : freeCards.all (fun r => (dataCards.takeWhile (·.info.name != r.c.info.name)).all (fun d => d.word != r.c.word) &&
    (r.h.kw != [] && (lower r.h.kw).head? != some '#')) = true := by decide +kernel

theorem free_data {r : FreeCard} (h : r ∈ freeCards) : r.c ∈ dataCards := by
  simp only [freeCards, List.mem_cons, List.not_mem_nil, or_false] at h
  rcases h with rfl | rfl | rfl <;> simp [dataCards]

theorem tally_data {c : Cls} {ds : List Char} (h : (c, ds) ∈ tallyCards) : c ∈ dataCards := by
  simp only [tallyCards, List.mem_cons, List.not_mem_nil, or_false, Prod.mk.injEq] at h
  rcases h with ⟨rfl, -⟩ | ⟨rfl, -⟩ <;> simp [dataCards]

theorem kw_head {r : KwCard} (hr : r ∈ kwCards) (n : Nat) : HeadOk r.h [.sc (.int (.num n))] := by
  simp only [kwCards, List.mem_cons, List.not_mem_nil, or_false] at hr
  rcases hr with rfl | rfl | rfl | rfl | rfl | rfl | rfl | rfl <;> exact ⟨[], [.sc (.int (.num n))], [], rfl, rfl, ⟨n, rfl⟩, rfl⟩

/-- Cards with a keyword before their list are read back exactly if the first entry is not taken for a keyword. -/
theorem kw_round {r : KwCard} (hr : r ∈ kwCards) (n : Nat) (o : Option Str) (ho : ∀ w ∈ o, w ∈ r.kws) (xs : List Val) (hne : xs ≠ [])
    (hx : ∀ x ∈ xs, ∃ s, x = .sc s ∧ ReadSc r.k s) (v : Val)
    (hmk : r.c.mk' [.sc (.int (.num n)), o.elim .none (fun w => .sc (.str w)), .tuple xs] = .ok v) :
    cardParse r.c v.str = .ok (v, []) ↔ (o = none → xs.length = 1 ∨ ∀ x ∈ xs.head?, lower x.str ∉ r.kws) := by
  have ok := kwCards_ok r hr
  rw [← kw_assigned ok ho hne hx]
  exact C23_card_exact_partial r.c r.h _ ok.shape ok.std ok.style [.sc (.int (.num n))] _ (kw_head hr n) (kw_vals ok ho hne hx) v hmk

theorem unionRead_pre (cs : List Cls) : ReadsCards (unionRead cs) := by
  intro a b h
  have : cardUnion cs a = cardUnion cs b := by
    induction cs with
    | nil => rfl
    | cons c cs ih => simp only [cardUnion, cardParse, h, ih]
  simp only [unionRead, this]

theorem union_head {c : Cls} {cs : List Cls} {s : Str} {v : Val} (h : cardParse c s = .ok (v, [])) :
    unionRead (c :: cs) s = .ok v := by
  simp only [unionRead, cardUnion, h, Except.map]

theorem union_ok {cs : List Cls} {s : Str} {v : Val} (h : cardUnion cs s = .ok (v, [])) : unionRead cs s = .ok v := by
  simp only [unionRead, h, Except.map]

/-- `like` cards are not cells. -/
theorem like_union (n m : Int) (os : List (Cls × Val × Opt)) (hos : ∀ x ∈ os, OptVal x.1 x.2.1 x.2.2)
    (ho : Owned likeOptions (os.map (fun x => (x.1, x.2.2)))) (v : Val)
    (hmk : Tab.Like.mk' [.sc (.int (.num n)), .sc (.int (.num m)), optsVal (os.map (·.2.1))] = .ok v) :
    cardUnion cellCards v.str = .ok (v, []) := by
  obtain ⟨h1, h2, -⟩ := like_text n m os hos v hmk
  obtain ⟨e, r, l⟩ := cell_refuses' h2 (by
    intro w hw
    rcases List.mem_cons.1 hw with rfl | hw
    · exact ⟨(plain_int n).entry.sp, (plain_int n).entry.ne⟩
    · exact ⟨(h1 w hw).entry.sp, (h1 w hw).entry.ne⟩) (C02_integer_roundtrip n) (by decide +kernel)
  simp only [cellCards, cardUnion, r, l, if_true, C72_roundtrip_partial n m os hos ho v hmk]

theorem good_cell {v : Val} (h : GoodCell v) : Survives (unionRead cellCards) Val.str v := by
  cases h with
  | comment ws hs => exact ⟨union_ok (C73_roundtrip_partial ws hs).1, (comment_text ws hs).2⟩
  | like n m os hos ho _ hmk => exact ⟨union_ok (like_union n m os hos ho v hmk), (like_text n m os hos v hmk).2.2⟩
  | mk n m d g hg os hos ho _ hmk =>
    obtain ⟨h1, h2⟩ := cell_round n m d g hg os hos ho v hmk
    exact ⟨union_head h1, h2⟩
  | movedLike n m os hos ho hsh _ hmk =>
    obtain ⟨h0, h1, h2, h3⟩ := moved_like_round n m os hos ho hsh v hmk
    obtain ⟨e, r, l⟩ := cell_refuses' h2 (by
      intro w hw
      rcases List.mem_cons.1 hw with rfl | hw
      · exact ⟨(plain_int n).entry.sp, (plain_int n).entry.ne⟩
      · exact ⟨(h1 w hw).entry.sp, (h1 w hw).entry.ne⟩) (C02_integer_roundtrip n) (by decide +kernel)
    refine ⟨union_ok ?_, h3⟩
    simp only [cellCards, cardUnion, r, l, if_true, h0]
  | moved n m d g hg os hos ho hsh _ hmk =>
    obtain ⟨h1, h2⟩ := moved_round n m d g hg os hos ho hsh v hmk
    exact ⟨union_head h1, h2⟩

theorem good_surface {v : Val} (h : GoodSurface v) : Survives (unionRead surfaceCards) Val.str v := by
  cases h with
  | comment ws hs => exact ⟨union_ok (C73_roundtrip_partial ws hs).2.1, (comment_text ws hs).2⟩
  | mk c hc h fs hs fv hr hp hcan o ho sign hsign n hn t ht _ hmk hl =>
    obtain ⟨h1, h2⟩ := surface_round c hc h fs hs fv hr hp hcan o ho sign hsign n hn t ht v hmk
    exact ⟨union_head h1, h2 hl⟩

theorem data_hash : dataCards.all (fun c => c.info.style != .card || (c.info.kw != [] && (lower c.info.kw).head? != some '#')) = true := by
  decide +kernel

theorem flat_words (c d : Cls) (hd : d ∈ dataCards) (hcd : c.info = d.info) (h : Head) (fs : List Field) (hst : c.std h fs = true)
    (hc : c.info.style = .card) (hv fv : List Val) (ho : HeadOk h hv)
    (hr : ReadVals (c.attrs.drop h.ng) fv) (v : Val) (hmk : c.mk' (hv ++ fv) = .ok v)
    (hl : v.headWord.length ≤ 78) : ∃ ws, CardWords ws ∧ v.str = printWords ws := by
  obtain ⟨hd', he, hst', hh, hb, hrd, hw, hrv, hlen⟩ := std_facts c h fs hst hv fv ho hr
  have hws : Words (hd' :: Assign.flat (fv.map Val.words)) := by
    intro w hw
    rcases List.mem_cons.1 hw with rfl | hw
    · exact ⟨he.sp, he.ne⟩
    · exact ⟨(hst' w hw).entry.sp, (hst' w hw).entry.ne⟩
  have hstr : v.str = postprocess (join [' '] (hd' :: Assign.flat (fv.map Val.words))) := by
    rw [mk_obj hmk, obj_str]
    unfold objStr
    simp only [hc]
    rw [hh, hb, strip_text hd' _ hws]
  have hkw : c.info.kw = h.kw := by
    simp only [Cls.std, Bool.and_eq_true, beq_iff_eq] at hst
    exact hst.1.1.1.1.1.1.2
  rw [hstr]
  refine words_print hd' _ he (hash_head h hd' _ hrd ?_) ?_ hst'
  · have := List.all_eq_true.1 data_hash d hd
    rw [← hcd, hc, hkw] at this
    simpa using this
  · have e : v.headWord = hd' := by rw [mk_obj hmk, Val.headWord, hh]
    rw [← e]; exact hl

/-- Cards of flat entries that cannot slide. -/
theorem apart_round (c : Cls) (h : Head) (fs : List Field) (hs : c.plainly.shape = .flat h fs) (hst : c.plainly.std h fs = true)
    (hc : c.info.style = .card) (hv fv : List Val) (ho : HeadOk h hv) (hr : ReadVals (c.attrs.drop h.ng) fv)
    (hf : Fits (fs.map Field.spec) (fv.map Val.words)) (ha : Apart (fs.map Field.spec) (fv.map Val.words))
    (v : Val) (hmk : c.mk' (hv ++ fv) = .ok v) : cardParse c v.str = .ok (v, []) := by
  obtain ⟨e1, e2, e3⟩ := c.plainly_info
  rw [(plainly_rel c).card]
  exact (C23_card_exact_partial c.plainly h fs hs hst (by rw [e1]; exact hc) hv fv ho (by rw [e2]; exact hr) v
    (by rw [← (plainly_rel c).mk']; exact hmk)).2 (assign_apart _ _ hf ha)

theorem good_data {v : Val} (h : GoodData v) : Survives (unionRead dataCards) Val.str v := by
  cases h with
  | comment ws hs => exact ⟨union_ok (C73_roundtrip_partial ws hs).2.2, (comment_text ws hs).2⟩
  | flat c hd h fs hs hst hn hc hv fv ho hr hp hcan _ hmk hl hu =>
    refine ⟨?_, flat_words c c hd rfl h fs hst hc hv fv ho hr v hmk hl⟩
    unfold unionRead
    rw [C70_later c hd v.str (v, []) (C23_card_partial c h fs hs hst hn hc hv fv ho hr hp hcan v hmk) hu]
    rfl
  | options r hr hd hv gv hh hgv hp os hos hne ho _ hmk hl hu =>
    obtain ⟨h1, h2⟩ := option_round r hr hv gv hh hgv hp os hos hne ho v hmk
    refine ⟨?_, h2 hl⟩
    unfold unionRead
    rw [C70_later r.c hd v.str (v, []) h1 hu]
    rfl
  | apart c hd h fs hs hst hc hv fv ho hr hf ha _ hmk hl hu =>
    obtain ⟨e1, e2, e3⟩ := c.plainly_info
    have hmk' : c.plainly.mk' (hv ++ fv) = .ok v := by rw [← (plainly_rel c).mk']; exact hmk
    refine ⟨?_, flat_words c.plainly c hd e1 h fs hst (by rw [e1]; exact hc) hv fv ho (by rw [e2]; exact hr) v hmk' hl⟩
    unfold unionRead
    rw [C70_later c hd v.str (v, []) (apart_round c h fs hs hst hc hv fv ho hr hf ha v hmk) hu]
    rfl
  | keyword r hr n o ho xs hne hx hk _ hmk hl hu =>
    have ok := kwCards_ok r hr
    refine ⟨?_, flat_words r.c r.c ok.data rfl r.h _ ok.std ok.style [.sc (.int (.num n))] _ (kw_head hr n) (kw_vals ok ho hne hx) v hmk hl⟩
    unfold unionRead
    rw [C70_later r.c ok.data v.str (v, []) ((kw_round hr n o ho xs hne hx v hmk).2 hk) hu]
    rfl
  | rows r hr hv xs hh hne hx _ hmk hl =>
    obtain ⟨hd, ws, he, hst, hstr, hp, hrd, hw⟩ := rows_round hr hv xs hh hne hx v hmk
    have hf := List.all_eq_true.1 rows_first r hr
    simp only [Bool.and_eq_true, bne_iff_ne, ne_eq] at hf
    refine ⟨?_, ?_⟩
    · unfold unionRead
      rw [C70_later r.c (rows_data hr) v.str (v, []) hp (first_unclaimed (by simpa using hf.1))]
      rfl
    · rw [hstr]
      exact words_print hd ws he (hash_head r.h hd _ hrd hf.2) (by rw [← hw]; exact hl) hst
  | text r hr hv ws hh hne hx _ hmk hl =>
    obtain ⟨hd, he, hstr, hp, hrd, hw⟩ := free_round hr hv ws hh hne hx v hmk
    have hf := List.all_eq_true.1 free_first r hr
    simp only [Bool.and_eq_true, bne_iff_ne, ne_eq] at hf
    refine ⟨?_, ?_⟩
    · unfold unionRead
      rw [C70_later r.c (free_data hr) v.str (v, []) hp (first_unclaimed (by simpa using hf.1))]
      rfl
    · rw [hstr]
      exact words_print hd ws he (hash_head r.h hd _ hrd hf.2) (by rw [← hw]; exact hl) hx
  | material n xs hne hx hl =>
    obtain ⟨ws, he, hst, hstr, hp⟩ := mat_round n xs hne hx (.tuple []) (.inr rfl) _ rfl
    refine ⟨?_, ?_⟩
    · unfold unionRead
      rw [C70_later Tab.M_0 (by simp [dataCards]) _ _ hp (first_unclaimed (by decide +kernel))]
      rfl
    · rw [hstr]
      exact words_print _ ws he (by simp) (by simp; omega) hst
  | tally c ds hx hv hh xs hne hxs t ht _ hmk hl hu =>
    obtain ⟨hd, ws, he, hst, hstr, hp, hw, l, hrd⟩ := tally_round hx hv hh xs hne hxs t ht v hmk
    refine ⟨?_, ?_⟩
    · unfold unionRead
      rw [C70_later c (tally_data hx) v.str (v, []) hp hu]
      rfl
    · rw [hstr]
      exact words_print hd ws he (hash_head tallyHead hd _ hrd (by decide)) (by rw [← hw]; exact hl) hst

/-! ## C71 – an input file survives printing and reading -/

/-- **C71, cells, surfaces and data made of readable parts:** an input file that has a title made of words, cells, `like` cards
and comments of which one gives its importance or is no ordinary cell, surfaces, data cards and comments is read back from
its printed text as it was.  Missing: a message, empty blocks, titles and trailing text in which blanks, `=`, `&`, `$` or a leading `#`
matter, and the cards that do not survive on their own. -/
theorem C71_roundtrip_partial (f : File) (hmsg : f.message = none) (title : List Str) (ht : TextWords title)
    (hft : f.title = join [' '] title) (hm : ¬ IsMessage f.title) (hlen : f.title.length < 80)
    (hc : f.cells ≠ [] ∧ ∀ x ∈ f.cells, GoodCell x) (hi : ∃ c ∈ f.cells, isCell c = false ∨ hasImp c = true)
    (hs : f.surfaces ≠ [] ∧ ∀ x ∈ f.surfaces, GoodSurface x) (hd : f.data ≠ [] ∧ ∀ x ∈ f.data, GoodData x)
    (ho : Trailing f.other) : inpRead (inpPrint f) = .ok f := by
  have h := C35_file_partial (unionRead cellCards) (unionRead surfaceCards) (unionRead dataCards) Val.str Val.str Val.str f
    (unionRead_pre _) (unionRead_pre _) (unionRead_pre _) hmsg title ht hft hm hlen
    ⟨hc.1, fun x hx => good_cell (hc.2 x hx)⟩ ⟨hs.1, fun x hx => good_surface (hs.2 x hx)⟩
    ⟨hd.1, fun x hx => good_data (hd.2 x hx)⟩ ho
  obtain ⟨c, hc1, hc2⟩ := hi
  unfold inpRead inpPrint
  rw [h]
  simp only
  rw [C36_first_partial, if_pos ⟨c, hc1, hc2⟩]

/-- Conversely a file whose cells are all ordinary and none of which has an importance is refused, although each of its cards
is read. -/
theorem C71_importance (f : File) (hmsg : f.message = none) (title : List Str) (ht : TextWords title)
    (hft : f.title = join [' '] title) (hm : ¬ IsMessage f.title) (hlen : f.title.length < 80)
    (hc : f.cells ≠ [] ∧ ∀ x ∈ f.cells, GoodCell x) (hi : ∀ c ∈ f.cells, isCell c = true ∧ hasImp c = false)
    (hs : f.surfaces ≠ [] ∧ ∀ x ∈ f.surfaces, GoodSurface x) (hd : f.data ≠ [] ∧ ∀ x ∈ f.data, GoodData x)
    (ho : Trailing f.other) : inpRead (inpPrint f) = .error .inp := by
  have h := C35_file_partial (unionRead cellCards) (unionRead surfaceCards) (unionRead dataCards) Val.str Val.str Val.str f
    (unionRead_pre _) (unionRead_pre _) (unionRead_pre _) hmsg title ht hft hm hlen
    ⟨hc.1, fun x hx => good_cell (hc.2 x hx)⟩ ⟨hs.1, fun x hx => good_surface (hs.2 x hx)⟩
    ⟨hd.1, fun x hx => good_data (hd.2 x hx)⟩ ho
  unfold inpRead inpPrint
  rw [h]
  simp only
  rw [C36_first_partial, if_neg]
  rintro ⟨c, hc1, hc2⟩
  have := hi c hc1
  simp_all

/-- The parts of the file below. -/
def exCell : Val := .obj Tab.Cell.info [.sc (.int (.num 1)), .sc (.int (.num 0)), .none, .sc (.geo (.unary .minus (.digit ['1']))),
  .tuple [.obj Tab.cell_Imp.info [.sc (.desig ['n']), .sc (.real (.num (.fin ⟨false, 1, 0⟩)))]]]

theorem exCell_good : GoodCell exCell := by
  refine .mk 1 0 none (.unary .minus (.digit ['1'])) ⟨c!"-1", by decide +kernel⟩
    [(Tab.cell_Imp, .obj Tab.cell_Imp.info [.sc (.desig ['n']), .sc (.real (.num (.fin ⟨false, 1, 0⟩)))], (c!"imp:n", [c!"1"]))] ?_ ?_ _ (by decide +kernel)
  · intro x hx
    simp only [List.mem_cons, List.not_mem_nil, or_false] at hx
    subst hx
    refine ⟨⟨⟨.no, c!"imp", .no, .req⟩, _, [.sc (.desig ['n'])], [.sc (.real (.num (.fin ⟨false, 1, 0⟩)))], rfl, by decide +kernel, .inl (by decide +kernel), rfl,
        ⟨[], [], [.sc (.desig ['n'])], rfl, rfl, rfl, ['n'], rfl, by decide +kernel, by decide, by decide, by decide⟩, ?_, ?_, ?_,
        by decide +kernel, by decide +kernel⟩, by decide, by decide +kernel, by decide, by decide, by decide⟩
    · exact ⟨⟨rfl, .real, rfl, trivial⟩, trivial⟩
    · exact ⟨.inr (.inr (by simp)), trivial⟩
    · exact trivial
  · exact ⟨by simp [Inp.cellOptions], by decide +kernel, trivial⟩

def exSphere : Val := .obj Tab.Surface.info [.none, .sc (.int (.num 1)), .none, .obj Tab.surface_So.info [.sc (.real (.num (.fin ⟨false, 5, 0⟩)))]]

theorem exSphere_good : GoodSurface exSphere := by
  refine .mk Tab.surface_So (by simp [surfaceOptions]) _ _ rfl [.sc (.real (.num (.fin ⟨false, 5, 0⟩)))]
    ⟨⟨rfl, .real, rfl, trivial⟩, trivial⟩ ⟨.inr (.inr (by simp)), trivial⟩ ?_
    (.obj Tab.surface_So.info [.sc (.real (.num (.fin ⟨false, 5, 0⟩)))]) (by decide +kernel)
    none (by simp) (.num 1) trivial none (by simp) _ (by decide +kernel) (by decide)
  exact trivial

def exCut : Val := .obj Tab.Cut.info [.sc (.desig ['n']), .sc (.real (.num (.fin ⟨false, 25, -1⟩))), .sc (.real (.hor (.jump none))), .none, .none, .none]

theorem exCut_good : GoodData exCut := by
  refine .flat Tab.Cut (by simp [dataCards]) ⟨.no, c!"cut", .no, .req⟩ _ rfl (by decide +kernel) (by decide +kernel) rfl
    [.sc (.desig ['n'])] [.sc (.real (.num (.fin ⟨false, 25, -1⟩))), .sc (.real (.hor (.jump none))), .none, .none, .none]
    ⟨[], [], [.sc (.desig ['n'])], rfl, rfl, rfl, ['n'], rfl, by decide +kernel, by decide, by decide, by decide⟩ ?_ ?_ ?_ _ (by decide +kernel)
    (by decide +kernel) ?_
  · exact ⟨⟨rfl, .real, rfl, trivial⟩, ⟨rfl, .real, rfl, rfl⟩, trivial, trivial, trivial, trivial⟩
  · exact ⟨.inl rfl, .inl rfl, .inl rfl, .inl rfl, .inl rfl, trivial⟩
  · intro v hv
    revert hv; simp [Val.words]
  · intro d hd hw
    have : (dataCards.takeWhile (·.info.name != Tab.Cut.info.name)).all (fun d => d.word != Tab.Cut.word) = true := by decide +kernel
    have := List.all_eq_true.1 this d hd
    simp [hw] at this

def exLike : Val := .obj Tab.Like.info [.sc (.int (.num 2)), .sc (.int (.num 1)), .tuple [.obj Tab.like_Mat.info [.sc (.int (.num 5))]]]

theorem exLike_good : GoodCell exLike := by
  refine .like 2 1 [(Tab.like_Mat, .obj Tab.like_Mat.info [.sc (.int (.num 5))], (c!"mat", [c!"5"]))] ?_ ?_ _ (by decide +kernel)
  · intro x hx
    simp only [List.mem_cons, List.not_mem_nil, or_false] at hx
    subst hx
    refine ⟨⟨⟨.no, c!"mat", .no, .no⟩, _, [], [.sc (.int (.num 5))], rfl, by decide +kernel, .inl (by decide +kernel), rfl,
        ⟨[], [], [], rfl, rfl, rfl, rfl⟩, ?_, ?_, ?_, by decide +kernel, by decide +kernel⟩, by decide, by decide +kernel, by decide, by decide, by decide⟩
    · exact ⟨⟨rfl, .int, rfl, trivial⟩, trivial⟩
    · exact ⟨.inr (.inr (by simp)), trivial⟩
    · exact trivial
  · exact ⟨by simp [likeOptions], by decide +kernel, trivial⟩

def exNote : Val := readComment [c!"the", c!"core"]

theorem exNote_stable : ∀ w ∈ [c!"the", c!"core"], Stable w := by
  intro w hw
  simp only [List.mem_cons, List.not_mem_nil, or_false] at hw
  rcases hw with rfl | rfl <;> exact ⟨by decide, by decide, by decide⟩

/-- A sphere with a cell, a cell like it, an energy cut, comments and a note. -/
example : inpPrint ⟨none, c!"bare sphere", [exNote, exCell, exLike], [exSphere, exNote], [exCut, exNote], some c!"the end"⟩ =
      c!"bare sphere\nc the core\n1 0  -1 imp:n 1\n2 like 1 but mat 5\n\n1  so 5\nc the core\n\ncut:n 2.5 j\nc the core\n\nthe end" ∧
    inpRead (inpPrint ⟨none, c!"bare sphere", [exNote, exCell, exLike], [exSphere, exNote], [exCut, exNote], some c!"the end"⟩) =
      .ok ⟨none, c!"bare sphere", [exNote, exCell, exLike], [exSphere, exNote], [exCut, exNote], some c!"the end"⟩ := by
  refine ⟨by decide +kernel, ?_⟩
  refine C71_roundtrip_partial _ rfl [c!"bare", c!"sphere"] ⟨⟨by decide, by decide⟩, by decide⟩ (by decide) (by simp only [IsMessage]; decide)
    (by decide) ⟨by simp, ?_⟩ ⟨exCell, by simp, by decide +kernel⟩ ⟨by simp, ?_⟩ ⟨by simp, ?_⟩ (.some [] [c!"the", c!"end"] (by simp) ⟨⟨by decide, by decide⟩, by decide⟩)
  · intro x hx; simp only [List.mem_cons, List.not_mem_nil, or_false] at hx
    rcases hx with rfl | rfl | rfl
    · exact .comment _ exNote_stable
    · exact exCell_good
    · exact exLike_good
  · intro x hx; simp only [List.mem_cons, List.not_mem_nil, or_false] at hx
    rcases hx with rfl | rfl
    · exact exSphere_good
    · exact .comment _ exNote_stable
  · intro x hx; simp only [List.mem_cons, List.not_mem_nil, or_false] at hx
    rcases hx with rfl | rfl
    · exact exCut_good
    · exact .comment _ exNote_stable

/-- A file with a moved cell and a cell like it. -/
example : inpPrint ⟨none, c!"bare sphere", [exCell, exMovedCell, exMovedLike], [exSphere], [exCut], none⟩ =
      c!"bare sphere\n1 0  -1 imp:n 1\n2 0  1 2 *trcl 1 2 3  u 7\n5 like 2 but trcl 4 5 6 -1\n\n1  so 5\n\ncut:n 2.5 j\n\n" ∧
    inpRead (inpPrint ⟨none, c!"bare sphere", [exCell, exMovedCell, exMovedLike], [exSphere], [exCut], none⟩) =
      .ok ⟨none, c!"bare sphere", [exCell, exMovedCell, exMovedLike], [exSphere], [exCut], none⟩ := by
  refine ⟨by decide +kernel, ?_⟩
  refine C71_roundtrip_partial _ rfl [c!"bare", c!"sphere"] ⟨⟨by decide, by decide⟩, by decide⟩ (by decide) (by simp only [IsMessage]; decide)
    (by decide) ⟨by simp, ?_⟩ ⟨exCell, by simp, by decide +kernel⟩ ⟨by simp, ?_⟩ ⟨by simp, ?_⟩ .none
  · intro x hx; simp only [List.mem_cons, List.not_mem_nil, or_false] at hx
    rcases hx with rfl | rfl | rfl
    · exact exCell_good
    · exact .moved 2 0 none (.inter (.digit ['1']) (.digit ['2'])) ⟨c!"1 2", by decide +kernel⟩ exMovedVals exMovedVals_ok exMovedVals_deep
        (by decide +kernel) _ (by decide +kernel)
    · exact .movedLike 5 2 _ exMovedLike_ok.1 exMovedLike_ok.2 (by decide +kernel) _ (by decide +kernel)
  · intro x hx; simp only [List.mem_cons, List.not_mem_nil, or_false] at hx
    subst hx; exact exSphere_good
  · intro x hx; simp only [List.mem_cons, List.not_mem_nil, or_false] at hx
    subst hx; exact exCut_good

/-- A cell without importances. -/
def exBare : Val := .obj Tab.Cell.info [.sc (.int (.num 1)), .sc (.int (.num 0)), .none, .sc (.geo (.unary .minus (.digit ['1']))), .none]

theorem exBare_good : GoodCell exBare := by
  refine .mk 1 0 none (.unary .minus (.digit ['1'])) ⟨c!"-1", by decide +kernel⟩ [] (by simp) trivial _ (by decide +kernel)

example : inpRead (inpPrint ⟨none, c!"bare sphere", [exBare, exBare], [exSphere], [exCut], none⟩) = .error .inp := by
  refine C71_importance _ rfl [c!"bare", c!"sphere"] ⟨⟨by decide, by decide⟩, by decide⟩ (by decide) (by simp only [IsMessage]; decide)
    (by decide) ⟨by simp, ?_⟩ ?_ ⟨by simp, ?_⟩ ⟨by simp, ?_⟩ .none
  · intro x hx; simp only [List.mem_cons, List.not_mem_nil, or_false, or_self] at hx
    subst hx; exact exBare_good
  · intro x hx; simp only [List.mem_cons, List.not_mem_nil, or_false, or_self] at hx
    subst hx; decide +kernel
  · intro x hx; simp only [List.mem_cons, List.not_mem_nil, or_false, or_self] at hx
    subst hx; exact exSphere_good
  · intro x hx; simp only [List.mem_cons, List.not_mem_nil, or_false, or_self] at hx
    subst hx; exact exCut_good

/-- The text of a file after reading and printing it. -/
def reprint (s : Str) : Res Str := (inpRead s).map inpPrint

/-- A file with a message is read, but the text printed from it is not; and a message block that ends in an empty line is not
read at all. -/
theorem C71_message_violated :
    reprint c!"message: x\nt\n1 0 -1 imp:n 1\n\n1 so 5\n\nnps 9\n\n" =
      .ok c!"message: x\n\nt\n1 0  -1 imp:n 1\n\n1  so 5\n\nnps 9\n\n" ∧
    (inpRead c!"message: x\n\nt\n1 0  -1 imp:n 1\n\n1  so 5\n\nnps 9\n\n").map inpPrint = .error .types := by
  constructor <;> decide +kernel

end Props
