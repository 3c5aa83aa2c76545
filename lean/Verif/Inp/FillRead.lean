import Verif.Inp.DeepRun
import Verif.Inp.DeepSpec
import Verif.Inp.OptionApart
import Verif.Inp.CaseLemmas
/-!
# Reading `fill` options with a single universe
-/
set_option maxRecDepth 100000
namespace Inp
open Py Types

theorem lower_sign {x c : Char} (hc : c ∈ c!"*(") (h : lowerC x = lowerC c) : x = c := by
  have h1 : ∀ c ∈ c!"*(", lowerC c = c ∧ c ∉ lowers := by decide
  obtain ⟨h2, h3⟩ := h1 c hc
  rw [h2] at h
  rcases lowerC_split x with ⟨hx, -⟩ | ⟨y, hy, -, hl⟩
  · rw [← h, hx]
  · rw [hl] at h; subst h; exact absurd hy h3

theorem test_sign {x c : Char} (hc : c ∈ c!"*(") (h : (CC.set false [.ch c]).test x = true) : x = c := by
  refine lower_sign hc ?_
  simpa [CC.test, CI.test] using h

/-- The head of a `fill` option. -/
def fillHead : Head := ⟨.star, c!"fill", .no, .no⟩

/-- A class made of the head and the universe only. -/
def fillFlat : Cls where
  info := Tab.cell_Fill_1.info
  shape := .flat fillHead [⟨.ty (.base .int), .req⟩]
  attrs := [⟨"prefix", .base .str, false, none⟩, ⟨"universe", .base .int, false, none⟩]
  init := ["prefix", "universe"]

/-- The transformation after the universe. -/
def putRe (g : Nat) : Re :=
  .opt true (.grp g (.alt (.seq (litRe c!" ") (transRe 0 (g + 1)))
    (.seq (litRe c!" ") (.seq (.cls (CC.set false [.ch '(']).test) (.seq (transRe 0 (g + 14)) (.cls (CC.set false [.ch ')']).test))))))

theorem fill_pat_re (like : Bool) (n : Nat) : (fillOf like).pat.re n =
    .seq (.opt true (.grp n (.cls (CC.set false [.ch '*']).test))) (.seq (litRe c!"fill")
      (.seq (.grp (n + 1) (.seq (litRe c!" ") numRe)) (putRe (n + 2)))) := by
  cases like <;> rfl

theorem flat_pat_re (n : Nat) : fillFlat.pat.re n =
    .seq (.opt true (.grp n (.cls (CC.set false [.ch '*']).test))) (.seq (litRe c!"fill")
      (.seq (.grp (n + 1) (.seq (litRe c!" ") numRe)) .eps)) := rfl

theorem fill_head_re (n : Nat) : headRe fillHead n =
    .seq (.opt true (.grp n (.cls (CC.set false [.ch '*']).test))) (.seq (litRe c!"fill") .eps) := rfl

theorem fill_run {α : Type} (like : Bool) (n : Nat) (st : St) (K : St → Option α) :
    run ((fillOf like).pat.re n) st K = run (fillFlat.pat.re n) st (fun st' => run (putRe (n + 2)) st' K) := by
  rw [fill_pat_re, flat_pat_re]
  simp only [run_seq, run_eps]

theorem mt_num {i : Str} {z} (h : Mt numRe i z) : z = [] := by
  unfold numRe at h
  simp only [mt_alt, mt_chrI, mt_lit, mt_seq, Re.digit, mt_star_cls, mt_cls] at h
  rcases h with ⟨-, rfl⟩ | ⟨-, rfl⟩ | ⟨-, rfl⟩ | ⟨_, _, _, _, ⟨-, rfl⟩, ⟨-, rfl⟩, -, rfl⟩ | ⟨-, rfl⟩ | ⟨-, rfl⟩ | ⟨_, _, _, _, ⟨_, -, -, rfl⟩, ⟨-, rfl⟩, -, rfl⟩ <;> rfl

/-- What stands after the universe, and its groups. -/
def PutText (o : Str) (y : List (Nat × Str)) : Prop :=
  (o = [] ∧ y = []) ∨ ∃ t g ps, o = ' ' :: t ∧ y = (3, ' ' :: t) :: capsOf g ps ∧ 4 ≤ g

theorem put_mt {o : Str} {y} (h : Mt (putRe 3) o y) : PutText o y := by
  unfold putRe at h
  rcases mt_opt.1 h with ⟨rfl, rfl⟩ | h
  · exact .inl ⟨rfl, rfl⟩
  · obtain ⟨z, h', rfl⟩ := mt_grp.1 h
    rcases mt_alt.1 h' with h' | h'
    · obtain ⟨b, t, x, y, h1, h2, rfl, rfl⟩ := mt_seq.1 h'
      obtain ⟨rfl, rfl⟩ := (blank_lit.mt _ _).1 h1
      obtain ⟨ps, -, rfl⟩ := (trans_mt 0 _ _ _).1 h2
      exact .inr ⟨t, 4, ps, rfl, by simp, by omega⟩
    · obtain ⟨b, t, x, y, h1, h2, rfl, rfl⟩ := mt_seq.1 h'
      obtain ⟨rfl, rfl⟩ := (blank_lit.mt _ _).1 h1
      obtain ⟨a, t, x, y, h3, h4, rfl, rfl⟩ := mt_seq.1 h2
      obtain ⟨_, -, rfl, rfl⟩ := mt_cls.1 h3
      obtain ⟨t, c, x, y, h5, h6, rfl, rfl⟩ := mt_seq.1 h4
      obtain ⟨_, -, rfl, rfl⟩ := mt_cls.1 h6
      obtain ⟨ps, -, rfl⟩ := (trans_mt 0 _ _ _).1 h5
      exact .inr ⟨_, 17, ps, rfl, by simp, by omega⟩

theorem fill_parts (like : Bool) {w : Str} {e} (h : Mt ((fillOf like).pat.re 1) w e) :
    ∃ u i o x y, Mt (headRe fillHead 1) u x ∧ Full numRe i ∧ PutText o y ∧ w = u ++ ' ' :: (i ++ o) ∧ e = y ++ (2, ' ' :: i) :: x := by
  rw [fill_pat_re] at h
  obtain ⟨a, r, x1, y1, h1, h2, rfl, rfl⟩ := mt_seq.1 h
  obtain ⟨b, r, x2, y2, h3, h4, rfl, rfl⟩ := mt_seq.1 h2
  obtain ⟨c, o, x3, y3, h5, h6, rfl, rfl⟩ := mt_seq.1 h4
  obtain ⟨z, h7, rfl⟩ := mt_grp.1 h5
  obtain ⟨d, i, x4, y4, h8, h9, rfl, rfl⟩ := mt_seq.1 h7
  obtain ⟨rfl, rfl⟩ := (blank_lit.mt _ _).1 h8
  obtain rfl := mt_num h9
  refine ⟨a ++ b, i, o, x2 ++ x1, y3, ?_, ⟨_, h9⟩, put_mt h6, by simp, by simp⟩
  rw [fill_head_re]
  refine mt_seq.2 ⟨a, b, x1, x2, h1, ?_, rfl, rfl⟩
  have := Mt.seq h3 Mt.eps
  simpa using this

theorem fill_full (like : Bool) {u i o : Str} (h1 : Full (headRe fillHead 1) u) (h2 : Full numRe i) (h3 : Full (putRe 3) o) :
    Full ((fillOf like).pat.re 1) (u ++ ' ' :: (i ++ o)) := by
  obtain ⟨x, h1⟩ := h1
  obtain ⟨y, h2⟩ := h2
  obtain ⟨z, h3⟩ := h3
  rw [fill_head_re] at h1
  obtain ⟨a, b, x1, y1, m1, m2, rfl, rfl⟩ := mt_seq.1 h1
  obtain ⟨b, _, x2, y2, m3, m4, rfl, rfl⟩ := mt_seq.1 m2
  obtain ⟨rfl, rfl⟩ := mt_eps.1 m4
  rw [fill_pat_re]
  have e : a ++ (b ++ []) ++ ' ' :: (i ++ o) = a ++ (b ++ (([' '] ++ i) ++ o)) := by simp
  rw [e]
  exact ⟨_, .seq m1 (.seq m3 (.seq (.grp (.seq ((blank_lit.mt _ _).2 ⟨rfl, rfl⟩) h2)) h3))⟩

theorem fill_head_facts : (headRe fillHead 1).free = true ∧ (headRe fillHead 1).noSp := by
  have := (Pat.cat fillHead.pats).facts (fillHead.word (by decide)) 1
  exact ⟨this.1, this.2.1⟩

theorem fill_mem (like : Bool) : fillOf like ∈ optionsOf like := by
  cases like
  · show Tab.cell_Fill_1 ∈ cellOptions
    simp [cellOptions]
  · show Tab.like_Fill_1 ∈ likeOptions
    simp [likeOptions]

theorem num_words {i : Str} (h : Full numRe i) : NoSpace i ∧ i ≠ [] ∧ ':' ∉ i := by
  have hf := (Pat.ty (.base .int)).facts (by decide) 1
  have hs : NoSpace i := by
    obtain ⟨e, he⟩ := h
    exact noSp_mt hf.2.1 i e he
  have h := full_num.1 h
  have low : ∀ {w s : Str}, lower w = lower s → ':' ∉ lower s → ':' ∉ w := by
    intro w s hl hs hc
    refine hs ?_
    rw [← hl]
    exact List.mem_map.2 ⟨':', hc, rfl⟩
  have tail : ∀ {c : Char}, numTail c = true → c ≠ ':' := by
    rintro c hc rfl
    exact absurd hc (by decide)
  refine ⟨hs, ?_, ?_⟩
  · rintro rfl
    generalize hn : ([] : Str) = n at h
    cases h with
    | lit x w hx hl =>
      simp only [List.mem_cons, List.not_mem_nil, or_false] at hx
      subst hn
      rcases hx with rfl | rfl | rfl <;> cases hl
    | log w hl => subst hn; cases hl
    | ilog w hl => subst hn; cases hl
    | mul ds l hd hl =>
      have := (List.append_eq_nil_iff.1 hn.symm).2
      subst this
      cases hl
    | num c t hc ht => cases hn
  · cases h with
    | lit x w hx hl =>
      simp only [List.mem_cons, List.not_mem_nil, or_false] at hx
      rcases hx with rfl | rfl | rfl <;> exact low hl (by decide)
    | log w hl => exact low hl (by decide)
    | ilog w hl => exact low hl (by decide)
    | mul ds l hd hl =>
      intro hc
      rcases List.mem_append.1 hc with hc | hc
      · exact absurd (hd _ hc) (by decide)
      · exact low hl (by decide) hc
    | num c t hc ht =>
      intro hx
      rcases List.mem_cons.1 hx with hx | hx
      · exact tail (numHead_tail hc) hx.symm
      · exact tail (ht _ hx) rfl

theorem words_eq {u i r o : Str} (hu : NoSpace u) (hi : NoSpace i) (hr : Bnd r) (ho : Bnd o) (h : u ++ r = i ++ o) : u = i ∧ r = o := by
  obtain ⟨v, h1, h2⟩ := prefix_word hi hr h
  cases v with
  | nil => exact ⟨by simpa using h1, by simpa using h2.symm⟩
  | cons c v =>
    have h3 := hu c (by rw [h1]; simp)
    have h4 := ho c (by rw [h2]; simp)
    rw [h3] at h4
    cases h4

theorem PutText.bnd {o : Str} {y} (h : PutText o y) : Bnd o := by
  rcases h with ⟨rfl, -⟩ | ⟨t, g, ps, rfl, -⟩
  · intro c hc; cases hc
  · exact bnd_blank _

theorem fill_head {star : Bool} {hd : Str} (h : FillWord star hd) :
    readHead fillHead hd = some [if star then some ['*'] else none] := by
  obtain ⟨kw, h1, rfl⟩ := h
  have hlen : kw.length = 4 := by
    have := congrArg List.length h1
    simpa [lower] using this
  have hk : readKw fillHead.kw kw = some [] := by
    unfold readKw
    have : fillHead.kw.length = kw.length := by rw [hlen]; rfl
    rw [this, List.take_length, List.drop_length, h1, if_pos (by decide)]
  cases star with
  | true =>
    have : readPre fillHead.pre ((if true = true then ['*'] else []) ++ kw) = ([some ['*']], kw) := rfl
    unfold readHead
    rw [this]
    simp only [hk]
    rfl
  | false =>
    have : readPre fillHead.pre ((if false = true then ['*'] else []) ++ kw) = ([none], kw) := by
      cases kw with
      | nil => rfl
      | cons c kw =>
        have hc : c ≠ '*' := by
          rintro rfl
          rw [show lower ('*' :: kw) = '*' :: lower kw from rfl] at h1
          exact absurd (List.cons.inj h1).1 (by decide)
        simp [readPre, fillHead, Pre.chars, hc]
    unfold readHead
    rw [this]
    simp only [hk]
    rfl

/-- The words after the universe are nothing, or a transformation of twelve entries. -/
def Placed0 (ws ps : List Str) : Prop := (ws = [] ∧ ps = []) ∨ TransText 0 (join [' '] ws) ps

theorem trans_words {k : Nat} {ws ps : List Str} (h : TransText k (join [' '] ws) ps) : ws ≠ [] ∧ ps ≠ [] := by
  have hk := trCount_big k
  have hl := h.len
  refine ⟨?_, ?_⟩
  · rintro rfl
    obtain ⟨o, c, -, -, e⟩ := h.text
    have : join [' '] ps = [] := by
      have := congrArg List.length e
      simp only [join, List.length_append, List.length_nil] at this
      exact List.eq_nil_of_length_eq_zero (by omega)
    exact join_ne (by omega) this
  · rintro rfl
    simp at hl
    omega

theorem put_full {ws ps : List Str} (h : Placed0 ws ps) : Full (putRe 3) (enc ws) := by
  rcases h with ⟨rfl, -⟩ | h
  · exact ⟨[], .optNone⟩
  · obtain ⟨w, ws, rfl⟩ := List.exists_cons_of_ne_nil (trans_words h).1
    have m := (trans_mt 0 4 _ _).2 ⟨ps, h, rfl⟩
    rw [join_enc] at m
    have e : enc (w :: ws) = [' '] ++ (w ++ enc ws) := by rw [enc_cons]; rfl
    rw [e]
    exact ⟨_, .optSome (.grp (.altL (.seq ((blank_lit.mt _ _).2 ⟨rfl, rfl⟩) m)))⟩

theorem fill_free (like : Bool) : ((fillOf like).pat.re 1).free = true := by
  have hg : (fillOf like).pat.Good := by
    cases like
    · exact cellOptions_good _ (fill_mem false)
    · exact likeOptions_good _ (fill_mem true)
  exact (hg.any 1).1

/-- How the text of the option is taken apart. -/
theorem fill_match (like : Bool) {star : Bool} {hd u : Str} {ws ps : List Str} (hw : Words (hd :: u :: ws)) (hh : FillWord star hd)
    (hu : Full numRe u) (hp : Placed0 ws ps) :
    ∃ x y, reMatch (fillOf like).re (hd ++ enc (u :: ws)) = some ((0, hd ++ enc (u :: ws)) :: (y ++ (2, ' ' :: u) :: x)) ∧
      Caps x 1 [if star then some ['*'] else none] ∧ PutText (enc ws) y := by
  have hsp := (hw hd (by simp)).1
  have hfree := fill_free like
  have full : Full ((fillOf like).pat.re 1) (hd ++ enc (u :: ws)) := by
    rw [enc_cons]
    exact fill_full like (head_full (fill_head hh) hsp 1) hu (put_full hp)
  obtain ⟨m, hm⟩ := Option.isSome_iff_exists.1 ((full_iff _ hfree _).2 full)
  obtain ⟨e, he, rfl⟩ := full_match hfree hm
  obtain ⟨u', i, o, x, y, m1, m2, m3, m4, rfl⟩ := fill_parts like he
  rw [enc_cons] at m4
  obtain ⟨rfl, m5⟩ := words_eq hsp (noSp_mt fill_head_facts.2 _ _ m1) (bnd_blank _) (bnd_blank _) m4
  obtain ⟨rfl, rfl⟩ := words_eq (num_words hu).1 (num_words m2).1 (enc_bnd ws) m3.bnd (List.cons.inj m5).2
  obtain ⟨vs, c1, c2, c3⟩ := head_mt (h := fillHead) (by decide) m1
  rw [fill_head hh] at c3
  cases c3
  exact ⟨x, y, hm, c1, m3⟩

theorem capsOf_keys : ∀ (g : Nat) (ps : List Str), ∀ x ∈ capsOf g ps, g ≤ x.1
  | _, [], x, h => by cases h
  | g, p :: ps, x, h => by
    rw [capsOf] at h
    rcases List.mem_append.1 h with h | h
    · have := capsOf_keys (g + 1) ps x h; omega
    · simp only [List.mem_singleton] at h; subst h; exact Nat.le_refl _

/-- Building the option from the groups. -/
theorem fill_build (like : Bool) {star : Bool} {u : Str} {ws ps : List Str} (hw : Words (u :: ws)) (hp : Placed0 ws ps) (s : Str) {x y}
    (hx : Caps x 1 [if star then some ['*'] else none]) (hy : PutText (enc ws) y) :
    (fillOf like).build ((0, s) :: (y ++ (2, ' ' :: u) :: x)) = readFill (fillOf like) star u ps := by
  obtain ⟨a, b, d, hat⟩ : ∃ a b d, (fillOf like).attrs = [⟨"prefix", .base .str, false, a⟩, ⟨"universe", .base .int, false, b⟩, ⟨"transformation", .base (.trans 0), false, d⟩] := by
    cases like <;> exact ⟨_, _, _, rfl⟩
  have hng : 3 ≤ (fillOf like).pat.ng := by cases like <;> decide
  have hu := hw u (by simp)
  have yk : ∀ z ∈ y, 3 ≤ z.1 := by
    intro z hz
    rcases hy with ⟨-, rfl⟩ | ⟨t, g, qs, -, rfl, hg⟩
    · cases hz
    · rcases List.mem_cons.1 hz with rfl | hz
      · exact Nat.le_refl _
      · have := capsOf_keys g qs z hz; omega
  have skip : ∀ (j : Nat), j < 3 → ∀ z : List (Nat × Str), (y ++ z).lookup j = z.lookup j := by
    intro j hj z
    rw [List.lookup_append, lookup_none (fun z hz h => by have := yk z hz; omega)]
    rfl
  generalize hM : (0, s) :: (y ++ (2, ' ' :: u) :: x) = m
  have hcap1 : cap m 1 = if star then some ['*'] else none := by
    rw [← hM]
    show List.lookup 1 (y ++ (2, ' ' :: u) :: x) = _
    rw [skip 1 (by omega)]
    exact hx.get 0 _ (by simp)
  have hcap2 : cap m 2 = some (' ' :: u) := by
    rw [← hM]
    show List.lookup 2 (y ++ (2, ' ' :: u) :: x) = _
    rw [skip 2 (by omega)]
    rfl
  have hcap3 : cap m 3 = if ws = [] then none else some (enc ws) := by
    rw [← hM]
    show List.lookup 3 (y ++ (2, ' ' :: u) :: x) = _
    rcases hy with ⟨hy, rfl⟩ | ⟨t, g, qs, hy, rfl, hg⟩
    · have : ws = [] := by
        cases ws with
        | nil => rfl
        | cons w ws => rw [enc_cons] at hy; cases hy
      rw [if_pos this]
      show List.lookup 3 x = none
      exact lookup_none (fun z hz h => by
        have := hx.keys z hz
        simp at this
        omega)
    · rw [if_neg (by rintro rfl; cases hy), hy]
      rfl
  have a1 : attrVal (fillOf like).pat.ng m 0 ⟨"prefix", .base .str, false, a⟩ = .ok (if star then .sc (.str ['*']) else .none) := by
    unfold attrVal
    rw [if_neg (by omega), hcap1]
    cases star <;> rfl
  have a2 : attrVal (fillOf like).pat.ng m 1 ⟨"universe", .base .int, false, b⟩ = (intParse u).map (fun n => .sc (.int n)) := by
    unfold attrVal
    rw [if_neg (by omega), hcap2]
    have : strip (' ' :: u) = u := by
      have := strip_enc u [] (by intro w hw; simp only [List.mem_singleton] at hw; subst hw; exact hu)
      simpa [enc_cons] using this
    simp only [this]
    rfl
  have a3 : attrVal (fillOf like).pat.ng m 2 ⟨"transformation", .base (.trans 0), false, d⟩ = if ps = [] then .ok .none else readTrans 0 ps := by
    unfold attrVal
    rw [if_neg (by omega), hcap3]
    rcases hp with ⟨rfl, rfl⟩ | hp
    · rfl
    · obtain ⟨h1, h2⟩ := trans_words hp
      rw [if_neg h1, if_neg h2]
      obtain ⟨w, ws, rfl⟩ := List.exists_cons_of_ne_nil h1
      have hst : strip (' ' :: (w ++ enc ws)) = join [' '] (w :: ws) := by
        rw [← enc_cons, strip_enc w ws (fun z hz => hw z (by simp only [List.mem_cons] at hz ⊢; exact .inr hz)), join_enc]
      simp only [enc_cons, hst]
      rw [← (trans_read 0 _).1 ps hp]
      rfl
  unfold Cls.build readFill
  rw [hat]
  simp only [attrVals, a1, a2, a3]
  cases intParse u with
  | error e => rfl
  | ok n =>
    simp only [Except.map]
    generalize (if ps = [] then Except.ok Val.none else readTrans 0 ps) = r
    cases r <;> rfl

/-! ## Among the options of a cell -/

/-- The options before and after. -/
def beforeFill (like : Bool) : List Cls := (optionsOf like).take (if like then 18 else 17)
def afterFill (like : Bool) : List Cls := (optionsOf like).drop (if like then 20 else 19)

/-- The class of a lattice. -/
def latticeOf : Bool → Cls
  | false => Tab.cell_Fill_0
  | true => Tab.like_Fill_0

theorem fill_split (like : Bool) : optionsOf like = beforeFill like ++ (latticeOf like :: fillOf like :: afterFill like) := by
  cases like <;> rfl

theorem fill_apart : ∀ like : Bool, (beforeFill like).all (keyApart fillHead) = true := by
  decide +kernel

theorem lattice_begins (like : Bool) {hd u tail : Str} (hsp : NoSpace hd) (hu : Full numRe u) (ht : Bnd tail) :
    (latticeOf like).begins (hd ++ ' ' :: (u ++ tail)) = false := by
  have hg : (latticeOf like).pat.Good := by
    have : latticeOf like ∈ optionsOf like := by rw [fill_split]; simp
    cases like
    · exact cellOptions_good _ this
    · exact likeOptions_good _ this
  unfold Cls.begins
  cases hm : reMatch ((latticeOf like).pat.re 1) (hd ++ ' ' :: (u ++ tail)) with
  | none => rfl
  | some m =>
    exfalso
    unfold reMatch at hm
    obtain ⟨st', h1, -⟩ := (run_spec ((latticeOf like).pat.re 1) _ _).2 _ hm
    obtain ⟨w, e, m1, m2, -, -⟩ := h1.mt (hg.any 1).1
    obtain ⟨r, hr⟩ : ∃ r, (latticeOf like).pat.re 1 = .seq (.opt true (.grp 1 (.cls (CC.set false [.ch '*']).test))) (.seq (litRe c!"fill ")
        (.seq (.grp 2 (.seq (Re.plus true (.cls (CC.one .S).test)) (.seq (litRe c!":") (Re.plus true (.cls (CC.one .S).test))))) r)) := by
      cases like <;> exact ⟨_, rfl⟩
    rw [hr] at m1
    obtain ⟨a, w, _, _, n1, n2, rfl, -⟩ := mt_seq.1 m1
    obtain ⟨b, w, _, _, n3, n4, rfl, -⟩ := mt_seq.1 n2
    obtain ⟨c, w, _, _, n5, n6, rfl, -⟩ := mt_seq.1 n4
    obtain ⟨_, n7, -⟩ := mt_grp.1 n5
    obtain ⟨p, c, _, _, p1, p2, rfl, -⟩ := mt_seq.1 n7
    obtain ⟨q, t, _, _, p3, p4, rfl, -⟩ := mt_seq.1 p2
    obtain ⟨-, p1, -⟩ := mt_plus_cls.1 p1
    obtain ⟨-, p4, -⟩ := mt_plus_cls.1 p4
    have hq : q = [':'] := by
      obtain ⟨x, rfl, hx⟩ := lower_single (mt_lit.1 p3).1
      rw [(lower_eq_char (by simp)).1 hx]
    subst hq
    have ha : NoSpace a := by
      rcases mt_opt.1 n1 with ⟨rfl, -⟩ | n1
      · intro c hc; cases hc
      · obtain ⟨_, n1, -⟩ := mt_grp.1 n1
        obtain ⟨c, hc, rfl, -⟩ := mt_cls.1 n1
        intro x hx
        simp only [List.mem_singleton] at hx
        subst hx
        have := test_sign (c := '*') (by decide) hc
        subst this
        decide
    obtain ⟨b', hb', rfl⟩ : ∃ b', NoSpace b' ∧ b = b' ++ [' '] := by
      have hl := (mt_lit.1 n3).1
      have hlen : b.length = 5 := by
        have := congrArg List.length hl
        simpa [lower] using this
      match b, hlen with
      | [b1, b2, b3, b4, b5], _ =>
        simp only [lower, List.map_cons, List.map_nil, List.cons.injEq, and_true] at hl
        obtain ⟨h1, h2, h3, h4, h5⟩ := hl
        have h5' : [b5] = [' '] := lower_blank (by simp [lower, h5])
        refine ⟨[b1, b2, b3, b4], ?_, by cases h5'; rfl⟩
        intro c hc
        simp only [List.mem_cons, List.not_mem_nil, or_false] at hc
        rcases hc with rfl | rfl | rfl | rfl
        · exact isSpace_of_lower h1 (by decide)
        · exact isSpace_of_lower h2 (by decide)
        · exact isSpace_of_lower h3 (by decide)
        · exact isSpace_of_lower h4 (by decide)
    have m2' : hd ++ ' ' :: (u ++ tail) = (a ++ b') ++ ' ' :: ((p ++ ':' :: t) ++ (w ++ st'.rest)) := by
      have : hd ++ ' ' :: (u ++ tail) = a ++ ((b' ++ [' ']) ++ ((p ++ ([':'] ++ t)) ++ w)) ++ st'.rest := m2
      rw [this]; simp
    have hab : NoSpace (a ++ b') := by
      intro c hc
      rcases List.mem_append.1 hc with hc | hc
      · exact ha c hc
      · exact hb' c hc
    obtain ⟨-, m3⟩ := words_eq hsp hab (bnd_blank _) (bnd_blank _) m2'
    have hS : ∀ c, (CC.one .S).test c = true → isSpace c = false := by
      intro c hc
      simpa [CC.test, CI.test] using hc
    have hpt : NoSpace (p ++ ':' :: t) := by
      intro c hc
      rcases List.mem_append.1 hc with hc | hc
      · exact hS c (p1 c hc)
      · rcases List.mem_cons.1 hc with rfl | hc
        · decide
        · exact hS c (p4 c hc)
    obtain ⟨v, v1, -⟩ := prefix_word hpt ht (List.cons.inj m3).2
    exact (num_words hu).2.2 (by rw [v1]; simp)

theorem int_full {u : Str} (h : unitOk (.ty (.base .int)) u = true) : Full numRe u := (unitOk_iff (.ty (.base .int)) (by decide) 1 u).1 h

theorem before_begins (like : Bool) {star : Bool} {hd : Str} (hh : FillWord star hd) (ws : List Str) :
    ∀ d ∈ beforeFill like, d.pat.Good ∧ d.begins (hd ++ enc ws) = false := by
  intro d hd'
  have hm : d ∈ optionsOf like := by rw [fill_split]; simp [hd']
  have hg : d.pat.Good := by
    cases like
    · exact cellOptions_good _ hm
    · exact likeOptions_good _ hm
  exact ⟨hg, apart_begins hg (List.all_eq_true.1 (fill_apart like) d hd') (by rw [fill_head hh]; rfl) ws⟩

theorem begins_match {c : Cls} (hg : c.pat.Good) {s : Str} (h : c.begins s = false) : reMatch c.re s = none := by
  cases hm : reMatch c.re s with
  | none => rfl
  | some m =>
    exfalso
    have : (reMatch c.re s).isSome = true := by rw [hm]; rfl
    exact begins_full (v := []) hg (by rw [List.append_nil]; exact h) 1 ((full_iff _ (hg.any 1).1 _).1 this)

/-- The option among the others. -/
theorem fill_first (like : Bool) {star : Bool} {hd u : Str} {ws ps : List Str} (hw : Words (hd :: u :: ws)) (hh : FillWord star hd)
    (hu : Full numRe u) (hp : Placed0 ws ps) :
    ∃ m, firstMatch (hd ++ enc (u :: ws)) (optionsOf like) = some (fillOf like, m) ∧ (fillOf like).build m = readFill (fillOf like) star u ps := by
  obtain ⟨x, y, h1, h2, h3⟩ := fill_match like hw hh hu hp
  refine ⟨_, ?_, fill_build like (fun w h => hw w (by simp only [List.mem_cons] at h ⊢; exact .inr h)) hp (hd ++ enc (u :: ws)) h2 h3⟩
  rw [fill_split, firstMatch_skip (fun d hd' => by
    obtain ⟨hg, hb⟩ := before_begins like hh (u :: ws) d hd'
    exact begins_match hg hb)]
  have hl : reMatch (latticeOf like).re (hd ++ enc (u :: ws)) = none := by
    have hg : (latticeOf like).pat.Good := by
      have : latticeOf like ∈ optionsOf like := by rw [fill_split]; simp
      cases like
      · exact cellOptions_good _ this
      · exact likeOptions_good _ this
    rw [enc_cons]
    exact begins_match hg (lattice_begins like (hw hd (by simp)).1 hu (enc_bnd ws))
  have := firstMatch_skip (s := hd ++ enc (u :: ws)) (pre := [latticeOf like]) (cs := fillOf like :: afterFill like) (by
    intro c hc; simp only [List.mem_singleton] at hc; subst hc; exact hl)
  rw [show latticeOf like :: fillOf like :: afterFill like = [latticeOf like] ++ (fillOf like :: afterFill like) from rfl, this]
  exact firstMatch_hit h1 rfl _

/-! ## What it takes from a longer text -/

/-- The words before which the class is tried. -/
theorem sorted_fill (like : Bool) : ∃ as bs, sortLen (optionsOf like) = as ++ latticeOf like :: fillOf like :: bs ∧ ∀ d ∈ as, d ∈ beforeFill like := by
  cases like
  · exact ⟨(sortLen cellOptions).take 6, (sortLen cellOptions).drop 8, rfl, by
      intro d hd
      have e : (sortLen cellOptions).take 6 = [Tab.cell_Trcl_1, Tab.cell_Trcl_2, Tab.cell_Trcl_3, Tab.cell_Trcl_4, Tab.cell_Trcl_5, Tab.cell_Trcl_0] := rfl
      have e2 : beforeFill false = cellOptions.take 17 := rfl
      rw [e] at hd
      rw [e2]
      simp only [List.mem_cons, List.not_mem_nil, or_false] at hd
      rcases hd with rfl | rfl | rfl | rfl | rfl | rfl <;> simp [cellOptions]⟩
  · exact ⟨(sortLen likeOptions).take 6, (sortLen likeOptions).drop 8, rfl, by
      intro d hd
      have e : (sortLen likeOptions).take 6 = [Tab.like_Trcl_1, Tab.like_Trcl_2, Tab.like_Trcl_3, Tab.like_Trcl_4, Tab.like_Trcl_5, Tab.like_Trcl_0] := rfl
      have e2 : beforeFill true = likeOptions.take 18 := rfl
      rw [e] at hd
      rw [e2]
      simp only [List.mem_cons, List.not_mem_nil, or_false] at hd
      rcases hd with rfl | rfl | rfl | rfl | rfl | rfl <;> simp [likeOptions]⟩

theorem put_run {α : Type} (g : Nat) (qs : List Str) (o c tail : Str) (hl : qs.length = 12 ∨ qs.length = 13)
    (hch : ∀ p ∈ qs, ∀ c ∈ p, trC c = true) (hf : ∀ p ∈ qs.take 11, p ≠ []) (ho : o = [] ∨ o = ['(']) (hc : c = [] ∨ c = [')'])
    (ht : c = [] → ∀ x xs, tail = x :: xs → trC x = false ∧ x ≠ ')' ∧ (qs.length = 12 → x ≠ ' ')) (prev : Str) (caps) (K : St → Option α)
    (hs : ∀ e, (K ⟨(' ' :: (o ++ join [' '] qs ++ c)).reverse ++ prev, tail, e⟩).isSome = true) :
    ∃ e, run (putRe g) ⟨prev, ' ' :: (o ++ join [' '] qs ++ c ++ tail), caps⟩ K = K ⟨(' ' :: (o ++ join [' '] qs ++ c)).reverse ++ prev, tail, e⟩ := by
  have e1 : (' ' :: (o ++ join [' '] qs ++ c)).reverse ++ prev = (o ++ join [' '] qs ++ c).reverse ++ (' ' :: prev) := by simp
  rw [e1] at hs ⊢
  obtain ⟨e, he⟩ := trans_run 0 (g + 1) qs o c tail hl hch hf ho hc ht (' ' :: prev) caps
    (fun st' => K { st' with caps := (g, (' ' :: (o ++ join [' '] qs ++ c ++ tail)).take
      ((' ' :: (o ++ join [' '] qs ++ c ++ tail)).length - st'.rest.length)) :: st'.caps }) (fun e => hs _)
  refine ⟨(g, (' ' :: (o ++ join [' '] qs ++ c ++ tail)).take ((' ' :: (o ++ join [' '] qs ++ c ++ tail)).length - tail.length)) :: e, ?_⟩
  unfold putRe
  rw [run_opt_greedy]
  refine or_taken ?_ (hs _)
  rw [run_grp, run_alt]
  refine or_taken ?_ (hs _)
  rw [blank_run]
  exact he

theorem lone_trans {w : Str} {rest : List Str} (hw : NoSpace w) {o' : Str} (ho' : o' = [] ∨ o' = ['(']) (hl : ∃ c ∈ w, trC c = false ∧ c ≠ '(') {t v : Str} {ps : List Str}
    (h : TransText 0 t ps) (e : w ++ enc rest = o' ++ (t ++ v)) : False := by
  obtain ⟨hlen, hch, hf, o, c, ho, hc, rfl⟩ := h
  simp only [trCount] at hlen hf
  match ps, hlen with
  | p :: q :: ps, _ =>
    have hp : NoSpace (o' ++ (o ++ p)) := by
      intro x hx
      simp only [List.mem_append] at hx
      rcases hx with hx | hx | hx
      · rcases ho' with rfl | rfl
        · cases hx
        · simp only [List.mem_singleton] at hx; subst hx; decide
      · rcases ho with rfl | rfl
        · cases hx
        · simp only [List.mem_singleton] at hx; subst hx; decide
      · exact (trC_facts (hch p (by simp) x hx)).1
    rw [join_enc, enc_cons] at e
    have e' : w ++ enc rest = (o' ++ (o ++ p)) ++ ' ' :: (q ++ enc ps ++ c ++ v) := by
      rw [e]; simp
    obtain ⟨rfl, -⟩ := words_eq hw hp (enc_bnd rest) (bnd_blank _) e'
    obtain ⟨x, hx, h1, h2⟩ := hl
    simp only [List.mem_append] at hx
    rcases hx with hx | hx | hx
    · rcases ho' with rfl | rfl
      · cases hx
      · simp only [List.mem_singleton] at hx; exact h2 hx
    · rcases ho with rfl | rfl
      · cases hx
      · simp only [List.mem_singleton] at hx; exact h2 hx
    · rw [hch p (by simp) x hx] at h1; cases h1
  | [], h => simp at h
  | [p], h => simp at h

theorem lone_run {α : Type} (g : Nat) {rest : List Str} (hw : Words rest) (hl : Lone rest) (prev : Str) (caps) (K : St → Option α) :
    run (putRe g) ⟨prev, enc rest, caps⟩ K = K ⟨prev, enc rest, caps⟩ := by
  unfold putRe
  rw [run_opt_greedy]
  have : ∀ K' : St → Option α, run (.grp g (.alt (.seq (litRe c!" ") (transRe 0 (g + 1)))
      (.seq (litRe c!" ") (.seq (.cls (CC.set false [.ch '(']).test) (.seq (transRe 0 (g + 14)) (.cls (CC.set false [.ch ')']).test))))))
      ⟨prev, enc rest, caps⟩ K' = none := by
    intro K'
    rw [run_grp, run_alt]
    cases rest with
    | nil =>
      rw [enc_nil]
      rfl
    | cons w rest =>
      obtain ⟨h1, h2⟩ := hw w (by simp)
      have h3 := hl w rfl
      rw [enc_cons, blank_run, blank_run, run_none, run_none]
      · rfl
      · intro st' hst
        exfalso
        obtain ⟨t, e, m1, m2, -, -⟩ := hst.mt (by rfl)
        obtain ⟨a, t, _, _, n1, n2, rfl, -⟩ := mt_seq.1 m1
        obtain ⟨t, b, _, _, n3, n4, rfl, -⟩ := mt_seq.1 n2
        obtain ⟨c, hc, rfl, -⟩ := mt_cls.1 n1
        have hc' := test_sign (c := '(') (by decide) hc
        subst hc'
        obtain ⟨ps, h4, -⟩ := (trans_mt 0 _ _ _).1 n3
        have m2 : w ++ enc rest = ['('] ++ (t ++ b) ++ st'.rest := m2
        exact lone_trans h1 (o' := ['(']) (.inr rfl) h3 (v := b ++ st'.rest) h4 (by rw [m2]; simp)
      · intro st' hst
        exfalso
        obtain ⟨t, e, m1, m2, -, -⟩ := hst.mt (transRe_free _ _)
        obtain ⟨ps, h4, -⟩ := (trans_mt 0 _ _ _).1 m1
        have m2 : w ++ enc rest = t ++ st'.rest := m2
        exact lone_trans h1 (o' := []) (.inl rfl) h3 (v := st'.rest) h4 (by rw [m2]; simp)
  rw [this]
  rfl

/-- The option is found before the words `r`, with as much of them as its last part takes. -/
theorem find_fill (like : Bool) {star : Bool} {hd u : Str} (r : List Str) (X tail : Str) (hw : Words (hd :: u :: r)) (hh : FillWord star hd)
    (hu : unitOk (.ty (.base .int)) u = true) (hX : enc r = X ++ tail)
    (hput : ∀ n prev caps (K : St → Option St), (∀ e, (K ⟨X.reverse ++ prev, tail, e⟩).isSome = true) →
      ∃ e, run (putRe n) ⟨prev, enc r, caps⟩ K = K ⟨X.reverse ++ prev, tail, e⟩) (prev : Str) :
    ∃ e, run (altsRe (sortLen (optionsOf like)) 1) ⟨prev, hd ++ enc (u :: r), []⟩ (findK (hd ++ enc (u :: r)).length) =
      some ⟨(hd ++ ' ' :: u ++ X).reverse ++ prev, tail, e⟩ := by
  obtain ⟨as, bs, hsplit, has⟩ := sorted_fill like
  have hsp := (hw hd (by simp)).1
  have hk : ∀ e, findK (hd ++ enc (u :: r)).length ⟨(hd ++ ' ' :: u ++ X).reverse ++ prev, tail, e⟩ =
      some ⟨(hd ++ ' ' :: u ++ X).reverse ++ prev, tail, e⟩ := by
    intro e
    refine findK_ok ?_
    rw [enc_cons, hX]
    simp only [List.length_append, List.length_cons]
    omega
  obtain ⟨st', ⟨e, rfl⟩, h2⟩ := alts_option (as ++ [latticeOf like]) bs (fillOf like) ⟨prev, hd ++ enc (u :: r), []⟩
    (findK (hd ++ enc (u :: r)).length)
    (fun st => ∃ e, st = ⟨(hd ++ ' ' :: u ++ X).reverse ++ prev, tail, e⟩)
    (by
      intro d hd' n
      rcases List.mem_append.1 hd' with hd' | hd'
      · obtain ⟨hg, hb⟩ := before_begins like hh (u :: r) d (has d hd')
        exact begins_none hg hb n _ _ _
      · simp only [List.mem_singleton] at hd'
        subst hd'
        have hg : (latticeOf like).pat.Good := by
          have : latticeOf like ∈ optionsOf like := by rw [fill_split]; simp
          cases like
          · exact cellOptions_good _ this
          · exact likeOptions_good _ this
        refine begins_none hg ?_ n _ _ _
        rw [enc_cons]
        exact lattice_begins like hsp (int_full hu) (enc_bnd r))
    (by
      intro n
      rw [fill_run]
      have ht : fillFlat.takes hd [u] r.head? = true := by
        have h1 : fillFlat.isPlain = true := by decide
        have h2 : unitTok (.ty (.base .int)) = true := by decide
        have h3 : (readHead fillHead hd).isSome = true := by rw [fill_head hh]; rfl
        unfold Cls.takes
        rw [h1]
        show (([⟨.ty (.base .int), .req⟩] : List Field).all (fun f => unitTok f.unit) && _ && (readHead fillHead hd).isSome && placed [⟨.ty (.base .int), .req⟩] [u] r.head?) = true
        rw [h3]
        simp [h2, placed, hu, startsReq]
      have hp : ∀ e, ∃ e', run (putRe (n + 2)) ⟨(hd ++ enc [u]).reverse ++ prev, enc r, e⟩ (findK (hd ++ enc (u :: r)).length) =
          some ⟨(hd ++ ' ' :: u ++ X).reverse ++ prev, tail, e'⟩ := by
        intro e
        have e1 : X.reverse ++ ((hd ++ enc [u]).reverse ++ prev) = (hd ++ ' ' :: u ++ X).reverse ++ prev := by
          rw [enc_cons, enc_nil]; simp
        obtain ⟨e', he'⟩ := hput (n + 2) ((hd ++ enc [u]).reverse ++ prev) e (findK (hd ++ enc (u :: r)).length) (by
          intro e; rw [e1, hk]; rfl)
        rw [e1, hk] at he'
        exact ⟨e', he'⟩
      obtain ⟨e, he⟩ := free_option fillFlat hd [u] r ht (fun w hw' => hw w (by
          simp only [List.mem_cons, List.not_mem_nil, or_false] at hw' ⊢
          rcases hw' with rfl | rfl <;> simp)) n prev []
        (fun st' => run (putRe (n + 2)) st' (findK (hd ++ enc (u :: r)).length)) (by
          intro e
          obtain ⟨e', he'⟩ := hp e
          simp only [he']; rfl)
      obtain ⟨e', he'⟩ := hp e
      refine ⟨_, ⟨e', rfl⟩, ?_⟩
      exact Eq.trans he he') 1
  rw [hsplit]
  have h6 : as ++ latticeOf like :: fillOf like :: bs = (as ++ [latticeOf like]) ++ fillOf like :: bs := by simp
  rw [h6]
  exact ⟨e, h2⟩

end Inp
