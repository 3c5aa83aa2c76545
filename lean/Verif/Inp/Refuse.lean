import Verif.Inp.LikeRead
import Verif.Inp.Feed
/-! Helper lemmas: the first entries of any text that a cell, `like` or surface card matches. -/
set_option maxRecDepth 100000
namespace Inp
open Py Types

theorem relax_groups {r : Re} {lo hi} (h : r.groupsIn lo hi) : (relax r).groupsIn lo hi := by
  induction r with
  | seq a b iha ihb => exact ⟨iha h.1, ihb h.2⟩
  | alt a b iha ihb => exact ⟨iha h.1, ihb h.2⟩
  | opt g a iha => exact iha h
  | star g a iha => exact iha h
  | grp n a iha => exact ⟨h.1, h.2.1, iha h.2.2⟩
  | _ => trivial

/-- The captures of an anchored match. -/
theorem anchored_caps {p : Re} {s : Str} {M} (h : reMatch (anchored p) s = some M) :
    ∃ e, Mt (relax p) s e ∧ M = (0, s) :: e := by
  obtain ⟨st, h1, hM⟩ := reMatch_some h
  unfold anchored at h1
  obtain ⟨m1, h2, h3⟩ := step_seq.1 h1
  obtain ⟨m2, h4, h5⟩ := step_seq.1 h3
  obtain ⟨rfl, -⟩ := step_bos.1 h2
  obtain ⟨rfl, h6⟩ := step_eos.1 h5
  obtain ⟨u, e, m1, m2, -, hc⟩ := (relax_step h4).mt (relax_free _)
  rw [h6, List.append_nil] at m2
  simp only [List.append_nil] at m2 hc
  refine ⟨e, m2 ▸ m1, ?_⟩
  rw [hM, h6, hc]
  simp

/-- The word before the first blank. -/
theorem word_split : ∀ {u n v : Str} {ws : List Str}, NoSpace u → NoSpace n → (∀ c ∈ v.head?, c = ' ') → u ++ v = n ++ enc ws →
    u = n ∧ v = enc ws
  | [], [], _, _, _, _, _, h => ⟨rfl, h⟩
  | [], d :: n, v, ws, _, hn, hv, h => by
    rw [List.nil_append] at h
    subst h
    have := hv d rfl
    subst this
    exact absurd (hn ' ' (by simp)) (by decide)
  | c :: u, [], v, ws, hu, _, hv, h => by
    cases ws with
    | nil => cases h
    | cons w ws =>
      rw [enc_cons] at h
      simp only [List.cons_append, List.nil_append, List.cons.injEq] at h
      exact absurd (hu c (by simp)) (by rw [h.1]; decide)
  | c :: u, d :: n, v, ws, hu, hn, hv, h => by
    simp only [List.cons_append, List.cons.injEq] at h
    obtain ⟨rfl, h⟩ := h
    obtain ⟨h1, h2⟩ := word_split (fun x hx => hu x (by simp [hx])) (fun x hx => hn x (by simp [hx])) hv h
    exact ⟨by rw [h1], h2⟩

theorem mt_blank_head {r : Re} {l v : Str} {e} (h : Mt (.seq (litRe (' ' :: l)) r) v e) : ∃ t, v = ' ' :: t := by
  obtain ⟨a, b, x, y, h1, h2, rfl, -⟩ := mt_seq.1 h
  obtain ⟨h3, -⟩ := mt_lit.1 h1
  cases a with
  | nil => cases h3
  | cons c a =>
    simp only [lower, List.map_cons, List.cons.injEq] at h3
    have : c = ' ' := lower_space.1 h3.1
    exact ⟨a ++ b, by rw [this]; rfl⟩

theorem mt_blank_word {v : Str} {e} (h : Mt (.seq (litRe c!" ") wordRe) v e) : ∃ w, v = ' ' :: w ∧ NoSpace w ∧ e = [] := by
  obtain ⟨a, b, x, y, h1, h2, rfl, rfl⟩ := mt_seq.1 h
  obtain ⟨h3, rfl⟩ := mt_lit.1 h1
  have h4 := ((word_full b).1 ⟨_, h2⟩).2
  have h5 := mt_word h2
  subst h5
  cases a with
  | nil => cases h3
  | cons c a =>
    simp only [lower, List.map_cons, List.map_nil, List.cons.injEq] at h3
    have : c = ' ' := lower_space.1 h3.1
    have : a = [] := by simpa using h3.2
    subst_vars
    exact ⟨b, rfl, h4, rfl⟩

/-- The first two groups of a cell are its first two entries. -/
theorem cell_first {n : Str} {ws : List Str} {M} (hn : NoSpace n) (hw : ∀ w ∈ ws, NoSpace w)
    (h : reMatch Tab.Cell.re (n ++ enc ws) = some M) :
    cap M 1 = some n ∧ ∃ m ws', ws = m :: ws' ∧ cap M 2 = some (' ' :: m) := by
  rw [cell_re] at h
  obtain ⟨e, hm, rfl⟩ := anchored_caps h
  obtain ⟨u1, v1, x1, y1, g1, g2, hs, rfl⟩ := mt_seq.1 hm
  obtain ⟨x1', h1, rfl⟩ := mt_grp.1 g1
  obtain ⟨u2, v2, x2, y2, g2', h3, rfl, rfl⟩ := mt_seq.1 g2
  obtain ⟨x2', h2, rfl⟩ := mt_grp.1 g2'
  replace h1 : Mt wordRe u1 x1' := h1
  replace h2 : Mt (.seq (litRe c!" ") wordRe) u2 x2' := h2
  obtain ⟨w, rfl, hwn, rfl⟩ := mt_blank_word h2
  have := mt_word h1; subst this
  obtain ⟨rfl, ht⟩ := word_split ((word_full u1).1 ⟨_, h1⟩).2 hn (by simp) hs.symm
  have hb : ∃ t, v2 = ' ' :: t := by
    obtain ⟨u3, v3, x3, y3, g3, g4, rfl, -⟩ := mt_seq.1 h3
    obtain ⟨x3', g5, -⟩ := mt_grp.1 g3
    rcases mt_alt.1 g5 with h3 | h3
    · obtain ⟨a, b, x, y, ha, hb, rfl, -⟩ := mt_seq.1 h3
      obtain ⟨rfl, -⟩ := mt_eps.1 ha
      replace hb : Mt (.seq (litRe c!" ") wordRe) b y := hb
      obtain ⟨t, rfl⟩ := mt_blank_head hb
      exact ⟨t ++ v3, rfl⟩
    · obtain ⟨rfl, -⟩ := mt_eps.1 h3
      obtain ⟨u4, v4, x4, y4, g6, -, rfl, -⟩ := mt_seq.1 g4
      obtain ⟨x4', h4, -⟩ := mt_grp.1 g6
      replace h4 : Mt (.seq (litRe c!" ") (.plus true (.cls geoCls.test))) u4 x4' := h4
      obtain ⟨t, rfl⟩ := mt_blank_head h4
      exact ⟨t ++ v4, rfl⟩
  obtain ⟨t, rfl⟩ := hb
  have hg : ∀ x ∈ y2, 3 ≤ x.1 := by
    have hc : (cellField.pat.re 5).groupsIn 5 (5 + cellField.pat.ng) :=
      (Pat.Good.any (p := cellField.pat) ⟨trivial, unionTy_good "cell.CellOption" cellOptions cellOptions_good⟩ 5).2
    have : (Re.seq densRe (.seq geomRe (cellField.pat.re 5))).groupsIn 3 (5 + cellField.pat.ng) := by
      refine ⟨⟨by omega, by omega, ?_⟩, ⟨by omega, by omega, ?_⟩, hc.mono (by omega) (by omega)⟩
      · exact ⟨⟨trivial, (litRe_any _ _ _).2, trivial, trivial⟩, trivial⟩
      · exact ⟨(litRe_any _ _ _).2, trivial, trivial⟩
    intro x hx
    exact (h3.groups (relax_groups this) x hx).1
  have hno : ∀ i, i < 3 → y2.lookup i = none := by
    intro i hi
    rw [List.lookup_eq_none_iff]
    intro x hx
    have := hg x hx
    simp only [bne_iff_ne, ne_eq]
    omega
  refine ⟨?_, ?_⟩
  · rw [cap, List.lookup_cons, show ((1 : Nat) == 0) = false by rfl]
    simp only [List.lookup_append, hno 1 (by omega)]
    simp [List.lookup]
  · cases ws with
    | nil => cases ht
    | cons m ws =>
      rw [enc_cons] at ht
      simp only [List.cons_append, List.cons.injEq, true_and] at ht
      obtain ⟨rfl, -⟩ := word_split hwn (hw m (by simp)) (by simp) ht
      refine ⟨_, _, rfl, ?_⟩
      rw [cap, List.lookup_cons, show ((2 : Nat) == 0) = false by rfl]
      simp only [List.lookup_append, hno 2 (by omega)]
      simp [List.lookup]

/-- The first group of a `like` card is its first entry. -/
theorem like_first {n : Str} {ws : List Str} {M} (hn : NoSpace n)
    (h : reMatch Tab.Like.re (n ++ enc ws) = some M) : cap M 1 = some n := by
  rw [like_re] at h
  obtain ⟨e, hm, rfl⟩ := anchored_caps h
  obtain ⟨u1, v1, x1, y1, g1, h2', hs, rfl⟩ := mt_seq.1 hm
  obtain ⟨x1', h1, rfl⟩ := mt_grp.1 g1
  replace h1 : Mt wordRe u1 x1' := h1
  obtain ⟨u2, v2, x2, y2, h2, h3, rfl, rfl⟩ := mt_seq.1 h2'
  rw [relax_lit] at h2
  have hb : ∃ t, u2 ++ v2 = ' ' :: t := mt_blank_head (l := c!"like ") (.seq h2 h3)
  have := mt_word h1; subst this
  obtain ⟨t, ht⟩ := hb
  obtain ⟨rfl, -⟩ := word_split ((word_full u1).1 ⟨_, h1⟩).2 hn (by rw [ht]; simp) hs.symm
  have hg : ∀ x ∈ y2 ++ x2, 2 ≤ x.1 := by
    have hc : (likeField.pat.re 3).groupsIn 3 (3 + likeField.pat.ng) :=
      (Pat.Good.any (p := likeField.pat) ⟨trivial, unionTy_good "like.LikeOption" likeOptions likeOptions_good⟩ 3).2
    have : (Re.seq (litRe c!" like ") (.seq (.grp 2 wordRe) (.seq (litRe c!" but") (likeField.pat.re 3)))).groupsIn 2 (3 + likeField.pat.ng) := by
      exact ⟨(litRe_any _ _ _).2, ⟨by omega, by omega, trivial, trivial⟩, (litRe_any _ _ _).2, hc.mono (by omega) (by omega)⟩
    intro x hx
    exact (h2'.groups (relax_groups this) x hx).1
  have hno : (y2 ++ x2).lookup 1 = none := by
    rw [List.lookup_eq_none_iff]
    intro x hx
    have := hg x hx
    simp only [bne_iff_ne, ne_eq]
    omega
  rw [cap, List.lookup_cons, show ((1 : Nat) == 0) = false by rfl]
  simp only
  rw [List.lookup_append, hno]
  simp [List.lookup]

/-- The reader gives up with an error of the library. -/
def Refuses (c : Cls) (s : Str) : Prop := ∃ e : Err, cardParse c s = .error e ∧ e.isLibrary = true

theorem build_refuses {c : Cls} {s t : Str} {cm} (hp : cardPreprocess s = (t, cm))
    (h : ∀ M, reMatch c.re t = some M → ∃ e : Err, c.build M = .error e ∧ e.isLibrary = true) : Refuses c s := by
  unfold Refuses cardParse
  rw [hp]
  simp only
  cases hm : reMatch c.re t with
  | none => exact ⟨.inp, rfl, rfl⟩
  | some M =>
    obtain ⟨e, h1, h2⟩ := h M hm
    simp only [h1]
    exact ⟨e, rfl, h2⟩

theorem first_build {c : Cls} {M a as e} (ha : c.attrs = a :: as) (h0 : attrVal c.pat.ng M 0 a = .error e) : c.build M = .error e := by
  unfold Cls.build
  rw [ha]
  simp only [attrVals, h0]

/-- A cell needs a number for its first entry. -/
theorem cell_refuses {s n : Str} {ws : List Str} {cm} (hp : cardPreprocess s = (n ++ enc ws, cm)) (hw : Words (n :: ws))
    (hn : intParse n = .error .types) : Refuses Tab.Cell s := by
  refine build_refuses hp (fun M hm => ?_)
  obtain ⟨h1, -⟩ := cell_first (hw n (by simp)).1 (fun w h => (hw w (by simp [h])).1) hm
  refine ⟨.types, first_build (a := Tab.Cell.attrs[0]) rfl ?_, rfl⟩
  have hng : 1 ≤ Tab.Cell.pat.ng := by decide +kernel
  rw [attr_word _ M 0 Tab.Cell.attrs[0] (by omega) rfl (some n) h1 (by intro w h; cases h; exact hw n (by simp))]
  show (intParse n).map _ = _
  rw [hn]; rfl

/-- A cell needs a number for its second entry. -/
theorem cell_refuses' {s n m : Str} {ws : List Str} {cm} (hp : cardPreprocess s = (n ++ enc (m :: ws), cm)) (hw : Words (n :: m :: ws))
    {k} (hn : intParse n = .ok k) (hm : intParse m = .error .types) : Refuses Tab.Cell s := by
  refine build_refuses hp (fun M hM => ?_)
  obtain ⟨h1, m', ws', he, h2⟩ := cell_first (hw n (by simp)).1 (fun w h => (hw w (by simp only [List.mem_cons] at h ⊢; exact .inr h)).1) hM
  cases he
  have hng : 2 ≤ Tab.Cell.pat.ng := by decide +kernel
  have hat : ∃ as, Tab.Cell.attrs = Tab.Cell.attrs[0] :: Tab.Cell.attrs[1] :: as := ⟨_, rfl⟩
  obtain ⟨as, hat⟩ := hat
  have a0 : attrVal Tab.Cell.pat.ng M 0 Tab.Cell.attrs[0] = (intParse n).map (fun v => .sc (.int v)) :=
    attr_word _ M 0 Tab.Cell.attrs[0] (by omega) rfl (some n) h1 (by intro w h; cases h; exact hw n (by simp))
  have a1 : attrVal Tab.Cell.pat.ng M 1 Tab.Cell.attrs[1] = (intParse m).map (fun v => .sc (.int v)) := by
    rw [attr_text _ M 1 Tab.Cell.attrs[1] (by omega) m [] (by rw [h2]; simp) (by intro w h; simp only [List.mem_singleton] at h; subst h; exact hw w (by simp)), enc_nil, List.append_nil]
    rfl
  refine ⟨.types, ?_, rfl⟩
  unfold Cls.build
  rw [hat]
  simp only [attrVals, a0, a1, hn, hm, Except.map]

/-- A `like` card needs a number for its first entry. -/
theorem like_refuses {s n : Str} {ws : List Str} {cm} (hp : cardPreprocess s = (n ++ enc ws, cm)) (hw : Words (n :: ws))
    (hn : intParse n = .error .types) : Refuses Tab.Like s := by
  refine build_refuses hp (fun M hm => ?_)
  have h1 := like_first (hw n (by simp)).1 hm
  refine ⟨.types, first_build (a := Tab.Like.attrs[0]) rfl ?_, rfl⟩
  have hng : 1 ≤ Tab.Like.pat.ng := by decide +kernel
  rw [attr_word _ M 0 Tab.Like.attrs[0] (by omega) rfl (some n) h1 (by intro w h; cases h; exact hw n (by simp))]
  show (intParse n).map _ = _
  rw [hn]; rfl

/-- A surface needs a number for its first entry. -/
theorem surface_refuses {s n : Str} {ws : List Str} {cm} (hp : cardPreprocess s = (n ++ enc ws, cm)) (hw : Words (n :: ws))
    (hh : surfaceHead n = (none, n)) (hn : intParse n = .error .types) : Refuses Tab.Surface s := by
  refine build_refuses hp (fun M hm => ?_)
  obtain ⟨m1, m2, m3⟩ := surface_match n ws hw
  rw [hh] at m2 m3
  have key : cap M 1 = none ∧ cap M 2 = some n := by
    cases ht : isEquation ws.tail with
    | true =>
      cases ws with
      | nil => cases ht
      | cons t ws =>
        obtain ⟨m, h1, h2⟩ := m2 t ws ⟨ht, rfl, rfl⟩
        rw [h1] at hm; cases hm
        exact ⟨h2.p, h2.n⟩
    | false =>
      cases he : isEquation ws with
      | true =>
        obtain ⟨m, h1, h2⟩ := m3 ht he
        rw [h1] at hm; cases hm
        exact ⟨h2.p, h2.n⟩
      | false => rw [m1 ht he] at hm; cases hm
  have hng := surface_ng
  have hat : ∃ as, Tab.Surface.attrs = Tab.Surface.attrs[0] :: Tab.Surface.attrs[1] :: as := ⟨_, rfl⟩
  obtain ⟨as, hat⟩ := hat
  have a0 : attrVal Tab.Surface.pat.ng M 0 Tab.Surface.attrs[0] = .ok .none :=
    attr_word _ M 0 Tab.Surface.attrs[0] (by omega) rfl none key.1 (by simp)
  have a1 : attrVal Tab.Surface.pat.ng M 1 Tab.Surface.attrs[1] = (intParse n).map (fun v => .sc (.int v)) :=
    attr_word _ M 1 Tab.Surface.attrs[1] (by omega) rfl (some n) key.2 (by intro w h; cases h; exact hw n (by simp))
  refine ⟨.types, ?_, rfl⟩
  unfold Cls.build
  rw [hat]
  simp only [attrVals, a0, a1, hn, Except.map]

end Inp
