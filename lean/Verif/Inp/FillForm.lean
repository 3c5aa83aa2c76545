import Verif.Inp.FillLostCells
import Verif.Inp.FillFormSpec
/-!
# Reading `fill` with transformations of all forms
-/
set_option maxRecDepth 100000
namespace Inp
open Py Types

/-- Star, keyword and universe before the rest of the pattern. -/
def fillLead (put : Re) : Re :=
  .seq (.opt true (.grp 1 (.cls (CC.set false [.ch '*']).test))) (.seq (litRe c!"fill") (.seq (.grp 2 (.seq (litRe c!" ") numRe)) put))

/-- A transformation of form `k`, or its number. -/
def placeRe (k : Nat) : Re :=
  .opt true (.grp 3 (.alt (.seq (litRe c!" ") (transRe k 4))
    (.seq (litRe c!" ") (.seq (.cls (CC.set false [.ch '(']).test) (.seq (transRe k (5 + trCount k)) (.cls (CC.set false [.ch ')']).test))))))

def fillNumberRe : Re :=
  .opt true (.grp 3 (.alt (.seq (litRe c!" ") numRe)
    (.seq (litRe c!" ") (.seq (.cls (CC.set false [.ch '(']).test) (.seq numRe (.cls (CC.set false [.ch ')']).test))))))

theorem form_re (like : Bool) (k : Nat) (hk : k ≤ 4) : (fillForm like k).pat.re 1 = fillLead (placeRe k) := by
  have : k = 0 ∨ k = 1 ∨ k = 2 ∨ k = 3 ∨ k = 4 := by omega
  cases like <;> rcases this with rfl | rfl | rfl | rfl | rfl <;> rfl

theorem form5_re (like : Bool) : (fillForm like 5).pat.re 1 = fillLead fillNumberRe := by cases like <;> rfl

theorem form_split (like : Bool) : ∃ rest, optionsOf like = beforeFill like ++ (latticeOf like :: ([fillForm like 0, fillForm like 1, fillForm like 2, fillForm like 3,
    fillForm like 4, fillForm like 5] ++ rest)) := by
  cases like <;> exact ⟨_, rfl⟩

theorem form_mem (like : Bool) (k : Nat) (hk : k ≤ 5) : fillForm like k ∈ optionsOf like := by
  obtain ⟨rest, h⟩ := form_split like
  rw [h]
  have : k = 0 ∨ k = 1 ∨ k = 2 ∨ k = 3 ∨ k = 4 ∨ k = 5 := by omega
  rcases this with rfl | rfl | rfl | rfl | rfl | rfl <;> simp

theorem form_free (like : Bool) (k : Nat) (hk : k ≤ 5) : ((fillForm like k).pat.re 1).free = true := ((options_good like _ (form_mem like k hk)).any 1).1

/-- What stands after the universe, and its groups. -/
def PutIs (put : Re) (A : Str → Prop) : Prop :=
  ∀ o y, Mt put o y → (o = [] ∧ y = []) ∨ ∃ t z, o = ' ' :: t ∧ y = (3, ' ' :: t) :: z ∧ (∀ e ∈ z, 4 ≤ e.1) ∧ A t

/-- The texts of a transformation of form `k` after the universe. -/
def PlaceText (k : Nat) (t : Str) : Prop := (∃ ps, TransText k t ps) ∨ ∃ s ps, t = '(' :: (s ++ [')']) ∧ TransText k s ps

def NumberText (t : Str) : Prop := Full numRe t ∨ ∃ s, t = '(' :: (s ++ [')']) ∧ Full numRe s

theorem place_is (k : Nat) : PutIs (placeRe k) (PlaceText k) := by
  intro o y h
  unfold placeRe at h
  rcases mt_opt.1 h with ⟨rfl, rfl⟩ | h
  · exact .inl ⟨rfl, rfl⟩
  · obtain ⟨z, h', rfl⟩ := mt_grp.1 h
    rcases mt_alt.1 h' with h' | h'
    · obtain ⟨b, t, x, y, h1, h2, rfl, rfl⟩ := mt_seq.1 h'
      obtain ⟨rfl, rfl⟩ := (blank_lit.mt _ _).1 h1
      obtain ⟨ps, hp, rfl⟩ := (trans_mt k _ _ _).1 h2
      exact .inr ⟨t, capsOf 4 ps, rfl, by simp, fun e he => capsOf_keys 4 ps e he, .inl ⟨ps, hp⟩⟩
    · obtain ⟨b, t, x, y, h1, h2, rfl, rfl⟩ := mt_seq.1 h'
      obtain ⟨rfl, rfl⟩ := (blank_lit.mt _ _).1 h1
      obtain ⟨a, t, x, y, h3, h4, rfl, rfl⟩ := mt_seq.1 h2
      obtain ⟨ca, hca, rfl, rfl⟩ := mt_cls.1 h3
      obtain ⟨t, c, x, y, h5, h6, rfl, rfl⟩ := mt_seq.1 h4
      obtain ⟨cc, hcc, rfl, rfl⟩ := mt_cls.1 h6
      obtain ⟨ps, hp, rfl⟩ := (trans_mt k _ _ _).1 h5
      obtain rfl := test_sign (by decide) hca
      obtain rfl := test_close hcc
      refine .inr ⟨'(' :: (t ++ [')']), capsOf (5 + trCount k) ps, by simp, by simp, fun e he => ?_, .inr ⟨t, ps, rfl, hp⟩⟩
      have := capsOf_keys _ ps e he
      omega

theorem number_is : PutIs fillNumberRe NumberText := by
  intro o y h
  unfold fillNumberRe at h
  rcases mt_opt.1 h with ⟨rfl, rfl⟩ | h
  · exact .inl ⟨rfl, rfl⟩
  · obtain ⟨z, h', rfl⟩ := mt_grp.1 h
    rcases mt_alt.1 h' with h' | h'
    · obtain ⟨b, t, x, y, h1, h2, rfl, rfl⟩ := mt_seq.1 h'
      obtain ⟨rfl, rfl⟩ := (blank_lit.mt _ _).1 h1
      obtain rfl := mt_num h2
      exact .inr ⟨t, [], rfl, by simp, by simp, .inl ⟨_, h2⟩⟩
    · obtain ⟨b, t, x, y, h1, h2, rfl, rfl⟩ := mt_seq.1 h'
      obtain ⟨rfl, rfl⟩ := (blank_lit.mt _ _).1 h1
      obtain ⟨a, t, x, y, h3, h4, rfl, rfl⟩ := mt_seq.1 h2
      obtain ⟨ca, hca, rfl, rfl⟩ := mt_cls.1 h3
      obtain ⟨t, c, x, y, h5, h6, rfl, rfl⟩ := mt_seq.1 h4
      obtain ⟨cc, hcc, rfl, rfl⟩ := mt_cls.1 h6
      obtain rfl := mt_num h5
      obtain rfl := test_sign (by decide) hca
      obtain rfl := test_close hcc
      exact .inr ⟨'(' :: (t ++ [')']), [], by simp, by simp, by simp, .inr ⟨t, rfl, _, h5⟩⟩

theorem lead_parts {put : Re} {w : Str} {e} (h : Mt (fillLead put) w e) :
    ∃ u i o x y, Mt (headRe fillHead 1) u x ∧ Full numRe i ∧ Mt put o y ∧ w = u ++ ' ' :: (i ++ o) ∧ e = y ++ (2, ' ' :: i) :: x := by
  unfold fillLead at h
  obtain ⟨a, r, x1, y1, h1, h2, rfl, rfl⟩ := mt_seq.1 h
  obtain ⟨b, r, x2, y2, h3, h4, rfl, rfl⟩ := mt_seq.1 h2
  obtain ⟨c, o, x3, y3, h5, h6, rfl, rfl⟩ := mt_seq.1 h4
  obtain ⟨z, h7, rfl⟩ := mt_grp.1 h5
  obtain ⟨d, i, x4, y4, h8, h9, rfl, rfl⟩ := mt_seq.1 h7
  obtain ⟨rfl, rfl⟩ := (blank_lit.mt _ _).1 h8
  obtain rfl := mt_num h9
  refine ⟨a ++ b, i, o, x2 ++ x1, y3, ?_, ⟨_, h9⟩, h6, by simp, by simp⟩
  rw [fill_head_re]
  refine mt_seq.2 ⟨a, b, x1, x2, h1, ?_, rfl, rfl⟩
  have := Mt.seq h3 Mt.eps
  simpa using this

theorem PutIs.bnd {put : Re} {A : Str → Prop} (hi : PutIs put A) {o : Str} {y} (h : Mt put o y) : Bnd o := by
  rcases hi _ _ h with ⟨rfl, -⟩ | ⟨t, z, rfl, -⟩
  · intro c hc; cases hc
  · exact bnd_blank _

/-- Taking the text apart. -/
theorem lead_split {put : Re} {A : Str → Prop} (hi : PutIs put A) {hd u : Str} {ws : List Str} {e} (hsp : NoSpace hd) (hu : Full numRe u)
    (he : Mt (fillLead put) (hd ++ enc (u :: ws)) e) : ∃ x y, Mt (headRe fillHead 1) hd x ∧ Mt put (enc ws) y ∧ e = y ++ (2, ' ' :: u) :: x := by
  obtain ⟨u', i, o, x, y, m1, m2, m3, m4, rfl⟩ := lead_parts he
  rw [enc_cons] at m4
  obtain ⟨rfl, m5⟩ := words_eq hsp (noSp_mt fill_head_facts.2 _ _ m1) (bnd_blank _) (bnd_blank _) m4
  obtain ⟨rfl, rfl⟩ := words_eq (num_words hu).1 (num_words m2).1 (enc_bnd ws) (hi.bnd m3) (List.cons.inj m5).2
  exact ⟨x, y, m1, m3, rfl⟩

/-- A class that does not accept what stands after the universe. -/
theorem lead_none {c : Cls} {put : Re} {A : Str → Prop} (hc : c.pat.re 1 = fillLead put) (hfree : (c.pat.re 1).free = true) (hi : PutIs put A) {hd u : Str} {ws : List Str}
    (hsp : NoSpace hd) (hu : Full numRe u) (hne : ws ≠ []) (hA : ¬ A (join [' '] ws)) : reMatch c.re (hd ++ enc (u :: ws)) = none := by
  cases hm : reMatch c.re (hd ++ enc (u :: ws)) with
  | none => rfl
  | some m =>
    exfalso
    obtain ⟨e, he, rfl⟩ := full_match hfree hm
    rw [hc] at he
    obtain ⟨x, y, -, h2, -⟩ := lead_split hi hsp hu he
    obtain ⟨w, ws, rfl⟩ := List.exists_cons_of_ne_nil hne
    rw [join_enc] at hA
    rcases hi _ _ h2 with ⟨h, -⟩ | ⟨t, z, h, -, -, h'⟩
    · rw [enc_cons] at h; cases h
    · rw [enc_cons] at h
      cases h
      exact hA h'

/-- A class that accepts it. -/
theorem lead_match {c : Cls} {put : Re} {A : Str → Prop} (hc : c.pat.re 1 = fillLead put) (hfree : (c.pat.re 1).free = true) (hi : PutIs put A) {star : Bool} {hd u : Str}
    {ws : List Str} (hw : Words (hd :: u :: ws)) (hh : FillWord star hd) (hu : Full numRe u) (hne : ws ≠ []) (hf : Full put (enc ws)) :
    ∃ x z, reMatch c.re (hd ++ enc (u :: ws)) = some ((0, hd ++ enc (u :: ws)) :: ((3, enc ws) :: z ++ (2, ' ' :: u) :: x)) ∧
      Caps x 1 [if star then some ['*'] else none] ∧ ∀ e ∈ z, 4 ≤ e.1 := by
  have hsp := (hw hd (by simp)).1
  have full : Full (c.pat.re 1) (hd ++ enc (u :: ws)) := by
    rw [enc_cons]
    exact fill_lead hc hh hu hf
  obtain ⟨m, hm⟩ := Option.isSome_iff_exists.1 ((full_iff _ hfree _).2 full)
  obtain ⟨e, he, rfl⟩ := full_match hfree hm
  rw [hc] at he
  obtain ⟨x, y, h1, h2, rfl⟩ := lead_split hi hsp hu he
  obtain ⟨vs, c1, c2, c3⟩ := head_mt (h := fillHead) (by decide) h1
  rw [fill_head hh] at c3
  cases c3
  rcases hi _ _ h2 with ⟨h, -⟩ | ⟨t, z, h, h', hz, -⟩
  · obtain ⟨w, ws, rfl⟩ := List.exists_cons_of_ne_nil hne
    rw [enc_cons] at h; cases h
  · subst h'
    rw [← h] at hm
    exact ⟨x, z, hm, c1, hz⟩

/-- Building the option from the groups. -/
theorem lead_build {c : Cls} {k : Kind} (hat : ∃ a b d, c.attrs = [⟨"prefix", .base .str, false, a⟩, ⟨"universe", .base .int, false, b⟩, ⟨"transformation", .base k, false, d⟩])
    (hng : 3 ≤ c.pat.ng) {star : Bool} {u : Str} {ws : List Str} (hw : Words (u :: ws)) (hne : ws ≠ []) (s : Str) {x z}
    (hx : Caps x 1 [if star then some ['*'] else none]) (hz : ∀ e ∈ z, 4 ≤ e.1) :
    c.build ((0, s) :: ((3, enc ws) :: z ++ (2, ' ' :: u) :: x)) = readPlaced c star u (k.parse (join [' '] ws)) := by
  obtain ⟨a, b, d, hat⟩ := hat
  have hu := hw u (by simp)
  have skip : ∀ (j : Nat), j < 3 → ∀ w : List (Nat × Str), ((3, enc ws) :: z ++ w).lookup j = w.lookup j := by
    intro j hj w
    rw [List.lookup_append, lookup_none (fun e he h => by
      rcases List.mem_cons.1 he with rfl | he
      · simp at h; omega
      · have := hz e he; omega)]
    rfl
  generalize hM : (0, s) :: ((3, enc ws) :: z ++ (2, ' ' :: u) :: x) = m
  have hcap1 : cap m 1 = if star then some ['*'] else none := by
    rw [← hM]
    show List.lookup 1 ((3, enc ws) :: z ++ (2, ' ' :: u) :: x) = _
    rw [skip 1 (by omega)]
    exact hx.get 0 _ (by simp)
  have hcap2 : cap m 2 = some (' ' :: u) := by
    rw [← hM]
    show List.lookup 2 ((3, enc ws) :: z ++ (2, ' ' :: u) :: x) = _
    rw [skip 2 (by omega)]
    rfl
  have hcap3 : cap m 3 = some (enc ws) := by rw [← hM]; rfl
  have a1 : attrVal c.pat.ng m 0 ⟨"prefix", .base .str, false, a⟩ = .ok (if star then .sc (.str ['*']) else .none) := by
    unfold attrVal
    rw [if_neg (by omega), hcap1]
    cases star <;> rfl
  have a2 : attrVal c.pat.ng m 1 ⟨"universe", .base .int, false, b⟩ = (intParse u).map (fun n => .sc (.int n)) := by
    unfold attrVal
    rw [if_neg (by omega), hcap2]
    have : strip (' ' :: u) = u := by
      have := strip_enc u [] (by intro w hw; simp only [List.mem_singleton] at hw; subst hw; exact hu)
      simpa [enc_cons] using this
    simp only [this]
    rfl
  have a3 : attrVal c.pat.ng m 2 ⟨"transformation", .base k, false, d⟩ = k.parse (join [' '] ws) := by
    unfold attrVal
    rw [if_neg (by omega), hcap3]
    obtain ⟨w, ws, rfl⟩ := List.exists_cons_of_ne_nil hne
    have hst : strip (' ' :: (w ++ enc ws)) = join [' '] (w :: ws) := by
      rw [← enc_cons, strip_enc w ws (fun z hz => hw z (by simp only [List.mem_cons] at hz ⊢; exact .inr hz)), join_enc]
    simp only [enc_cons, hst]
    rfl
  unfold Cls.build readPlaced
  rw [hat]
  simp only [attrVals, a1, a2, a3]
  cases intParse u with
  | error e => rfl
  | ok n =>
    simp only [Except.map]
    generalize k.parse (join [' '] ws) = r
    cases r <;> rfl

/-- No text of a transformation in two pairs of parentheses is one in one or none. -/
theorem place_uniq {k j : Nat} {s : Str} {ps : List Str} (h1 : TransText k s ps) (h2 : PlaceText j s) : ps.length = trCount j ∨ ps.length = trCount j + 1 := by
  rcases h2 with ⟨qs, h⟩ | ⟨t, qs, rfl, h⟩
  · rw [TransText.uniq h1 h]; exact h.len
  · have hne : ps ≠ [] := by
      rintro rfl
      have := h1.len
      have := trCount_big k
      simp at *
      omega
    have chars : ∀ (l : List Str), (∀ p ∈ l, ∀ c ∈ p, trC c = true) → ∀ x ∈ join [' '] l, x ≠ '(' ∧ x ≠ ')' := by
      intro l hl x hx
      cases l with
      | nil => simp [join] at hx
      | cons p l =>
        rw [join_enc, List.mem_append] at hx
        rcases hx with hx | hx
        · exact (trC_facts (hl p (by simp) x hx)).2
        · rcases enc_mem hx with rfl | ⟨w, hw, hx⟩
          · decide
          · exact (trC_facts (hl w (by simp [hw]) x hx)).2
    obtain ⟨o, c, ho, hc, e⟩ := h1.text
    obtain ⟨o', c', ho', hc', rfl⟩ := h.text
    have hj := chars ps h1.chars
    have hj' := chars qs h.chars
    have hone : o' = [] := by
      rcases ho' with rfl | rfl
      · rfl
      · exfalso
        have n1 : join [' '] ps ≠ [] := join_ne (by have := h1.len; have := trCount_big k; omega)
        obtain ⟨a, r, hr⟩ := List.exists_cons_of_ne_nil n1
        have ha := hj a (by rw [hr]; simp)
        rcases ho with rfl | rfl
        · rw [hr] at e
          simp at e
          exact ha.1 e.1.symm
        · rw [hr] at e
          simp at e
          exact ha.1 e.1.symm
    have hone' : c' = [] := by
      rcases hc' with rfl | rfl
      · rfl
      · exfalso
        have n1 : join [' '] ps ≠ [] := join_ne (by have := h1.len; have := trCount_big k; omega)
        have e' := congrArg List.reverse e
        obtain ⟨a, r, hr⟩ := List.exists_cons_of_ne_nil (l := (join [' '] ps).reverse) (by simpa using n1)
        have ha := hj a (by rw [← List.mem_reverse, hr]; simp)
        rcases hc with rfl | rfl
        · simp only [List.reverse_append, List.reverse_cons, List.reverse_nil, List.nil_append, List.append_nil, hr, List.cons_append, List.append_assoc, List.cons.injEq] at e'
          exact ha.2 e'.1.symm
        · simp only [List.reverse_append, List.reverse_cons, List.reverse_nil, List.nil_append, hr, List.cons_append, List.append_assoc, List.cons.injEq] at e'
          exact ha.2 e'.2.1.symm
    subst hone hone'
    have h' : TransText j ('(' :: (([] ++ join [' '] qs ++ []) ++ [')'])) qs := ⟨h.len, h.chars, h.full, ['('], [')'], .inr rfl, .inr rfl, by simp⟩
    rw [TransText.uniq h1 h']
    exact h.len

theorem form_attrs (like : Bool) (k : Nat) (hk : k ≤ 4) :
    (∃ a b d, (fillForm like k).attrs = [⟨"prefix", .base .str, false, a⟩, ⟨"universe", .base .int, false, b⟩, ⟨"transformation", .base (.trans k), false, d⟩]) ∧
      3 ≤ (fillForm like k).pat.ng := by
  have : k = 0 ∨ k = 1 ∨ k = 2 ∨ k = 3 ∨ k = 4 := by omega
  cases like <;> rcases this with rfl | rfl | rfl | rfl | rfl <;> exact ⟨⟨_, _, _, rfl⟩, by decide⟩

theorem form5_attrs (like : Bool) :
    (∃ a b d, (fillForm like 5).attrs = [⟨"prefix", .base .str, false, a⟩, ⟨"universe", .base .int, false, b⟩, ⟨"transformation", .base .int, false, d⟩]) ∧
      3 ≤ (fillForm like 5).pat.ng := by
  cases like <;> exact ⟨⟨_, _, _, rfl⟩, by decide⟩

/-- The first of the six classes that accepts the text is the first among all options. -/
theorem form_first (like : Bool) {star : Bool} {hd u : Str} {ws : List Str} (hw : Words (hd :: u :: ws)) (hh : FillWord star hd) (hu : Full numRe u)
    (k : Nat) (hk : k ≤ 5) {m} (hb : ∀ j, j < k → reMatch (fillForm like j).re (hd ++ enc (u :: ws)) = none)
    (hm : reMatch (fillForm like k).re (hd ++ enc (u :: ws)) = some m) (h0 : cap m 0 = some (hd ++ enc (u :: ws))) :
    firstMatch (hd ++ enc (u :: ws)) (optionsOf like) = some (fillForm like k, m) := by
  obtain ⟨rest, hs⟩ := form_split like
  have hl : reMatch (latticeOf like).re (hd ++ enc (u :: ws)) = none := by
    have hg := options_good like (latticeOf like) (by rw [hs]; simp)
    rw [enc_cons]
    exact begins_match hg (lattice_begins like (hw hd (by simp)).1 hu (enc_bnd ws))
  have hpre : ∀ c ∈ beforeFill like ++ [latticeOf like], reMatch c.re (hd ++ enc (u :: ws)) = none := by
    intro c hc
    rcases List.mem_append.1 hc with hc | hc
    · obtain ⟨hg, hb⟩ := before_begins like hh (u :: ws) c hc
      exact begins_match hg hb
    · simp only [List.mem_singleton] at hc; subst hc; exact hl
  have key : ∀ (js : List Nat) (r : List Cls), (∀ j ∈ js, j < k) → optionsOf like = beforeFill like ++ [latticeOf like] ++ (js.map (fillForm like) ++ fillForm like k :: r) →
      firstMatch (hd ++ enc (u :: ws)) (optionsOf like) = some (fillForm like k, m) := by
    intro js r hj e
    rw [e, firstMatch_skip hpre, firstMatch_skip (by
      intro c hc
      obtain ⟨j, h1, rfl⟩ := List.mem_map.1 hc
      exact hb j (hj j h1))]
    exact firstMatch_hit hm h0 _
  have : k = 0 ∨ k = 1 ∨ k = 2 ∨ k = 3 ∨ k = 4 ∨ k = 5 := by omega
  rcases this with rfl | rfl | rfl | rfl | rfl | rfl
  · exact key [] (fillForm like 1 :: fillForm like 2 :: fillForm like 3 :: fillForm like 4 :: fillForm like 5 :: rest) (by simp) (by rw [hs]; simp)
  · exact key [0] (fillForm like 2 :: fillForm like 3 :: fillForm like 4 :: fillForm like 5 :: rest) (by simp) (by rw [hs]; simp)
  · exact key [0, 1] (fillForm like 3 :: fillForm like 4 :: fillForm like 5 :: rest) (by simp) (by rw [hs]; simp)
  · exact key [0, 1, 2] (fillForm like 4 :: fillForm like 5 :: rest) (by simp) (by rw [hs]; simp)
  · exact key [0, 1, 2, 3] (fillForm like 5 :: rest) (by simp) (by rw [hs]; simp)
  · exact key [0, 1, 2, 3, 4] (rest) (by simp) (by rw [hs]; simp)

/-- Transformations by their entries. -/
theorem place_first (like : Bool) {star : Bool} {hd u : Str} {ws ps : List Str} {k : Nat} (hw : Words (hd :: u :: ws)) (hh : FillWord star hd) (hu : Full numRe u)
    (ht : TransText k (join [' '] ws) ps) (hk : trclForm ps.length = some k) :
    ∃ m, firstMatch (hd ++ enc (u :: ws)) (optionsOf like) = some (fillForm like k, m) ∧
      (fillForm like k).build m = readPlaced (fillForm like k) star u (readTrans k ps) := by
  have hk4 : k ≤ 4 ∧ ∀ j, j < k → ps.length ≠ trCount j ∧ ps.length ≠ trCount j + 1 := by
    unfold trclForm at hk
    have t0 : trCount 0 = 12 := rfl
    have t1 : trCount 1 = 9 := rfl
    have t2 : trCount 2 = 8 := rfl
    have t3 : trCount 3 = 6 := rfl
    have go : ∀ j, j < 4 → j = 0 ∨ j = 1 ∨ j = 2 ∨ j = 3 := by omega
    repeat' split at hk
    all_goals first
      | (cases hk; done)
      | (cases hk
         refine ⟨by omega, fun j hj => ?_⟩
         rcases go j (by omega) with rfl | rfl | rfl | rfl <;> first | omega | (simp only [t0, t1, t2, t3]; omega))
  have hne := (trans_words ht).1
  have full : Full (placeRe k) (enc ws) := by
    obtain ⟨w, ws, rfl⟩ := List.exists_cons_of_ne_nil hne
    have m := (trans_mt k 4 _ _).2 ⟨ps, ht, rfl⟩
    rw [join_enc] at m
    have e : enc (w :: ws) = [' '] ++ (w ++ enc ws) := by rw [enc_cons]; rfl
    rw [e]
    exact ⟨_, .optSome (.grp (.altL (.seq ((blank_lit.mt _ _).2 ⟨rfl, rfl⟩) m)))⟩
  obtain ⟨x, z, h1, h2, h3⟩ := lead_match (form_re like k hk4.1) (form_free like k (by omega)) (place_is k) hw hh hu hne full
  refine ⟨_, form_first like hw hh hu k (by omega) (fun j hj => ?_) h1 rfl, ?_⟩
  · refine lead_none (form_re like j (by omega)) (form_free like j (by omega)) (place_is j) (hw hd (by simp)).1 hu hne (fun hA => ?_)
    have := place_uniq ht hA
    have := hk4.2 j hj
    omega
  · rw [lead_build (form_attrs like k hk4.1).1 (form_attrs like k hk4.1).2 (fun w h => hw w (by simp only [List.mem_cons] at h ⊢; exact .inr h)) hne _ h2 h3,
      ← (trans_read k _).1 ps ht]
    rfl

/-- Transformations by their number. -/
theorem number_first (like : Bool) {star : Bool} {hd u n : Str} (hw : Words [hd, u, n]) (hh : FillWord star hd) (hu : Full numRe u) (hn : NumberText n) :
    ∃ m, firstMatch (hd ++ enc [u, n]) (optionsOf like) = some (fillForm like 5, m) ∧
      (fillForm like 5).build m = readPlaced (fillForm like 5) star u ((intParse n).map (fun x => .sc (.int x))) := by
  have full : Full fillNumberRe (enc [n]) := by
    rcases hn with ⟨e, he⟩ | ⟨s, rfl, e, he⟩
    · rw [enc_cons, enc_nil, List.append_nil]
      exact ⟨_, .optSome (.grp (.altL (.seq (u := [' ']) ((blank_lit.mt _ _).2 ⟨rfl, rfl⟩) he)))⟩
    · have e1 : enc ['(' :: (s ++ [')'])] = [' '] ++ (['('] ++ (s ++ [')'])) := by simp [enc]
      rw [e1]
      exact ⟨_, .optSome (.grp (.altR (.seq ((blank_lit.mt _ _).2 ⟨rfl, rfl⟩) (.seq (.cls (by decide)) (.seq he (.cls (by decide)))))))⟩
  have hsp := (hw n (by simp)).1
  have hone : ∀ j (s : Str) (ps : List Str), TransText j s ps → ¬ NoSpace s := by
    intro j s ps h hs
    have hl := h.len
    have hb := trCount_big j
    obtain ⟨o, c, -, -, rfl⟩ := h.text
    cases ps with
    | nil => simp at hl; omega
    | cons p ps =>
      cases ps with
      | nil => simp at hl; omega
      | cons q ps =>
        have := hs ' ' (by rw [join_enc, enc_cons]; simp)
        exact absurd this (by decide)
  obtain ⟨x, z, h1, h2, h3⟩ := lead_match (form5_re like) (form_free like 5 (by omega)) number_is hw hh hu (by simp) full
  refine ⟨_, form_first like hw hh hu 5 (by omega) (fun j hj => ?_) h1 rfl, ?_⟩
  · refine lead_none (form_re like j (by omega)) (form_free like j (by omega)) (place_is j) (hw hd (by simp)).1 hu (by simp) (fun hA => ?_)
    rw [join_enc, enc_nil, List.append_nil] at hA
    rcases hA with ⟨ps, h⟩ | ⟨s, ps, rfl, h⟩
    · exact hone j _ ps h hsp
    · exact hone j _ ps h (fun c hc => hsp c (by simp [hc]))
  · rw [lead_build (form5_attrs like).1 (form5_attrs like).2 (fun w h => hw w (by simp only [List.mem_cons] at h ⊢; exact .inr h)) (by simp) _ h2 h3,
      join_enc, enc_nil, List.append_nil]
    rfl

end Inp
