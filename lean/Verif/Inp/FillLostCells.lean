import Verif.Inp.FillLost
/-!
# Lists of options of which a part is not found
-/
set_option maxRecDepth 100000
namespace Inp
open Py Types

theorem fits_found (like : Bool) {rest : List Str} {o : DOpt} (h : o.Fits like rest) (hs : ∀ w ∈ o.opt.1 :: (o.opt.2 ++ rest), Stable w) :
    ∃ sw, Found (optionsOf like) o.opt rest sw (o.read like) := by
  cases o with
  | plain c hd ws => exact ⟨false, found_plain like c hd ws _ h.1 h.2 hs⟩
  | move star hd ws ps =>
    obtain ⟨h1, h2, k, h3, h4⟩ := h
    obtain ⟨sw, h6⟩ := found_trcl like h1 hs h2 h3 h4
    refine ⟨sw, ?_⟩
    have : DOpt.read like (.move star hd ws ps) = readTrcl (trclOf like k) star k ps := by
      simp only [DOpt.read, h3]
    rw [this]
    exact h6
  | fill star hd u ws ps =>
    obtain ⟨h1, h2, h3⟩ := h
    exact found_fill like h1 hs h2 h3

theorem firstMatch_re {s : Str} {d : Cls} {m} : ∀ cs : List Cls, firstMatch s cs = some (d, m) → reMatch d.re s = some m := by
  intro cs
  induction cs with
  | nil => intro h; cases h
  | cons c cs ih =>
    intro h
    unfold firstMatch at h
    split at h
    · rename_i m' hm'
      split at h
      · cases h; exact hm'
      · exact ih h
    · exact ih h

theorem fits_full (like : Bool) {rest : List Str} {o : DOpt} (h : o.Fits like rest) (hw : Words (o.opt.1 :: o.opt.2)) :
    ∃ d ∈ optionsOf like, Full (d.pat.re 1) (o.opt.1 ++ enc o.opt.2) := by
  cases o with
  | plain c hd ws =>
    obtain ⟨h1, h2⟩ := h
    unfold owns at h2
    rw [Bool.and_eq_true] at h2
    exact ⟨c, h1, takes_full h2.1 (options_good like c h1) hw⟩
  | move star hd ws ps =>
    obtain ⟨h1, h2, k, h3, h4⟩ := h
    obtain ⟨hk5, hlen, -⟩ := form_count h3
    refine ⟨trclOf like k, trcl_mem like k hk5, ?_⟩
    obtain ⟨m, m1, -⟩ := trcl_first like hw h1 h4 h3
    have hfr := trcl_free (trclOf_ok like k hk5).toTrclCls
    exact (full_iff _ hfr _).1 (Option.isSome_iff_exists.2 ⟨m, firstMatch_re _ m1⟩)
  | fill star hd u ws ps =>
    obtain ⟨h1, h2, h3⟩ := h
    refine ⟨fillOf like, fill_mem like, ?_⟩
    have hpl : Placed0 ws ps := h3.imp (fun h => ⟨h.1, h.2.1⟩) (fun h => h.1)
    show Full ((fillOf like).pat.re 1) (hd ++ enc (u :: ws))
    rw [enc_cons]
    exact fill_full like (head_full (fill_head h1) (hw hd (List.mem_cons_self ..)).1 1) (int_full h2) (put_full hpl)

/-- The classes of `fill` with shorter transformations and with the number of one (src/pymcnp/inp/cell/Fill_2.py to Fill_6.py, src/pymcnp/inp/like/Fill_2.py
to Fill_6.py). -/
def fillAt : Bool → Nat → Cls
  | false, 1 => Tab.cell_Fill_2
  | false, 2 => Tab.cell_Fill_3
  | false, 3 => Tab.cell_Fill_4
  | false, 4 => Tab.cell_Fill_5
  | false, _ => Tab.cell_Fill_6
  | true, 1 => Tab.like_Fill_2
  | true, 2 => Tab.like_Fill_3
  | true, 3 => Tab.like_Fill_4
  | true, 4 => Tab.like_Fill_5
  | true, _ => Tab.like_Fill_6

theorem fillAt_mem (like : Bool) (k : Nat) (h1 : 1 ≤ k) (h2 : k ≤ 5) : fillAt like k ∈ optionsOf like := by
  have : k = 1 ∨ k = 2 ∨ k = 3 ∨ k = 4 ∨ k = 5 := by omega
  cases like <;> rcases this with rfl | rfl | rfl | rfl | rfl <;> simp [fillAt, optionsOf, cellOptions, likeOptions]

theorem fillAt_re (like : Bool) (k : Nat) (h1 : 1 ≤ k) (h2 : k ≤ 4) : ∃ X, (fillAt like k).pat.re 1 =
    .seq (.opt true (.grp 1 (.cls (CC.set false [.ch '*']).test))) (.seq (litRe c!"fill")
      (.seq (.grp 2 (.seq (litRe c!" ") numRe)) (.opt true (.grp 3 (.alt (.seq (litRe c!" ") (transRe k 4)) X))))) := by
  have : k = 1 ∨ k = 2 ∨ k = 3 ∨ k = 4 := by omega
  cases like <;> rcases this with rfl | rfl | rfl | rfl <;> exact ⟨_, rfl⟩

theorem fillAt5_re (like : Bool) : (fillAt like 5).pat.re 1 =
    .seq (.opt true (.grp 1 (.cls (CC.set false [.ch '*']).test))) (.seq (litRe c!"fill")
      (.seq (.grp 2 (.seq (litRe c!" ") numRe)) (.opt true (.grp 3 (.alt (.seq (litRe c!" ") numRe)
        (.seq (litRe c!" ") (.seq (.cls (CC.set false [.ch '(']).test) (.seq numRe (.cls (CC.set false [.ch ')']).test))))))))) := by
  cases like <;> rfl

theorem fill_lead {r put : Re} (hr : r = .seq (.opt true (.grp 1 (.cls (CC.set false [.ch '*']).test))) (.seq (litRe c!"fill")
    (.seq (.grp 2 (.seq (litRe c!" ") numRe)) put))) {star : Bool} {hd u o : Str} (hh : FillWord star hd) (hu : Full numRe u) (h3 : Full put o) :
    Full r (hd ++ ' ' :: (u ++ o)) := by
  obtain ⟨x, h1⟩ := head_full (fill_head hh) (fillWord_sp hh) 1
  obtain ⟨y, h2⟩ := hu
  obtain ⟨z, h3⟩ := h3
  rw [fill_head_re] at h1
  obtain ⟨a, b, x1, y1, m1, m2, rfl, rfl⟩ := mt_seq.1 h1
  obtain ⟨b, _, x2, y2, m3, m4, rfl, rfl⟩ := mt_seq.1 m2
  obtain ⟨rfl, rfl⟩ := mt_eps.1 m4
  rw [hr]
  have e : a ++ (b ++ []) ++ ' ' :: (u ++ o) = a ++ (b ++ (([' '] ++ u) ++ o)) := by simp
  rw [e]
  exact ⟨_, .seq m1 (.seq m3 (.seq (.grp (.seq ((blank_lit.mt _ _).2 ⟨rfl, rfl⟩) h2)) h3))⟩

theorem short_full (like : Bool) {star : Bool} {hd u : Str} {ws : List Str} (hh : FillWord star hd) (hu : unitOk (.ty (.base .int)) u = true) (hp : ShortPut ws) :
    ∃ d ∈ optionsOf like, Full (d.pat.re 1) (hd ++ enc (u :: ws)) := by
  rcases hp with ⟨-, ⟨k, ps, h1, h2, h⟩ | ⟨n, hn, h⟩⟩
  · obtain ⟨X, hX⟩ := fillAt_re like k h1 h2
    refine ⟨fillAt like k, fillAt_mem like k h1 (by omega), ?_⟩
    rw [enc_cons]
    refine fill_lead hX hh (int_full hu) ?_
    obtain ⟨w, ws, rfl⟩ := List.exists_cons_of_ne_nil (trans_words h).1
    have m := (trans_mt k 4 _ _).2 ⟨ps, h, rfl⟩
    rw [join_enc] at m
    have e : enc (w :: ws) = [' '] ++ (w ++ enc ws) := by rw [enc_cons]; rfl
    rw [e]
    exact ⟨_, .optSome (.grp (.altL (.seq ((blank_lit.mt _ _).2 ⟨rfl, rfl⟩) m)))⟩
  · refine ⟨fillAt like 5, fillAt_mem like 5 (by omega) (by omega), ?_⟩
    rw [enc_cons]
    refine fill_lead (fillAt5_re like) hh (int_full hu) ?_
    obtain ⟨e, he⟩ := int_full hn
    rcases h with rfl | rfl
    · rw [enc_cons, enc_nil, List.append_nil]
      exact ⟨_, .optSome (.grp (.altL (.seq (u := [' ']) ((blank_lit.mt _ _).2 ⟨rfl, rfl⟩) he)))⟩
    · have e1 : enc [['('] ++ n ++ [')']] = [' '] ++ (['('] ++ (n ++ [')'])) := by simp [enc]
      rw [e1]
      exact ⟨_, .optSome (.grp (.altR (.seq ((blank_lit.mt _ _).2 ⟨rfl, rfl⟩) (.seq (.cls (by decide)) (.seq he (.cls (by decide)))))))⟩

theorem lostWords_cons (o : LOpt) (l : List LOpt) : lostWords (o :: l) = o.found.1 :: (o.found.2 ++ (o.extra ++ lostWords l)) := by
  simp [lostWords, optWords, Opt.words, LOpt.opt]

/-- The options as they are found. -/
theorem lost_parts (like : Bool) : ∀ l : List LOpt, Loses like l → (∀ w ∈ lostWords l, Stable w) →
    Parts (optionsOf like) (l.map (fun o => (o.found, o.extra, o.read like)))
  | [], _, _ => .nil
  | o :: l, h, hs => by
    have hrest : partWords (l.map (fun o => (o.found, o.extra, o.read like))) = lostWords l := by
      unfold partWords lostWords
      rw [List.map_map]
      rfl
    rw [lostWords_cons] at hs
    have hl : ∀ w ∈ lostWords l, Stable w := fun w hw => hs w (by simp [hw])
    cases o with
    | whole o =>
      obtain ⟨sw, h6⟩ := fits_found like h.1 hs
      refine .cons sw ?_ (by intro w hw; cases hw) (lost_parts like l h.2 hl)
      rw [hrest]
      exact h6
    | short star hd u ws =>
      obtain ⟨⟨h1, h2, h3, h4, h5⟩, h6⟩ := h
      refine .cons false ?_ h5 (lost_parts like l h6 hl)
      rw [hrest]
      exact found_short like h1 hs h2 (short_barred h3.1 h4)
    | lattice star hd i j k u us m =>
      obtain ⟨⟨h1, hi, hj, hk, hu, hm, h4, h5⟩, h6⟩ := h
      cases us with
      | nil =>
        refine .cons false ?_ (by intro w hw; cases hw) (lost_parts like l h6 hl)
        rw [hrest]
        exact found_lattice like hs h1 hi hj hk (hu u (by simp)) hm (fun _ => h4)
      | cons v us =>
        refine .cons false ?_ (fun w hw => h5 w hw (by simp)) (lost_parts like l h6 hl)
        rw [hrest]
        refine found_lattice like (m := none) hs h1 hi hj hk (hu u (by simp)) (by intro x hx; cases hx) ?_
        rintro - w hw hp
        have : v = w := by simpa [LOpt.extra] using hw
        subst this
        obtain ⟨c, t, rfl⟩ := List.exists_cons_of_ne_nil (num_words (int_full (hu v (by simp)))).2.1
        simp only [List.head?_cons, Option.some.injEq] at hp
        subst hp
        have hv := full_num.1 (int_full (hu ('(' :: t) (by simp)))
        generalize hn : '(' :: t = s at hv
        have hh : s.head? = some '(' := by rw [← hn]; rfl
        have low : ∀ {w t : Str}, w.head? = some '(' → lower w = lower t → (lower t).head? = some '(' := by
          intro w t hw hl
          rw [← hl]
          cases w with
          | nil => cases hw
          | cons c w => cases hw; rfl
        cases hv with
        | lit x w hx hl =>
          simp only [List.mem_cons, List.not_mem_nil, or_false] at hx
          rcases hx with rfl | rfl | rfl <;> exact absurd (low hh hl) (by decide)
        | log w hl => exact absurd (low hh hl) (by decide)
        | ilog w hl => exact absurd (low hh hl) (by decide)
        | mul ds l hd hl =>
          cases ds with
          | nil => exact absurd (low (by simpa using hh) hl) (by decide)
          | cons d ds =>
            simp only [List.cons_append, List.head?_cons, Option.some.injEq] at hh
            subst hh
            exact absurd (hd '(' (by simp)) (by decide)
        | num c t hc ht =>
          simp only [List.head?_cons, Option.some.injEq] at hh
          subst hh
          exact absurd hc (by decide)

/-- Each option is one of a class. -/
theorem lost_full (like : Bool) : ∀ l : List LOpt, Loses like l → (∀ w ∈ lostWords l, Stable w) →
    ∀ i ∈ l.map LOpt.opt, ∃ d ∈ optionsOf like, Full (d.pat.re 1) (i.1 ++ enc i.2)
  | [], _, _ => by simp
  | o :: l, h, hs => by
    rw [lostWords_cons] at hs
    have hl : ∀ w ∈ lostWords l, Stable w := fun w hw => hs w (by simp [hw])
    have hw := stable_words hs
    intro x hx
    cases o with
    | whole o =>
      rcases List.mem_cons.1 hx with rfl | hx
      · have := fits_full like h.1 (fun w h => hw w (by
          simp only [List.mem_cons, List.mem_append] at h ⊢
          rcases h with h | h
          · exact .inl h
          · exact .inr (.inl h)))
        simpa [LOpt.opt, LOpt.found, LOpt.extra] using this
      · exact lost_full like l h.2 hl x hx
    | short star hd u ws =>
      obtain ⟨⟨h1, h2, h3, h4, h5⟩, h6⟩ := h
      rcases List.mem_cons.1 hx with rfl | hx
      · exact short_full like h1 h2 h3
      · exact lost_full like l h6 hl x hx
    | lattice star hd i j k u us m =>
      obtain ⟨⟨h1, hi, hj, hk, hu, hm, h4, h5⟩, h6⟩ := h
      have hx : x ∈ (LOpt.lattice star hd i j k u us m).opt :: l.map LOpt.opt := hx
      generalize ho : (LOpt.lattice star hd i j k u us m).opt = oo at hx
      rcases List.mem_cons.1 hx with rfl | hx
      · have hm' : latticeOf like ∈ optionsOf like := by rw [fill_split]; simp
        rw [latticeOf_eq] at hm'
        have e : (LOpt.lattice star hd i j k u us m).opt = (hd, i :: j :: k :: (u :: us ++ originWords m)) := by
          cases us <;> simp [LOpt.opt, LOpt.found, LOpt.extra]
        rw [← ho, e]
        have hsub : ∀ w ∈ [i, j, k], NoSpace w := by
          intro w hq
          refine (hw w ?_).1
          simp only [List.mem_cons, List.not_mem_nil, or_false] at hq
          cases us <;> rcases hq with rfl | rfl | rfl <;> simp [LOpt.found]
        exact ⟨_, hm', _, (mt_lattice like).2 ⟨star, hd, i, j, k, u :: us, m, h1, ⟨hi, hsub i (by simp)⟩, ⟨hj, hsub j (by simp)⟩, ⟨hk, hsub k (by simp)⟩,
          by simp, fun x hx => int_full (hu x hx), fun x hx => int_full (hm x hx), rfl, rfl⟩⟩
      · exact lost_full like l h6 hl x hx

theorem lost_start (l : List LOpt) (h : Loses false l) : ∀ i ∈ (l.map LOpt.opt).head?, optStart i.1 := by
  cases l with
  | nil => simp
  | cons o l =>
    intro i hi
    simp only [List.map_cons, List.head?_cons, Option.mem_def, Option.some.injEq] at hi
    subst hi
    cases o with
    | whole o =>
      cases o with
      | plain c hd ws =>
        obtain ⟨⟨h1, h2⟩, -⟩ := h
        unfold owns at h2
        rw [Bool.and_eq_true] at h2
        exact takes_start h1 h2.1
      | move star hd ws ps => exact word_start h.1.1
      | fill star hd u ws ps => exact fill_start h.1.1
    | short star hd u ws => exact fill_start h.1.1
    | lattice star hd i j k u us m =>
      have : (LOpt.lattice star hd i j k u us m).opt.1 = hd := by cases us <;> rfl
      rw [this]
      exact fill_start h.1.1

/-- What is made of the text of the options. -/
theorem lost_tuple (nm : String) (like : Bool) (o : LOpt) (l : List LOpt) (h : Loses like (o :: l)) (hs : ∀ w ∈ lostWords (o :: l), Stable w) :
    tupleParse (unionTy nm (optionsOf like)) (o.opt.1 ++ enc (o.opt.2 ++ lostWords l)) = lostRead like (o :: l) := by
  have hf := lost_parts like (o :: l) h hs
  have hrest : partWords (l.map (fun o => (o.found, o.extra, o.read like))) = lostWords l := by
    unfold partWords lostWords
    rw [List.map_map]
    rfl
  have := part_tuple nm (optionsOf like) (options_good like) (options_nb like) o.found o.extra (o.read like)
    (l.map (fun o : LOpt => (o.found, o.extra, o.read like))) hf (by
    intro x hx
    have hx : x ∈ (o :: l).map (fun o => (o.found, o.extra, o.read like)) := hx
    obtain ⟨y, hy, rfl⟩ := List.mem_map.1 hx
    exact (hs y.found.1 (List.mem_flatMap.2 ⟨y.opt, List.mem_map.2 ⟨y, hy, rfl⟩, by simp [Opt.words, LOpt.opt]⟩)).entry.ne)
  rw [hrest] at this
  have e1 : o.opt.1 ++ enc (o.opt.2 ++ lostWords l) = o.found.1 ++ enc (o.found.2 ++ (o.extra ++ lostWords l)) := by
    simp [LOpt.opt]
  have e : ((o.found, o.extra, o.read like) :: l.map (fun o => (o.found, o.extra, o.read like))).map (·.2.2) = (o :: l).map (LOpt.read like) := by
    simp
  rw [e1, this, e]
  rfl

end Inp
