import Verif.Inp.TimeRead
import Verif.Props.OptionCard
/-!
# Reading and printing sources
-/
set_option maxRecDepth 100000
namespace Inp
open Py Types Props

/-! ## Cards with options that print as words and are found -/

theorem opts_text (ps : List (Val × Opt)) (h : ∀ x ∈ ps, x.1.text = some (x.2.1 ++ enc x.2.2)) :
    (optsVal (ps.map (·.1))).text = (optsVal ((optWords (ps.map (·.2))).map (fun w => .sc (.str w)))).text := by
  cases ps with
  | nil => rfl
  | cons x ps =>
    have e1 : (Val.parts ((x :: ps).map (·.1))).map orNil = ((x :: ps).map (·.2)).map (fun i => i.1 ++ enc i.2) := by
      rw [Val.parts_eq, List.map_map, List.map_map, List.map_map]
      refine List.map_congr_left (fun y hy => ?_)
      simp only [Function.comp, h y hy]
      rfl
    have e2 : ∀ l : List Str, (Val.parts (l.map (fun w => Val.sc (.str w)))).map orNil = l := by
      intro l
      rw [Val.parts_eq, List.map_map, List.map_map]
      exact (List.map_congr_left (fun y _ => rfl)).trans (List.map_id l)
    have l1 : (optsVal ((x :: ps).map (·.1))) = .tuple ((x :: ps).map (·.1)) := rfl
    have l2 : (optsVal ((optWords ((x :: ps).map (·.2))).map (fun w => .sc (.str w)))) =
      .tuple ((optWords ((x :: ps).map (·.2))).map (fun w => .sc (.str w))) := rfl
    rw [l1, l2]
    simp only [Val.text]
    rw [e1, e2, join_options]

theorem allOk_ok {α : Type} (l : List α) : allOk (l.map (Except.ok (ε := Err))) = .ok l := by
  induction l with
  | nil => rfl
  | cons a l ih => simp only [List.map_cons, allOk, ih]

theorem found_round (r : OptRow) (hr : r ∈ optRows) (hv gv : List Val) (hh : HeadOk r.h hv)
    (hgv : ReadVals (r.c.attrs.dropLast.drop r.h.ng) gv) (hp : Present (r.gs.map (·.mode)) gv)
    (ps : List (Val × Opt)) (htx : ∀ x ∈ ps, x.1.text = some (x.2.1 ++ enc x.2.2)) (hstw : ∀ w ∈ optWords (ps.map (·.2)), Stable w)
    (hne : r.mode = .many → ps ≠ []) (hfs : Founds r.cs (ps.map (fun x => (x.2, .ok x.1))))
    (hfull : ∀ x ∈ ps, ∃ d ∈ r.cs, Full (d.pat.re 1) (x.2.1 ++ enc x.2.2)) (v : Val)
    (hmk : r.c.mk' (hv ++ gv ++ [optsVal (ps.map (·.1))]) = .ok v) :
    cardParse r.c v.str = .ok (v, []) ∧ (v.headWord.length ≤ 78 → ∃ ws, CardWords ws ∧ v.str = printWords ws) := by
  have hpr := List.all_eq_true.1 rows_printed r hr
  simp only [OptRow.printed, Bool.and_eq_true, beq_iff_eq] at hpr
  obtain ⟨⟨⟨p1, p2⟩, p3⟩, p4⟩ := hpr
  obtain ⟨as, a, oc⟩ := optRows_ok r hr
  have hdl : r.c.attrs.dropLast = as := by rw [oc.attrs]; simp
  obtain ⟨-, -, -, -, -, -, -, f3, f4⟩ := std_facts r.front r.h r.gs p1 hv gv hh hgv
  have hfit := fits_vals _ _ _ (std_fields p1) p2 hgv hp
  obtain ⟨hcan, hlen⟩ := canon_req oc.req hfit
  have hass := assign_canon _ _ hfit hcan
  have hng : r.h.ng ≤ r.c.attrs.dropLast.length := by
    have h1 := hgv.length
    have h2 := congrArg (fun x : Res (List Val) => (x.map List.length)) f3
    simp only [Cls.std, Cls.plain, Bool.and_eq_true, beq_iff_eq] at p1
    have := p1.1.1.1.1.1.1.1.1.1.2
    rw [List.length_take] at this
    simp only [OptRow.front] at this
    omega
  have hrw : ReadVals (r.wordy.attrs.drop r.h.ng)
      (gv ++ [optsVal ((optWords (ps.map (·.2))).map (fun w => .sc (.str w)))]) := by
    have : r.wordy.attrs.drop r.h.ng = r.c.attrs.dropLast.drop r.h.ng ++ [⟨"options", .base .str, true, none⟩] := by
      unfold OptRow.wordy
      simp only
      rw [List.drop_append_of_le_length hng]
    rw [this]
    refine readVals_append hgv ⟨?_, trivial⟩
    cases hl : optWords (ps.map (·.2)) with
    | nil => exact trivial
    | cons w ws =>
      refine ⟨rfl, by simp, .str, rfl, ?_⟩
      intro v hv
      obtain ⟨w', hw', rfl⟩ := List.mem_map.1 hv
      exact ⟨_, rfl, hstw w' (by rw [hl]; exact hw')⟩
  obtain ⟨hd, he, hst', h5, hb, hrd, hw, hrv, hl⟩ := std_facts r.wordy r.h _ p3 hv _ hh hrw
  have hflat : Assign.flat ((gv ++ [optsVal ((optWords (ps.map (·.2))).map (fun w => .sc (.str w)))]).map Val.words) =
      Assign.flat (gv.map Val.words) ++ optWords (ps.map (·.2)) := by
    unfold Assign.flat
    rw [List.map_append, List.flatMap_append]
    congr 1
    cases optWords (ps.map (·.2)) with
    | nil => rfl
    | cons w ws =>
      simp only [List.map_cons, optsVal, List.map_nil, Val.words, List.flatMap_cons, List.flatMap_nil, List.append_nil, Option.getD_some]
      rw [List.map_map]
      exact congrArg (w :: ·) ((List.map_congr_left (fun y _ => rfl)).trans (List.map_id ws))
  rw [hflat] at hst' hb
  have hws : Words (hd :: (Assign.flat (gv.map Val.words) ++ optWords (ps.map (·.2)))) := by
    intro w hw
    rcases List.mem_cons.1 hw with rfl | hw
    · exact ⟨he.sp, he.ne⟩
    · exact ⟨(hst' w hw).entry.sp, (hst' w hw).entry.ne⟩
  have hparts : Val.parts (hv ++ gv ++ [optsVal (ps.map (·.1))]) =
      Val.parts (hv ++ (gv ++ [optsVal ((optWords (ps.map (·.2))).map (fun w => .sc (.str w)))])) := by
    rw [Val.parts_eq, Val.parts_eq, List.append_assoc]
    simp only [List.map_append, List.map_cons, List.map_nil]
    rw [opts_text ps htx]
  have hinfo : r.wordy.info = r.c.info := rfl
  rw [hinfo] at h5 hb
  have hstr : v.str = postprocess (join [' '] (hd :: (Assign.flat (gv.map Val.words) ++ optWords (ps.map (·.2))))) := by
    rw [Props.mk_obj hmk, obj_str]
    unfold objStr
    simp only [p4]
    rw [hparts, h5, hb, strip_text hd _ hws]
  refine ⟨?_, fun hlen => by
    rw [hstr]
    have e : v.headWord = hd := by rw [Props.mk_obj hmk, Val.headWord, hparts, h5]
    exact words_print hd _ he (hash_head r.h hd _ hrd (by
      have := List.all_eq_true.1 rows_hash r hr
      simpa using this)) (by rw [← e]; exact hlen) hst'⟩
  have hpre : cardPreprocess v.str = (hd ++ enc (Assign.flat (gv.map Val.words) ++ optWords (ps.map (·.2))), []) := by
    rw [hstr, C18_wrap_roundtrip hd _ (fun w hw => by
      rcases List.mem_cons.1 hw with rfl | hw
      · exact he
      · exact (hst' w hw).entry) (fun w hw => (hst' w hw).low) (fun w hw => (hst' w hw).cnt), join_enc]
  have hmm : (ps.map (fun x => (x.2, (Except.ok x.1 : Res Val)))).map (·.1) = ps.map (·.2) := by rw [List.map_map]; rfl
  have hmr : (ps.map (fun x => (x.2, (Except.ok x.1 : Res Val)))).map (·.2) = (ps.map (·.1)).map .ok := by rw [List.map_map, List.map_map]; rfl
  have hcard := founds_card oc hd (Assign.flat (gv.map Val.words)) (ps.map (fun x => (x.2, .ok x.1))) hlen (by rw [hmm]; exact hws)
    (fun hm h0 => hne hm (List.map_eq_nil_iff.1 h0)) hfs (by
      intro i hi
      obtain ⟨x, hx, rfl⟩ := List.mem_map.1 hi
      exact hfull x hx)
  rw [hmm, hmr] at hcard
  have hread : readFoundCard r.c r.h r.gs hd (Assign.flat (gv.map Val.words)) ((ps.map (·.1)).map .ok) = .ok v := by
    have f3' : readVals r.c.attrs.dropLast ((hv.map Val.text).map (·.map ([·])) ++ gv.map Val.words) = .ok (hv ++ gv) := by
      rw [← hw]; exact f3
    unfold readFoundCard
    rw [hrd, hass]
    simp only
    rw [f3']
    simp only
    cases ps with
    | nil => exact hmk
    | cons x ps =>
      have := allOk_ok ((x :: ps).map (·.1))
      simp only [List.map_cons] at this ⊢
      rw [this]
      exact hmk
  rw [hread] at hcard
  unfold cardParse
  rw [hpre]
  simp only
  cases hm : reMatch r.c.re (hd ++ enc (Assign.flat (gv.map Val.words) ++ optWords (ps.map (·.2)))) with
  | none => rw [hm] at hcard; cases hcard
  | some m =>
    rw [hm] at hcard
    simp only at hcard ⊢
    rw [hcard]

/-! ## The variables of a source -/

theorem sourced_found : ∀ (l : List SOpt), Sourced l → (∀ w ∈ optWords (l.map SOpt.opt), Stable w) →
    Founds rowSdef.cs (l.map (fun o => (o.opt, o.read))) ∧ ∀ o ∈ l, ∃ d ∈ rowSdef.cs, Full (d.pat.re 1) (o.opt.1 ++ enc o.opt.2) := by
  intro l
  obtain ⟨n1, n2⟩ := optRows_names rowSdef (by simp [optRows])
  induction l with
  | nil => exact fun _ _ => ⟨.nil, by simp⟩
  | cons o l ih =>
    intro hl hs
    have hm : (l.map (fun o => (o.opt, o.read))).map (·.1) = l.map SOpt.opt := by rw [List.map_map]; rfl
    have hsl : ∀ w ∈ optWords (l.map SOpt.opt), Stable w := fun w hw => hs w (by
      rw [List.map_cons, optWords_cons]
      exact List.mem_cons_of_mem _ (List.mem_append_right _ hw))
    have hso : ∀ w ∈ o.opt.1 :: (o.opt.2 ++ optWords (l.map SOpt.opt)), Stable w := fun w hw => hs w (by
      rw [List.map_cons, optWords_cons]
      exact hw)
    have both : Sourced l ∧ Found rowSdef.cs o.opt (optWords (l.map SOpt.opt)) false o.read ∧ ∃ d ∈ rowSdef.cs, Full (d.pat.re 1) (o.opt.1 ++ enc o.opt.2) := by
      cases o with
      | plain c hd ws =>
        obtain ⟨⟨hc, ho⟩, hl⟩ := hl
        obtain ⟨h1, h2, h3, h4⟩ := owned_class rowSdef_good n1 n2 hc ho (stable_words hso)
        refine ⟨hl, ⟨fun prev => ?_, (fun h => by cases h), ?_⟩, c, hc, takes_full h3 (rowSdef_good c hc) (stable_words fun w hw => hso w (by
          rcases List.mem_cons.1 hw with rfl | hw
          · simp [SOpt.opt]
          · exact List.mem_cons_of_mem _ (List.mem_append_left _ hw)))⟩
        · have := find_class rowSdef.cs rowSdef_good c hd ws (optWords (l.map SOpt.opt)) (stable_words fun w hw => hso w (by
            rcases List.mem_cons.1 hw with rfl | hw
            · simp [SOpt.opt]
            · exact List.mem_cons_of_mem _ (List.mem_append_left _ hw))) h1 h3 prev
          simpa [swal, SOpt.opt] using this
        · have := option_read rowSdef.cs c hd ws h2 h4 (hso hd (by simp [SOpt.opt])).entry (fun w hw => hso w (List.mem_cons_of_mem _ (List.mem_append_left _ hw)))
          simpa [swal, SOpt.opt, SOpt.read] using this
      | dep c hd d kw n =>
        obtain ⟨⟨hc, hd', hn⟩, hl⟩ := hl
        refine ⟨hl, found_dep _ hc hd' hn hso, c, dep_mem _ hc, dep_full hc hd' hn ?_⟩
        intro w hw
        exact stable_words hso w (by
          simp only [SOpt.opt, List.mem_cons, List.not_mem_nil, or_false, List.cons_append] at hw ⊢
          rcases hw with h | h | h <;> simp [h])
      | time hd ns =>
        obtain ⟨⟨hh, hne, hns, hr⟩, hl⟩ := hl
        refine ⟨hl, found_time hh ns hne hns _ hr hso, Tab.sdef_Tme_1, time_mem, ?_⟩
        obtain ⟨m, h1, -⟩ := time_build hh ns hne hns
        exact (full_iff _ time_free _).1 (by rw [Option.isSome_iff_exists]; exact ⟨m, h1⟩)
    obtain ⟨hl', hf, hfull⟩ := both
    obtain ⟨i1, i2⟩ := ih hl' hsl
    refine ⟨.cons false (by rw [hm]; exact hf) i1, ?_⟩
    intro x hx
    rcases List.mem_cons.1 hx with rfl | hx
    · exact hfull
    · exact i2 x hx

/-- Reading the text of a source. -/
theorem source_read (g0 w0 : Str) (l : List (Gap × Str)) (g1 : Str) (h : Spaced g0 w0 l g1) (os : List SOpt) (hk : lower w0 = c!"sdef")
    (he : entries l = optWords (os.map SOpt.opt)) (hs : Sourced os) :
    cardParse Tab.Sdef (g0 ++ (w0 ++ (body l ++ g1))) = (readSource os).map (fun v => (v, [])) := by
  obtain ⟨h1, -, hw⟩ := spaced_prep h
  have hst := entries_stable h
  rw [he] at h1 hw hst
  obtain ⟨s1, s2⟩ := sourced_found os hs hst
  have hm : (os.map (fun o => (o.opt, o.read))).map (·.1) = os.map SOpt.opt := by rw [List.map_map]; rfl
  have hm2 : (os.map (fun o => (o.opt, o.read))).map (·.2) = os.map SOpt.read := by rw [List.map_map]; rfl
  have hcard := founds_card rowSdef_ok w0 [] (os.map (fun o => (o.opt, o.read))) rfl (by rw [hm]; exact hw) (by intro h; cases h) s1 (by
    intro i hi
    obtain ⟨x, hx, rfl⟩ := List.mem_map.1 hi
    exact s2 x hx)
  rw [hm, hm2] at hcard
  have hread : readFoundCard rowSdef.c rowSdef.h rowSdef.gs w0 [] (os.map SOpt.read) = readSource os := by
    unfold readFoundCard readSource
    have : readHead rowSdef.h w0 = some [] := readHead_lit (kw := c!"sdef") hk
    rw [this]
    cases os with
    | nil => rfl
    | cons o os => rfl
  rw [hread] at hcard
  unfold cardParse
  rw [h1]
  simp only [List.nil_append] at hcard ⊢
  have hc : rowSdef.c = Tab.Sdef := rfl
  rw [← hcard, hc]
  cases reMatch Tab.Sdef.re (w0 ++ enc (optWords (os.map SOpt.opt))) with
  | none => rfl
  | some m =>
    simp only
    cases Tab.Sdef.build m <;> rfl

/-! ## Values -/

/-- The value is the variable as the code builds it, and its keywords are written as it is printed; distributions above 9 lose their
last digits when read (C08). -/
def SrcVal : SOpt → Val → Prop
  | .plain c hd ws, v => OptVal c v (hd, ws)
  | .dep c hd d kw n, v => lower hd = hd ∧ lower kw = kw ∧ ∃ m o, m ≤ 9 ∧ n = distStr m ∧ d.mk' [.sc (.dist m)] = .ok o ∧ c.mk' [o] = .ok v
  | .time hd ns, v => hd = c!"tme" ∧ ∃ ms : List Nat, (∀ m ∈ ms, m ≤ 9) ∧ ms ≠ [] ∧ ns = ms.map distStr ∧
      Tab.sdef_Tme_1.mk' [.obj ⟨"Embedded", .embedded, [], ["distributions"]⟩ [.tuple (ms.map (fun m => .sc (.dist m)))]] = .ok v

/-- The class prints as its keyword and one value. -/
def lone1 (p : Str × Cls) : Bool :=
  p.2.info.style == .option && p.2.info.kw == p.1 && match p.2.info.attrs with | [a] => !special a | _ => false

theorem on_single : onClasses.all lone1 = true := by decide +kernel

theorem dep_single : depClasses.all lone1 = true := by decide +kernel

theorem time_single : lone1 (c!"tme", Tab.sdef_Tme_1) = true := by decide +kernel

theorem single_text {p : Str × Cls} (h : lone1 p = true) {v : Val} {t : Str} (ht : v.text = some t) : (Val.obj p.2.info [v]).text = some (p.1 ++ ' ' :: t) := by
  unfold lone1 at h
  simp only [Bool.and_eq_true, beq_iff_eq] at h
  obtain ⟨⟨h1, h2⟩, h3⟩ := h
  split at h3
  · rename_i a ha
    simp only [Bool.not_eq_true'] at h3
    have h4 := h3
    simp only [special, Bool.or_eq_false_iff, beq_eq_false_iff_ne] at h4
    obtain ⟨⟨q1, q2⟩, q3⟩ := h4
    simp only [Val.text, Val.parts, ht, objStr, h1, ha, List.zip_cons_cons, List.zip_nil_right, headStr, bodyStr, part, if_neg q1, if_neg q2, if_neg q3, orNil, h2,
      List.filterMap_cons, h3, Bool.false_eq_true, if_false, List.filterMap_nil, join]
    simp
  · cases h3

theorem dist_stable {m : Nat} (h : m ≤ 9) : Stable (distStr m) ∧ distParse (distStr m) = .ok m ∧ DistWord (distStr m) := by
  refine ⟨(sc_round (k := .dist) (s := .dist m) h).1, Props.C08_distribution_roundtrip_partial m h, 'd', natStr m, .inl rfl, ?_, ?_, rfl⟩
  · exact natStr_ne_nil m
  · exact natStr_digits m

theorem times_stable (w : Str) (ns : List Str) (h : ∀ v ∈ w :: ns, DistWord v) : Stable (join ['<'] (w :: ns)) := by
  have hc : ∀ c ∈ join ['<'] (w :: ns), c = 'd' ∨ c = 'D' ∨ c = '<' ∨ isDigit c = true := by
    rw [join_lt]
    have hd : ∀ v, DistWord v → ∀ c ∈ v, c = 'd' ∨ c = 'D' ∨ c = '<' ∨ isDigit c = true := by
      rintro v ⟨c, t, hc, -, ht, rfl⟩ x hx
      rcases List.mem_cons.1 hx with rfl | hx
      · rcases hc with rfl | rfl <;> simp
      · exact .inr (.inr (.inr (ht x hx)))
    intro c hc
    rcases List.mem_append.1 hc with hc | hc
    · exact hd w (h w (by simp)) c hc
    · obtain ⟨v, hv, hc⟩ := List.mem_flatMap.1 hc
      rcases List.mem_cons.1 hc with rfl | hc
      · simp
      · exact hd v (h v (by simp [hv])) c hc
  obtain ⟨c, t, hj, hct⟩ : ∃ c t, join ['<'] (w :: ns) = c :: t ∧ (c = 'd' ∨ c = 'D') := by
    obtain ⟨c, v, hcc, -, -, rfl⟩ := h w (by simp)
    rw [join_lt]
    exact ⟨c, _, rfl, hcc⟩
  have hno : ∀ x, x ≠ 'd' → x ≠ 'D' → x ≠ '<' → isDigit x = false → x ∉ join ['<'] (w :: ns) := by
    intro x h1 h2 h3 h4 hx
    rcases hc x hx with h | h | h | h
    · exact h1 h
    · exact h2 h
    · exact h3 h
    · rw [h4] at h; cases h
  have hlow : lower (join ['<'] (w :: ns)) ∉ shorthand := by
    rw [hj]
    intro hm
    have : lowerC c = 'd' := by rcases hct with rfl | rfl <;> decide
    simp only [lower, List.map_cons, this, shorthand, List.mem_cons, List.not_mem_nil, or_false, List.cons.injEq] at hm
    rcases hm with h | h | h | h | h <;> exact absurd h.1 (by decide)
  refine ⟨⟨by rw [hj]; simp, fun x hx => ?_, hno '&' (by decide) (by decide) (by decide) (by decide), hno '=' (by decide) (by decide) (by decide) (by decide),
    hno '$' (by decide) (by decide) (by decide) (by decide), fun h => ?_, fun h => ?_⟩, fun h => absurd h hlow, ?_⟩
  · rcases hc x hx with rfl | rfl | rfl | h
    · decide
    · decide
    · decide
    · exact digit_noSp x h
  · exact hno '(' (by decide) (by decide) (by decide) (by decide) (List.mem_of_getLast? h)
  · exact hno ')' (by decide) (by decide) (by decide) (by decide) (List.mem_of_head? h)
  · unfold countedEntry
    rw [hj, List.takeWhile_cons_of_neg (by rcases hct with rfl | rfl <;> decide)]
    simp

theorem srcval_facts : ∀ {o : SOpt} {v : Val}, SrcVal o v → (∀ c hd d kw n, o = .dep c hd d kw n → (lower hd, c) ∈ depClasses ∧ (lower kw, d) ∈ onClasses) →
    v.text = some (o.opt.1 ++ enc o.opt.2) ∧ (∀ w ∈ o.opt.1 :: o.opt.2, Stable w) ∧ o.read = .ok v := by
  intro o v h hdep
  cases o with
  | plain c hd ws =>
    obtain ⟨h1, h2, h3⟩ := optval_facts h
    refine ⟨h1, fun w hw => ?_, h3⟩
    rcases List.mem_cons.1 hw with rfl | hw
    · exact h.first
    · exact h2 w hw
  | dep c hd d kw n =>
    obtain ⟨hc, hd'⟩ := hdep c hd d kw n rfl
    obtain ⟨l1, l2, m, o, hm, rfl, ho, hv⟩ := h
    obtain ⟨s1, s2, -⟩ := dist_stable hm
    rw [l1] at hc
    rw [l2] at hd'
    refine ⟨?_, ?_, ?_⟩
    · rw [Props.mk_obj hv, Props.mk_obj ho]
      have t1 := single_text (List.all_eq_true.1 on_single _ hd') (v := .sc (.dist m)) rfl
      have t2 := single_text (List.all_eq_true.1 dep_single _ hc) t1
      simp only [SOpt.opt, enc_cons, enc_nil, List.append_nil] at t2 ⊢
      exact t2
    · intro w hw
      have a1 : ∀ p ∈ depClasses, Stable p.1 := by
        have : ∀ p ∈ depClasses, Entry p.1 ∧ LowerShort p.1 ∧ countedEntry p.1 = none := by decide +kernel
        exact fun p hp => ⟨(this p hp).1, (this p hp).2.1, (this p hp).2.2⟩
      have a2 : ∀ p ∈ onClasses, Stable p.1 := by
        have : ∀ p ∈ onClasses, Entry p.1 ∧ LowerShort p.1 ∧ countedEntry p.1 = none := by decide +kernel
        exact fun p hp => ⟨(this p hp).1, (this p hp).2.1, (this p hp).2.2⟩
      simp only [SOpt.opt, List.mem_cons, List.not_mem_nil, or_false] at hw
      rcases hw with rfl | rfl | rfl
      · exact a1 _ hc
      · exact a2 _ hd'
      · exact s1
    · simp only [SOpt.read, readDep, s2, ho, hv]
  | time hd ns =>
    obtain ⟨rfl, ms, hms, hne, rfl, hv⟩ := h
    obtain ⟨m, ms, rfl⟩ := List.exists_cons_of_ne_nil hne
    have hdw : ∀ v ∈ distStr m :: ms.map distStr, DistWord v := by
      intro v hv
      rw [← List.map_cons] at hv
      obtain ⟨k, hk, rfl⟩ := List.mem_map.1 hv
      exact (dist_stable (hms k hk)).2.2
    refine ⟨?_, ?_, ?_⟩
    · rw [Props.mk_obj hv]
      have t1 : (Val.obj ⟨"Embedded", .embedded, [], ["distributions"]⟩ [.tuple ((m :: ms).map (fun m => Val.sc (.dist m)))]).text = some (join ['<'] ((m :: ms).map distStr)) := by
        have hparts : (Val.parts ((m :: ms).map (fun m => Val.sc (.dist m)))).map orNil = (m :: ms).map distStr := by
          rw [Val.parts_eq, List.map_map, List.map_map]
          exact List.map_congr_left (fun y _ => rfl)
        have : objStr ⟨"Embedded", .embedded, [], ["distributions"]⟩ [some (join [' '] ((m :: ms).map distStr))] =
            (join [' '] ((m :: ms).map distStr)).map (fun c => if c = ' ' then '<' else c) := rfl
        simp only [Val.text, Val.parts, hparts, this]
        rw [List.map_cons, join_enc, join_lt, List.map_append]
        have hid : ∀ v, DistWord v → v.map (fun c => if c = ' ' then '<' else c) = v := by
          intro v hv
          refine (List.map_congr_left (g := id) (fun c hc => ?_)).trans (List.map_id v)
          rw [if_neg]
          · rfl
          · rintro rfl
            exact absurd ((dist_chars hv).1 ' ' hc) (by decide)
        rw [hid _ (hdw _ (by simp))]
        congr 2
        have : ∀ l : List Nat, (∀ k ∈ l, k ≤ 9) → (enc (l.map distStr)).map (fun c => if c = ' ' then '<' else c) = (l.map distStr).flatMap (fun w => '<' :: w) := by
          intro l
          induction l with
          | nil => intro _; rfl
          | cons k l ih =>
            intro hl
            rw [List.map_cons, enc_cons, List.map_cons, List.map_append, hid _ (dist_stable (hl k (by simp))).2.2, ih (fun k hk => hl k (by simp [hk]))]
            rfl
        exact this ms (fun k hk => hms k (by simp [hk]))
      have t2 := single_text time_single t1
      simp only [SOpt.opt, enc_cons, enc_nil, List.append_nil] at t2 ⊢
      exact t2
    · intro w hw
      simp only [SOpt.opt, List.mem_cons, List.not_mem_nil, or_false] at hw
      rcases hw with rfl | rfl
      · exact ⟨by decide, by decide, by decide⟩
      · exact times_stable _ _ hdw
    · simp only [SOpt.read, readTime]
      have : ((m :: ms).map distStr).map distParse = (m :: ms).map .ok := by
        rw [List.map_map]
        exact List.map_congr_left (fun k hk => (dist_stable (hms k hk)).2.1)
      rw [this, allOk_ok]
      exact hv

theorem source_round (os : List (SOpt × Val)) (hos : ∀ x ∈ os, SrcVal x.1 x.2) (hs : Sourced (os.map (·.1))) (v : Val)
    (hmk : Tab.Sdef.mk' [optsVal (os.map (·.2))] = .ok v) :
    cardParse Tab.Sdef v.str = .ok (v, []) ∧ (v.headWord.length ≤ 78 → ∃ ws, CardWords ws ∧ v.str = printWords ws) := by
  have hdep : ∀ l : List SOpt, Sourced l → ∀ o ∈ l, ∀ c hd d kw n, o = .dep c hd d kw n → (lower hd, c) ∈ depClasses ∧ (lower kw, d) ∈ onClasses := by
    intro l
    induction l with
    | nil => intro _ o ho; cases ho
    | cons a l ih =>
      intro h o ho c hd d kw n e
      rcases List.mem_cons.1 ho with rfl | ho
      · subst e; exact ⟨h.1.1, h.1.2.1⟩
      · refine ih ?_ o ho c hd d kw n e
        cases a with
        | plain => exact h.2
        | dep => exact h.2
        | time => exact h.2
  have hfacts := fun x (hx : x ∈ os) => srcval_facts (hos x hx) (hdep _ hs x.1 (List.mem_map.2 ⟨x, hx, rfl⟩))
  have hmap : (os.map (fun x => (x.2, x.1.opt))).map (·.2) = (os.map (·.1)).map SOpt.opt := by rw [List.map_map, List.map_map]; rfl
  have hstw : ∀ w ∈ optWords ((os.map (·.1)).map SOpt.opt), Stable w := by
    intro w hw
    obtain ⟨i, hi, hw⟩ := List.mem_flatMap.1 hw
    obtain ⟨y, hy, rfl⟩ := List.mem_map.1 hi
    obtain ⟨x, hx, rfl⟩ := List.mem_map.1 hy
    exact (hfacts x hx).2.1 w hw
  obtain ⟨s1, s2⟩ := sourced_found _ hs hstw
  refine found_round rowSdef (by simp [optRows]) [] [] ⟨[], [], [], rfl, rfl, rfl, rfl⟩ trivial trivial (os.map (fun x => (x.2, x.1.opt))) ?_ (by rw [hmap]; exact hstw)
    (by intro h; cases h) ?_ ?_ v ?_
  · intro y hy
    obtain ⟨x, hx, rfl⟩ := List.mem_map.1 hy
    exact (hfacts x hx).1
  · have : (os.map (fun x => (x.2, x.1.opt))).map (fun x => (x.2, (Except.ok x.1 : Res Val))) = (os.map (·.1)).map (fun o => (o.opt, o.read)) := by
      rw [List.map_map, List.map_map]
      refine List.map_congr_left (fun x hx => ?_)
      simp only [Function.comp, (hfacts x hx).2.2]
    rw [this]
    exact s1
  · intro y hy
    obtain ⟨x, hx, rfl⟩ := List.mem_map.1 hy
    exact s2 x.1 (List.mem_map.2 ⟨x, hx, rfl⟩)
  · have : (os.map (fun x => (x.2, x.1.opt))).map (·.1) = os.map (·.2) := by rw [List.map_map]; rfl
    rw [this]
    exact hmk

end Inp
