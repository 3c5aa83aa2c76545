import Verif.Inp.SurfaceRound
import Verif.Inp.Whole
/-!
# Surface cards: C66, C67

`readSurface` and `isEquation` are specified in `Verif/Inp/SurfaceSpec.lean`.
-/
set_option maxRecDepth 100000
namespace Props
open Py Types Inp

/-! ## C66 – surfaces are read entry by entry and round trip -/

/-- A surface card is read as its entries say, whatever blank space and line breaks separate them: the first
entry is a transformation exactly if an equation follows it. -/
theorem C66_read (g0 w0 : Str) (l : List (Gap × Str)) (g1 : Str) (h : Spaced g0 w0 l g1) :
    cardParse Tab.Surface (g0 ++ (w0 ++ (body l ++ g1))) = (readSurface w0 (entries l)).map (fun v => (v, [])) := by
  obtain ⟨h1, -, -⟩ := spaced_prep h
  have := surface_read w0 (entries l) h.word (entries_stable h)
  unfold cardParse
  rw [h1]
  simp only
  rw [← this]
  cases reMatch Tab.Surface.re (w0 ++ enc (entries l)) with
  | none => rfl
  | some m =>
    simp only
    cases Tab.Surface.build m <;> rfl

/-- `*12  7 &⏎ c/z 1 2.5  3`: a reflecting cylinder with transformation 7. -/
example : cardParse Tab.Surface c!"*12  7 &\n c/z 1 2.5  3" =
    (readSurface c!"*12" [c!"7", c!"c/z", c!"1", c!"2.5", c!"3"]).map (fun v => (v, [])) := by
  have := C66_read [] c!"*12" [(.ws c!"  ", c!"7"), (.ws c!" &\n ", c!"c/z"), (.ws c!" ", c!"1"), (.ws c!" ", c!"2.5"),
    (.ws c!"  ", c!"3")] [] ⟨.nil, by decide, by
      intro x hx
      simp only [List.mem_cons, List.not_mem_nil, or_false] at hx
      rcases hx with rfl | rfl | rfl | rfl | rfl
      · exact ⟨⟨.sp (.sp .nil), by simp⟩, by decide⟩
      · exact ⟨⟨.sp (.amp 0 (.sp .nil)), by simp⟩, by decide⟩
      · exact ⟨⟨.sp .nil, by simp⟩, by decide⟩
      · exact ⟨⟨.sp .nil, by simp⟩, by decide⟩
      · exact ⟨⟨.sp (.sp .nil), by simp⟩, by decide⟩, .nil, by decide, by decide, by decide⟩
  exact this

theorem surface_round (c : Cls) (hc : c ∈ surfaceOptions) (h : Head) (fs : List Field) (hs : c.shape = .flat h fs)
    (fv : List Val) (hr : ReadVals c.attrs fv) (hp : Present (fs.map (·.mode)) fv)
    (hcan : Canon (fs.map (·.mode)) (fv.map Val.words)) (o : Val) (ho : c.mk' fv = .ok o)
    (sign : Option Char) (hsign : ∀ x ∈ sign, x = '+' ∨ x = '*') (n : IntVal) (hn : ReadSc .int (.int n))
    (t : Option IntVal) (ht : ∀ x ∈ t, ReadSc .int (.int x)) (v : Val)
    (hmk : Tab.Surface.mk' [sign.elim .none (fun x => .sc (.str [x])), .sc (.int n), t.elim .none (fun x => .sc (.int x)), o] = .ok v) :
    cardParse Tab.Surface v.str = .ok (v, []) ∧
      ((sign.toList ++ n.str).length ≤ 78 → ∃ ws, CardWords ws ∧ v.str = printWords ws) := by
  obtain ⟨hd, k, es, htx, hst, hk, heq, hun⟩ := equation_print hc hs fv hr hp hcan o ho
  obtain ⟨n1, n2⟩ := sc_round hn
  have n2' : intParse n.str = .ok n := by
    simp only [Kind.parse, Sc.text] at n2
    cases hi : intParse n.str with
    | error e => rw [hi] at n2; cases n2
    | ok m =>
      rw [hi] at n2
      simp only [Except.map, Except.ok.injEq, Val.sc.injEq, Sc.int.injEq] at n2
      rw [n2]
  have hhead := surfaceHead_print sign hsign n.str n1.entry.ne (int_text_head hn)
  have hw0 : Entry (sign.toList ++ n.str) := by
    have hc : ∀ x ∈ sign.toList, x = '+' ∨ x = '*' := by
      intro x hx
      cases sign with
      | none => cases hx
      | some y => simp only [Option.toList_some, List.mem_singleton] at hx; subst hx; exact hsign _ rfl
    have hnot : ∀ x, x ≠ '+' → x ≠ '*' → x ∉ n.str → x ∉ sign.toList ++ n.str := by
      intro x h1 h2 h3 hx
      rcases List.mem_append.1 hx with hx | hx
      · rcases hc x hx with h | h
        · exact h1 h
        · exact h2 h
      · exact h3 hx
    have e := n1.entry
    refine ⟨by simp [show n.str ≠ [] from e.ne], ?_, hnot _ (by decide) (by decide) e.amp, hnot _ (by decide) (by decide) e.eq,
      hnot _ (by decide) (by decide) e.dl, ?_, ?_⟩
    · intro x hx
      rcases List.mem_append.1 hx with hx | hx
      · rcases hc x hx with rfl | rfl <;> decide
      · exact e.sp x hx
    · rw [getLast_app _ n.str e.ne]; exact e.op
    · cases sign with
      | none => exact e.cl
      | some y =>
        simp only [Option.toList_some, List.cons_append, List.head?_cons, ne_eq, Option.some.injEq]
        rintro rfl
        rcases hsign _ rfl with h | h <;> cases h
  have hpre : readVal ⟨"prefix", .base .str, false, none⟩ ((sign.map ([·])).map ([·])) = .ok (sign.elim .none (fun x => .sc (.str [x]))) := by
    cases sign with
    | none => rfl
    | some y => rcases hsign y rfl with rfl | rfl <;> rfl
  have hsurf : ∀ tw : Option Str, readVal ⟨"transform", .base .int, false, none⟩ (tw.map ([·])) = .ok (t.elim .none (fun x => .sc (.int x))) →
      surfaceOf (sign.map ([·])) n.str tw (hd :: k :: es) = .ok v := by
    intro tw htw
    unfold surfaceOf
    rw [hpre]
    simp only
    rw [n2']
    simp only
    rw [htw]
    simp only [List.headD_cons, List.tail_cons]
    rw [hun]
    exact hmk
  have hstr : v.str = postprocess (sign.toList ++ n.str ++ ' ' :: ((t.map IntVal.str).getD [] ++ ' ' :: (hd ++ enc (k :: es)))) := by
    rw [mk_obj hmk, obj_str]
    have hpt : Val.text (sign.elim .none (fun x => .sc (.str [x]))) = sign.map ([·]) := by cases sign <;> rfl
    have htt : Val.text (t.elim .none (fun x => .sc (.int x))) = t.map IntVal.str := by cases t <;> rfl
    show objStr ⟨"Surface", .surface, c!"", ["prefix", "number", "transform", "option"]⟩ _ = _
    simp only [Val.parts, hpt, htt, htx]
    have e1 : orNil (sign.map ([·])) = sign.toList := by cases sign <;> rfl
    show postprocess (orNil (sign.map ([·])) ++ orNone (some n.str) ++ ' ' :: (orNil (t.map IntVal.str) ++ ' ' :: orNone (some (hd ++ enc (k :: es))))) = _
    rw [e1]; rfl
  have hns : Start (sign.toList ++ n.str) := ⟨hw0, by
    cases sign with
    | none => exact int_hash' hn
    | some y =>
      simp only [Option.toList_some, List.cons_append, List.head?_cons, ne_eq, Option.some.injEq]
      rintro rfl
      rcases hsign _ rfl with h | h <;> cases h⟩
  rw [hstr]
  cases t with
  | none =>
    have hb := blank_roundtrip (sign.toList ++ n.str) [[]] (hd :: k :: es) [] hw0 (by simp) hst (.inl rfl)
    have e : sign.toList ++ n.str ++ ' ' :: ((Option.map IntVal.str none).getD [] ++ ' ' :: (hd ++ enc (k :: es))) =
      sign.toList ++ n.str ++ enc ([[]] ++ ((hd :: k :: es) ++ [])) := by simp
    rw [e]
    refine ⟨?_, fun hl => blank_words _ _ _ _ hns hl (by simp) hst (.inl rfl)⟩
    unfold cardParse
    rw [hb]
    simp only
    have e2 : ([[]] : List Str).filter (fun w => w != []) ++ (hd :: k :: es) = hd :: k :: es := by simp
    rw [e2]
    have hread := surface_read (sign.toList ++ n.str) (hd :: k :: es) hw0 hst
    have hrs : readSurface (sign.toList ++ n.str) (hd :: k :: es) = .ok v := by
      unfold readSurface
      rw [hhead]
      have h1 : isEquation (hd :: k :: es).tail = false := number_not_equation hk
      simp only [h1, heq, Bool.false_eq_true, if_false, if_true]
      exact hsurf none rfl
    rw [hrs] at hread
    cases hm : reMatch Tab.Surface.re (sign.toList ++ n.str ++ enc (hd :: k :: es)) with
    | none => rw [hm] at hread; cases hread
    | some m =>
      rw [hm] at hread
      simp only at hread ⊢
      rw [hread]
  | some tv =>
    obtain ⟨t1, t2⟩ := sc_round (ht tv rfl)
    have hall : ∀ w ∈ tv.str :: hd :: k :: es, Stable w := by
      intro w hw
      rcases List.mem_cons.1 hw with rfl | hw
      · exact t1
      · exact hst w hw
    have hb := blank_roundtrip (sign.toList ++ n.str) [] (tv.str :: hd :: k :: es) [] hw0 (by simp) hall (.inl rfl)
    have e : sign.toList ++ n.str ++ ' ' :: ((Option.map IntVal.str (some tv)).getD [] ++ ' ' :: (hd ++ enc (k :: es))) =
      sign.toList ++ n.str ++ enc ([] ++ ((tv.str :: hd :: k :: es) ++ [])) := by simp
    rw [e]
    refine ⟨?_, fun hl => blank_words _ _ _ _ hns hl (by simp) hall (.inl rfl)⟩
    unfold cardParse
    rw [hb]
    simp only
    have e2 : ([] : List Str).filter (fun w => w != []) ++ (tv.str :: hd :: k :: es) = tv.str :: hd :: k :: es := rfl
    rw [e2]
    have hread := surface_read (sign.toList ++ n.str) (tv.str :: hd :: k :: es) hw0 hall
    have hrs : readSurface (sign.toList ++ n.str) (tv.str :: hd :: k :: es) = .ok v := by
      unfold readSurface
      rw [hhead]
      have h1 : isEquation (tv.str :: hd :: k :: es).tail = true := heq
      simp only [h1, if_true]
      exact hsurf (some tv.str) t2
    rw [hrs] at hread
    cases hm : reMatch Tab.Surface.re (sign.toList ++ n.str ++ enc (tv.str :: hd :: k :: es)) with
    | none => rw [hm] at hread; cases hread
    | some m =>
      rw [hm] at hread
      simp only at hread ⊢
      rw [hread]

/-- Every printed surface whose parts are readable is read back unchanged. Missing: infinite coefficients, shorthand with a
count and unset entries before set ones (C05, C20, C24). -/
theorem C66_roundtrip_partial (c : Cls) (hc : c ∈ surfaceOptions) (h : Head) (fs : List Field) (hs : c.shape = .flat h fs)
    (fv : List Val) (hr : ReadVals c.attrs fv) (hp : Present (fs.map (·.mode)) fv)
    (hcan : Canon (fs.map (·.mode)) (fv.map Val.words)) (o : Val) (ho : c.mk' fv = .ok o)
    (sign : Option Char) (hsign : ∀ x ∈ sign, x = '+' ∨ x = '*') (n : IntVal) (hn : ReadSc .int (.int n))
    (t : Option IntVal) (ht : ∀ x ∈ t, ReadSc .int (.int x)) (v : Val)
    (hmk : Tab.Surface.mk' [sign.elim .none (fun x => .sc (.str [x])), .sc (.int n), t.elim .none (fun x => .sc (.int x)), o] = .ok v) :
    cardParse Tab.Surface v.str = .ok (v, []) :=
  (surface_round c hc h fs hs fv hr hp hcan o ho sign hsign n hn t ht v hmk).1

/-- A reflecting plane, without transformation. -/
example : cardParse Tab.Surface (Val.obj Tab.Surface.info [.sc (.str ['*']), .sc (.int (.num 5)), .none,
      .obj Tab.surface_Px.info [.sc (.real (.num (.fin ⟨true, 25, -1⟩)))]]).str =
    .ok (.obj Tab.Surface.info [.sc (.str ['*']), .sc (.int (.num 5)), .none,
      .obj Tab.surface_Px.info [.sc (.real (.num (.fin ⟨true, 25, -1⟩)))]], []) := by
  refine C66_roundtrip_partial Tab.surface_Px (by simp [surfaceOptions]) _ _ rfl [.sc (.real (.num (.fin ⟨true, 25, -1⟩)))]
    ⟨⟨rfl, .real, rfl, trivial⟩, trivial⟩ ⟨.inr (.inr (by simp)), trivial⟩ ?_
    (.obj Tab.surface_Px.info [.sc (.real (.num (.fin ⟨true, 25, -1⟩)))]) (by decide +kernel)
    (some '*') (by simp) (.num 5) trivial none (by simp) _ (by decide +kernel)
  exact trivial

/-! ## C67 – surface numbers are in range -/

theorem init_cons {avs : List (Attr × Val)} {env n ns} (h : runInit avs env (n :: ns) = .ok ()) :
    ∃ a v env', avs.find? (fun p => p.1.name == n) = some (a, v) ∧ setAttr env a v = .ok env' ∧ runInit avs env' ns = .ok () := by
  unfold runInit at h
  split at h
  · cases h
  · rename_i a v hf
    split at h
    · cases h
    · rename_i env' hs
      exact ⟨a, v, env', hf, hs, h⟩

theorem set_ok {env a v env'} (h : setAttr env a v = .ok env') :
    env' = (a.name, v) :: env ∧ ∀ c, a.chk = some c → c.eval env v = .ok false := by
  unfold setAttr at h
  split at h
  · rename_i hc
    cases h
    exact ⟨rfl, fun c e => by rw [hc] at e; cases e⟩
  · rename_i c hc
    split at h
    · cases h
    · cases h
    · rename_i hev
      cases h
      exact ⟨rfl, fun d e => by rw [hc] at e; cases e; exact hev⟩

theorem ge_iff (k m : Int) : Cmp.ge.holds (compare (k * 10 ^ 0) m) = true ↔ m ≤ k := by
  have : k * 10 ^ 0 = k := by simp
  rw [this]
  simp only [Cmp.holds, bne_iff_ne, ne_eq, Int.compare_eq_lt]
  omega

theorem le_iff (k m : Int) : Cmp.le.holds (compare (k * 10 ^ 0) m) = true ↔ k ≤ m := by
  have : k * 10 ^ 0 = k := by simp
  rw [this]
  simp only [Cmp.holds, bne_iff_ne, ne_eq, Int.compare_eq_gt]
  omega

theorem range_eval (env : List (String × Val)) (a b k : Int) :
    Chk.eval env (.sc (.int (.num k))) (.and (.cmp .ge a 0) (.cmp .le b 0)) = .ok (decide (a ≤ k ∧ k ≤ b)) := by
  simp only [Chk.eval, cmpVal, Except.bind]
  cases h1 : Cmp.ge.holds (compare (k * 10 ^ 0) a) with
  | false =>
    have : ¬ a ≤ k := fun h => by rw [(ge_iff k a).2 h] at h1; cases h1
    simp [this]
  | true =>
    have h1' := (ge_iff k a).1 h1
    simp only [if_true, Except.ok.injEq]
    cases h2 : Cmp.le.holds (compare (k * 10 ^ 0) b) with
    | false =>
      have : ¬ k ≤ b := fun h => by rw [(le_iff k b).2 h] at h2; cases h2
      simp [this]
    | true => simp [h1', (le_iff k b).1 h2]

/-- The number and the transformation of every surface that can be made: the transformation is between 0 and 999,
and if it is 0 or unset, the number is between 1 and 99999999. Missing: the number of surfaces with a transformation, for
which the claim is false (`C67_violated`). -/
theorem C67_number_partial (p t o v : Val) (k : Int)
    (h : Tab.Surface.mk' [p, .sc (.int (.num k)), t, o] = .ok v) :
    (∀ j : Int, t = .sc (.int (.num j)) → 0 ≤ j ∧ j ≤ 999) ∧
    (t = .none ∨ t = .sc (.int (.num 0)) → 1 ≤ k ∧ k ≤ 99999999) := by
  have hrun : runInit (Tab.Surface.attrs.zip [p, .sc (.int (.num k)), t, o]) [] ["transform", "number", "option", "prefix"] = .ok () := by
    unfold Cls.mk' at h
    split at h
    · cases h
    · assumption
  obtain ⟨a, x, env, hf, hs, hrun⟩ := init_cons hrun
  have hf' : some (⟨"transform", .base .int, false, some (.and .notNone (.not (.and (.cmp .ge (0) 0) (.cmp .le (999) 0))))⟩, t) = some (a, x) := hf
  cases hf'
  obtain ⟨rfl, ht1⟩ := set_ok hs
  have ht1 := ht1 _ rfl
  obtain ⟨b, y, env, hf2, hs2, -⟩ := init_cons hrun
  have hf' : some (⟨"number", (.base .int), false, (some (.or .isNone (.not (.ite (.self "transform" .falsy) (.and (.cmp .ge (1) 0) (.cmp .le (99999999) 0)) .tt))))⟩,
    Val.sc (.int (.num k))) = some (b, y) := hf2
  cases hf'
  obtain ⟨-, hn1⟩ := set_ok hs2
  have hn1 := hn1 _ rfl
  refine ⟨?_, ?_⟩
  · rintro j rfl
    have e : (Chk.eval [] (.sc (.int (.num j))) (.and (.cmp .ge 0 0) (.cmp .le 999 0))).map (!·) = .ok false := ht1
    rw [range_eval] at e
    simpa [Except.map] using e
  · intro ht0
    have e : (Chk.eval [("transform", t)] (.sc (.int (.num k))) (.and (.cmp .ge 1 0) (.cmp .le 99999999 0))).map (!·) = .ok false := by
      rcases ht0 with rfl | rfl <;> exact hn1
    rw [range_eval] at e
    simpa [Except.map] using e

/-- The largest number. -/
example : (1 : Int) ≤ 99999999 ∧ (99999999 : Int) ≤ 99999999 :=
  (C67_number_partial .none .none (.obj Tab.surface_Px.info [.sc (.real (.num (.fin ⟨true, 25, -1⟩)))]) _ 99999999
    (show Tab.Surface.mk' _ = .ok (.obj Tab.Surface.info [.none, .sc (.int (.num 99999999)), .none,
      .obj Tab.surface_Px.info [.sc (.real (.num (.fin ⟨true, 25, -1⟩)))]]) by decide +kernel)).2 (.inl rfl)

/-- With a transformation, any number is accepted: zero, negative numbers, numbers above 999 (Surface.py:172). -/
theorem C67_violated :
    attrsOf (cardParse Tab.Surface c!"-5 7 px 1") = some [.none, .sc (.int (.num (-5))), .sc (.int (.num 7)),
      .obj Tab.surface_Px.info [.sc (.real (.num (.fin ⟨false, 1, 0⟩)))]] ∧
    attrsOf (cardParse Tab.Surface c!"0 7 px 1") = some [.none, .sc (.int (.num 0)), .sc (.int (.num 7)),
      .obj Tab.surface_Px.info [.sc (.real (.num (.fin ⟨false, 1, 0⟩)))]] ∧
    (∀ k : Int, ∃ v, Tab.Surface.mk' [.none, .sc (.int (.num k)), .sc (.int (.num 7)),
      .obj Tab.surface_Px.info [.sc (.real (.num (.fin ⟨false, 1, 0⟩)))]] = .ok v) :=
  ⟨by decide +kernel, by decide +kernel, fun _ => ⟨_, rfl⟩⟩

end Props
