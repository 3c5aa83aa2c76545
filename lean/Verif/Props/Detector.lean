import Verif.Inp.DetectorRead
/-!
# Point and ring detectors: C105
-/
set_option maxRecDepth 100000
namespace Props
open Py Types Inp

/-! ## C105 – detectors -/

theorem detHead_full {ring : Bool} {h : DetWord} (ok : h.Ok) (ha : h.axis.isSome = ring) :
    Full (if ring then ringHead else pointHead) h.text ∧ ∀ x, Mt (if ring then ringHead else pointHead) h.text x → Caps x 1 h.parts := by
  cases ring with
  | false =>
    have ha : h.axis = none := by simpa using ha
    refine ⟨full_point ok ha, ?_⟩
    intro x hx
    obtain ⟨h', k1, k2, k3, k4⟩ := mt_point hx
    rw [DetWord.inj ok k1 k3]; exact k4
  | true =>
    refine ⟨full_ring ok ha, ?_⟩
    intro x hx
    obtain ⟨h', k1, k2, k3, k4⟩ := mt_ring hx
    rw [DetWord.inj ok k1 k3]; exact k4

theorem parts_words {h : DetWord} (ok : h.Ok) : ∀ v ∈ h.parts, ∀ w ∈ v, NoSpace w ∧ w ≠ [] := by
  obtain ⟨p, f, n, a, d⟩ := h
  have sp : ∀ c, (c = '*' ∨ c = '+') → isSpace c = false := by rintro c (rfl | rfl) <;> decide
  have dg : ∀ c, isDigit c = true → isSpace c = false := by
    intro c hc
    cases hs : isSpace c with
    | false => rfl
    | true =>
      have : ∀ c ∈ spaces, isDigit c = false := by decide +kernel
      rw [this c (isSpace_mem hs)] at hc; cases hc
  have ax : ∀ c, lowerC c ∈ ['x', 'y', 'z'] → isSpace c = false := by
    intro c hc
    cases hs : isSpace c with
    | false => rfl
    | true =>
      have : ∀ c ∈ spaces, lowerC c ∉ ['x', 'y', 'z'] := by decide +kernel
      exact absurd hc (this c (isSpace_mem hs))
  intro v hv w hw
  simp only [DetWord.parts, List.mem_append, List.mem_cons, List.not_mem_nil, or_false, Option.mem_toList] at hv
  rcases hv with ((rfl | rfl) | hv) | rfl
  · cases p with
    | none => cases hw
    | some c =>
      simp at hw; subst hw
      exact ⟨by intro x hx; rw [List.mem_singleton.1 hx]; exact sp c (ok.pre c rfl), by simp⟩
  · simp at hw; subst hw
    exact ⟨fun c hc => dg c (ok.num c hc), by intro e; have := ok.five; simp only at this; rw [e] at this; cases this⟩
  · cases a with
    | none => cases hv
    | some c =>
      simp at hv; subst hv
      simp at hw; subst hw
      exact ⟨by intro x hx; rw [List.mem_singleton.1 hx]; exact ax c (ok.axis c rfl), by simp⟩
  · exact ⟨(ok.des w hw).2, (ok.des w hw).1⟩

theorem det_words {ring : Bool} {h : DetWord} (ok : h.Ok) (ha : h.axis.isSome = ring) (rows : List (List Str)) (nd : Option Str)
    (hw : Words (h.text :: (rows.flatten ++ nd.toList))) (hne : rows ≠ []) (hk : ∀ y ∈ rows, y.length = (detKinds ring).length)
    (hn : ∀ y ∈ rows, ∀ w ∈ y, NumWord w) (hst : ∀ y ∈ rows, ∀ w ∈ y, Stable w) (hnd : ∀ w ∈ nd, lower w = c!"nd") :
    (match reMatch (detCls ring).re (h.text ++ enc (rows.flatten ++ nd.toList)) with | none => (.error .inp : Res Val) | some m => (detCls ring).build m) =
    detRead (detCls ring) (detEntry ring) h rows nd := by
  obtain ⟨f1, f2⟩ := detHead_full ok ha
  have ht : nd.toList = [] ∨ ∃ w, nd.toList = [w] ∧ lower w = c!"nd" := by
    cases nd with
    | none => exact .inl rfl
    | some w => exact .inr ⟨w, rfl, hnd w rfl⟩
  have hpw := parts_words ok
  have last : ∀ b : Attr, ∀ {f : Val → Res Val} {g : List Val → Res Val}, (∀ z, f z = g [z]) →
      (match readVal b (if nd.toList = [] then none else some nd.toList) with | .error e => (.error e : Res Val) | .ok z => f z) =
      (match readVals [b] [nd.map ([·])] with | .error e => (.error e : Res Val) | .ok zs => g zs) := by
    intro b f g hfg
    have : (if nd.toList = [] then none else some nd.toList) = nd.map ([·]) := by cases nd <;> rfl
    rw [this]
    simp only [readVals]
    cases readVal b (nd.map ([·])) with
    | error => rfl
    | ok z => exact hfg z
  cases ring with
  | false =>
    have hl : h.parts.length = 3 := by
      have ha : h.axis = none := by simpa using ha
      simp [DetWord.parts, ha]
    have := det_read point_det h.text h.parts rows nd.toList hw f1 f2 hl hpw hne hk hn hst ht
    refine this.trans ?_
    unfold detRead
    rw [hl]
    show (match readVals pointAttrs _ with | .error e => _ | .ok xs => _) = (match readVals pointAttrs _ with | .error e => _ | .ok xs => _)
    cases readVals pointAttrs (h.parts.map (·.map ([·]))) with
    | error => rfl
    | ok xs =>
      simp only
      show (match rows.mapM (entryRead Tab.f_1_Sphere) with | .error e => _ | .ok xs => _) = (match rows.mapM (entryRead Tab.f_1_Sphere) with | .error e => _ | .ok xs => _)
      cases rows.mapM (entryRead Tab.f_1_Sphere) with
      | error => rfl
      | ok ys => exact last _ (fun z => rfl)
  | true =>
    have hl : h.parts.length = 4 := by
      cases ha' : h.axis with
      | none => rw [ha'] at ha; cases ha
      | some c => simp [DetWord.parts, ha']
    have := det_read ring_det h.text h.parts rows nd.toList hw f1 f2 hl hpw hne hk hn hst ht
    refine this.trans ?_
    unfold detRead
    rw [hl]
    show (match readVals ringAttrs _ with | .error e => _ | .ok xs => _) = (match readVals ringAttrs _ with | .error e => _ | .ok xs => _)
    cases readVals ringAttrs (h.parts.map (·.map ([·]))) with
    | error => rfl
    | ok xs =>
      simp only
      show (match rows.mapM (entryRead Tab.f_2_Ring) with | .error e => _ | .ok xs => _) = (match rows.mapM (entryRead Tab.f_2_Ring) with | .error e => _ | .ok xs => _)
      cases rows.mapM (entryRead Tab.f_2_Ring) with
      | error => rfl
      | ok ys => exact last _ (fun z => rfl)

/-- **C105, reading:** the numbers of a card of point detectors are read four by four, those of a card of ring detectors three by three, in
the order of the text; the first word and the request for no direct contributions keep their places. -/
theorem C105_read (ring : Bool) (g0 : Str) (h : DetWord) (l : List (Gap × Str)) (g1 : Str) (ht : Spaced g0 h.text l g1) (ok : h.Ok)
    (ha : h.axis.isSome = ring) (rows : List (List Str)) (nd : Option Str) (he : entries l = rows.flatten ++ nd.toList) (hne : rows ≠ [])
    (hk : ∀ y ∈ rows, y.length = (detKinds ring).length) (hn : ∀ y ∈ rows, ∀ w ∈ y, NumWord w) (hnd : ∀ w ∈ nd, lower w = c!"nd") :
    cardParse (detCls ring) (g0 ++ (h.text ++ (body l ++ g1))) = (detRead (detCls ring) (detEntry ring) h rows nd).map (fun v => (v, [])) := by
  obtain ⟨hpre, -, hw⟩ := spaced_prep ht
  have hst := entries_stable ht
  unfold cardParse
  rw [hpre, he]
  rw [he] at hw hst
  have e := det_words ok ha rows nd hw hne hk hn (fun y hy w h => hst w (by simp only [List.mem_append, List.mem_flatten]; exact .inl ⟨y, hy, h⟩)) hnd
  rw [← e]
  cases reMatch (detCls ring).re (h.text ++ enc (rows.flatten ++ nd.toList)) with
  | none => rfl
  | some m =>
    simp only
    cases (detCls ring).build m <;> rfl

/-- **C105, refusing:** a text whose first word or number of entries is not that of a card of detectors is refused. -/
theorem C105_refused (ring : Bool) (g0 w0 : Str) (l : List (Gap × Str)) (g1 : Str) (ht : Spaced g0 w0 l g1)
    (hno : ¬ ∃ (h : DetWord) (rows : List (List Str)) (nd : Option Str), h.Ok ∧ h.axis.isSome = ring ∧ w0 = h.text ∧ rows ≠ [] ∧
      (∀ y ∈ rows, y.length = (detKinds ring).length) ∧ (∀ w ∈ nd, lower w = c!"nd") ∧ entries l = rows.flatten ++ nd.toList) :
    cardParse (detCls ring) (g0 ++ (w0 ++ (body l ++ g1))) = .error .inp := by
  obtain ⟨hpre, -, hw⟩ := spaced_prep ht
  unfold cardParse
  rw [hpre]
  have key : reMatch (detCls ring).re (w0 ++ enc (entries l)) = none := by
    cases hm : reMatch (detCls ring).re (w0 ++ enc (entries l)) with
    | none => rfl
    | some m =>
      exfalso
      have tail : ∀ {tl : List Str}, (tl = [] ∨ ∃ w, tl = [w] ∧ lower w = c!"nd") → ∃ nd : Option Str, tl = nd.toList ∧ ∀ w ∈ nd, lower w = c!"nd" := by
        rintro tl (rfl | ⟨w, rfl, h⟩)
        · exact ⟨none, rfl, by simp⟩
        · exact ⟨some w, rfl, by simpa using h⟩
      cases ring with
      | false =>
        obtain ⟨⟨x, hf⟩, rows, tl, k1, k2, k3, k4⟩ := (det_iff point_det w0 (entries l) hw).1 (by
          show (reMatch (detCls false).re _).isSome = true
          rw [hm]; rfl)
        obtain ⟨h, o1, o2, o3, -⟩ := mt_point hf
        obtain ⟨nd, rfl, n2⟩ := tail k3
        exact hno ⟨h, rows, nd, o1, by simp [o2], o3, k1, k2, n2, k4⟩
      | true =>
        obtain ⟨⟨x, hf⟩, rows, tl, k1, k2, k3, k4⟩ := (det_iff ring_det w0 (entries l) hw).1 (by
          show (reMatch (detCls true).re _).isSome = true
          rw [hm]; rfl)
        obtain ⟨h, o1, o2, o3, -⟩ := mt_ring hf
        obtain ⟨nd, rfl, n2⟩ := tail k3
        exact hno ⟨h, rows, nd, o1, o2, o3, k1, k2, n2, k4⟩
  rw [key]

theorem cut_trunc (d : Dec) : Cut d d.trunc := by
  obtain ⟨s, m, e⟩ := d
  unfold Cut Dec.trunc
  simp only
  have hpos : 0 < 10 ^ (-e).toNat := Nat.pow_pos (by decide)
  constructor
  · generalize (if 0 ≤ e then m * 10 ^ e.toNat else m / 10 ^ (-e).toNat) = k
    cases s with
    | false => simp only [Bool.false_eq_true, if_false, false_iff]; right; omega
    | true => simp only [if_true, true_iff]; omega
  · have hn : ∀ k : Nat, (if s = true then -(k : Int) else (k : Int)).natAbs = k := by
      intro k; cases s <;> simp
    rw [hn]
    split
    · rfl
    · constructor
      · exact Nat.div_mul_le_self _ _
      · rw [Nat.mul_comm]
        exact Nat.lt_mul_div_succ m hpos

theorem int_of_real {w : Str} {d : Dec} (h : realParse w = .ok (.num (.fin d))) : intParse w = .ok (.num d.trunc) := by
  unfold realParse at h
  unfold intParse
  cases hh : horizParse w with
  | ok x => rw [hh] at h; cases h
  | error e =>
    rw [hh] at h
    cases e with
    | types =>
      simp only at h ⊢
      cases hn : numText w with
      | error => rw [hn] at h; cases h
      | ok t =>
        rw [hn] at h
        simp only at h ⊢
        cases hp : decParse t with
        | none => rw [hp] at h; cases h
        | some v =>
          rw [hp] at h
          simp only [Except.ok.injEq, RealVal.num.injEq] at h
          subst h
          rfl
    | _ => cases h

/-- **C105, numbers of a point detector:** the first two coordinates are kept; the third and the radius lose their decimals. -/
theorem C105_point (x y z r : Str) (dx dy dz dr : Dec) (hx : realParse x = .ok (.num (.fin dx))) (hy : realParse y = .ok (.num (.fin dy)))
    (hz : realParse z = .ok (.num (.fin dz))) (hr : realParse r = .ok (.num (.fin dr))) :
    ∃ kz kr : Int, Cut dz kz ∧ Cut dr kr ∧ entryRead Tab.f_1_Sphere [x, y, z, r] = .ok (.obj Tab.f_1_Sphere.info
      [.sc (.real (.num (.fin dx))), .sc (.real (.num (.fin dy))), .sc (.int (.num kz)), .sc (.int (.num kr))]) := by
  refine ⟨_, _, cut_trunc dz, cut_trunc dr, ?_⟩
  have h1 := int_of_real hz
  have h2 := int_of_real hr
  simp only [entryRead, Tab.f_1_Sphere, List.map_cons, List.map_nil, readVals, readVal, join, Ty.parse, Kind.parse, hx, hy, h1, h2, Except.map]
  rfl

/-- **C105, numbers of a ring detector:** the radius of exclusion loses its decimals. -/
theorem C105_ring (a r o : Str) (da dr dz : Dec) (ha : realParse a = .ok (.num (.fin da))) (hr : realParse r = .ok (.num (.fin dr)))
    (ho : realParse o = .ok (.num (.fin dz))) :
    ∃ k : Int, Cut dz k ∧ entryRead Tab.f_2_Ring [a, r, o] = .ok (.obj Tab.f_2_Ring.info
      [.sc (.real (.num (.fin da))), .sc (.real (.num (.fin dr))), .sc (.int (.num k))]) := by
  refine ⟨_, cut_trunc dz, ?_⟩
  have h1 := int_of_real ho
  simp only [entryRead, Tab.f_2_Ring, List.map_cons, List.map_nil, readVals, readVal, join, Ty.parse, Kind.parse, ha, hr, h1, Except.map]
  rfl

theorem det_entry (ring : Bool) : RowEntry (detEntry ring) (detKinds ring) := by
  cases ring
  · exact point_det.entry
  · exact ring_det.entry

/-- The words of the detectors. -/
theorem det_items (ring : Bool) : ∀ (xs : List Val), (∀ x ∈ xs, RowItemVal (.entry (detEntry ring) (detKinds ring)) x) →
    ∃ rows : List (List Str), rows.length = xs.length ∧ (∀ y ∈ rows, y.length = (detKinds ring).length) ∧ (∀ y ∈ rows, ∀ w ∈ y, NumWord w) ∧
      (∀ y ∈ rows, ∀ w ∈ y, Stable w) ∧ xs.map Val.text = rows.map (fun y => some (join [' '] y)) ∧ rows.mapM (entryRead (detEntry ring)) = .ok xs
  | [], _ => ⟨[], rfl, by simp, by simp, by simp, rfl, rfl⟩
  | x :: xs, h => by
    obtain ⟨rows, r1, r2, r3, r4, r5, r6⟩ := det_items ring xs (fun y hy => h y (by simp [hy]))
    obtain ⟨vs, h1, h2, h3⟩ := h x (by simp)
    obtain ⟨e1, e2, e3, e4⟩ := entry_item (det_entry ring) h1 h2 h3
    obtain ⟨e5, e6⟩ := (all2_num _ _).1 e1
    rw [entry_read (det_entry ring) e5 e6 e2] at e4
    refine ⟨vs.map Val.str :: rows, by simp [r1], ?_, ?_, ?_, by simp [r5, e3], ?_⟩
    · intro y hy
      rcases List.mem_cons.1 hy with rfl | hy
      · exact e5
      · exact r2 y hy
    · intro y hy
      rcases List.mem_cons.1 hy with rfl | hy
      · exact e6
      · exact r3 y hy
    · intro y hy
      rcases List.mem_cons.1 hy with rfl | hy
      · exact e2
      · exact r4 y hy
    · rw [List.mapM_cons, e4, r6]; rfl

/-- A value of `nd`. -/
def ndVal : Bool → Val
  | false => .none
  | true => .sc (.str c!"nd")

/-- Its word. -/
def ndWord : Bool → Option Str
  | false => none
  | true => some c!"nd"

theorem stable_nd : Stable c!"nd" :=
  ⟨⟨by decide, by decide, by decide, by decide, by decide, by decide, by decide⟩, by intro h; revert h; decide +kernel, by decide +kernel⟩

theorem stable_char {c : Char} (h : c ∈ ['*', '+', 'x', 'y', 'z', 'X', 'Y', 'Z']) : Stable [c] := by
  simp only [List.mem_cons, List.not_mem_nil, or_false] at h
  rcases h with rfl | rfl | rfl | rfl | rfl | rfl | rfl | rfl <;>
  exact ⟨⟨by decide, by decide, by decide, by decide, by decide, by decide, by decide⟩, by intro h; revert h; decide +kernel, by decide +kernel⟩

/-- The first word is an entry. -/
theorem det_entry_word {p : Option Char} (hp : ∀ c ∈ p, c = '*' ∨ c = '+') (n : Nat) {a : Option Char}
    (ha : ∀ c ∈ a, c ∈ ['x', 'y', 'z', 'X', 'Y', 'Z']) {d : Option Str} (hd : ∀ s ∈ d, ReadSc .desig (.desig s)) :
    Entry (DetWord.text ⟨p, 'f', natStr n, a, d⟩) := by
  have hcl : ∀ c : Char, isDigit c = true ∨ c ∈ ['*', '+', 'f', ':', 'x', 'y', 'z', 'X', 'Y', 'Z'] →
      isSpace c = false ∧ c ≠ '&' ∧ c ≠ '=' ∧ c ≠ '$' ∧ c ≠ '(' ∧ c ≠ ')' := by
    intro c h
    rcases h with h | h
    · refine ⟨?_, ?_, ?_, ?_, ?_, ?_⟩
      · cases hs : isSpace c with
        | false => rfl
        | true =>
          have : ∀ c ∈ spaces, isDigit c = false := by decide +kernel
          rw [this c (isSpace_mem hs)] at h; cases h
      all_goals rintro rfl; revert h; decide
    · have : ∀ c ∈ ['*', '+', 'f', ':', 'x', 'y', 'z', 'X', 'Y', 'Z'], isSpace c = false ∧ c ≠ '&' ∧ c ≠ '=' ∧ c ≠ '$' ∧ c ≠ '(' ∧ c ≠ ')' := by decide
      exact this c h
  have hfront : ∀ c ∈ p.toList ++ 'f' :: (natStr n ++ a.toList), isDigit c = true ∨ c ∈ ['*', '+', 'f', ':', 'x', 'y', 'z', 'X', 'Y', 'Z'] := by
    intro c hc
    simp only [List.mem_append, List.mem_cons, Option.mem_toList] at hc
    rcases hc with hc | rfl | hc | hc
    · right; rcases hp c hc with rfl | rfl <;> simp
    · right; simp
    · left; exact natStr_digits n c hc
    · right
      have all : ∀ c ∈ ['x', 'y', 'z', 'X', 'Y', 'Z'], c ∈ ['*', '+', 'f', ':', 'x', 'y', 'z', 'X', 'Y', 'Z'] := by decide
      exact all c (ha c hc)
  have htext : DetWord.text ⟨p, 'f', natStr n, a, d⟩ = (p.toList ++ 'f' :: (natStr n ++ a.toList)) ++ colon d := by simp [DetWord.text]
  have hfne : p.toList ++ 'f' :: (natStr n ++ a.toList) ≠ [] := by simp
  rw [htext]
  generalize p.toList ++ 'f' :: (natStr n ++ a.toList) = u at hfront hfne
  have hu := fun c hc => hcl c (hfront c hc)
  have hde : ∀ s ∈ d, Entry s := fun s hs => (hd s hs).2.entry
  have all : ∀ c ∈ u ++ colon d, isSpace c = false ∧ c ≠ '&' ∧ c ≠ '=' ∧ c ≠ '$' := by
    intro c hc
    rcases List.mem_append.1 hc with hc | hc
    · exact ⟨(hu c hc).1, (hu c hc).2.1, (hu c hc).2.2.1, (hu c hc).2.2.2.1⟩
    · cases d with
      | none => cases hc
      | some s =>
        have e := hde s rfl
        rcases List.mem_cons.1 hc with rfl | hc
        · decide
        · exact ⟨e.sp c hc, fun h => e.amp (h ▸ hc), fun h => e.eq (h ▸ hc), fun h => e.dl (h ▸ hc)⟩
  refine ⟨by simp [hfne], fun c hc => (all c hc).1, fun h => (all _ h).2.1 rfl, fun h => (all _ h).2.2.1 rfl, fun h => (all _ h).2.2.2 rfl, ?_, ?_⟩
  · intro h
    cases d with
    | none =>
      simp only [colon, List.append_nil] at h
      have := List.mem_of_getLast? h
      exact (hu _ this).2.2.2.2.1 rfl
    | some s =>
      have e := hde s rfl
      simp only [colon] at h
      rw [List.getLast?_append, List.getLast?_cons] at h
      have hne := e.ne
      cases hg : s.getLast? with
      | none => rw [List.getLast?_eq_none_iff] at hg; exact hne hg
      | some x =>
        rw [hg] at h
        simp at h
        exact e.op (by rw [hg, h])
  · cases u with
    | nil => exact absurd rfl hfne
    | cons c u =>
      simp only [List.cons_append, List.head?_cons, ne_eq, Option.some.injEq]
      exact (hu c (by simp)).2.2.2.2.2

/-- The number of a card of detectors ends with 5. -/
theorem det_five {ring : Bool} {p : Option Char} {n : Nat} {a : Option Char} {d : Option Str} (ha : a.isSome = ring) {l : List Val} (hl : l.length = 2) {v : Val}
    (hmk : (detCls ring).mk' (DetWord.vals p n a d ++ l) = .ok v) : (natStr n).getLast? = some '5' := by
  rw [natStr_last]
  have : (n : Int) % 10 = 5 := by
    match l, hl with
    | [l1, l2], _ =>
    cases ring with
    | false =>
      have ha : a = none := by simpa using ha
      subst ha
      obtain ⟨env, he⟩ := mk_chk (c := Tab.F_1) (n := "suffix") hmk rfl rfl (by decide)
      exact ends_eq he
    | true =>
      cases a with
      | none => cases ha
      | some c =>
        obtain ⟨env, he⟩ := mk_chk (c := Tab.F_2) (n := "suffix") hmk rfl rfl (by decide)
        exact ends_eq he
  have h5 : n % 10 = 5 := by omega
  rw [h5]; rfl

theorem point_text (p : Option Char) (n : Nat) (d : Option Str) (t : Str) (nd : Option Str) :
    objStr Tab.F_1.info [p.map ([·]), some (natStr n), d, some t, nd] =
      postprocess (strip (DetWord.text ⟨p, 'f', natStr n, none, d⟩ ++ ' ' :: join [' '] (t :: nd.toList))) := by
  have e : objStr Tab.F_1.info [p.map ([·]), some (natStr n), d, some t, nd] =
      postprocess (strip (headStr Tab.F_1.info.kw (Tab.F_1.info.attrs.zip [p.map ([·]), some (natStr n), d, some t, nd]) ++ ' ' ::
        bodyStr (Tab.F_1.info.attrs.zip [p.map ([·]), some (natStr n), d, some t, nd]))) := rfl
  have hb : bodyStr (Tab.F_1.info.attrs.zip [p.map ([·]), some (natStr n), d, some t, nd]) = join [' '] (t :: nd.toList) := by
    cases nd <;> rfl
  have hh : headStr Tab.F_1.info.kw (Tab.F_1.info.attrs.zip [p.map ([·]), some (natStr n), d, some t, nd]) =
      DetWord.text ⟨p, 'f', natStr n, none, d⟩ := by
    cases p <;> cases d <;> simp [headStr, part, Tab.F_1, orNil, DetWord.text, colon]
  rw [e, hb, hh]

theorem ring_text (p : Option Char) (n : Nat) (c : Char) (d : Option Str) (t : Str) (nd : Option Str) :
    objStr Tab.F_2.info [p.map ([·]), some (natStr n), some [c], d, some t, nd] =
      DetWord.text ⟨p, 'f', natStr n, some c, d⟩ ++ ' ' :: (t ++ ' ' :: orNil nd) := by
  have : objStr Tab.F_2.info [p.map ([·]), some (natStr n), some [c], d, some t, nd] =
      orNil (p.map ([·])) ++ 'f' :: (natStr n ++ [c] ++ (match d with | none => [] | some d => ':' :: d) ++ ' ' :: (t ++ ' ' :: orNil nd)) := rfl
  rw [this]
  cases p <;> cases d <;> simp [DetWord.text, colon, orNil]

theorem det_parts (p : Option Char) (n : Nat) (a : Option Char) (d : Option Str) (xs : List Val) (z : Val) :
    Val.parts (DetWord.vals p n a d ++ [.tuple xs, z]) =
      [p.map ([·]), some (natStr n)] ++ (a.map (fun c => some [c])).toList ++ [d, some (join [' '] ((Val.parts xs).map orNil)), z.text] := by
  cases p <;> cases a <;> cases d <;> rfl

/-- **C105, printing and reading:** cards of detectors whose third coordinates and radii are whole numbers are read back from their text as
they were.  Missing: negative card numbers, infinite coordinates, where the claim is false
(`C105_round_violated`). -/
theorem C105_round_partial (ring : Bool) (p : Option Char) (hp : ∀ c ∈ p, c = '*' ∨ c = '+') (n : Nat) (a : Option Char)
    (ha : a.isSome = ring) (hax : ∀ c ∈ a, c ∈ ['x', 'y', 'z', 'X', 'Y', 'Z']) (d : Option Str) (hd : ∀ s ∈ d, ReadSc .desig (.desig s))
    (xs : List Val) (hne : xs ≠ []) (hx : ∀ x ∈ xs, RowItemVal (.entry (detEntry ring) (detKinds ring)) x) (nd : Bool) (v : Val)
    (hmk : (detCls ring).mk' (DetWord.vals p n a d ++ [.tuple xs, ndVal nd]) = .ok v) : cardParse (detCls ring) v.str = .ok (v, []) := by
  obtain ⟨rows, r1, r2, r3, r4, r5, r6⟩ := det_items ring xs hx
  have h5 := det_five ha rfl hmk
  let h : DetWord := ⟨p, 'f', natStr n, a, d⟩
  have ok : h.Ok := ⟨hp, by show lowerC 'f' = 'f'; decide, natStr_digits n, h5, by
    intro c hc
    have := hax c hc
    have all : ∀ c ∈ ['x', 'y', 'z', 'X', 'Y', 'Z'], lowerC c ∈ ['x', 'y', 'z'] := by decide
    exact all c this, fun s hs => ⟨(hd s hs).2.entry.ne, (hd s hs).2.entry.sp⟩⟩
  have he : Entry h.text := det_entry_word hp n hax hd
  have hrne : rows ≠ [] := by
    intro e; subst e
    cases xs with
    | nil => exact hne rfl
    | cons => simp at r1
  have hk : 1 ≤ (detKinds ring).length := by cases ring <;> decide
  have hxne : ∀ x ∈ rows, x ≠ [] := by
    intro x hx e; subst e
    have := r2 _ hx
    simp only [List.length_nil] at this
    omega
  have hfne : rows.flatten ≠ [] := by
    cases rows with
    | nil => exact absurd rfl hrne
    | cons x l =>
      have := hxne x (by simp)
      simp [this]
  have hst : ∀ w ∈ rows.flatten ++ (ndWord nd).toList, Stable w := by
    intro w hw
    rcases List.mem_append.1 hw with hw | hw
    · obtain ⟨y, hy, hw⟩ := List.mem_flatten.1 hw
      exact r4 y hy w hw
    · cases nd with
      | false => cases hw
      | true => simp [ndWord] at hw; subst hw; exact stable_nd
  have hws : Words (h.text :: (rows.flatten ++ (ndWord nd).toList)) := by
    intro w hw
    rcases List.mem_cons.1 hw with rfl | hw
    · exact ⟨he.sp, he.ne⟩
    · exact ⟨(hst w hw).entry.sp, (hst w hw).entry.ne⟩
  have hobj := mk_obj hmk
  have hj : join [' '] ((Val.parts xs).map orNil) = join [' '] rows.flatten := by
    rw [Val.parts_eq, r5, List.map_map, ← join_rows rows hxne]; rfl
  -- the text
  have hpre : cardPreprocess v.str = (h.text ++ enc (rows.flatten ++ (ndWord nd).toList), []) := by
    have hwrap : cardPreprocess (postprocess (join [' '] (h.text :: (rows.flatten ++ (ndWord nd).toList)))) =
        (h.text ++ enc (rows.flatten ++ (ndWord nd).toList), []) := by
      rw [C18_wrap_roundtrip h.text _ (fun w hw => by
        rcases List.mem_cons.1 hw with rfl | hw
        · exact he
        · exact (hst w hw).entry) (fun w hw => (hst w hw).low) (fun w hw => (hst w hw).cnt), join_enc]
    cases ring with
    | false =>
      have ha : a = none := by simpa using ha
      subst ha
      have hstr : v.str = postprocess (join [' '] (h.text :: (rows.flatten ++ (ndWord nd).toList))) := by
        rw [hobj, obj_str]
        rw [det_parts]
        refine Eq.trans (point_text p n d _ _) ?_
        rw [hj, ← strip_text _ _ hws]
        have hjj : join [' '] (join [' '] rows.flatten :: (ndVal nd).text.toList) = join [' '] (rows.flatten ++ (ndWord nd).toList) := by
          cases hf : rows.flatten with
          | nil => exact absurd hf hfne
          | cons w ws => cases nd <;> simp [join_enc, ndVal, ndWord, Val.text, Sc.text]
        rw [hjj]
      rw [hstr]; exact hwrap
    | true =>
      cases a with
      | none => cases ha
      | some c =>
        have hstr : v.str = h.text ++ ' ' :: (join [' '] rows.flatten ++ ' ' :: orNil (ndWord nd)) := by
          rw [hobj, obj_str]
          rw [det_parts]
          refine Eq.trans (ring_text p n c d _ _) ?_
          rw [hj]
          cases nd <;> rfl
        cases nd with
        | false =>
          obtain ⟨s1, s2⟩ := spaced_single h.text rows.flatten [' '] he (fun w hw => hst w (by simp [hw])) (.sp .nil)
          have := (spaced_prep s1).1
          rw [s2, single_body] at this
          rw [hstr]
          cases hf : rows.flatten with
          | nil => exact absurd hf hfne
          | cons w ws =>
            rw [hf] at this
            rw [join_enc]
            simpa [ndWord, orNil] using this
        | true =>
          obtain ⟨s1, s2⟩ := spaced_single h.text (rows.flatten ++ [c!"nd"]) [] he (fun w hw => hst w (by simpa [ndWord] using hw)) .nil
          have := (spaced_prep s1).1
          rw [s2, single_body] at this
          rw [hstr]
          cases hf : rows.flatten with
          | nil => exact absurd hf hfne
          | cons w ws =>
            rw [hf] at this
            rw [join_enc]
            simpa [ndWord, orNil] using this
  -- reading
  have hread := det_words ok ha rows (ndWord nd) hws hrne r2 r3 r4 (by
    intro w hw
    cases nd with
    | false => cases hw
    | true => simp [ndWord] at hw; subst hw; decide)
  have hvals : detRead (detCls ring) (detEntry ring) h rows (ndWord nd) = .ok v := by
    unfold detRead
    rw [r6]
    have hr1 : readVals ((detCls ring).attrs.take h.parts.length) (h.parts.map (·.map ([·]))) = .ok (DetWord.vals p n a d) := by
      have hrv : ReadVals ((detCls ring).attrs.take h.parts.length) (DetWord.vals p n a d) := by
        have e1 : ∀ b : Attr, b.many = false → b.ty = .base .str → ReadVal b (p.elim .none (fun c => .sc (.str [c]))) := by
          intro b b1 b2
          cases p with
          | none => trivial
          | some c => exact ⟨b1, .str, b2, stable_char (by rcases hp c rfl with rfl | rfl <;> simp)⟩
        have e2 : ∀ b : Attr, b.many = false → b.ty = .base .desig → ReadVal b (d.elim .none (fun c => .sc (.desig c))) := by
          intro b b1 b2
          cases d with
          | none => trivial
          | some s => exact ⟨b1, .desig, b2, hd s rfl⟩
        cases ring with
        | false =>
          have ha : a = none := by simpa using ha
          subst ha
          exact ⟨e1 _ rfl rfl, ⟨rfl, .int, rfl, trivial⟩, e2 _ rfl rfl, trivial⟩
        | true =>
          cases a with
          | none => cases ha
          | some c =>
            exact ⟨e1 _ rfl rfl, ⟨rfl, .int, rfl, trivial⟩, ⟨rfl, .str, rfl, stable_char (by
              have all : ∀ c ∈ ['x', 'y', 'z', 'X', 'Y', 'Z'], c ∈ ['*', '+', 'x', 'y', 'z', 'X', 'Y', 'Z'] := by decide
              exact all c (hax c rfl))⟩, e2 _ rfl rfl, trivial⟩
      have := (vals_round hrv).1
      rw [← this]
      congr 1
      cases p <;> cases a <;> cases d <;> rfl
    rw [hr1]
    have hr2 : readVals ((detCls ring).attrs.drop (h.parts.length + 1)) [(ndWord nd).map ([·])] = .ok [ndVal nd] := by
      cases ring with
      | false =>
        have ha : a = none := by simpa using ha
        subst ha
        cases nd with
        | false => rfl
        | true =>
          have := (vals_round (as := [⟨"nd", .base .str, false, some (.and .notNone (.not (.eqStr "nd")))⟩]) (vs := [ndVal true])
            ⟨⟨rfl, .str, rfl, stable_nd⟩, trivial⟩).1
          exact this
      | true =>
        cases a with
        | none => cases ha
        | some c =>
          cases nd with
          | false => rfl
          | true =>
            have := (vals_round (as := [⟨"nd", .base .str, false, some (.and .notNone (.not (.eqStr "nd")))⟩]) (vs := [ndVal true])
              ⟨⟨rfl, .str, rfl, stable_nd⟩, trivial⟩).1
            exact this
    simp only
    rw [hr2]
    exact hmk
  rw [hvals] at hread
  unfold cardParse
  rw [hpre]
  simp only
  cases hm : reMatch (detCls ring).re (h.text ++ enc (rows.flatten ++ (ndWord nd).toList)) with
  | none => rw [hm] at hread; cases hread
  | some m =>
    rw [hm] at hread
    simp only at hread ⊢
    rw [hread]

/-- Two point detectors and `nd`: the hypotheses of `C105_read` are met. -/
example : cardParse Tab.F_1 c!"*f5:n 0 0 1.5 0.5 1 2 3 4 nd" =
    (detRead Tab.F_1 Tab.f_1_Sphere ⟨some '*', 'f', c!"5", none, some c!"n"⟩
      [[c!"0", c!"0", c!"1.5", c!"0.5"], [c!"1", c!"2", c!"3", c!"4"]] (some c!"nd")).map (fun v => (v, [])) := by
  have hs := spaced_single c!"*f5:n" [c!"0", c!"0", c!"1.5", c!"0.5", c!"1", c!"2", c!"3", c!"4", c!"nd"] []
    (by decide +kernel) (by
      intro w hw
      have all : ∀ w ∈ [c!"0", c!"0", c!"1.5", c!"0.5", c!"1", c!"2", c!"3", c!"4", c!"nd"], Entry w ∧ LowerShort w ∧ countedEntry w = none := by
        decide +kernel
      exact ⟨(all w hw).1, (all w hw).2.1, (all w hw).2.2⟩) .nil
  refine C105_read false [] ⟨some '*', 'f', c!"5", none, some c!"n"⟩
    (single [c!"0", c!"0", c!"1.5", c!"0.5", c!"1", c!"2", c!"3", c!"4", c!"nd"]) [] hs.1
    ⟨by decide, by decide, by decide, by decide, by decide, ?_⟩ rfl
    [[c!"0", c!"0", c!"1.5", c!"0.5"], [c!"1", c!"2", c!"3", c!"4"]] (some c!"nd") hs.2 (by decide) (by decide) ?_ (by decide +kernel)
  · intro d hd
    cases hd
    exact ⟨by decide, by decide +kernel⟩
  · have all : ∀ y ∈ [[c!"0", c!"0", c!"1.5", c!"0.5"], [c!"1", c!"2", c!"3", c!"4"]], ∀ w ∈ y, w ≠ [] ∧ ∀ c ∈ w, numCh c = true := by
      decide +kernel
    exact fun y hy w hw => numWord_of (all y hy w hw).1 (all y hy w hw).2

/-- What is read: both detectors, in order. -/
example : attrsOf (cardParse Tab.F_1 c!"*f5:n 0 0 1 2 1 2 3 4 nd") = some [.sc (.str c!"*"), .sc (.int (.num 5)), .sc (.desig c!"n"),
    .tuple [.obj Tab.f_1_Sphere.info [.sc (.real (.num (.fin ⟨false, 0, 0⟩))), .sc (.real (.num (.fin ⟨false, 0, 0⟩))), .sc (.int (.num 1)), .sc (.int (.num 2))],
      .obj Tab.f_1_Sphere.info [.sc (.real (.num (.fin ⟨false, 1, 0⟩))), .sc (.real (.num (.fin ⟨false, 2, 0⟩))), .sc (.int (.num 3)), .sc (.int (.num 4))]],
    .sc (.str c!"nd")] := by decide +kernel

/-- Three numbers are no point detector, and four no ring detector. -/
example : (cardParse Tab.F_1 c!"f5:n 0 0 1").isOk = false ∧ (cardParse Tab.F_2 c!"f5z:n 0 0 1 2").isOk = false ∧
    (cardParse Tab.F_1 c!"f4:n 0 0 1 2").isOk = false := by decide +kernel

/-- A ring around the z axis, printed and read. -/
example (v : Val) (h : Tab.F_2.mk' (DetWord.vals none 15 (some 'z') (some c!"n") ++ [.tuple [.obj Tab.f_2_Ring.info
      [.sc (.real (.num (.fin ⟨false, 15, -1⟩))), .sc (.real (.num (.fin ⟨false, 0, 0⟩))), .sc (.int (.num 2))]], ndVal false]) = .ok v) :
    v.str = c!"f15z:n 1.5 0 2 " ∧ attrsOf (cardParse Tab.F_2 v.str) = attrsOf (.ok (v, [])) := by
  have e : Tab.F_2.mk' (DetWord.vals none 15 (some 'z') (some c!"n") ++ [.tuple [.obj Tab.f_2_Ring.info
      [.sc (.real (.num (.fin ⟨false, 15, -1⟩))), .sc (.real (.num (.fin ⟨false, 0, 0⟩))), .sc (.int (.num 2))]], ndVal false]) =
      .ok (.obj Tab.F_2.info (DetWord.vals none 15 (some 'z') (some c!"n") ++ [.tuple [.obj Tab.f_2_Ring.info
      [.sc (.real (.num (.fin ⟨false, 15, -1⟩))), .sc (.real (.num (.fin ⟨false, 0, 0⟩))), .sc (.int (.num 2))]], ndVal false])) := by
    decide +kernel
  rw [e] at h
  cases h
  decide +kernel

/-- Texts are not always kept.  The third coordinate and the radius of a point detector and the radius of a ring detector are read as whole
numbers; a detector with a word that is no number is dropped, even if it is the only one; `ND` in capitals is refused. -/
theorem C105_violated :
    (cardParse Tab.F_1 c!"f5:n 0 0 1.5 0.5").toOption.map (fun v => v.1.str) = some c!"f5:n 0 0 1 0" ∧
    (cardParse Tab.F_2 c!"f15z:n 1.5 0 2.7").toOption.map (fun v => v.1.str) = some c!"f15z:n 1.5 0 2 " ∧
    (cardParse Tab.F_1 c!"f5:n 0 0 0 x 1 2 3 4").toOption.map (fun v => v.1.str) = some c!"f5:n 1 2 3 4" ∧
    (attrsOf (cardParse Tab.F_1 c!"f5:n a b c d")).map (fun l => l[3]?) = some (some (.tuple [])) ∧
    (cardParse Tab.F_1 c!"f5:n 0 0 1 2 nd").isOk = true ∧ (cardParse Tab.F_1 c!"f5:n 0 0 1 2 ND").isOk = false := by
  decide +kernel

/-- What `C105_round_partial` leaves out is false.  A card with the number -5 can be made, since the remainder of -5 by 10 is 5, but what it
prints is refused; a detector at an infinite coordinate is dropped when its text is read. -/
theorem C105_round_violated :
    (∃ v, Tab.F_1.mk' [.none, .sc (.int (.num (-5))), .sc (.desig c!"n"), .tuple [.obj Tab.f_1_Sphere.info
        [.sc (.real (.num (.fin ⟨false, 0, 0⟩))), .sc (.real (.num (.fin ⟨false, 0, 0⟩))), .sc (.int (.num 1)), .sc (.int (.num 2))]], .none] = .ok v ∧
      v.str = c!"f-5:n 0 0 1 2" ∧ cardParse Tab.F_1 v.str = .error .inp) ∧
    (∃ v, Tab.F_1.mk' [.none, .sc (.int (.num 5)), .sc (.desig c!"n"), .tuple [.obj Tab.f_1_Sphere.info
        [.sc (.real (.num (.inf false))), .sc (.real (.num (.fin ⟨false, 0, 0⟩))), .sc (.int (.num 1)), .sc (.int (.num 2))]], .none] = .ok v ∧
      v.str = c!"f5:n Infinity 0 1 2" ∧ (attrsOf (cardParse Tab.F_1 v.str)).map (fun l => l[3]?) = some (some (.tuple []))) := by
  refine ⟨⟨_, rfl, ?_⟩, ⟨_, rfl, ?_⟩⟩ <;> decide +kernel

end Props
