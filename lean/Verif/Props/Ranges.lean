import Verif.Inp.RangeLemmas
import Verif.Inp.RangeIndex
import Verif.Props.Put
/-!
# C102: cards and options accept exactly the numbers and words that are documented

`Ranges.numbers`, `Ranges.texts` and `Ranges.needed` list what each attribute may hold, with the line of the setter that says so.  The
theorems say that assigning, constructing and reading agree with the lists, for every class and every number.
-/
set_option maxRecDepth 100000
namespace Props
open Py Types Inp

theorem numbers_tested {r : NumRow} (h : r ∈ Ranges.numbers) : r.tested = true := by
  have : Ranges.numbers.all NumRow.tested = true := by decide +kernel
  exact List.all_eq_true.1 this r h

theorem texts_tested {r : TextRow} (h : r ∈ Ranges.texts) : r.tested = true := by
  have : Ranges.texts.all TextRow.tested = true := by decide +kernel
  exact List.all_eq_true.1 this r h

theorem needed_tested {r : NeedRow} (h : r ∈ Ranges.needed) : r.tested = true := by
  have : Ranges.needed.all NeedRow.tested = true := by decide +kernel
  exact List.all_eq_true.1 this r h

/-- The attribute number `i` of the class is called `n`. -/
def Called (c : Cls) (i : Nat) (n : String) : Prop := (c.attrs.map (·.name))[i]? = some n

/-- **C102**: a number, or `None`, or a jump where jumps are documented, is accepted by the attribute exactly when it is in the documented range, and
refused with the documented error otherwise; whatever the object holds. -/
theorem C102_numbers {r : NumRow} (h : r ∈ Ranges.numbers) {i : Nat} (hi : Called r.cls i r.attr) (vs : List Val) {v : Val} (hf : r.Fits v) :
    (r.Allows v → r.cls.put vs i v = .ok (vs.set i v)) ∧ (¬ r.Allows v → r.cls.put vs i v = .error .inp) := by
  have ht := numbers_tested h
  unfold NumRow.tested at ht
  simp only [Bool.and_eq_true] at ht
  unfold Called at hi
  rw [List.getElem?_map] at hi
  obtain ⟨a, ha, hn⟩ := Option.map_eq_some_iff.1 hi
  have hr := all_named ht.2 ha hn
  obtain ⟨h1, h2⟩ := num_set hr (r.cls.env vs) hf
  refine ⟨fun hA => ?_, fun hA => ?_⟩
  · obtain ⟨c, hc, he⟩ := h1 hA
    exact put_accept ha hc he
  · obtain ⟨c, hc, he⟩ := h2 hA
    exact put_refuse ha hc he

/-- **C102**: the same for texts: exactly the documented words are accepted, in upper or lower case. -/
theorem C102_texts {r : TextRow} (h : r ∈ Ranges.texts) {i : Nat} (hi : Called r.cls i r.attr) (vs : List Val) {v : Val} (hf : TextRow.Fits v) :
    (r.Allows v → r.cls.put vs i v = .ok (vs.set i v)) ∧ (¬ r.Allows v → r.cls.put vs i v = .error .inp) := by
  have ht := texts_tested h
  unfold TextRow.tested at ht
  simp only [Bool.and_eq_true] at ht
  unfold Called at hi
  rw [List.getElem?_map] at hi
  obtain ⟨a, ha, hn⟩ := Option.map_eq_some_iff.1 hi
  have hr := all_named ht.2 ha hn
  obtain ⟨h1, h2⟩ := text_set hr (r.cls.env vs) hf
  refine ⟨fun hA => ?_, fun hA => ?_⟩
  · obtain ⟨c, hc, he⟩ := h1 hA
    exact put_accept ha hc he
  · obtain ⟨c, hc, he⟩ := h2 hA
    exact put_refuse ha hc he

/-- **C102**: an attribute that is needed accepts everything of its type but not `None`. -/
theorem C102_needed {r : NeedRow} (h : r ∈ Ranges.needed) {n : String} (hm : n ∈ r.attrs) {i : Nat} (hi : Called r.cls i n) (vs : List Val) :
    r.cls.put vs i .none = .error .inp ∧ ∀ v, v ≠ .none → r.cls.put vs i v = .ok (vs.set i v) := by
  have ht := List.all_eq_true.1 (needed_tested h) n hm
  simp only [Bool.and_eq_true] at ht
  unfold Called at hi
  rw [List.getElem?_map] at hi
  obtain ⟨a, ha, hn⟩ := Option.map_eq_some_iff.1 hi
  have hr := all_named ht.2 ha hn
  unfold needs at hr
  split at hr
  · rename_i hc
    refine ⟨put_refuse ha hc rfl, fun v hv => put_accept ha hc ?_⟩
    cases v <;> first | exact absurd rfl hv | rfl
  · cases hr

/-- **C102**: an attribute that is in none of the lists accepts everything of its type, and `None`: no documented restriction is missing in the lists. -/
theorem C102_others {c : Cls} (hc : c ∈ Tab.classes) {i : Nat} {n : String} (hi : Called c i n) (hn : listed c n = false) (vs : List Val) (v : Val) :
    c.put vs i v = .ok (vs.set i v) := by
  unfold Called at hi
  rw [List.getElem?_map] at hi
  obtain ⟨a, ha, rfl⟩ := Option.map_eq_some_iff.1 hi
  rcases all_listed places_right c hc a (List.mem_of_getElem? ha) with h | h
  · unfold Cls.put setAttr
    rw [ha]
    simp only [h]
  · rw [hn] at h; cases h

/-- **C102**: no object that could be constructed holds a number outside the documented range, a text that is not documented, or `None` where a value is
needed. -/
theorem C102_holds {c : Cls} {vs : List Val} (hv : Valid c vs) :
    (∀ r ∈ Ranges.numbers, r.cls = c → ∀ (i : Nat), Called c i r.attr → ∀ v, vs[i]? = some v → r.Fits v → r.Allows v) ∧
    (∀ r ∈ Ranges.texts, r.cls = c → ∀ (i : Nat), Called c i r.attr → ∀ v, vs[i]? = some v → TextRow.Fits v → r.Allows v) ∧
    (∀ r ∈ Ranges.needed, r.cls = c → ∀ (i : Nat), ∀ n ∈ r.attrs, Called c i n → vs[i]? ≠ some .none) := by
  refine ⟨?_, ?_, ?_⟩
  · rintro r hr rfl i hi v hx hf
    exact num_held (numbers_tested hr) hv.1 hv.2 hi hx hf
  · rintro r hr rfl i hi v hx hf
    exact text_held (texts_tested hr) hv.1 hv.2 hi hx hf
  · rintro r hr rfl i n hn hi
    exact need_held (needed_tested hr) hn hv.1 hv.2 hi

theorem vals_len {ng : Nat} {m : List (Nat × Str)} : ∀ {as : List Attr} {i : Nat} {vs : List Val}, attrVals ng m i as = .ok vs → vs.length = as.length
  | [], _, _, h => by cases h; rfl
  | a :: as, i, vs, h => by
    unfold attrVals at h
    split at h
    · cases h
    · split at h
      · cases h
      · rename_i hw
        cases h
        rw [List.length_cons, List.length_cons, vals_len hw]

theorem build_valid {c : Cls} {m : List (Nat × Str)} {o : Val} (h : c.build m = .ok o) : ∃ vs, o = .obj c.info vs ∧ Valid c vs := by
  unfold Cls.build at h
  split at h
  · cases h
  · rename_i vs hv
    have := mk_obj h
    subst this
    exact ⟨vs, rfl, vals_len hv, h⟩

/-- **C102**: what is read from text was constructed, so that `C102_holds` applies to it: cards, and options and entries with their variants. -/
theorem C102_read :
    (∀ (c : Cls) (s : Str) (o : Val) (cm : List Str), cardParse c s = .ok (o, cm) → ∃ vs, o = .obj c.info vs ∧ Valid c vs) ∧
    (∀ (cs : List Cls) (s : Str) (o : Val), unionParse cs s = .ok o → ∃ c ∈ cs, ∃ vs, o = .obj c.info vs ∧ Valid c vs) := by
  refine ⟨?_, ?_⟩
  · intro c s o cm h
    unfold cardParse at h
    split at h
    · cases h
    · split at h
      · cases h
      · rename_i hb
        cases h
        exact build_valid hb
  · intro cs s o h
    unfold unionParse at h
    split at h
    · cases h
    · rename_i c m hf
      have hmem : c ∈ cs := by
        clear h
        induction cs with
        | nil => cases hf
        | cons d ds ih =>
          unfold firstMatch at hf
          split at hf
          · split at hf
            · cases hf; exact List.mem_cons_self
            · exact List.mem_cons_of_mem _ (ih hf)
          · exact List.mem_cons_of_mem _ (ih hf)
      exact ⟨c, hmem, build_valid h⟩

/-- A real value. -/
def realV (x : Dec) : Val := .sc (.real (.num (.fin x)))

theorem lt_spec (a b : Dec) : ltVal (realV a) (realV b) = .ok (decide (decValue a < decValue b)) := by
  show Except.ok _ = Except.ok _
  congr 1
  apply decide_eq_decide.2
  rw [dec_int, dec_int]
  generalize (if a.neg then -(a.coeff : Int) else (a.coeff : Int)) = m
  generalize (if b.neg then -(b.coeff : Int) else (b.coeff : Int)) = n
  have h := scale_lt m n (a.exp - b.exp) 0
  rw [Int.natCast_zero, Int.add_zero, pow_zero, div_one] at h
  have e : -(a.exp - b.exp) = b.exp - a.exp := by omega
  rw [e] at h
  rw [h]
  have hb : (0 : ℚ) < (10 : ℚ) ^ b.exp := zpow_pos (by norm_num) _
  rw [zpow_sub₀ (by norm_num : (10 : ℚ) ≠ 0), ← mul_div_assoc, div_lt_iff₀ hb]

theorem gt_zero (x : Dec) : ∃ q, cmpVal .gt 0 0 (realV x) = .ok q ∧ (q = true ↔ 0 < decValue x) := by
  obtain ⟨q, h1, h2⟩ := cmp_spans (real := true) (v := realV x) (x := .fin (decValue x)) rfl .gt 0 0
  refine ⟨q, h1, ?_⟩
  rw [h2]
  simp [cmpSpans, Span.above, Span.Has, End.val]

theorem run_step {avs : List (Attr × Val)} {env : List (String × Val)} {n : String} {ns : List String} {a : Attr} {v : Val}
    (hf : avs.find? (fun p => p.1.name == n) = some (a, v)) :
    runInit avs env (n :: ns) = match setAttr env a v with
      | .error e => .error e
      | .ok env' => runInit avs env' ns := by
  rw [runInit, hf]
  rfl

/-- **C102**: the upper limit of an axis of a plot must be greater than the lower limit; with equal limits, or limits the wrong way round, there is no
such object. -/
theorem C102_limits {c : Cls} (hc : c = Tab.mplot_Xlims ∨ c = Tab.mplot_Ylims) (a b : Dec) :
    (decValue a < decValue b → Valid c [realV a, realV b, .none]) ∧ (¬ decValue a < decValue b → c.mk' [realV a, realV b, .none] = .error .inp) := by
  have key : ∀ q, ltVal (realV a) (realV b) = .ok q → c.mk' [realV a, realV b, .none] = if q then .ok (.obj c.info [realV a, realV b, .none]) else .error .inp := by
    intro q hq
    have : ∀ env : List (String × Val), env.lookup "lower" = some (realV a) →
        Chk.eval env (realV b) (.or .isNone (.not (.ltSelf "lower"))) = .ok (!q) := by
      intro env he
      simp only [Chk.eval, getAttr, he, realV, Except.bind]
      unfold realV at hq
      rw [hq]
      rfl
    have h1 := this [("lower", realV a)] rfl
    rcases hc with rfl | rfl
    all_goals
      unfold Cls.mk'
      first
        | rw [show Tab.mplot_Xlims.init = ["lower", "upper", "nsteps"] from rfl]
        | rw [show Tab.mplot_Ylims.init = ["lower", "upper", "nsteps"] from rfl]
      rw [run_step (n := "lower") (a := ⟨"lower", .base .real, false, some .isNone⟩) (v := realV a) rfl]
      rw [show setAttr [] ⟨"lower", .base .real, false, some .isNone⟩ (realV a) = .ok [("lower", realV a)] from rfl]
      simp only
      rw [run_step (n := "upper") (a := ⟨"upper", .base .real, false, some (.or .isNone (.not (.ltSelf "lower")))⟩) (v := realV b) rfl]
      unfold setAttr
      simp only [h1]
      cases q <;> rfl
  rw [lt_spec] at key
  have := key _ rfl
  refine ⟨fun h => ⟨by rcases hc with rfl | rfl <;> rfl, by rw [this, decide_eq_true h]; rfl⟩, fun h => by rw [this, decide_eq_false h]; rfl⟩

/-- 0.5 and 2.5. -/
example : decValue ⟨false, 5, -1⟩ < decValue ⟨false, 25, -1⟩ := by unfold decValue; norm_num

/-- **C102**: the two ends of the cylinder of a surface source must be positive and in order. -/
theorem C102_cylinder (x a b : Dec) :
    (0 < decValue a ∧ decValue a < decValue b → Valid Tab.ssr_Bcw [realV x, realV a, realV b]) ∧
    (¬ (0 < decValue a ∧ decValue a < decValue b) → Tab.ssr_Bcw.mk' [realV x, realV a, realV b] = .error .inp) := by
  obtain ⟨p, hp, hp'⟩ := gt_zero a
  have hq := lt_spec a b
  generalize hqq : decide (decValue a < decValue b) = q at hq
  have key : Tab.ssr_Bcw.mk' [realV x, realV a, realV b] = if p && q then .ok (.obj Tab.ssr_Bcw.info [realV x, realV a, realV b]) else .error .inp := by
    have h1 : ∀ env, Chk.eval env (realV a) (.or .isNone (.not (.cmp .gt 0 0))) = .ok (!p) := by
      intro env
      show Except.map _ (cmpVal .gt 0 0 (realV a)) = _
      rw [hp]; rfl
    have h2 : Chk.eval [("zb", realV a), ("radius", realV x)] (realV b) (.or .isNone (.not (.and (.self "zb" (.cmp .gt 0 0)) (.ltSelf "zb")))) = .ok (!(p && q)) := by
      show Except.map _ (Except.bind (cmpVal .gt 0 0 (realV a)) (fun p => if p then ltVal (realV a) (realV b) else .ok false)) = _
      rw [hp, hq]
      cases p <;> rfl
    unfold Cls.mk'
    rw [show Tab.ssr_Bcw.init = ["radius", "zb", "ze"] from rfl]
    rw [run_step (n := "radius") (a := ⟨"radius", .base .real, false, some .isNone⟩) (v := realV x) rfl]
    rw [show setAttr [] ⟨"radius", .base .real, false, some .isNone⟩ (realV x) = .ok [("radius", realV x)] from rfl]
    simp only
    rw [run_step (n := "zb") (a := ⟨"zb", .base .real, false, some (.or .isNone (.not (.cmp .gt 0 0)))⟩) (v := realV a) rfl]
    have e1 : setAttr [("radius", realV x)] ⟨"zb", .base .real, false, some (.or .isNone (.not (.cmp .gt 0 0)))⟩ (realV a) =
        if p then .ok [("zb", realV a), ("radius", realV x)] else .error .inp := by
      unfold setAttr
      simp only [h1]
      cases p <;> rfl
    rw [e1]
    cases p with
    | false => rfl
    | true =>
      simp only [if_true]
      rw [run_step (n := "ze") (a := ⟨"ze", .base .real, false, some (.or .isNone (.not (.and (.self "zb" (.cmp .gt 0 0)) (.ltSelf "zb"))))⟩) (v := realV b) rfl]
      unfold setAttr
      simp only [h2]
      cases q <;> rfl
  have hiff : (0 < decValue a ∧ decValue a < decValue b) ↔ (p && q) = true := by
    rw [Bool.and_eq_true, hp', ← hqq, decide_eq_true_eq]
  rw [hiff, key]
  refine ⟨fun h => ⟨rfl, ?_⟩, fun h => ?_⟩
  · rw [key, h]; rfl
  · rw [Bool.not_eq_true] at h; rw [h]; rfl

/-- The ends 1 and 2.5. -/
example : 0 < decValue ⟨false, 1, 0⟩ ∧ decValue ⟨false, 1, 0⟩ < decValue ⟨false, 25, -1⟩ := by unfold decValue; norm_num

/-- **C102**: the temperatures of a cell must all be positive. -/
theorem C102_temperatures {c : Cls} (hc : c = Tab.cell_Tmp ∨ c = Tab.like_Tmp) (n : Val) {xs : List Dec} (hx : xs ≠ []) :
    ((∀ x ∈ xs, 0 < decValue x) → Valid c [n, .tuple (xs.map realV)]) ∧
    (¬ (∀ x ∈ xs, 0 < decValue x) → c.mk' [n, .tuple (xs.map realV)] = .error .inp) := by
  have hm : minPosVal (.tuple (xs.map realV)) = .ok (decide (∀ x ∈ xs, 0 < decValue x)) := by
    cases xs with
    | nil => exact absurd rfl hx
    | cons y ys =>
      have : ∀ zs : List Dec, (zs.map realV).all (fun v => match v with | .sc (.real (.num (.fin _))) => true | _ => false) = true := by
        intro zs; induction zs with
        | nil => rfl
        | cons z zs ih => simpa [realV] using ih
      unfold minPosVal
      rw [List.map_cons]
      simp only
      rw [← List.map_cons]
      refine (if_pos (this (y :: ys))).trans ?_
      congr 1
      rw [Bool.eq_iff_iff, List.all_eq_true, decide_eq_true_eq, List.forall_mem_map]
      constructor <;> intro h z hz <;> have := h z hz <;> obtain ⟨q, h1, h2⟩ := gt_zero z
      · rw [h1] at this; exact h2.1 this
      · rw [h1]; exact h2.2 this
  have key : c.mk' [n, .tuple (xs.map realV)] = if (∀ x ∈ xs, 0 < decValue x) then .ok (.obj c.info [n, .tuple (xs.map realV)]) else .error .inp := by
    have h1 : ∀ env, Chk.eval env (.tuple (xs.map realV)) (.or .isNone (.not .minPos)) = .ok (!(decide (∀ x ∈ xs, 0 < decValue x))) := by
      intro env
      show Except.map _ (minPosVal (.tuple (xs.map realV))) = _
      rw [hm]; rfl
    rcases hc with rfl | rfl
    all_goals
      unfold Cls.mk'
      first
        | rw [show Tab.cell_Tmp.init = ["suffix", "temperature"] from rfl]
        | rw [show Tab.like_Tmp.init = ["suffix", "temperature"] from rfl]
      rw [run_step (n := "suffix") (a := ⟨"suffix", .base .int, false, none⟩) (v := n) rfl]
      rw [show setAttr [] ⟨"suffix", .base .int, false, none⟩ n = .ok [("suffix", n)] from rfl]
      simp only
      rw [run_step (n := "temperature") (a := ⟨"temperature", .base .real, true, some (.or .isNone (.not .minPos))⟩) (v := .tuple (xs.map realV)) rfl]
      unfold setAttr
      simp only [h1]
      by_cases h : ∀ x ∈ xs, 0 < decValue x
      · rw [decide_eq_true h, if_pos h]; rfl
      · rw [decide_eq_false h, if_neg h]; rfl
  refine ⟨fun h => ⟨by rcases hc with rfl | rfl <;> rfl, by rw [key, if_pos h]⟩, fun h => by rw [key, if_neg h]⟩

/-- **C102**: a criticality source may keep fewer than forty times its histories per cycle. -/
theorem C102_kept (n k : Int) (hn : 0 < n) :
    (k < 40 * n → Valid Tab.Kcode [intOf n, .none, .none, .none, intOf k, .none, .none, .none]) ∧
    (¬ k < 40 * n → Tab.Kcode.mk' [intOf n, .none, .none, .none, intOf k, .none, .none, .none] = .error .inp) := by
  have h0 : Chk.eval [] (intOf n) (.and .notNone (.not (.or .isJump (.cmp .ge 0 0)))) = .ok false := by
    show Except.map _ (Except.ok (Cmp.holds .ge (compare (n * 10 ^ 0) 0))) = _
    have : compare (n * 10 ^ 0) (0 : Int) = .gt := by rw [compare_gt_iff_gt]; simpa using hn
    rw [this]; rfl
  have h1 : Chk.eval [("kct", .none), ("ikz", .none), ("rkk", .none), ("nsrck", intOf n)] (intOf k) (.and .notNone (.not (.or .isJump .kcode))) =
      .ok (!decide (k < 40 * n)) := by
    show Except.map _ (Except.ok (Cmp.holds .lt (compare (k * 10 ^ 0) (if n = 0 then 40000 else 40 * n)))) = _
    rw [if_neg (by omega)]
    have : Cmp.holds .lt (compare (k * 10 ^ 0) (40 * n)) = decide (k < 40 * n) := by
      unfold Cmp.holds
      rw [Bool.eq_iff_iff, beq_iff_eq, compare_lt_iff_lt, decide_eq_true_eq]
      simp
    rw [this]; rfl
  have key : Tab.Kcode.mk' [intOf n, .none, .none, .none, intOf k, .none, .none, .none] =
      if k < 40 * n then .ok (.obj Tab.Kcode.info [intOf n, .none, .none, .none, intOf k, .none, .none, .none]) else .error .inp := by
    unfold Cls.mk'
    rw [show Tab.Kcode.init = ["nsrck", "rkk", "ikz", "kct", "msrk", "knrm", "mrkp", "kc8"] from rfl]
    rw [run_step (n := "nsrck") (a := ⟨"nsrck", .base .int, false, some (.and .notNone (.not (.or .isJump (.cmp .ge 0 0))))⟩) (v := intOf n) rfl]
    have e0 : setAttr [] ⟨"nsrck", .base .int, false, some (.and .notNone (.not (.or .isJump (.cmp .ge 0 0))))⟩ (intOf n) = .ok [("nsrck", intOf n)] := by
      unfold setAttr
      simp only [h0]
    rw [e0]
    simp only
    rw [run_step (n := "rkk") (a := ⟨"rkk", .base .real, false, none⟩) (v := .none) rfl]
    simp only [setAttr]
    rw [run_step (n := "ikz") (a := ⟨"ikz", .base .int, false, none⟩) (v := .none) rfl]
    simp only [setAttr]
    rw [run_step (n := "kct") (a := ⟨"kct", .base .int, false, some (.and .notNone (.not (.or .isJump (.cmp .gt 0 0))))⟩) (v := .none) rfl]
    rw [show ∀ env, setAttr env ⟨"kct", .base .int, false, some (.and .notNone (.not (.or .isJump (.cmp .gt 0 0))))⟩ .none = .ok (("kct", .none) :: env) from
      fun _ => rfl]
    simp only
    rw [run_step (n := "msrk") (a := ⟨"msrk", .base .int, false, some (.and .notNone (.not (.or .isJump .kcode)))⟩) (v := intOf k) rfl]
    unfold setAttr
    simp only [h1]
    by_cases h : k < 40 * n
    · rw [decide_eq_true h, if_pos h]; rfl
    · rw [decide_eq_false h, if_neg h]; rfl
  exact ⟨fun h => ⟨rfl, by rw [key, if_pos h]⟩, fun h => by rw [key, if_neg h]⟩

/-- Three times the 1000 histories of a cycle are kept, and fifty times are refused. -/
example : Valid Tab.Kcode [intOf 1000, .none, .none, .none, intOf 3000, .none, .none, .none] ∧
    Tab.Kcode.mk' [intOf 1000, .none, .none, .none, intOf 50000, .none, .none, .none] = .error .inp :=
  ⟨(C102_kept 1000 3000 (by omega)).1 (by omega), (C102_kept 1000 50000 (by omega)).2 (by omega)⟩

/-- The temperatures 2.5e-8 and 0. -/
example : Valid Tab.cell_Tmp [intOf 1, .tuple [realV ⟨false, 25, -9⟩]] ∧
    Tab.cell_Tmp.mk' [intOf 1, .tuple [realV ⟨false, 25, -9⟩, realV ⟨false, 0, 0⟩]] = .error .inp := by
  refine ⟨(C102_temperatures (.inl rfl) _ (xs := [⟨false, 25, -9⟩]) (by simp)).1 ?_,
    (C102_temperatures (.inl rfl) _ (xs := [⟨false, 25, -9⟩, ⟨false, 0, 0⟩]) (by simp)).2 ?_⟩
  · simp [decValue]
  · simp [decValue]

/-- The row of the probability of `dxc`. -/
def dxcRow : NumRow := ⟨Tab.cell_Dxc, "probability", true, false, false, [⟨some ⟨0, 0, true⟩, some ⟨1, 0, true⟩⟩], none⟩

/-- The probability of `dxc` is between 0 and 1: 0.5 is accepted; 1.5 and `None` are refused. -/
example (vs : List Val) : Tab.cell_Dxc.put vs 2 (realV ⟨false, 5, -1⟩) = .ok (vs.set 2 (realV ⟨false, 5, -1⟩)) ∧
    Tab.cell_Dxc.put vs 2 (realV ⟨false, 15, -1⟩) = .error .inp ∧ Tab.cell_Dxc.put vs 2 .none = .error .inp := by
  have hm : dxcRow ∈ Ranges.numbers := List.mem_of_getElem? (i := 158) rfl
  have hA : ∀ x : Dec, dxcRow.Allows (realV x) ↔ 0 ≤ decValue x ∧ decValue x ≤ 1 := by
    intro x
    simp [NumRow.Allows, NumRow.InRange, dxcRow, realV, isJumpVal, numOf, Span.Has, End.val, RestOk]
  refine ⟨(C102_numbers hm (i := 2) rfl vs (.inr (.inr rfl))).1 ((hA _).2 ?_),
    (C102_numbers hm (i := 2) rfl vs (.inr (.inr rfl))).2 (fun h => absurd ((hA _).1 h) ?_),
    (C102_numbers hm (i := 2) rfl vs (.inl rfl)).2 ?_⟩
  · norm_num [decValue]
  · norm_num [decValue]
  · rintro (⟨_, h⟩ | ⟨h, _⟩ | ⟨⟨x, h, _⟩, _⟩)
    · cases h
    · cases h
    · cases h

/-- The way of interpolating a dose function is `log` or `lin`: `LIN` is accepted, `cubic` is refused. -/
example (vs : List Val) : Tab.De.put vs 1 (.sc (.str c!"LIN")) = .ok (vs.set 1 (.sc (.str c!"LIN"))) ∧
    Tab.De.put vs 1 (.sc (.str c!"cubic")) = .error .inp := by
  have hm : (⟨Tab.De, "method", true, .words ["log", "lin"]⟩ : TextRow) ∈ Ranges.texts := List.mem_of_getElem? (i := 2) rfl
  refine ⟨(C102_texts hm (i := 1) rfl vs (.inr ⟨_, rfl⟩)).1 (.inr ⟨_, rfl, "lin", by decide, by decide⟩),
    (C102_texts hm (i := 1) rfl vs (.inr ⟨_, rfl⟩)).2 ?_⟩
  rintro (⟨h, _⟩ | ⟨s, h, w, hw, he⟩)
  · cases h
  · cases h
    simp only [List.mem_cons, List.not_mem_nil, or_false] at hw
    rcases hw with rfl | rfl <;> revert he <;> decide

/-- The entries of `cf` are needed, and an object holds them. -/
example : (⟨Tab.Cf, ["numbers"]⟩ : NeedRow) ∈ Ranges.needed ∧ Called Tab.Cf 1 "numbers" ∧ Valid Tab.Cf [intOf 4, .tuple [intOf 1]] :=
  ⟨List.mem_of_getElem? (i := 7) rfl, rfl, rfl, by decide +kernel⟩

/-- The energy of `phys:n` is in no list. -/
example : Called Tab.Phys_0 0 "emax" ∧ listed Tab.Phys_0 "emax" = false := ⟨rfl, by decide +kernel⟩

/-- **C102**, a surprise: of the numbers of tallies and similar cards only the greatest value is tested, so that every negative number is accepted;
a card with such a number prints as a text that is not a card. -/
theorem C102_negative :
    (∀ r ∈ Ranges.numbers, r.real = false → r.spans = [.upTo 99999999 0] → r.rest = none → ∀ i, Called r.cls i r.attr → ∀ vs, ∀ k : Int, k < 0 →
      r.cls.put vs i (intOf k) = .ok (vs.set i (intOf k))) ∧
    Valid Tab.Cf [intOf (-5), .tuple [intOf 1]] ∧ (Val.obj Tab.Cf.info [intOf (-5), .tuple [intOf 1]]).str = c!"cf-5 1" ∧
    cardParse Tab.Cf c!"cf-5 1" = .error .inp := by
  refine ⟨?_, ⟨rfl, by decide +kernel⟩, by decide +kernel, by decide +kernel⟩
  intro r hr hre hs hrest i hi vs k hk
  have hnum : numOf r.real (intOf k) = some (.fin k) := by rw [hre]; rfl
  refine (C102_numbers hr hi vs (.inr (.inr (by rw [hnum]; rfl)))).1 (.inr (.inr ⟨⟨_, hnum, ?_⟩, ?_⟩))
  · rw [hs]
    refine ⟨_, List.mem_singleton.2 rfl, ?_⟩
    simp only [Span.Has, Span.upTo, End.val]
    refine ⟨by simp, ?_⟩
    intro e he
    cases he
    simp only [if_true]
    have : (k : ℚ) < 0 := by exact_mod_cast hk
    norm_num
    linarith
  · rw [hrest]; simp [RestOk]

/-- There are such rows. -/
example : (Ranges.numbers[2]?).map (fun r => (r.attr, r.real, r.spans, r.rest)) = some ("suffix", false, [Span.upTo 99999999 0], none) := rfl

end Props
