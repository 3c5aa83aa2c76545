import Verif.Inp.FillForm
import Verif.Props.Fill
/-!
# `fill` with transformations of all forms, read alone: C100

`fillForm` and `readPlaced` are specified in `Verif/Inp/FillFormSpec.lean`, `TransText`, `trclForm` and `readTrans` in `Verif/Inp/TransSpec.lean`.
-/
set_option maxRecDepth 100000
namespace Props
open Py Types Inp

/-! ## Helper lemmas -/

/-- An option of these classes as a value. -/
def placedObj (c : Cls) (star : Bool) (n : Int) (t : Val) : Val := .obj c.info [if star then .sc (.str ['*']) else .none, .sc (.int (.num n)), t]

theorem form_info (like : Bool) (k : Nat) : ∃ nm ∈ ["Fill_1", "Fill_2", "Fill_3", "Fill_4", "Fill_5", "Fill_6"],
    (fillForm like k).info = ⟨nm, .option, c!"fill", ["prefix", "universe", "transformation"]⟩ := by
  unfold fillForm
  split <;> exact ⟨_, by decide, rfl⟩

theorem placed_text (like : Bool) (k : Nat) (star : Bool) (n : Int) (i : Nat) (ds : List Dec) (m : Option Int) :
    (placedObj (fillForm like k) star n (.sc (.trans i (ds.map (fun d => .num (.fin d))) (m.map .num)))).str =
      fillWord0 star ++ ' ' :: (intStr n ++ ' ' :: join [' '] (ds.map Dec.str ++ [sysText m])) := by
  obtain ⟨nm, hnm, hi⟩ := form_info like k
  unfold placedObj
  rw [hi, ← transStr_eq]
  generalize ds.map (fun d => RealVal.num (.fin d)) = rs
  have : ∀ s : Str, intStr n ++ [' '] ++ s = intStr n ++ ' ' :: s := fun s => by simp
  simp only [List.mem_cons, List.not_mem_nil, or_false] at hnm
  rcases hnm with rfl | rfl | rfl | rfl | rfl | rfl <;> cases star <;>
    first
      | exact congrArg (fun x => fillWord0 false ++ ' ' :: x) (this _)
      | exact congrArg (fun x => fillWord0 true ++ ' ' :: x) (this _)

theorem numbered_text (like : Bool) (k : Nat) (star : Bool) (n m : Int) :
    (placedObj (fillForm like k) star n (.sc (.int (.num m)))).str = fillWord0 star ++ ' ' :: (intStr n ++ ' ' :: intStr m) := by
  obtain ⟨nm, hnm, hi⟩ := form_info like k
  unfold placedObj
  rw [hi]
  have : ∀ s : Str, intStr n ++ [' '] ++ s = intStr n ++ ' ' :: s := fun s => by simp
  simp only [List.mem_cons, List.not_mem_nil, or_false] at hnm
  rcases hnm with rfl | rfl | rfl | rfl | rfl | rfl <;> cases star <;>
    first
      | exact congrArg (fun x => fillWord0 false ++ ' ' :: x) (this _)
      | exact congrArg (fun x => fillWord0 true ++ ' ' :: x) (this _)

theorem placed_make (like : Bool) (k : Nat) (hk : k ≤ 5) (star : Bool) (n : Int) (hn : n = 10000000000 ∨ (0 ≤ n ∧ n ≤ 99999999)) (x : Val)
    (hx : k = 5 → ∃ m : Int, x = .sc (.int (.num m)) ∧ 0 ≤ m ∧ m ≤ 999) :
    (fillForm like k).mk' [if star then .sc (.str ['*']) else .none, .sc (.int (.num n)), x] = .ok (placedObj (fillForm like k) star n x) := by
  have hc : ∀ env, Chk.eval env (.sc (.int (.num n))) (.or .isNone (.not (.or (.cmp .eq 10000000000 0) (.and (.cmp .ge 0 0) (.cmp .le 99999999 0))))) = .ok false := by
    intro env
    have h0 : n * 10 ^ 0 = n := by simp
    simp only [Chk.eval, cmpVal, Except.bind, Except.map, Cmp.holds, h0]
    rcases hn with rfl | ⟨h1, h2⟩
    · rfl
    · have e1 : (compare n 10000000000 == .eq) = false := by
        rw [beq_eq_false_iff_ne, ne_eq, Int.compare_eq_eq]; omega
      have e2 : (compare n 0 != .lt) = true := by
        rw [bne_iff_ne, ne_eq, Int.compare_eq_lt]; omega
      have e3 : (compare n 99999999 != .gt) = true := by
        rw [bne_iff_ne, ne_eq, Int.compare_eq_gt]; omega
      rw [e1, e2, e3]
      rfl
  have hm : k = 5 → ∀ env, Chk.eval env x (.and .notNone (.not (.and (.cmp .ge 0 0) (.cmp .le 999 0)))) = .ok false := by
    intro h5 env
    obtain ⟨m, rfl, h1, h2⟩ := hx h5
    have h0 : m * 10 ^ 0 = m := by simp
    simp only [Chk.eval, cmpVal, Except.bind, Except.map, Cmp.holds, h0]
    have e2 : (compare m 0 != .lt) = true := by
      rw [bne_iff_ne, ne_eq, Int.compare_eq_lt]; omega
    have e3 : (compare m 999 != .gt) = true := by
      rw [bne_iff_ne, ne_eq, Int.compare_eq_gt]; omega
    rw [e2, e3]
    rfl
  have h1 : ∀ env, Chk.eval env .none (Chk.notNone.and (Chk.lowIn ["*"]).not) = .ok false := fun _ => rfl
  have h2 : ∀ env, Chk.eval env (.sc (.str ['*'])) (Chk.notNone.and (Chk.lowIn ["*"]).not) = .ok false := fun _ => rfl
  unfold Cls.mk' placedObj
  have : k = 0 ∨ k = 1 ∨ k = 2 ∨ k = 3 ∨ k = 4 ∨ k = 5 := by omega
  rcases this with rfl | rfl | rfl | rfl | rfl | rfl
  · cases like <;> cases star <;> simp [fillForm, Tab.cell_Fill_1, Tab.like_Fill_1, runInit, setAttr, hc, h1, h2]
  · cases like <;> cases star <;> simp [fillForm, Tab.cell_Fill_2, Tab.like_Fill_2, runInit, setAttr, hc, h1, h2]
  · cases like <;> cases star <;> simp [fillForm, Tab.cell_Fill_3, Tab.like_Fill_3, runInit, setAttr, hc, h1, h2]
  · cases like <;> cases star <;> simp [fillForm, Tab.cell_Fill_4, Tab.like_Fill_4, runInit, setAttr, hc, h1, h2]
  · cases like <;> cases star <;> simp [fillForm, Tab.cell_Fill_5, Tab.like_Fill_5, runInit, setAttr, hc, h1, h2]
  · cases like <;> cases star <;> simp [fillForm, Tab.cell_Fill_6, Tab.like_Fill_6, runInit, setAttr, hc, h1, h2, hm rfl]

theorem words_prep {hd : Str} {ws : List Str} (he : Entry hd) (hst : ∀ w ∈ ws, Stable w) {g s : Str} (hg : Ws g) (e : s = hd ++ (enc ws ++ g)) :
    preprocess s = hd ++ enc ws ∧ Words (hd :: ws) := by
  obtain ⟨h1, h2⟩ := spaced_single hd ws g he hst hg
  obtain ⟨-, h3, h4⟩ := spaced_prep h1
  rw [h2] at h3 h4
  rw [single_body] at h3
  rw [e]
  exact ⟨h3, h4⟩

/-! ## C100 – all forms of `fill` with a universe, read alone -/

/-- **C100, what the six classes hold:** an option that is read from a star or none, the word `u` and what is read as `t` holds the star, the universe that `u`
denotes, which is between 0 and 99999999 or 10000000000, and `t`; the number of a transformation is between 0 and 999. -/
theorem C100_form_holds (like star : Bool) (k : Nat) (hk : k ≤ 5) (u : Str) (t : Res Val) (v : Val) (h : readPlaced (fillForm like k) star u t = .ok v) :
    ∃ n x, intParse u = .ok (.num n) ∧ (n = 10000000000 ∨ (0 ≤ n ∧ n ≤ 99999999)) ∧ t = .ok x ∧ v = placedObj (fillForm like k) star n x ∧
      (k = 5 → ∀ i, x = .sc (.int i) → ∃ m, i = .num m ∧ 0 ≤ m ∧ m ≤ 999) := by
  unfold readPlaced at h
  cases hu : intParse u with
  | error e => rw [hu] at h; cases h
  | ok i =>
    rw [hu] at h
    simp only at h
    cases t with
    | error e => cases h
    | ok x =>
      simp only at h
      have hv := mk_obj h
      have hrun : runInit ((fillForm like k).attrs.zip [if star then .sc (.str ['*']) else .none, .sc (.int i), x]) []
          ["prefix", "universe", "transformation"] = .ok () := by
        have hi : (fillForm like k).init = ["prefix", "universe", "transformation"] := by unfold fillForm; split <;> rfl
        unfold Cls.mk' at h
        rw [hi] at h
        split at h
        · cases h
        · assumption
      obtain ⟨b, d, hat, hd⟩ : ∃ b d, (fillForm like k).attrs = [⟨"prefix", .base .str, false, some (.and .notNone (.not (.lowIn ["*"])))⟩,
          ⟨"universe", .base .int, false, some (.or .isNone (.not (.or (.cmp .eq 10000000000 0) (.and (.cmp .ge 0 0) (.cmp .le 99999999 0)))))⟩, ⟨"transformation", b, false, d⟩] ∧
          (k = 5 → d = some (.and .notNone (.not (.and (.cmp .ge 0 0) (.cmp .le 999 0))))) := by
        have : k = 0 ∨ k = 1 ∨ k = 2 ∨ k = 3 ∨ k = 4 ∨ k = 5 := by omega
        cases like <;> rcases this with rfl | rfl | rfl | rfl | rfl | rfl <;> exact ⟨_, _, rfl, fun h => by first | rfl | omega⟩
      rw [hat] at hrun
      obtain ⟨a, y, env, -, -, hrun⟩ := init_cons hrun
      obtain ⟨a, y, env', hf, hs, hrun⟩ := init_cons hrun
      have hf' : some (⟨"universe", .base .int, false, some (.or .isNone (.not (.or (.cmp .eq 10000000000 0) (.and (.cmp .ge 0 0) (.cmp .le 99999999 0)))))⟩,
        Val.sc (.int i)) = some (a, y) := hf
      cases hf'
      obtain ⟨n, rfl, hn⟩ := universe_check ((set_ok hs).2 _ rfl)
      obtain ⟨a, y, env'', hf, hs, -⟩ := init_cons hrun
      have hf' : some ((⟨"transformation", b, false, d⟩ : Attr), x) = some (a, y) := hf
      cases hf'
      refine ⟨n, x, rfl, hn, rfl, hv, ?_⟩
      rintro hk5 j rfl
      have := (set_ok hs).2 _ (hd hk5)
      cases j with
      | hor y => cases this
      | num m =>
        refine ⟨m, rfl, ?_⟩
        have h0 : m * 10 ^ 0 = m := by simp
        simp only [Chk.eval, cmpVal, Except.bind, Except.map, Cmp.holds, h0] at this
        by_cases e2 : 0 ≤ m
        · refine ⟨e2, ?_⟩
          have e2' : (compare m 0 != .lt) = true := by
            rw [bne_iff_ne, ne_eq, Int.compare_eq_lt]; omega
          rw [e2'] at this
          by_cases e3 : m ≤ 999
          · exact e3
          · have e3' : (compare m 999 != .gt) = false := by
              rw [bne_eq_false_iff_eq, Int.compare_eq_gt]; omega
            rw [e3'] at this
            cases this
        · have e2' : (compare m 0 != .lt) = false := by
            rw [bne_eq_false_iff_eq, Int.compare_eq_lt]; omega
          rw [e2'] at this
          cases this

/-- **C100, reading all forms alone:** among all options of a cell, or of a cell made like another, `fill` with a universe and a transformation of twelve, nine,
eight, six or three entries, with or without a system, is read as the option that holds them, whatever blank space and line breaks separate the entries (nine
pieces are nine entries, not eight and a system). -/
theorem C100_form (like star : Bool) (g0 w0 : Str) (l : List (Gap × Str)) (g1 : Str) (hs : Spaced g0 w0 l g1) (hw : FillWord star w0)
    (u : Str) (ws ps : List Str) (he : entries l = u :: ws) (hu : unitOk (.ty (.base .int)) u = true)
    (k : Nat) (ht : TransText k (join [' '] ws) ps) (hk : trclForm ps.length = some k) :
    unionParse (optionsOf like) (g0 ++ (w0 ++ (body l ++ g1))) = readPlaced (fillForm like k) star u (readTrans k ps) := by
  obtain ⟨-, hp, hws⟩ := spaced_prep hs
  rw [he] at hp hws
  obtain ⟨m, h1, h2⟩ := place_first like hws hw (int_full hu) ht hk
  unfold unionParse
  rw [hp, h1]
  exact h2

/-- **C100, numbers of transformations alone:** the same for the number of a transformation. In parentheses the number is read together with them. -/
theorem C100_form_number (like star : Bool) (g0 w0 : Str) (l : List (Gap × Str)) (g1 : Str) (hs : Spaced g0 w0 l g1) (hw : FillWord star w0)
    (u n m : Str) (he : entries l = [u, m]) (hu : unitOk (.ty (.base .int)) u = true) (hn : unitOk (.ty (.base .int)) n = true)
    (hm : m = n ∨ m = '(' :: (n ++ [')'])) :
    unionParse (optionsOf like) (g0 ++ (w0 ++ (body l ++ g1))) = readPlaced (fillForm like 5) star u ((intParse m).map (fun x => .sc (.int x))) := by
  obtain ⟨-, hp, hws⟩ := spaced_prep hs
  rw [he] at hp hws
  have hnum : NumberText m := by
    rcases hm with rfl | rfl
    · exact .inl (int_full hn)
    · exact .inr ⟨n, rfl, int_full hn⟩
  obtain ⟨x, h1, h2⟩ := number_first like hws hw (int_full hu) hnum
  unfold unionParse
  rw [hp, h1]
  exact h2

/-- **C100, printing all forms alone:** an option with a universe that the constructor accepts and a transformation of twelve, nine, eight, six or three finite
numbers with the system 1, -1 or none is printed as a text that is read as the same option. Missing: eight entries with a system, which are read as nine entries
(`C100_form_violated`). -/
theorem C100_form_roundtrip_partial (like star : Bool) (n : Int) (hn : n = 10000000000 ∨ (0 ≤ n ∧ n ≤ 99999999)) (k : Nat) (hk : k < 5) (ds : List Dec)
    (hl : ds.length = trCount k) (m : Option Int) (hm : SysOk m) (h8 : k = 2 → m = none) :
    let v := placedObj (fillForm like k) star n (.sc (.trans k (ds.map (fun d => .num (.fin d))) (m.map .num)))
    unionParse (optionsOf like) v.str = .ok v := by
  intro v
  have hu : unitOk (.ty (.base .int)) (intStr n) = true := sc_unit (k := .int) (s := .int (.num n)) trivial
  have hst : ∀ w ∈ intStr n :: trclWords ds m, Stable w := by
    intro w hw
    rcases List.mem_cons.1 hw with rfl | hw
    · exact plain_int n
    · exact trclWords_stable ds m w hw
  have hent : Entry (fillWord0 star) := by cases star <;> decide
  obtain ⟨d, ds', rfl⟩ : ∃ d ds', ds = d :: ds' := by
    have := trCount_big k
    cases ds with
    | nil => simp at hl; omega
    | cons d ds' => exact ⟨d, ds', rfl⟩
  have hp : preprocess v.str = fillWord0 star ++ enc (intStr n :: trclWords (d :: ds') m) ∧ Words (fillWord0 star :: intStr n :: trclWords (d :: ds') m) := by
    show preprocess (placedObj _ _ _ _).str = _ ∧ _
    rw [placed_text]
    cases m with
    | none =>
      refine words_prep hent hst (g := [' ']) (.sp .nil) ?_
      simp only [List.map_cons, List.cons_append, trclWords, List.append_nil, sysText, List.nil_append]
      rw [join_enc, enc_append, enc_cons, enc_cons]
      simp [enc]
    | some i =>
      refine words_prep hent hst (g := []) .nil ?_
      simp only [List.map_cons, List.cons_append, trclWords, List.append_nil, sysText, List.nil_append]
      rw [join_enc, enc_cons, enc_cons]
  obtain ⟨p1, p2⟩ := trcl_pieces hl hm
  obtain ⟨x, h3, h4⟩ := place_first (star := star) like hp.2 ⟨c!"fill", by decide, rfl⟩ (int_full hu) p1 (form_words hk hl m h8)
  unfold unionParse
  rw [hp.1, h3]
  simp only
  rw [h4, p2]
  unfold readPlaced
  rw [show intParse (intStr n) = .ok (.num n) from C02_integer_roundtrip n]
  exact placed_make like k (by omega) star n hn _ (by omega)

/-- **C100, printing numbers of transformations alone:** an option with a universe and the number of a transformation that the constructor accepts is printed as a
text that is read as the same option. -/
theorem C100_form_number_roundtrip (like star : Bool) (n : Int) (hn : n = 10000000000 ∨ (0 ≤ n ∧ n ≤ 99999999)) (m : Int) (hm : 0 ≤ m ∧ m ≤ 999) :
    let v := placedObj (fillForm like 5) star n (.sc (.int (.num m)))
    unionParse (optionsOf like) v.str = .ok v := by
  intro v
  have hu : ∀ i : Int, unitOk (.ty (.base .int)) (intStr i) = true := fun i => sc_unit (k := .int) (s := .int (.num i)) trivial
  have hst : ∀ w ∈ [intStr n, intStr m], Stable w := by
    intro w hw
    simp only [List.mem_cons, List.not_mem_nil, or_false] at hw
    rcases hw with rfl | rfl
    · exact plain_int n
    · exact plain_int m
  have hent : Entry (fillWord0 star) := by cases star <;> decide
  have hp : preprocess v.str = fillWord0 star ++ enc [intStr n, intStr m] ∧ Words [fillWord0 star, intStr n, intStr m] := by
    show preprocess (placedObj _ _ _ _).str = _ ∧ _
    rw [numbered_text]
    refine words_prep hent hst (g := []) .nil ?_
    simp [enc]
  obtain ⟨x, h3, h4⟩ := number_first (star := star) like hp.2 ⟨c!"fill", by decide, rfl⟩ (int_full (hu n)) (.inl (int_full (hu m)))
  unfold unionParse
  rw [hp.1, h3]
  simp only
  rw [h4]
  unfold readPlaced
  rw [show intParse (intStr n) = .ok (.num n) from C02_integer_roundtrip n, show intParse (intStr m) = .ok (.num m) from C02_integer_roundtrip m]
  exact placed_make like 5 (by omega) star n hn _ (fun _ => ⟨m, rfl, hm⟩)

/-- **C100 does not hold for all forms read alone:** eight entries with a system are read as nine entries, and the number of a transformation in parentheses is
refused. -/
theorem C100_form_violated :
    unionParse (optionsOf false) (placedObj (fillForm false 2) false 5 (.sc (.trans 2 (List.replicate 8 (.num (.fin ⟨false, 1, 0⟩))) (some (.num 1))))).str =
      .ok (placedObj (fillForm false 1) false 5 (.sc (.trans 1 (List.replicate 9 (.num (.fin ⟨false, 1, 0⟩))) none))) ∧
    unionParse (optionsOf false) c!"fill 5 (7)" = .error .types ∧
    (unionParse (optionsOf false) c!"fill 5 7").map Val.str = .ok c!"fill 5 7" := by
  decide +kernel

/-! ## Examples -/

/-- `*FILL  5 (1 2` and, on the next line, `3 -1)`: three entries and a system. -/
example : (unionParse (optionsOf true) c!"*FILL  5 (1 2\n      3 -1)").map Val.str = .ok c!"*fill 5 1 2 3 -1" := by decide +kernel

example : unionParse (optionsOf true) c!"*FILL 5 (1 2 3 -1)" = readPlaced Tab.like_Fill_5 true c!"5" (readTrans 4 [c!"1", c!"2", c!"3", c!"-1"]) := by
  have h := (spaced_single c!"*FILL" [c!"5", c!"(1", c!"2", c!"3", c!"-1)"] [] (by decide) (fun w hw => by
      have h : Entry w ∧ LowerShort w ∧ countedEntry w = none := by revert w; decide +kernel
      exact ⟨h.1, h.2.1, h.2.2⟩) .nil)
  have := C100_form true true [] c!"*FILL" _ [] h.1 ⟨c!"FILL", by decide, rfl⟩ c!"5" [c!"(1", c!"2", c!"3", c!"-1)"] [c!"1", c!"2", c!"3", c!"-1"] h.2 (by decide +kernel) 4
    ⟨.inr rfl, by decide, by decide, ['('], [')'], .inr rfl, .inr rfl, by decide +kernel⟩ rfl
  rw [single_body] at this
  exact this

example : unionParse (optionsOf false) c!"fill 5 (7)" = readPlaced Tab.cell_Fill_6 false c!"5" (.error .types) := by
  have h := (spaced_single c!"fill" [c!"5", c!"(7)"] [] (by decide) (fun w hw => by
      have h : Entry w ∧ LowerShort w ∧ countedEntry w = none := by revert w; decide +kernel
      exact ⟨h.1, h.2.1, h.2.2⟩) .nil)
  have := C100_form_number false false [] c!"fill" _ [] h.1 ⟨c!"fill", by decide, rfl⟩ c!"5" c!"7" c!"(7)" h.2 (by decide +kernel) (by decide +kernel) (.inr rfl)
  rw [single_body] at this
  exact this

example : (readPlaced (fillForm false 5) false c!"5" (.ok (.sc (.int (.num 7))))).map Val.str = .ok c!"fill 5 7" ∧
    readPlaced (fillForm false 5) false c!"5" (.ok (.sc (.int (.num 1000)))) = .error .inp := by decide +kernel

example : let v := placedObj Tab.cell_Fill_4 true 5 (.sc (.trans 3 (List.replicate 6 (.num (.fin ⟨false, 15, -1⟩))) (some (.num (-1)))))
    unionParse (optionsOf false) v.str = .ok v :=
  C100_form_roundtrip_partial false true 5 (by omega) 3 (by omega) (List.replicate 6 ⟨false, 15, -1⟩) rfl (some (-1)) (by intro n hn; cases hn; simp) (by omega)

example : let v := placedObj Tab.like_Fill_6 true 10000000000 (.sc (.int (.num 999)))
    unionParse (optionsOf true) v.str = .ok v :=
  C100_form_number_roundtrip true true 10000000000 (by omega) 999 (by omega)

end Props
