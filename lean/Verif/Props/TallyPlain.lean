import Verif.Props.Grouped
import Verif.Inp.CellsUnion
import Verif.Props.TallyCells
import Verif.Props.DataCard
/-!
# C54: tallies of plain cells or surfaces
-/
set_option maxRecDepth 100000
namespace Props
open Py Types Inp

/-- A list of entries followed by at most one flag, which no entry of the list can be. -/
theorem list_total {ok1 ok2 : Str → Bool} {ns tl : List Str} (hne : ns ≠ []) (hi : ∀ n ∈ ns, ok1 n = true)
    (hx : ∀ w, ok1 w = true → ok2 w = false) (hf : tl = [] ∨ ∃ w, tl = [w] ∧ ok2 w = true) :
    assign [(ok1, .many), (ok2, .opt)] (ns ++ tl) = some [some ns, if tl = [] then none else some tl] := by
  rcases hf with rfl | ⟨c, rfl, hc⟩
  · have := assign_apart [(ok1, .many), (ok2, .opt)] [some ns, none] ⟨hne, hi, by simp, .inl rfl, trivial⟩
      ⟨fun _ w hw f hf => by rw [List.mem_singleton.1 hf]; exact hx w (hi w (List.mem_of_mem_tail hw)), by simp, by simp, by simp [Assign.flat], trivial⟩
    simpa [Assign.flat] using this
  · have := assign_apart [(ok1, .many), (ok2, .opt)] [some ns, some [c]] ⟨hne, hi, by simp, by simp, by simpa using hc, by simp, trivial⟩
      ⟨fun _ w hw f hf => by rw [List.mem_singleton.1 hf]; exact hx w (hi w (List.mem_of_mem_tail hw)), by simp, by simp, by simp, trivial⟩
    simpa [Assign.flat] using this

/-- The first word of an accepted tally of pulse heights: its number does not end with five. -/
theorem f3_word {hd : Str} {ws : List Str} (hw : Words (hd :: ws)) {m} (h : reMatch Tab.F_3.re (hd ++ enc ws) = some m) :
    ∃ (p : Option Char) (f : Char) (n : Str) (d : Option Str) (c : Char), (∀ c ∈ p, c = '*' ∨ c = '+') ∧ lowerC f = 'f' ∧ (∀ c ∈ n, isDigit c = true) ∧
      n.getLast? = some c ∧ c ≠ '5' ∧ hd = p.toList ++ f :: (n ++ colon d) := by
  have hre : Tab.F_3.re = anchored (.seq preRe (.seq (litRe c!"f") (.seq ((tallySuf ['8']).re 2) (.seq (desRe 3)
      (.seq (.grp 4 (.plus false (.seq (litRe c!" ") numRe))) (.opt true (.grp 5 (litRe c!" t")))))))) := by
    show anchored (Tab.F_3.pat.re 1) = _
    rw [tallyCards_pat (Tab.F_3, ['8']) (by simp [tallyCards])]; rfl
  rw [hre] at h
  obtain ⟨e, hm, -⟩ := full_match (by decide +kernel) h
  obtain ⟨a, b, s, d, u, v, x1, x2, x3, x4, x5, x6, rfl, -, m1, m2, m3, m4, -, -⟩ := tally_split (S := tallySuf ['8']) (by decide +kernel) hw blanks_first hm
  obtain ⟨p, hp, rfl, -⟩ := mt_pre.1 m1
  obtain ⟨f, hf, rfl, -⟩ := mt_f.1 m2
  obtain ⟨d', hd', rfl, -⟩ := mt_des.1 m4
  obtain ⟨z, m3, -⟩ := mt_grp.1 m3
  obtain ⟨n, w, y1, y2, k1, k2, rfl, -⟩ := mt_seq.1 m3
  obtain ⟨k1, -⟩ := mt_star_cls.1 k1
  obtain ⟨c, hc, rfl, -⟩ := mt_cls.1 k2
  have hc : c ∈ ['8'] := (digit_in (ds := ['8']) (by decide)).1 hc
  refine ⟨p, f, n ++ [c], d', c, hp, hf, ?_, by simp, ?_, by simp⟩
  · intro x hx
    rcases List.mem_append.1 hx with hx | hx
    · simpa [CC.test, CI.test] using k1 x hx
    · rw [List.mem_singleton.1 hx, List.mem_singleton.1 hc]
      decide
  · rintro rfl
    exact absurd hc (by decide)

/-- Detectors refuse what tallies of pulse heights accept. -/
theorem det_refuse_pulse {hd : Str} {ws : List Str} (hw : Words (hd :: ws)) {m} (h : reMatch Tab.F_3.re (hd ++ enc ws) = some m) :
    reMatch Tab.F_1.re (hd ++ enc ws) = none ∧ reMatch Tab.F_2.re (hd ++ enc ws) = none := by
  obtain ⟨p, f, n, d, c, h1, h2, h3, h4, h5, rfl⟩ := f3_word hw h
  constructor
  · cases hr : reMatch Tab.F_1.re _ with
    | none => rfl
    | some m' =>
      obtain ⟨⟨e, he⟩, -⟩ := (det_iff point_det _ ws hw).1 (by rw [hr]; rfl)
      obtain ⟨w, ok, -, ht, -⟩ := mt_point he
      exact absurd ht.symm (det_word ok h1 h2 h3 h4 h5)
  · cases hr : reMatch Tab.F_2.re _ with
    | none => rfl
    | some m' =>
      obtain ⟨⟨e, he⟩, -⟩ := (det_iff ring_det _ ws hw).1 (by rw [hr]; rfl)
      obtain ⟨w, ok, -, ht, -⟩ := mt_ring he
      exact absurd ht.symm (det_word ok h1 h2 h3 h4 h5)

/-- A tally of cells, surfaces or pulse heights is read by the data block as such. -/
theorem plain_union {c : Cls} {ds : List Char} (hx : (c, ds) ∈ tallyCards) {g0 w0 : Str} {l : List (Gap × Str)} {g1 : Str} (ht : Spaced g0 w0 l g1)
    {r : Val × List Str} (hv : cardParse c (g0 ++ (w0 ++ (body l ++ g1))) = .ok r) : cardUnion dataCards (g0 ++ (w0 ++ (body l ++ g1))) = .ok r := by
  simp only [tallyCards, List.mem_cons, Prod.mk.injEq, List.not_mem_nil, or_false] at hx
  rcases hx with ⟨rfl, rfl⟩ | ⟨rfl, rfl⟩
  · exact C70_first Tab.F_0 rfl _ _ hv
  · obtain ⟨hp, -, hw⟩ := spaced_prep ht
    have hm : ∃ m, reMatch Tab.F_3.re (w0 ++ enc (entries l)) = some m := by
      have hv := hv
      unfold cardParse at hv
      rw [hp] at hv
      cases hm : reMatch Tab.F_3.re (w0 ++ enc (entries l)) with
      | none => rw [hm] at hv; cases hv
      | some m => exact ⟨m, rfl⟩
    obtain ⟨m, hm⟩ := hm
    have none_err : ∀ c : Cls, reMatch c.re (w0 ++ enc (entries l)) = none →
        ∃ e : Err, cardParse c (g0 ++ (w0 ++ (body l ++ g1))) = .error e ∧ e.isLibrary = true := by
      intro c hc
      refine ⟨.inp, ?_, rfl⟩
      unfold cardParse
      rw [hp, hc]
    have hd := det_refuse_pulse hw hm
    have h0 : cardParse Tab.F_0 (g0 ++ (w0 ++ (body l ++ g1))) = .error .inp := by
      rw [C92_tally_read Tab.F_0 ['1', '2', '3', '4', '6', '7'] (by simp [tallyCards]) g0 w0 l g1 ht]
      rw [C92_tally_read Tab.F_3 ['8'] (by simp [tallyCards]) g0 w0 l g1 ht] at hv
      have : readTally ['1', '2', '3', '4', '6', '7'] w0 = none := by
        unfold tallyWords at hv
        cases h8 : readTally ['8'] w0 with
        | none => rw [h8] at hv; cases hv
        | some vs =>
          obtain ⟨p, s, d, c, k1, -, k2, k3⟩ := readTally_iff.1 h8
          cases h1 : readTally ['1', '2', '3', '4', '6', '7'] w0 with
          | none => rfl
          | some vs' =>
            obtain ⟨p', s', d', c', q1, -, q2, q3⟩ := readTally_iff.1 h1
            rw [k1] at q1
            simp only [Option.some.injEq, List.cons.injEq] at q1
            rw [← q1.2.1, k2] at q2
            rw [← Option.some.inj q2, List.mem_singleton.1 k3] at q3
            exact absurd q3 (by decide)
      unfold tallyWords
      rw [this]; rfl
    refine C70_later Tab.F_3 (by simp [dataCards]) _ _ hv ?_
    intro c hc hcw
    have : c = Tab.F_0 ∨ c = Tab.F_1 ∨ c = Tab.F_2 := by
      have hm : c ∈ (dataCards.takeWhile (fun d : Cls => d.info.name != Tab.F_3.info.name)).filter (fun d => d.word == Tab.F_3.word) :=
        List.mem_filter.2 ⟨hc, (by simpa using hcw : (c.word == Tab.F_3.word) = true)⟩
      rw [show (dataCards.takeWhile (fun d : Cls => d.info.name != Tab.F_3.info.name)).filter (fun d => d.word == Tab.F_3.word) =
        [Tab.F_0, Tab.F_1, Tab.F_2] from rfl] at hm
      simpa using hm
    rcases this with rfl | rfl | rfl
    · exact ⟨_, h0, rfl⟩
    · exact none_err _ hd.1
    · exact none_err _ hd.2

/-- **C54 for plain tallies:** a tally of cells, surfaces or pulse heights whose bins are single numbers is read by the data block with one bin per written number,
in the order written, and with the total exactly if the flag is written. Missing: bins of several cells, which are merged
(`C54_file_merged`). -/
theorem C54_plain_partial (c : Cls) (ds : List Char) (hx : (c, ds) ∈ tallyCards) (g0 w0 : Str) (l : List (Gap × Str)) (g1 : Str) (ht : Spaced g0 w0 l g1)
    (ns tl : List Str) (he : entries l = ns ++ tl) (hne : ns ≠ []) (hi : ∀ n ∈ ns, unitOk (.ty (.base .int)) n = true)
    (hf : tl = [] ∨ ∃ c, tl = [[c]] ∧ lowerC c = 't') (v : Val) (cs : List Str)
    (hv : cardParse c (g0 ++ (w0 ++ (body l ++ g1))) = .ok (v, cs)) :
    cardUnion dataCards (g0 ++ (w0 ++ (body l ++ g1))) = .ok (v, cs) ∧
    ∃ p s d xs t, v = .obj c.info [p, s, d, .tuple xs, t] ∧ ns.mapM (Kind.parse .int) = .ok xs ∧
      (t = if tl = [] then .none else .sc (.str (join [' '] tl))) := by
  refine ⟨plain_union hx ht hv, ?_⟩
  have hlit : ∀ c : Char, lowerC c = 't' → unitOk (.lits c!"t") [c] = true := by
    intro c hc
    refine (unitOk_iff (.lits c!"t") (by decide +kernel) 1 _).2 ⟨[], mt_lit.2 ⟨?_, ?_⟩⟩
    · simp [lower, hc, show lowerC 't' = 't' by decide]
    · simp
  have hasg := list_total (ok1 := unitOk (.ty (.base .int))) (ok2 := unitOk (.lits c!"t")) hne hi (fun w hw => int_not_t hw)
    (tl := tl) (by
      rcases hf with rfl | ⟨c, rfl, hc⟩
      · exact .inl rfl
      · exact .inr ⟨[c], rfl, hlit c hc⟩)
  rw [C92_tally_read c ds hx g0 w0 l g1 ht, he] at hv
  unfold tallyWords tallyFields at hv
  simp only [List.map_cons, List.map_nil, Field.spec] at hv
  rw [hasg] at hv
  cases hr : readTally ds w0 with
  | none => rw [hr] at hv; cases hv
  | some hh =>
    obtain ⟨p, s, d, e, -, rfl, -⟩ := readTally_iff.1 hr
    obtain ⟨a0, a1, a2, a3, a4, hca, p3, p4⟩ : ∃ a0 a1 a2 a3 a4 : Attr, c.attrs = [a0, a1, a2, a3, a4] ∧
        (a3.ty = .base .int ∧ a3.many = true) ∧ (a4.ty = .base .str ∧ a4.many = false) := by
      simp only [tallyCards, List.mem_cons, Prod.mk.injEq, List.not_mem_nil, or_false] at hx
      rcases hx with ⟨rfl, -⟩ | ⟨rfl, -⟩ <;> exact ⟨_, _, _, _, _, rfl, ⟨rfl, rfl⟩, ⟨rfl, rfl⟩⟩
    rw [hr, hca] at hv
    have r3 : readVal a3 (some ns) = (ns.mapM (Kind.parse .int)).map .tuple := by
      simp only [readVal, p3.1, p3.2, if_true]; rfl
    have r4 : readVal a4 (if tl = [] then none else some tl) = .ok (if tl = [] then .none else .sc (.str (join [' '] tl))) := by
      by_cases h : tl = []
      · simp only [h, if_true]; rfl
      · simp only [h, if_false, readVal, p4.1, p4.2]; rfl
    simp only [List.map_cons, List.map_nil, List.cons_append, List.nil_append, readVals, r3, r4] at hv
    cases h0 : readVal a0 (p.map ([·])) with
    | error e => rw [h0] at hv; cases hv
    | ok x0 =>
      rw [h0] at hv
      cases h1 : readVal a1 ((some s).map ([·])) with
      | error e => simp only [Option.map_some] at h1 hv; rw [h1] at hv; cases hv
      | ok x1 =>
        simp only [Option.map_some] at h1 hv
        rw [h1] at hv
        cases h2 : readVal a2 (d.map ([·])) with
        | error e => rw [h2] at hv; cases hv
        | ok x2 =>
          rw [h2] at hv
          cases h3 : ns.mapM (Kind.parse .int) with
          | error e => rw [h3] at hv; cases hv
          | ok xs =>
            rw [h3] at hv
            simp only [Except.map] at hv
            cases hm : c.mk' [x0, x1, x2, .tuple xs, if tl = [] then .none else .sc (.str (join [' '] tl))] with
            | error e => rw [hm] at hv; cases hv
            | ok u =>
              rw [hm] at hv
              simp only [Except.ok.injEq, Prod.mk.injEq] at hv
              exact ⟨x0, x1, x2, xs, _, by rw [← hv.1, mk_obj hm], rfl, rfl⟩

/-- The card `f4:n 1  2 T` in the data block of a file. -/
example : (Tab.F_0, ['1', '2', '3', '4', '6', '7']) ∈ tallyCards ∧ Spaced [] c!"f4:n" [(.ws c!" ", c!"1"), (.ws c!"  ", c!"2"), (.ws c!" ", c!"T")] [] ∧
    (∀ n ∈ [c!"1", c!"2"], unitOk (.ty (.base .int)) n = true) ∧ lowerC 'T' = 't' ∧
    (cardParse Tab.F_0 c!"f4:n 1  2 T").map (fun r => r.1) = .ok (.obj Tab.F_0.info [.none, .sc (.int (.num 4)), .sc (.desig ['n']),
      .tuple [.sc (.int (.num 1)), .sc (.int (.num 2))], .sc (.str c!"T")]) := by
  refine ⟨by simp [tallyCards], ⟨.nil, by decide, ?_, .nil, by decide, by decide, by decide⟩, by decide +kernel, by decide, by decide +kernel⟩
  intro x hx
  simp only [List.mem_cons, List.not_mem_nil, or_false] at hx
  rcases hx with rfl | rfl | rfl
  · exact ⟨⟨.sp .nil, by decide⟩, by decide⟩
  · exact ⟨⟨.sp (.sp .nil), by decide⟩, by decide⟩
  · exact ⟨⟨.sp .nil, by decide⟩, by decide⟩

/-- The card `f18:p 3 1` in the data block of a file. -/
example : (Tab.F_3, ['8']) ∈ tallyCards ∧ (cardUnion dataCards c!"f18:p 3 1").map (fun r => r.1) = .ok (.obj Tab.F_3.info [.none, .sc (.int (.num 18)),
    .sc (.desig ['p']), .tuple [.sc (.int (.num 3)), .sc (.int (.num 1))], .none]) := by
  refine ⟨by simp [tallyCards], by decide +kernel⟩

end Props
