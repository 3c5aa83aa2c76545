import Verif.Ptrac.FmtLemmas
import Verif.Props.Number
/-! Helper lemmas: reading back printed lines. -/
namespace Ptrac
open Py Types

/-! ### Codes -/

set_option maxRecDepth 20000 in
theorem codes_ok : ∀ e : EventType, NoSpace e.code ∧ e.code.length ≤ 10 ∧ '\n' ∉ e.code ∧ eventType e.code = .ok e := by
  decide +kernel

theorem eventType_ok {s : Str} {e : EventType} (h : eventType s = .ok e) : s = e.code := by
  unfold eventType at h
  split at h
  · rename_i i hi
    cases h
    have := List.find?_some hi
    exact (of_decide_eq_true this).symm
  · cases h

theorem tok_of_cap {m : List (Nat × Str)} {n : Nat} {f : Str} (h : cap m n = some f) : tok m n = f := by
  unfold tok; rw [h]; rfl

theorem line_tok (s : Str) (fs : List Str) (i : Nat) (h : i < fs.length) :
    tok ((0, s) :: capsFrom 1 fs []) (i + 1) = fs[i] := by
  apply tok_of_cap
  rw [cap_skip (by omega), Nat.add_comm i 1]
  exact cap_capsFrom 1 fs [] i h

/-- Values of a type, printed within the column. -/
def NumOk : NumTy → Num → Prop
  | .int, .int (.num n) => (intStr n).length ≤ 10
  | .real, .real (.num (.fin d)) => d.str.length ≤ 10
  | _, _ => False

theorem NumOk.read {t : NumTy} {v : Num} (h : NumOk t v) :
    t.parse (rjust 10 v.str) = .ok v ∧ (rjust 10 v.str).length = 10 ∧ '\n' ∉ rjust 10 v.str := by
  match t, v, h with
  | .int, .int (.num n), h =>
    have hp := plain_int n
    refine ⟨?_, rjust_length h, rjust_nl hp.nl⟩
    show (intParse (rjust 10 (intStr n))).map Num.int = _
    rw [rjust, intParse_pad _ _ hp.ch hp.chain hp.head]
    have := Props.C02_integer_roundtrip n
    rw [show (IntVal.num n).str = intStr n from rfl] at this
    rw [this]; rfl
  | .real, .real (.num (.fin d)), h =>
    have hp := plain_dec d
    refine ⟨?_, rjust_length h, rjust_nl hp.nl⟩
    show (realParse (rjust 10 d.str)).map Num.real = _
    rw [rjust, realParse_pad _ _ hp.ch hp.chain hp.head]
    have := Props.C01_real_roundtrip d
    rw [show (RealVal.num (.fin d)).str = d.str from rfl] at this
    rw [this]; rfl

/-- Lists of values, field by field. -/
inductive NumsOk : List NumTy → List Num → Prop where
  | nil : NumsOk [] []
  | cons {t v ts vs} : NumOk t v → NumsOk ts vs → NumsOk (t :: ts) (v :: vs)

theorem readNums_ok {ts : List NumTy} {vs : List Num} (h : NumsOk ts vs) (m : List (Nat × Str)) (n : Nat)
    (hm : ∀ i (hi : i < vs.length), tok m (n + i) = rjust 10 vs[i].str) : readNums m n ts = .ok vs := by
  induction h generalizing n with
  | nil => rfl
  | @cons t v ts vs h1 h2 ih =>
    rw [readNums]
    have a := hm 0 (by simp)
    simp only [Nat.add_zero, List.getElem_cons_zero] at a
    rw [a, h1.read.1]
    have b := ih (n + 1) (fun i hi => by
      have := hm (i + 1) (by simpa using hi)
      rw [show n + 1 + i = n + (i + 1) by omega, this]; rfl)
    show (readNums m (n + 1) ts).bind _ = _
    rw [b]; rfl

theorem nums_widths {ts : List NumTy} {vs : List Num} (h : NumsOk ts vs) :
    ts.map (fun _ => 10) = (vs.map (fun v => rjust 10 v.str)).map (·.length) ∧
    (∀ f ∈ vs.map (fun v => rjust 10 v.str), '\n' ∉ f) := by
  induction h with
  | nil => exact ⟨rfl, by simp⟩
  | cons h1 h2 ih =>
    refine ⟨?_, ?_⟩
    · simp only [List.map_cons, h1.read.2.1, ih.1]
    · intro f hf
      rw [List.map_cons] at hf
      rcases List.mem_cons.1 hf with rfl | hf
      · exact h1.read.2.2
      · exact ih.2 f hf

theorem jline_round (j : JLine) (h : NumsOk (jTys j.layout) j.nums) : jParse j.layout j.str = .ok j := by
  obtain ⟨e1, e2, e3, e4⟩ := codes_ok j.next
  obtain ⟨w1, w2⟩ := nums_widths h
  have hl : (rjust 10 j.next.code).length = 10 := rjust_length e2
  have hm := line_match (rjust 10 j.next.code :: j.nums.map (fun v => rjust 10 v.str))
    (by
      intro f hf
      rcases List.mem_cons.1 hf with rfl | hf
      · exact rjust_nl e3
      · exact w2 f hf)
    (10 :: (jTys j.layout).map (fun _ => 10)) (by rw [List.map_cons, hl, w1])
  have hs : j.str = ' ' :: (rjust 10 j.next.code :: j.nums.map (fun v => rjust 10 v.str)).flatten := by
    rw [JLine.str, List.flatten_cons, List.flatMap]
  rw [jParse, jRe, hs, hm]
  simp only
  have t1 := line_tok (' ' :: (rjust 10 j.next.code :: j.nums.map (fun v => rjust 10 v.str)).flatten)
    (rjust 10 j.next.code :: j.nums.map (fun v => rjust 10 v.str)) 0 (by simp)
  rw [t1, List.getElem_cons_zero, strip_rjust _ _ e1, e4]
  have t2 := readNums_ok h ((0, ' ' :: (rjust 10 j.next.code :: j.nums.map (fun v => rjust 10 v.str)).flatten) ::
    capsFrom 1 (rjust 10 j.next.code :: j.nums.map (fun v => rjust 10 v.str)) []) 2 (fun i hi => by
      have := line_tok (' ' :: (rjust 10 j.next.code :: j.nums.map (fun v => rjust 10 v.str)).flatten)
        (rjust 10 j.next.code :: j.nums.map (fun v => rjust 10 v.str)) (i + 1) (by simpa using hi)
      rw [show 2 + i = i + 1 + 1 by omega, this]; simp)
  show (readNums _ 2 _).bind _ = _
  rw [t2]; rfl

/-! ### P lines -/

/-- A number whose printed form fills its column. -/
def Col (p : Nat) (d : Dec) : Prop :=
  d.coeff = 0 ∨ (5 - p + 1 ≤ (natStr d.coeff).length ∧ (d.adjusted + p).natAbs < 100)

theorem fmtAll_ok (w p : Nat) (ds : List Dec) : ∃ ts, fmtAll w p (ds.map fun d => .num (.fin d)) = .ok ts ∧
    ts.length = ds.length ∧
    ∀ i (h : i < ts.length) (h' : i < ds.length), realFmt w p (.num (.fin ds[i])) = .ok ts[i] := by
  induction ds with
  | nil => exact ⟨[], rfl, rfl, by simp⟩
  | cons d ds ih =>
    obtain ⟨ts, h1, h2, h3⟩ := ih
    obtain ⟨t, ht, -⟩ := realFmt_read w p 0 d
    refine ⟨t :: ts, ?_, by simp [h2], ?_⟩
    · rw [List.map_cons, fmtAll, ht]
      show (fmtAll w p _).bind _ = _
      rw [h1]; rfl
    · intro i hi hi'
      cases i with
      | zero => exact ht
      | succ i => exact h3 i (by simpa using hi) (by simpa using hi')

theorem join_blank (ts : List Str) (h : ts ≠ []) : ' ' :: join [' '] ts = (ts.map (' ' :: ·)).flatten := by
  induction ts with
  | nil => exact absurd rfl h
  | cons t ts ih =>
    cases ts with
    | nil => simp [join]
    | cons u us =>
      have := ih (by simp)
      rw [List.map_cons, List.flatten_cons, ← this]
      simp [join]

theorem readReals_ok (vs : List RealVal) (m : List (Nat × Str)) (n : Nat)
    (hm : ∀ i (hi : i < vs.length), realParse (tok m (n + i)) = .ok vs[i]) : readReals m n vs.length = .ok vs := by
  induction vs generalizing n with
  | nil => rfl
  | cons v vs ih =>
    rw [List.length_cons, readReals]
    have a := hm 0 (by simp)
    simp only [Nat.add_zero, List.getElem_cons_zero] at a
    rw [a]
    have b := ih (n + 1) (fun i hi => by
      have := hm (i + 1) (by simpa using hi)
      rw [show n + 1 + i = n + (i + 1) by omega, this]; rfl)
    show (readReals m (n + 1) vs.length).bind _ = _
    rw [b]; rfl

/-- Columns of thirteen characters read as numbers. -/
theorem pline_read (k : Fin 2) (fs : List Str) (vs : List RealVal) (hlen : fs.length = pSize k)
    (hv : vs.length = fs.length) (hw : ∀ f ∈ fs, f.length = 13 ∧ '\n' ∉ f)
    (hr : ∀ i (h : i < fs.length) (h' : i < vs.length), realParse fs[i] = .ok vs[i]) :
    pParse k (' ' :: fs.flatten) = .ok ⟨k, vs⟩ := by
  have hm := line_match fs (fun f hf => (hw f hf).2) (List.replicate (pSize k) 13) (by
    rw [← hlen]
    exact (List.eq_replicate_iff.2 ⟨by simp, fun b hb => by
      obtain ⟨f, hf, rfl⟩ := List.mem_map.1 hb
      exact (hw f hf).1⟩).symm)
  rw [pParse, pRe, hm]
  simp only
  have := readReals_ok vs ((0, ' ' :: fs.flatten) :: capsFrom 1 fs []) 1 (fun i hi => by
    have := line_tok (' ' :: fs.flatten) fs i (by omega)
    rw [Nat.add_comm 1 i, this]
    exact hr i (by omega) hi)
  rw [hv, hlen] at this
  rw [this]; rfl

theorem pline_str (ds : List Dec) (k : Fin 2) (h : ds ≠ []) : ∃ ts : List Str,
    PLine.str ⟨k, ds.map fun d => .num (.fin d)⟩ = .ok (' ' :: (ts.map (' ' :: ·)).flatten) ∧
    ts.length = ds.length ∧
    ∀ i (h : i < ts.length) (h' : i < ds.length), realFmt 5 1 (.num (.fin ds[i])) = .ok ts[i] := by
  obtain ⟨ts, h1, h2, h3⟩ := fmtAll_ok 5 1 ds
  refine ⟨ts, ?_, h2, h3⟩
  have hne : ts ≠ [] := by
    intro e; rw [e] at h2; exact h (List.length_eq_zero_iff.1 h2.symm)
  show (fmtAll 5 1 (ds.map fun d => .num (.fin d))).bind _ = _
  rw [h1, ← join_blank ts hne]; rfl

theorem pline_round (k : Fin 2) (ds : List Dec) (hl : ds.length = pSize k) (h : ∀ d ∈ ds, Col 1 d) :
    ∃ s, PLine.str ⟨k, ds.map fun d => .num (.fin d)⟩ = .ok s ∧
      pParse k s = .ok ⟨k, (ds.map (printed 5 1)).map fun d => .num (.fin d)⟩ := by
  have hne : ds ≠ [] := by
    rintro rfl
    revert hl; revert k; decide
  obtain ⟨ts, h1, h2, h3⟩ := pline_str ds k hne
  refine ⟨_, h1, ?_⟩
  apply pline_read
  · simp [h2, hl]
  · simp [h2]
  · intro f hf
    obtain ⟨t, ht, rfl⟩ := List.mem_map.1 hf
    obtain ⟨i, hi, rfl⟩ := List.getElem_of_mem ht
    have hi' : i < ds.length := by omega
    have e := h3 i hi hi'
    obtain ⟨t', e', hnl, -⟩ := realFmt_read 5 1 0 ds[i]
    rw [e] at e'; cases e'
    refine ⟨?_, ?_⟩
    · rw [List.length_cons, realFmt_length 5 1 ds[i] (by decide) (h _ (List.getElem_mem hi')) _ e]
    · intro hc
      rcases List.mem_cons.1 hc with hc | hc
      · exact absurd hc (by decide)
      · exact hnl hc
  · intro i hi hi'
    have hi1 : i < ts.length := by simpa using hi
    have hi2 : i < ds.length := by simpa using hi'
    have e := h3 i hi1 hi2
    obtain ⟨t', e', -, hr⟩ := realFmt_read 5 1 1 ds[i]
    rw [e] at e'; cases e'
    simpa using hr

/-! ### I lines -/

theorem run_fixed {α : Type} (n : Nat) (w : Nat) (f s prev : Str) (caps) (k : St → Option α) (hf : '\n' ∉ f)
    (hw : f.length = w) :
    run (.grp n (Re.rep w .dot)) ⟨prev, f ++ s, caps⟩ k = k ⟨f.reverse ++ prev, s, (n, f) :: caps⟩ := by
  subst hw
  rw [run_grp]
  simp only
  rw [run_rep_dot _ _ _ _ _ hf]
  simp only [take_consumed]

theorem run_fixed_short {α : Type} (n : Nat) (w : Nat) (s prev : Str) (caps) (k : St → Option α)
    (hw : s.length < w) : run (.grp n (Re.rep w .dot)) ⟨prev, s, caps⟩ k = none := by
  rw [run_grp]
  exact run_rep_short _ _ _ _ _ hw

theorem iRe_match (a b : Str) (c d : Option Str) (ha : a.length = 10 ∧ '\n' ∉ a) (hb : b.length = 10 ∧ '\n' ∉ b)
    (hc : ∀ x ∈ c, x.length = 10 ∧ '\n' ∉ x) (hd : ∀ x ∈ d, x.length = 13 ∧ '\n' ∉ x) :
    ∃ m, reMatch iRe (' ' :: (a ++ (b ++ (c.getD [] ++ d.getD [])))) = some m ∧
      cap m 1 = some a ∧ cap m 2 = some b ∧ cap m 3 = c ∧ cap m 4 = d := by
  unfold reMatch iRe
  rw [run_seq, run_bos, if_pos rfl, run_seq, Re.space, run_cls_cons, if_pos (by decide), run_seq,
    run_fixed 1 10 a _ _ _ _ ha.2 ha.1, run_seq, run_fixed 2 10 b _ _ _ _ hb.2 hb.1, run_seq]
  cases c with
  | none =>
    cases d with
    | none =>
      rw [run_opt_greedy]
      simp only [Option.getD_none, List.append_nil]
      rw [run_fixed_short 3 10 [] _ _ _ (by decide)]
      rw [Option.none_or]
      rw [run_seq, run_opt_greedy, run_fixed_short 4 13 [] _ _ _ (by decide)]
      rw [Option.none_or]
      rw [run_eos, if_pos rfl]
      exact ⟨_, rfl, rfl, rfl, rfl, rfl⟩
    | some d =>
      obtain ⟨d1, d2⟩ := hd d rfl
      rw [run_opt_greedy]
      simp only [Option.getD_none, Option.getD_some, List.nil_append]
      have hn : '\n' ∉ d.take 10 := fun h => d2 (List.mem_of_mem_take h)
      have h3 := run_fixed (α := List (Nat × Str)) 3 10 (d.take 10) (d.drop 10) (b.reverse ++ (a.reverse ++ [' ']))
        [(2, b), (1, a)] (fun st => run (.seq (.opt true (.grp 4 (Re.rep 13 .dot))) .eos) st fun st =>
          some ((0, List.take ((' ' :: (a ++ (b ++ d))).length - st.rest.length) (' ' :: (a ++ (b ++ d)))) :: st.caps))
        hn (by rw [List.length_take]; omega)
      rw [List.take_append_drop] at h3
      rw [h3]
      have h4 : run (.seq (.opt true (.grp 4 (Re.rep 13 .dot))) .eos)
          ⟨(d.take 10).reverse ++ (b.reverse ++ (a.reverse ++ [' '])), d.drop 10, (3, d.take 10) :: [(2, b), (1, a)]⟩
          (fun st => some ((0, List.take ((' ' :: (a ++ (b ++ d))).length - st.rest.length) (' ' :: (a ++ (b ++ d)))) :: st.caps))
          = none := by
        rw [run_seq, run_opt_greedy, run_fixed_short 4 13 (d.drop 10) _ _ _ (by rw [List.length_drop]; omega)]
        rw [Option.none_or]
        rw [run_eos, if_neg]
        intro h
        have := congrArg List.length h
        simp only [List.length_drop, List.length_nil] at this
        omega
      rw [h4]
      rw [Option.none_or]
      rw [run_seq, run_opt_greedy]
      have h5 := run_fixed (α := List (Nat × Str)) 4 13 d [] (b.reverse ++ (a.reverse ++ [' ']))
        [(2, b), (1, a)] (fun st => run .eos st fun st =>
          some ((0, List.take ((' ' :: (a ++ (b ++ d))).length - st.rest.length) (' ' :: (a ++ (b ++ d)))) :: st.caps))
        d2 d1
      rw [List.append_nil] at h5
      rw [h5, run_eos, if_pos rfl]
      exact ⟨_, rfl, rfl, rfl, rfl, rfl⟩
  | some c =>
    obtain ⟨c1, c2⟩ := hc c rfl
    rw [run_opt_greedy]
    simp only [Option.getD_some]
    rw [run_fixed 3 10 c _ _ _ _ c2 c1, run_seq, run_opt_greedy]
    cases d with
    | none =>
      simp only [Option.getD_none]
      rw [run_fixed_short 4 13 [] _ _ _ (by decide)]
      rw [Option.none_or]
      rw [run_eos, if_pos rfl]
      exact ⟨_, rfl, rfl, rfl, rfl, rfl⟩
    | some d =>
      obtain ⟨d1, d2⟩ := hd d rfl
      simp only [Option.getD_some]
      have h5 := run_fixed (α := List (Nat × Str)) 4 13 d [] (c.reverse ++ (b.reverse ++ (a.reverse ++ [' '])))
        [(3, c), (2, b), (1, a)] (fun st => run .eos st fun st =>
          some ((0, List.take ((' ' :: (a ++ (b ++ (c ++ d)))).length - st.rest.length)
            (' ' :: (a ++ (b ++ (c ++ d))))) :: st.caps))
        d2 d1
      rw [List.append_nil] at h5
      rw [h5, run_eos, if_pos rfl]
      exact ⟨_, rfl, rfl, rfl, rfl, rfl⟩

theorem optParse_some {α : Type} (f : Str → Res α) (s : Str) (v : α) (hs : s ≠ []) (h : f s = .ok v) :
    optParse f (some s) = .ok (some v) := by
  rw [optParse, if_neg hs, h]; rfl

/-- The text of the optional fields. -/
theorem iline_round (nps : Int) (e : EventType) (number : Option Int) (tfc : Option Dec)
    (h1 : (intStr nps).length ≤ 10) (h2 : ∀ n ∈ number, n ≠ 0 ∧ (intStr n).length ≤ 10)
    (h3 : ∀ d ∈ tfc, d.coeff ≠ 0 ∧ Col 0 d) :
    ∃ s, ILine.str ⟨.num nps, e, number.map .num, tfc.map fun d => .num (.fin d)⟩ = .ok s ∧
      iParse s = .ok ⟨.num nps, e, number.map .num, (tfc.map (printed 5 0)).map fun d => .num (.fin d)⟩ := by
  obtain ⟨e1, e2, e3, e4⟩ := codes_ok e
  have hT : ∃ t : Option Str, (∀ x ∈ t, x.length = 13 ∧ '\n' ∉ x) ∧
      tfcText (tfc.map fun d => RealVal.num (.fin d)) = .ok (t.getD []) ∧
      optParse realParse t = .ok ((tfc.map (printed 5 0)).map fun d => .num (.fin d)) := by
    cases tfc with
    | none => exact ⟨none, by simp, rfl, rfl⟩
    | some d =>
      obtain ⟨h0, hc⟩ := h3 d rfl
      obtain ⟨t, ht, hnl, hr⟩ := realFmt_read 5 0 1 d
      refine ⟨some (' ' :: t), ?_, ?_, optParse_some _ _ _ (by simp) hr⟩
      · intro x hx
        cases hx
        refine ⟨?_, ?_⟩
        · rw [List.length_cons, realFmt_length 5 0 d (by decide) hc t ht]
        · intro h
          rcases List.mem_cons.1 h with h | h
          · exact absurd h (by decide)
          · exact hnl h
      · rw [Option.map_some, tfcText]
        have : realTrue (.num (.fin d)) = .ok true := by simp [realTrue, h0]
        rw [this]
        show (if true = true then (realFmt 5 0 (.num (.fin d))).bind (fun t => .ok (' ' :: t)) else .ok []) = _
        rw [if_pos rfl, ht]; rfl
  have hN : ∃ t : Option Str, (∀ x ∈ t, x.length = 10 ∧ '\n' ∉ x) ∧
      numberText (number.map IntVal.num) = .ok (t.getD []) ∧
      optParse intParse t = .ok (number.map .num) := by
    cases number with
    | none => exact ⟨none, by simp, rfl, rfl⟩
    | some n =>
      obtain ⟨h0, hl⟩ := h2 n rfl
      have hp := plain_int n
      have hlen : (rjust 10 (intStr n)).length = 10 := rjust_length hl
      refine ⟨some (rjust 10 (intStr n)), ?_, ?_, optParse_some _ _ _ ?_ ?_⟩
      · intro x hx
        cases hx
        exact ⟨hlen, rjust_nl hp.nl⟩
      · rw [Option.map_some, numberText]
        have : intTrue (.num n) = .ok true := by simp [intTrue, h0]
        rw [this]
        show Except.ok (if true = true then rjust 10 (intStr n) else []) = _
        rw [if_pos rfl]; rfl
      · intro h; rw [h] at hlen; simp at hlen
      · rw [rjust, intParse_pad _ _ hp.ch hp.chain hp.head]
        exact Props.C02_integer_roundtrip n
  obtain ⟨t, t1, t2, t3⟩ := hT
  obtain ⟨u, u1, u2, u3⟩ := hN
  have hp := plain_int nps
  obtain ⟨m, m0, m1, m2, m3, m4⟩ := iRe_match (rjust 10 (intStr nps)) (rjust 10 e.code) u t
    ⟨rjust_length h1, rjust_nl hp.nl⟩ ⟨rjust_length e2, rjust_nl e3⟩ u1 t1
  refine ⟨' ' :: (rjust 10 (intStr nps) ++ (rjust 10 e.code ++ (u.getD [] ++ t.getD []))), ?_, ?_⟩
  · unfold ILine.str
    simp only
    rw [t2]
    show ((numberText (number.map IntVal.num)).bind fun number =>
        Except.ok (' ' :: (rjust 10 (intStr nps) ++ rjust 10 e.code ++ number ++ t.getD []))) = _
    rw [u2]
    show Except.ok _ = _
    simp only [List.append_assoc]
  · rw [iParse, m0]
    simp only [tok_of_cap m1, tok_of_cap m2, m3, m4, t3, u3, strip_rjust _ _ e1, e4]
    rw [rjust, intParse_pad _ _ hp.ch hp.chain hp.head]
    have := Props.C02_integer_roundtrip nps
    rw [show (IntVal.num nps).str = intStr nps from rfl] at this
    rw [this]; rfl

end Ptrac
namespace Ptrac
open Py Types

/-! ### Columns written by MCNP -/

/-- A two-digit exponent is reprinted. -/
theorem expFmt_text (n : Bool) (es : Str) (h : Digits es) (hl : es.length = 2) (hz : n = true → strNat es ≠ 0) :
    expFmt (expVal n es) = sgnChar n :: es := by
  have hs : zfill 2 (natStr (strNat es)) = es := by
    match es, hl with
    | [a, b], _ =>
      by_cases ha : a = '0'
      · subst ha
        have e : strNat ['0', b] = strNat [b] := by rw [strNat_cons, digitVal_zero]; simp
        rw [e, natStr_strNat [b] (fun c hc => h c (List.mem_cons_of_mem _ hc)) (by simp) (by
          intro c cs hcs _; cases hcs; rfl)]
        rfl
      · rw [natStr_strNat [a, b] h (by simp) (by
          intro c cs hcs hc; cases hcs; exact absurd hc ha)]
        rfl
  rw [expFmt_eq]
  cases n with
  | true =>
    have := hz rfl
    have e : expVal true es = -(strNat es : Int) := rfl
    rw [e, Int.natAbs_neg, Int.natAbs_natCast, hs]
    have : decide (-(strNat es : Int) < 0) = true := by simp; omega
    rw [this]
  | false =>
    have e : expVal false es = (strNat es : Int) := rfl
    rw [e, Int.natAbs_natCast, hs]
    have : decide ((strNat es : Int) < 0) = false := by simp
    rw [this]

/-- A normalised column: its value prints it again. -/
theorem column_round (neg : Bool) (ds : Str) (n : Bool) (es : Str) (hd : Digits ds) (hdl : ds.length = 5)
    (hz : (∃ c cs, ds = c :: cs ∧ c ≠ '0') ∨ (ds = c!"00000" ∧ n = false ∧ es = c!"00"))
    (he : Digits es) (hel : es.length = 2) (hn : n = true → strNat es ≠ 0) :
    ∃ d : Dec, realParse (' ' :: (if neg then '-' else ' ') :: '0' :: '.' :: (ds ++ 'E' :: sgnChar n :: es)) =
        .ok (.num (.fin d)) ∧
      realFmt 5 1 (.num (.fin d)) = .ok ((if neg then '-' else ' ') :: '0' :: '.' :: (ds ++ 'E' :: sgnChar n :: es)) := by
  have hm : MantOk ['0'] (some ds) := ⟨by decide, hd, .inl (by simp)⟩
  have hx : ExpOk es := ⟨he, by intro e; rw [e] at hel; simp at hel⟩
  have hp := plain_sci (sgOf neg) ['0'] (some ds) 'E' n es hm (.inr rfl) hx
  have hr := realParse_sci (sgOf neg) ['0'] (some ds) 'E' n es hm (.inr rfl) hx
  refine ⟨mantDec (sgOf neg) ['0'] (some ds) (expVal n es), ?_, ?_⟩
  · have : ∃ j, ' ' :: (if neg then '-' else ' ') :: '0' :: '.' :: (ds ++ 'E' :: sgnChar n :: es) =
        List.replicate j ' ' ++ (mantText (sgOf neg) ['0'] (some ds) ++ 'E' :: sgnChar n :: es) := by
      cases neg with
      | true => exact ⟨1, by simp [sgOf, mantText, Sg.text, fracText]⟩
      | false => exact ⟨2, by simp [sgOf, mantText, Sg.text, fracText]⟩
    obtain ⟨j, e⟩ := this
    rw [e, realParse_pad j _ hp.ch hp.chain hp.head, hr]
  · have hneg : (mantDec (sgOf neg) ['0'] (some ds) (expVal n es)).neg = neg := by cases neg <;> rfl
    have hc : (mantDec (sgOf neg) ['0'] (some ds) (expVal n es)).coeff = strNat ds := by
      show strNat ('0' :: ds) = _
      rw [strNat_cons, digitVal_zero]; simp
    have hexp : (mantDec (sgOf neg) ['0'] (some ds) (expVal n es)).exp = expVal n es - 5 := by
      show expVal n es - (ds.length : Int) = _
      rw [hdl]; rfl
    generalize mantDec (sgOf neg) ['0'] (some ds) (expVal n es) = d at hneg hc hexp
    rcases hz with ⟨c, cs, rfl, hc0⟩ | ⟨rfl, rfl, rfl⟩
    · have hs : natStr d.coeff = c :: cs := by
        rw [hc]
        exact natStr_strNat _ hd (by simp) (by intro a b hab ha; cases hab; exact absurd ha hc0)
      have hadj : d.adjusted + 1 = expVal n es := by
        unfold Dec.adjusted
        rw [hs, hdl, hexp]; omega
      show (if (natStr d.coeff).take 5 = ['0'] then _ else _) = _
      have ht : (c :: cs).take 5 = c :: cs := by rw [← hdl]; exact List.take_length
      rw [hs, ht, if_neg (by intro h; exact hc0 (List.cons.inj h).1)]
      show Except.ok ((if d.neg then '-' else ' ') :: (('0' :: (c :: cs).take 5).take 1 ++ '.' ::
        (('0' :: (natStr d.coeff).take 5).drop 1 ++ 'E' :: expFmt (d.adjusted + 1)))) = _
      rw [hs, ht, hadj, expFmt_text n es he hel hn, hneg]; rfl
    · have h0 : d.coeff = 0 := by rw [hc]; decide
      show (if (natStr d.coeff).take 5 = ['0'] then
        Except.ok ((if d.neg then '-' else ' ') :: '0' :: '.' :: (List.replicate 5 '0' ++ c!"E+00")) else _) = _
      rw [h0, if_pos (show (natStr 0).take 5 = [Char.ofNat 48] from rfl), hneg]; rfl

end Ptrac
