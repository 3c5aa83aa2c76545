import Verif.Outp.Tally
import Verif.Outp.BlockLemmas
import Verif.Py.RegexLex
/-! Lemmas on the lines and the subtallies of a tally. -/
namespace Outp
open Py Ptrac

/-! ## Splitting -/

theorem split_first {x : Char} : ∀ {a b r s : Str}, x ∉ a → x ∉ b → a ++ x :: r = b ++ x :: s → a = b ∧ r = s
  | [], [], r, s, _, _, h => by simpa using h
  | [], c :: b, r, s, _, hb, h => by
    simp only [List.nil_append, List.cons_append, List.cons.injEq] at h
    exact absurd h.1 (fun e => hb (by simp [e]))
  | c :: a, [], r, s, ha, _, h => by
    simp only [List.nil_append, List.cons_append, List.cons.injEq] at h
    exact absurd h.1 (fun e => ha (by simp [e]))
  | c :: a, d :: b, r, s, ha, hb, h => by
    simp only [List.cons_append, List.cons.injEq] at h
    obtain ⟨rfl, h⟩ := h
    obtain ⟨rfl, h2⟩ := split_first (fun e => ha (by simp [e])) (fun e => hb (by simp [e])) h
    exact ⟨rfl, h2⟩

theorem split_last {x : Char} {a b r s : Str} (hr : x ∉ r) (hs : x ∉ s) (h : a ++ x :: r = b ++ x :: s) : a = b ∧ r = s := by
  have := congrArg List.reverse h
  simp only [List.reverse_append, List.reverse_cons, List.append_assoc, List.singleton_append] at this
  obtain ⟨h1, h2⟩ := split_first (by simpa using hr) (by simpa using hs) this
  exact ⟨List.reverse_inj.1 h2, List.reverse_inj.1 h1⟩

/-! ## Texts whatever the letter case -/

theorem lowerC_nl {c d : Char} (h : lowerC c = lowerC d) (hd : d ≠ '\n') : c ≠ '\n' := by
  rintro rfl
  have h1 : lowerC '\n' = '\n' := by decide
  rw [h1] at h
  unfold lowerC at h
  split at h
  · rename_i hu
    have h5 : 65 ≤ d.toNat ∧ d.toNat ≤ 90 := by
      simp only [Bool.and_eq_true, decide_eq_true_eq, Char.le_def, UInt32.le_iff_toNat_le] at hu
      exact hu
    have : ∀ n : Fin 123, 65 ≤ n.1 ∧ n.1 ≤ 90 → Char.ofNat (n.1 + 32) ≠ '\n' := by decide +kernel
    exact this ⟨d.toNat, by omega⟩ h5 h.symm
  · exact hd h.symm

theorem mt_litI : ∀ {s : Str} {w e}, Mt (litI s) w e → w.length = s.length ∧ e = [] ∧ ('\n' ∉ s → '\n' ∉ w)
  | [], w, e, h => by cases h; simp
  | c :: s, w, e, h => by
    cases h with
    | seq h1 h2 =>
      obtain ⟨a, rfl, b⟩ := mt_litI h2
      cases h1 with
      | cls hc =>
        rename_i d
        simp only [beq_iff_eq] at hc
        refine ⟨by simp [a], rfl, ?_⟩
        intro hn
        simp only [List.mem_cons, not_or] at hn
        simp only [List.singleton_append, List.mem_cons, not_or]
        exact ⟨fun e => lowerC_nl hc (fun e => hn.1 e.symm) e.symm, b hn.2⟩

theorem mt_litI_append : ∀ {s t : Str} {w e}, Mt (litI (s ++ t)) w e → ∃ u v, w = u ++ v ∧ Mt (litI s) u [] ∧ Mt (litI t) v []
  | [], t, w, e, h => ⟨[], w, rfl, .eps, by have := (mt_litI h).2.1; subst this; exact h⟩
  | c :: s, t, w, e, h => by
    cases h with
    | seq h1 h2 =>
      obtain ⟨u, v, rfl, h3, h4⟩ := mt_litI_append h2
      cases h1 with
      | @cls p d hc => exact ⟨d :: u, v, rfl, .seq (a := Re.chrI c) (u := [d]) (e := []) (f := []) (.cls hc) h3, h4⟩

theorem mt_litI_nl {w e} (h : Mt (litI ['\n']) w e) : w = ['\n'] := by
  cases h with
  | seq h1 h2 =>
    cases h2
    cases h1 with
    | cls hc =>
      rename_i d
      simp only [beq_iff_eq] at hc
      by_cases hd : d = '\n'
      · subst hd; rfl
      · exact absurd rfl (lowerC_nl hc.symm hd)

theorem mt_litC_litI : ∀ (s : Str), Mt (litI s) s []
  | [] => .eps
  | c :: s => .seq (u := [c]) (.cls (by simp)) (mt_litC_litI s)

/-! ## Lines -/

/-- A line: three texts without blanks. -/
structure TLine.Ok (l : TLine) : Prop where
  b : l.bucket ≠ [] ∧ ∀ c ∈ l.bucket, isSpace c = false
  c : l.count ≠ [] ∧ ∀ c ∈ l.count, isSpace c = false
  e : l.error ≠ [] ∧ ∀ c ∈ l.error, isSpace c = false

theorem mt_nonspace {g : Bool} {w e} (h : Mt (Re.plus g Re.nonspace) w e) : e = [] ∧ w ≠ [] ∧ ∀ c ∈ w, isSpace c = false := by
  obtain ⟨rfl, ws, h1, h2, rfl⟩ := mt_plus (by trivial) h
  refine ⟨rfl, ?_, ?_⟩
  · cases ws with
    | nil => exact absurd rfl h1
    | cons x ws => cases h2 x (by simp) with | cls hc => simp
  · intro c hm
    obtain ⟨x, hx, hn⟩ := List.mem_flatten.1 hm
    cases h2 x hx with
    | cls hc => simp at hc hn; subst hn; simpa using hc

theorem mt_nonspace_self {g : Bool} : ∀ {w : Str}, w ≠ [] → (∀ c ∈ w, isSpace c = false) → Mt (Re.plus g Re.nonspace) w []
  | [], h, _ => absurd rfl h
  | c :: cs, _, hs => by
    have hst : ∀ w : Str, (∀ c ∈ w, isSpace c = false) → Mt (.star g Re.nonspace) w [] := by
      intro w
      induction w with
      | nil => intro _; exact .starNil
      | cons c w ih =>
        intro h
        exact .starCons (u := [c]) (e := []) (f := []) (by simp) (.cls (by simp [h c (by simp)])) (ih fun d hd => h d (by simp [hd]))
    exact .seq (u := [c]) (e := []) (f := []) (.cls (by simp [hs c (by simp)])) (hst cs fun d hd => hs d (by simp [hd]))

theorem mt_line {w e} (h : Mt lineRe w e) : ∃ l : TLine, l.Ok ∧ w = l.str ∧ e = [(3, l.error), (2, l.count), (1, l.bucket)] := by
  cases h with | seq h1 h =>
  cases h with | seq h2 h =>
  cases h with | seq h3 h =>
  cases h with | seq h4 h =>
  cases h with | seq h5 h =>
  cases h with | seq h6 h7 =>
  obtain ⟨rfl, rfl⟩ := mt_litC h1
  obtain ⟨rfl, rfl⟩ := mt_litC h3
  obtain ⟨rfl, rfl⟩ := mt_litC h5
  obtain ⟨rfl, rfl⟩ := mt_chr h7
  cases h2 with | grp h2 =>
  cases h4 with | grp h4 =>
  cases h6 with | grp h6 =>
  obtain ⟨rfl, a⟩ := mt_nonspace h2
  obtain ⟨rfl, b⟩ := mt_nonspace h4
  obtain ⟨rfl, c⟩ := mt_nonspace h6
  exact ⟨⟨_, _, _⟩, ⟨a, b, c⟩, by simp [TLine.str], rfl⟩

theorem mt_line_self {l : TLine} (h : l.Ok) : Mt lineRe l.str [(3, l.error), (2, l.count), (1, l.bucket)] := by
  have := Mt.seq (mt_litC_self c!"    ") (.seq (.grp (n := 1) (mt_nonspace_self (g := true) h.b.1 h.b.2)) (.seq (mt_litC_self c!"   ")
    (.seq (.grp (n := 2) (mt_nonspace_self (g := true) h.c.1 h.c.2)) (.seq (mt_litC_self c!" ")
      (.seq (.grp (n := 3) (mt_nonspace_self (g := true) h.e.1 h.e.2)) (.cls (p := fun x => x == '\n') (c := '\n') (by simp)))))))
  simp only [List.append_nil, List.nil_append, List.singleton_append, List.cons_append, List.append_assoc] at this
  rw [TLine.str]
  simp only [List.append_nil, List.nil_append, List.singleton_append, List.cons_append, List.append_assoc]
  exact this

theorem line_free : lineRe.free = true := by decide

theorem not_space_mem {s : Str} (h : ∀ c ∈ s, isSpace c = false) {x : Char} (hx : isSpace x = true) : x ∉ s := by
  intro hm
  rw [h x hm] at hx
  cases hx

theorem line_unique {l l' : TLine} (h : l.Ok) (h' : l'.Ok) {R R' : Str} (e : l.str ++ R = l'.str ++ R') : l = l' := by
  obtain ⟨b, c, e1⟩ := l
  obtain ⟨b', c', e1'⟩ := l'
  simp only [TLine.str, List.append_assoc, List.cons_append, List.nil_append, List.append_cancel_left_eq, List.cons.injEq, true_and] at e
  obtain ⟨rfl, h2⟩ := split_first (not_space_mem h.b.2 (by decide)) (not_space_mem h'.b.2 (by decide)) e
  simp only [List.cons.injEq, true_and] at h2
  obtain ⟨rfl, h3⟩ := split_first (not_space_mem h.c.2 (by decide)) (not_space_mem h'.c.2 (by decide)) h2
  obtain ⟨rfl, _⟩ := split_first (not_space_mem h.e.2 (by decide)) (not_space_mem h'.e.2 (by decide)) h3
  rfl

theorem runsTo_lineRe {l : TLine} (h : l.Ok) : RunsTo lineRe l.str [(3, l.error), (2, l.count), (1, l.bucket)] := by
  apply runsTo_unique line_free (mt_line_self h)
  intro u e R R' hm he
  obtain ⟨l', h', rfl, rfl⟩ := mt_line hm
  have := line_unique h' h he
  subst this
  exact ⟨rfl, rfl⟩

/-- A text read in one way is found. -/
theorem runsTo_match {r : Re} {w : Str} {c} (h : RunsTo r w c) : reMatch (whole r) w = some ((0, w) :: c) := by
  unfold reMatch whole
  rw [run_seq, run_bos, if_pos rfl, run_seq]
  have := h _ [] [] [] (fun st' => run .eos st' fun st => some ((0, w.take (w.length - st.rest.length)) :: st.caps))
  simp only [List.append_nil] at this
  rw [this, run_eos, if_pos rfl]
  simp

theorem lineParse_str {l : TLine} (h : l.Ok) : lineParse l.str = .ok l := by
  rw [lineParse, runsTo_match (runsTo_lineRe h)]
  rfl

theorem lineParse_ok {s : Str} {l : TLine} (h : lineParse s = .ok l) : l.Ok := by
  unfold lineParse at h
  cases hm : reMatch (whole lineRe) s with
  | none => rw [hm] at h; cases h
  | some m =>
    rw [hm] at h
    obtain ⟨e, h1, rfl⟩ := full_match line_free hm
    obtain ⟨l', h2, rfl, rfl⟩ := mt_line h1
    have : l' = l := by
      have := Except.ok.inj h
      rw [← this]; rfl
    exact this ▸ h2

/-- Pieces each of which is read in one way. -/
theorem finditer_runsTo {β : Type} {r : Re} (xs : List β) (f : β → Str) (c : β → List (Nat × Str))
    (h : ∀ x ∈ xs, RunsTo r (f x) (c x) ∧ f x ≠ []) : finditer r (xs.flatMap f) = xs.map f := by
  have h1 : LexesC r (xs.map fun x => (f x, c x)) := by
    induction xs with
    | nil => trivial
    | cons x xs ih =>
      refine ⟨(h x (by simp)).2, ?_, ih fun y hy => h y (by simp [hy])⟩
      intro prev
      show run r ⟨prev, f x ++ _, []⟩ _ = _
      rw [(h x (by simp)).1]
      have : 0 < (f x).length := List.length_pos_iff.2 (h x (by simp)).2
      simp only [findK]
      rw [if_pos (by simp; omega), List.append_nil]
  have := finditer_lexesC r _ h1
  have e1 : ((xs.map fun x => (f x, c x)).map (·.1)) = xs.map f := by simp [List.map_map]
  rw [e1] at this
  rw [List.flatMap, this]

theorem mapM_map {β γ : Type} (f : β → Str) (p : Str → Res γ) (g : β → γ) :
    ∀ xs : List β, (∀ x ∈ xs, p (f x) = .ok (g x)) → (xs.map f).mapM p = .ok (xs.map g)
  | [], _ => rfl
  | x :: xs, h => by
    rw [List.map_cons, List.mapM_cons, h x (by simp), mapM_map f p g xs fun y hy => h y (by simp [hy])]
    rfl

theorem mapM_mem {γ : Type} {p : Str → Res γ} : ∀ {l : List Str} {r : List γ}, l.mapM p = .ok r →
    (∀ y ∈ r, ∃ s ∈ l, p s = .ok y) ∧ r.length = l.length
  | [], r, h => by cases h; simp
  | s :: l, r, h => by
    rw [List.mapM_cons] at h
    cases h1 : p s with
    | error e => rw [h1] at h; cases h
    | ok y =>
      rw [h1] at h
      cases h2 : l.mapM p with
      | error e => rw [h2] at h; cases h
      | ok ys =>
        rw [h2] at h
        cases h
        obtain ⟨a, b⟩ := mapM_mem h2
        refine ⟨?_, by simp [b]⟩
        intro z hz
        rcases List.mem_cons.1 hz with rfl | hz
        · exact ⟨s, by simp, h1⟩
        · obtain ⟨t, ht, e⟩ := a z hz
          exact ⟨t, by simp [ht], e⟩

theorem line_str_ne (l : TLine) : l.str ≠ [] := by simp [TLine.str]

theorem lines_reread {ls : List TLine} (h : ∀ l ∈ ls, l.Ok) :
    (finditer lineRe (ls.flatMap TLine.str)).mapM lineParse = .ok ls := by
  rw [finditer_runsTo ls TLine.str (fun l => [(3, l.error), (2, l.count), (1, l.bucket)])
    (fun l hl => ⟨runsTo_lineRe (h l hl), line_str_ne l⟩)]
  have := mapM_map TLine.str lineParse id ls (fun l hl => lineParse_str (h l hl))
  simpa using this

/-! ## Paragraphs -/

/-- A line of a paragraph. -/
def NeLine (l : Str) : Prop := l ≠ [] ∧ '\n' ∉ l

def joinNl (ls : List Str) : Str := ls.flatMap (· ++ ['\n'])

theorem joinNl_append (a b : List Str) : joinNl (a ++ b) = joinNl a ++ joinNl b := by simp [joinNl]

theorem joinNl_cons (l : Str) (ls : List Str) : joinNl (l :: ls) = l ++ '\n' :: joinNl ls := by simp [joinNl]

/-- A paragraph ends at the first empty line. -/
theorem para_unique : ∀ {ls ms : List Str} {o R R' : Str}, (∀ l ∈ ls, NeLine l) → (∀ m ∈ ms, NeLine m ∧ m ≠ [' ']) →
    (o = [] ∨ o = [' ']) → joinNl ls ++ (o ++ '\n' :: R') = joinNl ms ++ '\n' :: R → ls = ms ∧ o = []
  | [], [], o, R, R', _, _, ho, h => by
    refine ⟨rfl, ?_⟩
    rcases ho with rfl | rfl
    · rfl
    · simp [joinNl] at h
  | [], m :: ms, o, R, R', _, hm, ho, h => by
    exfalso
    rw [joinNl_cons, List.append_assoc, List.cons_append] at h
    have h1 := hm m (by simp)
    have : o = m := by
      refine (split_first (x := '\n') (r := R') (s := joinNl ms ++ '\n' :: R) ?_ h1.1.2 h).1
      rcases ho with rfl | rfl <;> simp
    rcases ho with rfl | rfl
    · exact h1.1.1 this.symm
    · exact h1.2 this.symm
  | l :: ls, [], o, R, R', hl, _, ho, h => by
    exfalso
    rw [joinNl_cons, List.append_assoc, List.cons_append] at h
    have h1 := hl l (by simp)
    have : l = [] := (split_first (x := '\n') (b := []) h1.2 (by simp) h).1
    exact h1.1 this
  | l :: ls, m :: ms, o, R, R', hl, hm, ho, h => by
    rw [joinNl_cons, joinNl_cons, List.append_assoc, List.cons_append, List.append_assoc, List.cons_append] at h
    obtain ⟨rfl, h2⟩ := split_first (hl l (by simp)).2 (hm m (by simp)).1.2 h
    obtain ⟨rfl, h3⟩ := para_unique (fun x hx => hl x (by simp [hx])) (fun x hx => hm x (by simp [hx])) ho h2
    exact ⟨rfl, h3⟩

theorem mt_dotLines {g : Bool} {w e} (h : Mt (Re.plus g dotLine) w e) :
    e = [] ∧ ∃ ls : List Str, ls ≠ [] ∧ (∀ l ∈ ls, NeLine l) ∧ w = joinNl ls := by
  obtain ⟨rfl, ws, h1, h2, rfl⟩ := mt_plus (by exact ⟨⟨trivial, trivial⟩, trivial⟩) h
  refine ⟨rfl, ?_⟩
  clear h
  induction ws with
  | nil => exact absurd rfl h1
  | cons w ws ih =>
    obtain ⟨_, u, a, b, rfl⟩ := mt_dotLine (h2 w (by simp))
    by_cases hw : ws = []
    · subst hw
      exact ⟨[u], by simp, by intro l hl; simp at hl; subst hl; exact ⟨a, b⟩, by simp [joinNl]⟩
    · obtain ⟨ls, c1, c2, c3⟩ := ih hw (fun x hx => h2 x (by simp [hx]))
      refine ⟨u :: ls, by simp, ?_, ?_⟩
      · intro l hl
        rcases List.mem_cons.1 hl with rfl | hl
        · exact ⟨a, b⟩
        · exact c2 l hl
      · rw [joinNl_cons, ← c3]; simp

theorem mt_dot_self {g : Bool} {u : Str} (h : NeLine u) : Mt (Re.plus g Re.dot) u [] := by
  obtain ⟨h0, hu⟩ := h
  have hst : ∀ w : Str, '\n' ∉ w → Mt (.star g Re.dot) w [] := by
    intro w
    induction w with
    | nil => intro _; exact .starNil
    | cons c w ih =>
      intro h
      simp only [List.mem_cons, not_or] at h
      exact .starCons (u := [c]) (e := []) (f := []) (by simp) (.cls (by simpa using fun e => h.1 e.symm)) (ih h.2)
  cases u with
  | nil => exact absurd rfl h0
  | cons c u =>
    simp only [List.mem_cons, not_or] at hu
    exact .seq (u := [c]) (e := []) (f := []) (.cls (by simpa using fun e => hu.1 e.symm)) (hst u hu.2)

theorem mt_dotLine_self {u : Str} (h : NeLine u) : Mt dotLine (u ++ ['\n']) [] :=
  .seq (e := []) (f := []) (mt_dot_self h) (.cls (by simp))

theorem mt_dotLines_self {g : Bool} : ∀ {ls : List Str}, ls ≠ [] → (∀ l ∈ ls, NeLine l) → Mt (Re.plus g dotLine) (joinNl ls) []
  | [], h, _ => absurd rfl h
  | l :: ls, _, h => by
    have hst : ∀ ls : List Str, (∀ l ∈ ls, NeLine l) → Mt (.star g dotLine) (joinNl ls) [] := by
      intro ls
      induction ls with
      | nil => intro _; exact .starNil
      | cons l ls ih =>
        intro h
        have := Mt.starCons (g := g) (by simp) (mt_dotLine_self (h l (by simp))) (ih fun x hx => h x (by simp [hx]))
        rw [joinNl_cons]
        simpa using this
    have := Mt.seq (mt_dotLine_self (h l (by simp))) (hst ls fun x hx => h x (by simp [hx]))
    rw [joinNl_cons, Re.plus]
    simpa using this

/-- The last line of a paragraph is determined. -/
theorem para_last {ls ms : List Str} {r s : Str} (h0 : ls ≠ []) (h1 : ms ≠ []) (hr : '\n' ∉ r) (hs : '\n' ∉ s)
    (h : joinNl ls ++ r = joinNl ms ++ s) : joinNl ls = joinNl ms ∧ r = s := by
  have key : ∀ {ls : List Str}, ls ≠ [] → ∃ p, joinNl ls = p ++ ['\n'] := by
    intro ls h0
    obtain ⟨l, e⟩ : ∃ l, ls = ls.dropLast ++ [l] := ⟨_, (List.dropLast_concat_getLast h0).symm⟩
    rw [e, joinNl_append]
    exact ⟨joinNl ls.dropLast ++ l, by simp [joinNl]⟩
  obtain ⟨p, e1⟩ := key h0
  obtain ⟨q, e2⟩ := key h1
  rw [e1, e2, List.append_assoc, List.append_assoc] at h
  obtain ⟨rfl, rfl⟩ := split_last hr hs h
  exact ⟨by rw [e1, e2], rfl⟩

end Outp
