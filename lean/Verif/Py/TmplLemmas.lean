import Verif.Py.Tmpl
import Verif.Py.RegexMt
import Verif.Py.RegexSub
/-! Lemmas on templates. -/
namespace Py

/-- The pattern reads this text in one way only, whatever follows. -/
def RunsTo (r : Re) (w : Str) (c : List (Nat × Str)) : Prop :=
  ∀ (α : Type) (prev R : Str) (caps : List (Nat × Str)) (k : St → Option α),
    run r ⟨prev, w ++ R, caps⟩ k = k ⟨w.reverse ++ prev, R, c ++ caps⟩

theorem runsTo_eps : RunsTo .eps [] [] := fun _ _ _ _ _ => rfl

theorem runsTo_seq {a b : Re} {u v : Str} {c d} (h1 : RunsTo a u c) (h2 : RunsTo b v d) : RunsTo (.seq a b) (u ++ v) (d ++ c) := by
  intro α prev R caps k
  rw [run_seq, List.append_assoc, h1, h2, List.reverse_append, List.append_assoc, List.append_assoc]

theorem runsTo_cls {p : Char → Bool} {c : Char} (h : p c = true) : RunsTo (.cls p) [c] [] := by
  intro α prev R caps k
  show run (.cls p) ⟨prev, c :: R, caps⟩ k = _
  rw [run_cls_cons, if_pos h]; rfl

theorem runsTo_chr (c : Char) : RunsTo (Re.chr c) [c] [] := runsTo_cls (by simp)

theorem runsTo_grp {r : Re} {w : Str} {c} (n : Nat) (h : RunsTo r w c) : RunsTo (.grp n r) w ((n, w) :: c) := by
  intro α prev R caps k
  rw [run_grp, h]
  simp only [take_consumed, List.cons_append]

theorem runsTo_wrap {r : Re} {w : Str} (g : Bool) (n : Nat) (h : RunsTo r w []) : RunsTo (wrap g n r) w (if g then [(n, w)] else []) := by
  unfold wrap
  cases g
  · exact h
  · exact runsTo_grp n h

theorem runsTo_litC : ∀ s : Str, RunsTo (litC s) s []
  | [] => runsTo_eps
  | c :: cs => runsTo_seq (u := [c]) (runsTo_chr c) (runsTo_litC cs)

theorem runsTo_litI : ∀ s : Str, RunsTo (litI s) s []
  | [] => runsTo_eps
  | c :: cs => runsTo_seq (u := [c]) (runsTo_cls (by simp)) (runsTo_litI cs)

theorem runsTo_rep : ∀ (w : Nat) (s : Str), s.length = w → '\n' ∉ s → RunsTo (Re.rep w .dot) s []
  | 0, s, h, _ => by
    have : s = [] := List.length_eq_zero_iff.1 h
    subst this; exact runsTo_eps
  | w + 1, [], h, _ => by simp at h
  | w + 1, c :: cs, h, hn => by
    simp only [List.mem_cons, not_or] at hn
    exact runsTo_seq (u := [c]) (runsTo_cls (by simpa using fun e => hn.1 e.symm)) (runsTo_rep w cs (by simpa using h) hn.2)

/-- Repetitions up to a character no repetition begins with. -/
theorem run_star_words {α : Type} (g : Bool) (L : Re) (R : Str) (K : St → Option α)
    (hK : ∀ prev x xs caps, x ≠ '\n' → K ⟨prev, x :: xs, caps⟩ = none)
    (hf : ∀ prev s caps (k : St → Option α), run L ⟨prev, '\n' :: s, caps⟩ k = none) (ws : List Str) :
    ∀ prev caps, (∀ w ∈ ws, RunsTo L w [] ∧ ∃ x xs, w = x :: xs ∧ x ≠ '\n') →
    run (.star g L) ⟨prev, ws.flatten ++ '\n' :: R, caps⟩ K = K ⟨ws.flatten.reverse ++ prev, '\n' :: R, caps⟩ := by
  induction ws with
  | nil =>
    intro prev caps _
    show run (.star g L) ⟨prev, '\n' :: R, caps⟩ K = _
    rw [run_star_unfold]
    simp only [hf]
    cases g <;> simp
  | cons w ws ih =>
    intro prev caps h
    obtain ⟨h1, x, xs, rfl, hx⟩ := h w (by simp)
    rw [run_star_unfold]
    simp only
    rw [List.flatten_cons, List.append_assoc, h1, List.nil_append]
    have h2 : K ⟨prev, x :: xs ++ (ws.flatten ++ '\n' :: R), caps⟩ = none := hK _ _ _ _ hx
    rw [h2]
    rw [if_pos (show (ws.flatten ++ '\n' :: R).length < (x :: xs ++ (ws.flatten ++ '\n' :: R)).length by simp; omega),
      ih _ _ (fun w hw => h w (by simp [hw]))]
    have e : (x :: xs ++ ws.flatten).reverse ++ prev = ws.flatten.reverse ++ ((x :: xs).reverse ++ prev) := by simp
    rw [e]
    cases g <;> simp only [Option.or_none, Option.none_or, if_true, Bool.false_eq_true, if_false]

theorem run_plus_words {α : Type} (g : Bool) (L : Re) (R : Str) (K : St → Option α)
    (hK : ∀ prev x xs caps, x ≠ '\n' → K ⟨prev, x :: xs, caps⟩ = none)
    (hf : ∀ prev s caps (k : St → Option α), run L ⟨prev, '\n' :: s, caps⟩ k = none) (ws : List Str) (h0 : ws ≠ [])
    (prev caps) (h : ∀ w ∈ ws, RunsTo L w [] ∧ ∃ x xs, w = x :: xs ∧ x ≠ '\n') :
    run (Re.plus g L) ⟨prev, ws.flatten ++ '\n' :: R, caps⟩ K = K ⟨ws.flatten.reverse ++ prev, '\n' :: R, caps⟩ := by
  cases ws with
  | nil => exact absurd rfl h0
  | cons w ws =>
    rw [Re.plus, run_seq, List.flatten_cons, List.append_assoc, (h w (by simp)).1, List.nil_append,
      run_star_words g L R K hK hf ws _ _ (fun w hw => h w (by simp [hw])), List.reverse_append, List.append_assoc]

/-- `L` reads each of the words in one way and begins no word with a line end. -/
structure Words (L : Re) (ws : List Str) : Prop where
  ne : ws ≠ []
  one : ∀ w ∈ ws, RunsTo L w [] ∧ ∃ x xs, w = x :: xs ∧ x ≠ '\n'
  stop : ∀ (α : Type) prev s caps (k : St → Option α), run L ⟨prev, '\n' :: s, caps⟩ k = none

theorem runsTo_many {L : Re} {ws : List Str} (h : Words L ws) (gr g : Bool) (n : Nat) :
    RunsTo (.seq (wrap g n (Re.plus gr L)) (Re.chr '\n')) (ws.flatten ++ ['\n']) (if g then [(n, ws.flatten)] else []) := by
  intro α prev R caps k
  have hc : ∀ (prev x xs caps) (k : St → Option α), x ≠ '\n' → run (Re.chr '\n') ⟨prev, x :: xs, caps⟩ k = none := by
    intro prev x xs caps k hx
    rw [Re.chr, run_cls_cons, if_neg (by simpa using hx)]
  rw [run_seq, List.append_assoc]
  cases g with
  | false =>
    show run (Re.plus gr L) ⟨prev, ws.flatten ++ '\n' :: R, caps⟩ _ = _
    rw [run_plus_words gr L R _ (fun _ _ _ _ hx => hc _ _ _ _ _ hx) (h.stop α) ws h.ne _ _ h.one]
    rw [Re.chr, run_cls_cons, if_pos (by simp)]
    simp
  | true =>
    show run (.grp n (Re.plus gr L)) ⟨prev, ws.flatten ++ '\n' :: R, caps⟩ _ = _
    rw [run_grp, run_plus_words gr L R _ (fun _ _ _ _ hx => hc _ _ _ _ _ hx) (h.stop α) ws h.ne _ _ h.one]
    rw [Re.chr, run_cls_cons, if_pos (by simp)]
    simp only [take_consumed]
    simp

theorem words_dot {u : Str} (h0 : u ≠ []) (hu : '\n' ∉ u) : Words Re.dot (u.map fun c => [c]) := by
  refine ⟨by simpa using h0, ?_, ?_⟩
  · intro w hw
    obtain ⟨c, hc, rfl⟩ := List.mem_map.1 hw
    have : c ≠ '\n' := fun e => hu (e ▸ hc)
    exact ⟨runsTo_cls (by simpa using this), c, [], rfl, this⟩
  · intro α prev s caps k
    rw [Re.dot, run_cls_cons, if_neg (by simp)]

theorem flatten_chars (u : Str) : (u.map fun c => [c]).flatten = u := by
  induction u with
  | nil => rfl
  | cons c u ih => simp [ih]

theorem runsTo_line {u : Str} (h0 : u ≠ []) (hu : '\n' ∉ u) (g : Bool) (n : Nat) (pre : Str) :
    RunsTo (.seq (wrap g n (.seq (litC pre) (Re.plus true .dot))) (Re.chr '\n')) (pre ++ u ++ ['\n'])
      (if g then [(n, pre ++ u)] else []) := by
  intro α prev R caps k
  have hd := runsTo_many (words_dot h0 hu) true false 0
  rw [flatten_chars] at hd
  rw [run_seq, List.append_assoc, List.append_assoc]
  cases g with
  | false =>
    show run (.seq (litC pre) (Re.plus true .dot)) _ _ = _
    rw [run_seq, runsTo_litC]
    have := hd α (pre.reverse ++ prev) R caps k
    rw [run_seq, List.append_assoc] at this
    exact this.trans (by simp)
  | true =>
    show run (.grp n (.seq (litC pre) (Re.plus true .dot))) _ _ = _
    rw [run_grp, run_seq, runsTo_litC]
    simp only [List.nil_append]
    have hw := words_dot h0 hu
    have := run_plus_words (α := α) true Re.dot R
      (fun st' => run (Re.chr '\n') { st' with caps := (n, (pre ++ (u ++ (['\n'] ++ R))).take ((pre ++ (u ++ (['\n'] ++ R))).length - st'.rest.length)) :: st'.caps } k)
      (by intro prev x xs caps hx; simp only [Re.chr]; rw [run_cls_cons, if_neg (by simpa using hx)]) (hw.stop α) _ hw.ne
      (pre.reverse ++ prev) caps hw.one
    rw [flatten_chars] at this
    refine this.trans ?_
    simp only [Re.chr]
    rw [run_cls_cons, if_pos (by simp)]
    have e : (pre ++ (u ++ (['\n'] ++ R))).take ((pre ++ (u ++ (['\n'] ++ R))).length - ('\n' :: R).length) = pre ++ u := by
      rw [← List.append_assoc]; exact take_consumed _ _
    rw [e]
    simp

/-- The contents of the fields of an item are such that the pattern reads them in one way. -/
def Item.Fit (v : Nat → Str) : Item → Prop
  | .lit _ => True
  | .ilit _ => True
  | .sp => True
  | .fix _ n w => (v n).length = w ∧ '\n' ∉ v n
  | .line _ n pre => ∃ u, u ≠ [] ∧ '\n' ∉ u ∧ v n = pre ++ u
  | .many _ n r => ∃ ws, Words r ws ∧ v n = ws.flatten
  | .gen _ n r => RunsTo r (v n) []

def Fit (v : Nat → Str) (T : List Item) : Prop := ∀ i ∈ T, i.Fit v

theorem runsTo_item {v : Nat → Str} {i : Item} (h : i.Fit v) :
    RunsTo i.re (i.text v) (match i.group with | some n => [(n, v n)] | none => []) := by
  cases i with
  | lit s => exact runsTo_litC s
  | ilit s => exact runsTo_litI s
  | sp => exact runsTo_cls (by decide)
  | fix g n w =>
    have := runsTo_wrap g n (runsTo_rep w (v n) h.1 h.2)
    cases g <;> exact this
  | line g n pre =>
    obtain ⟨u, h0, hu, e⟩ := h
    have := runsTo_line h0 hu g n pre
    rw [← e] at this
    cases g <;> exact this
  | many g n r =>
    obtain ⟨ws, hw, e⟩ := h
    have := runsTo_many hw true g n
    rw [← e] at this
    cases g <;> exact this
  | gen g n r =>
    have := runsTo_wrap g n h
    cases g <;> exact this

theorem runsTo_tmpl {v : Nat → Str} {T : List Item} (h : Fit v T) : RunsTo (tmplRe T) (tmplText v T) (tmplCaps v T) := by
  induction T with
  | nil => exact runsTo_eps
  | cons i T ih =>
    have := runsTo_seq (runsTo_item (h i (by simp))) (ih fun j hj => h j (by simp [hj]))
    unfold tmplCaps
    cases hg : i.group with
    | none => rw [hg] at this; simpa [tmplRe, tmplText] using this
    | some n => rw [hg] at this; simpa [tmplRe, tmplText] using this

theorem lookup_vals {v : Nat → Str} : ∀ {l : List (Nat × Str)} {n : Nat}, (∀ p ∈ l, p.2 = v p.1) → n ∈ l.map (·.1) → l.lookup n = some (v n)
  | (m, s) :: l, n, h, hn => by
    rw [List.lookup_cons]
    by_cases e : n = m
    · subst e
      rw [show (n == n) = true from by simp]
      exact congrArg some (h (n, s) (by simp))
    · rw [show (n == m) = false from by simpa using e]
      exact lookup_vals (fun p hp => h p (by simp [hp])) (by simpa [e] using hn)

theorem tmplCaps_vals (v : Nat → Str) (T : List Item) : ∀ p ∈ tmplCaps v T, p.2 = v p.1 := by
  induction T with
  | nil => intro p hp; cases hp
  | cons i T ih =>
    intro p hp
    unfold tmplCaps at hp
    cases hg : i.group with
    | none => rw [hg] at hp; exact ih p hp
    | some n =>
      rw [hg] at hp
      simp only [List.mem_append, List.mem_singleton] at hp
      rcases hp with hp | rfl
      · exact ih p hp
      · rfl

theorem tmplCaps_mem (v : Nat → Str) (T : List Item) (n : Nat) : n ∈ (tmplCaps v T).map (·.1) ↔ n ∈ T.filterMap Item.group := by
  induction T with
  | nil => simp [tmplCaps]
  | cons i T ih =>
    unfold tmplCaps
    cases hg : i.group with
    | none => simp only [List.filterMap_cons, hg]; exact ih
    | some m =>
      simp only [List.filterMap_cons, hg, List.map_append, List.mem_append, List.mem_cons, List.map_cons, List.map_nil,
        List.not_mem_nil, or_false, ih]
      exact Or.comm

theorem cap_tmpl {v : Nat → Str} {T : List Item} {n : Nat} (h : n ∈ T.filterMap Item.group) (s : Str) (hn : n ≠ 0) :
    cap ((0, s) :: tmplCaps v T) n = some (v n) := by
  unfold cap
  rw [List.lookup_cons, show (n == 0) = false from by simpa using hn]
  exact lookup_vals (tmplCaps_vals v T) ((tmplCaps_mem v T n).2 h)

/-- The whole text is matched with these captures. -/
theorem tmpl_match {v : Nat → Str} {T : List Item} (h : Fit v T) :
    reMatch (.seq .bos (.seq (tmplRe T) .eos)) (tmplText v T) = some ((0, tmplText v T) :: tmplCaps v T) := by
  unfold reMatch
  have := runsTo_tmpl h
  rw [run_seq, run_bos, if_pos rfl, run_seq]
  have := this _ [] [] [] (fun st' => run .eos st' fun st => some ((0, (tmplText v T).take ((tmplText v T).length - st.rest.length)) :: st.caps))
  simp only [List.append_nil] at this
  rw [this, run_eos, if_pos rfl]
  simp

/-! ## Reading a match back -/

/-- The pattern of an item has no anchors and no groups of its own inside the field. -/
def Item.Inner : Item → Prop
  | .many _ _ r => r.free = true ∧ r.groupsIn 0 0
  | .gen _ _ r => r.free = true ∧ r.groupsIn 0 0
  | .ilit _ => False
  | .sp => False
  | _ => True

/-- What a field of a match contains. -/
def Item.Shape (v : Nat → Str) : Item → Prop
  | .lit _ => True
  | .ilit _ => True
  | .sp => True
  | .fix _ n w => (v n).length = w ∧ '\n' ∉ v n
  | .line _ n pre => ∃ u, u ≠ [] ∧ '\n' ∉ u ∧ v n = pre ++ u
  | .many _ n r => ∃ ws : List Str, ws ≠ [] ∧ (∀ w ∈ ws, Mt r w []) ∧ v n = ws.flatten
  | .gen _ n r => Mt r (v n) []

theorem Mt.nil_caps {r : Re} {w e} (h : Mt r w e) (hg : r.groupsIn 0 0) : e = [] := by
  cases e with
  | nil => rfl
  | cons x e => have := h.groups hg x (by simp); omega

theorem mt_litC : ∀ {s : Str} {w e}, Mt (litC s) w e → w = s ∧ e = []
  | [], w, e, h => by cases h; exact ⟨rfl, rfl⟩
  | c :: s, w, e, h => by
    cases h with
    | seq h1 h2 =>
      obtain ⟨rfl, rfl⟩ := mt_litC h2
      cases h1 with
      | cls hc => simp at hc; subst hc; exact ⟨rfl, rfl⟩

theorem mt_litC_self : ∀ s : Str, Mt (litC s) s []
  | [] => .eps
  | c :: s => .seq (u := [c]) (.cls (by simp)) (mt_litC_self s)

theorem mt_dots : ∀ {n : Nat} {w e}, Mt (Re.rep n .dot) w e → w.length = n ∧ '\n' ∉ w ∧ e = []
  | 0, w, e, h => by cases h; exact ⟨rfl, by simp, rfl⟩
  | n + 1, w, e, h => by
    cases h with
    | seq h1 h2 =>
      obtain ⟨a, b, rfl⟩ := mt_dots h2
      cases h1 with
      | cls hc =>
        refine ⟨by simp [a], ?_, rfl⟩
        simp at hc
        simp only [List.singleton_append, List.mem_cons, not_or]
        exact ⟨fun x => hc x.symm, b⟩

theorem mt_star {g : Bool} {r : Re} {w e} (hr : r.groupsIn 0 0) (h : Mt (.star g r) w e) :
    e = [] ∧ ∃ ws : List Str, (∀ x ∈ ws, Mt r x [] ∧ x ≠ []) ∧ w = ws.flatten := by
  generalize hs : Re.star g r = R at h
  induction h with
  | starNil => exact ⟨rfl, [], by simp, rfl⟩
  | @starCons g' a u v e f hu h1 h2 _ ih2 =>
    simp only [Re.star.injEq] at hs
    obtain ⟨rfl, rfl⟩ := hs
    obtain ⟨rfl, ws, h3, rfl⟩ := ih2 rfl
    have := h1.nil_caps hr
    subst this
    refine ⟨rfl, u :: ws, ?_, rfl⟩
    intro x hx
    rcases List.mem_cons.1 hx with rfl | hx
    · exact ⟨h1, hu⟩
    · exact h3 x hx
  | _ => cases hs

theorem mt_plus {g : Bool} {r : Re} {w e} (hr : r.groupsIn 0 0) (h : Mt (Re.plus g r) w e) :
    e = [] ∧ ∃ ws : List Str, ws ≠ [] ∧ (∀ x ∈ ws, Mt r x []) ∧ w = ws.flatten := by
  cases h with
  | @seq _ _ u v e f h1 h2 =>
    obtain ⟨rfl, ws, h3, rfl⟩ := mt_star hr h2
    have := h1.nil_caps hr
    subst this
    refine ⟨rfl, u :: ws, by simp, ?_, rfl⟩
    intro x hx
    rcases List.mem_cons.1 hx with rfl | hx
    · exact h1
    · exact (h3 x hx).1

theorem mt_dot_plus {g : Bool} {w e} (h : Mt (Re.plus g .dot) w e) : e = [] ∧ w ≠ [] ∧ '\n' ∉ w := by
  obtain ⟨rfl, ws, h1, h2, rfl⟩ := mt_plus (by trivial) h
  refine ⟨rfl, ?_, ?_⟩
  · cases ws with
    | nil => exact absurd rfl h1
    | cons x ws =>
      cases h2 x (by simp) with
      | cls hc => simp
  · intro hm
    obtain ⟨x, hx, hn⟩ := List.mem_flatten.1 hm
    cases h2 x hx with
    | cls hc => simp at hc hn; exact hc hn.symm

theorem mt_chr {c : Char} {w e} (h : Mt (Re.chr c) w e) : w = [c] ∧ e = [] := by
  cases h with
  | cls hc => simp at hc; subst hc; exact ⟨rfl, rfl⟩

theorem mt_wrap {g : Bool} {n : Nat} {r : Re} {w e} (h : Mt (wrap g n r) w e) :
    ∃ f, Mt r w f ∧ e = if g then (n, w) :: f else f := by
  cases g with
  | false => exact ⟨e, h, rfl⟩
  | true => cases h with | grp h => exact ⟨_, h, rfl⟩

/-- The captures of an item. -/
def Item.caps (v : Nat → Str) (i : Item) : List (Nat × Str) := match i.group with | some n => [(n, v n)] | none => []

theorem tmplCaps_cons (v : Nat → Str) (i : Item) (T : List Item) : tmplCaps v (i :: T) = tmplCaps v T ++ i.caps v := by
  unfold Item.caps
  conv => lhs; unfold tmplCaps
  cases i.group <;> simp

theorem item_inv {i : Item} (hi : i.Inner) {w e} (h : Mt i.re w e) (v : Nat → Str) :
    ∃ s : Str, ∀ v' : Nat → Str, (∀ n, i.slot = some n → v' n = s) → i.Shape v' ∧ w = i.text v' ∧ e = i.caps v' := by
  cases i with
  | lit s =>
    obtain ⟨rfl, rfl⟩ := mt_litC h
    exact ⟨[], fun v' _ => ⟨trivial, rfl, rfl⟩⟩
  | ilit s => exact absurd hi (by simp [Item.Inner])
  | sp => exact absurd hi (by simp [Item.Inner])
  | fix g n k =>
    obtain ⟨f, h1, rfl⟩ := mt_wrap h
    obtain ⟨a, b, rfl⟩ := mt_dots h1
    refine ⟨w, fun v' hv => ?_⟩
    have := hv n rfl
    subst this
    exact ⟨⟨a, b⟩, rfl, by cases g <;> rfl⟩
  | line g n pre =>
    cases h with
    | seq h1 h2 =>
      obtain ⟨rfl, rfl⟩ := mt_chr h2
      obtain ⟨f, h5, rfl⟩ := mt_wrap h1
      cases h5 with
      | seq h3 h4 =>
        obtain ⟨rfl, rfl⟩ := mt_litC h3
        rename_i q u _
        obtain ⟨rfl, a, b⟩ := mt_dot_plus h4
        refine ⟨q ++ u, fun v' hv => ?_⟩
        have := hv n rfl
        refine ⟨⟨u, a, b, this⟩, by rw [← this]; rfl, ?_⟩
        rw [← this]
        cases g <;> rfl
  | many g n r =>
    cases h with
    | seq h1 h2 =>
      obtain ⟨rfl, rfl⟩ := mt_chr h2
      obtain ⟨f, h5, rfl⟩ := mt_wrap h1
      obtain ⟨rfl, ws, a, b, rfl⟩ := mt_plus hi.2 h5
      refine ⟨ws.flatten, fun v' hv => ?_⟩
      have := hv n rfl
      refine ⟨⟨ws, a, b, this⟩, by rw [← this]; rfl, ?_⟩
      rw [← this]
      cases g <;> rfl
  | gen g n r =>
    obtain ⟨f, h1, rfl⟩ := mt_wrap h
    have := h1.nil_caps hi.2
    subst this
    refine ⟨w, fun v' hv => ?_⟩
    have := hv n rfl
    subst this
    exact ⟨h1, rfl, by cases g <;> rfl⟩

theorem Item.group_slot {i : Item} {n : Nat} (h : i.group = some n) : i.slot = some n := by
  cases i <;> simp_all [Item.group, Item.slot]

theorem Item.text_congr {i : Item} {v v' : Nat → Str} (h : ∀ n, i.slot = some n → v n = v' n) : i.text v = i.text v' := by
  cases i <;> simp_all [Item.text, Item.slot]

theorem Item.shape_congr {i : Item} {v v' : Nat → Str} (h : ∀ n, i.slot = some n → v n = v' n) (hs : i.Shape v) : i.Shape v' := by
  cases i <;> simp_all [Item.Shape, Item.slot]

theorem Item.caps_congr {i : Item} {v v' : Nat → Str} (h : ∀ n, i.slot = some n → v n = v' n) : i.caps v = i.caps v' := by
  unfold Item.caps
  cases hg : i.group with
  | none => rfl
  | some n => simp only [h n (Item.group_slot hg)]

theorem tmpl_congr {v v' : Nat → Str} {T : List Item} (h : ∀ n, n ∈ T.filterMap Item.slot → v n = v' n) :
    tmplText v T = tmplText v' T ∧ tmplCaps v T = tmplCaps v' T := by
  induction T with
  | nil => exact ⟨rfl, rfl⟩
  | cons i T ih =>
    have h1 : ∀ n, i.slot = some n → v n = v' n := fun n hn => h n (by simp [hn])
    have h2 := ih fun n hn => h n (by
      rw [List.filterMap_cons]
      cases i.slot <;> simp [hn])
    rw [tmplCaps_cons, tmplCaps_cons, h2.2, Item.caps_congr h1]
    exact ⟨by rw [tmplText, tmplText, h2.1, Item.text_congr h1], rfl⟩

/-- A match of a template is its text for some contents of the fields. -/
theorem tmpl_inv {T : List Item} (hi : ∀ i ∈ T, i.Inner) (hn : (T.filterMap Item.slot).Nodup) : ∀ {w e}, Mt (tmplRe T) w e →
    ∃ v : Nat → Str, (∀ i ∈ T, i.Shape v) ∧ w = tmplText v T ∧ e = tmplCaps v T := by
  induction T with
  | nil => intro w e h; cases h; exact ⟨fun _ => [], by simp, rfl, rfl⟩
  | cons i T ih =>
    intro w e h
    cases h with
    | seq h1 h2 =>
      have hn' : (T.filterMap Item.slot).Nodup := by
        rw [List.filterMap_cons] at hn
        cases hs : i.slot with
        | none => rw [hs] at hn; exact hn
        | some n => rw [hs] at hn; exact (List.nodup_cons.1 hn).2
      obtain ⟨v, a, rfl, rfl⟩ := ih (fun j hj => hi j (by simp [hj])) hn' h2
      obtain ⟨s, hs⟩ := item_inv (hi i (by simp)) h1 v
      let v' : Nat → Str := fun n => if i.slot = some n then s else v n
      have hv : ∀ n, n ∈ T.filterMap Item.slot → v n = v' n := by
        intro n hm
        show v n = if i.slot = some n then s else v n
        rw [if_neg]
        intro e
        rw [List.filterMap_cons, e] at hn
        exact (List.nodup_cons.1 hn).1 hm
      obtain ⟨b, rfl, rfl⟩ := hs v' (fun n hm => by show (if i.slot = some n then s else v n) = s; rw [if_pos hm])
      refine ⟨v', ?_, ?_, ?_⟩
      · intro j hj
        rcases List.mem_cons.1 hj with rfl | hj
        · exact b
        · exact Item.shape_congr (fun n hm => hv n (List.mem_filterMap.2 ⟨j, hj, hm⟩)) (a j hj)
      · rw [tmplText, (tmpl_congr hv).1]
      · rw [tmplCaps_cons, (tmpl_congr hv).2]

/-- What `re.match` with both anchors says. -/
theorem full_match {r : Re} (hf : r.free = true) {s : Str} {m} (h : reMatch (.seq .bos (.seq r .eos)) s = some m) :
    ∃ e, Mt r s e ∧ m = (0, s) :: e := by
  obtain ⟨st, h1, h2⟩ := reMatch_some h
  obtain ⟨a, ha, hb⟩ := step_seq.1 h1
  obtain ⟨b, hc, hd⟩ := step_seq.1 hb
  obtain ⟨rfl, _⟩ := step_bos.1 ha
  obtain ⟨rfl, he⟩ := step_eos.1 hd
  obtain ⟨u, e, h3, h4, _, h6⟩ := hc.mt hf
  rw [he] at h4
  simp at h4; subst h4
  refine ⟨e, h3, ?_⟩
  rw [h2, h6, he]
  simp

theorem Item.free_of_inner {i : Item} (h : i.Inner) : i.re.free = true := by
  have hl : ∀ s : Str, (litC s).free = true := by
    intro s; induction s with
    | nil => rfl
    | cons c s ih => simp [litC, Re.free, Re.chr, ih]
  have hr : ∀ n, (Re.rep n Re.dot).free = true := by
    intro n; induction n with
    | zero => rfl
    | succ n ih => simp only [Re.rep, Re.free, ih, Bool.and_true]; rfl
  have hw : ∀ g n r, (wrap g n r).free = r.free := by intro g n r; cases g <;> rfl
  cases i with
  | lit s => exact hl s
  | ilit s => exact absurd h (by simp [Item.Inner])
  | sp => exact absurd h (by simp [Item.Inner])
  | fix g n w => rw [Item.re, hw]; exact hr w
  | line g n pre => simp [Item.re, Re.free, hw, hl, Re.plus, Re.dot, Re.chr]
  | many g n r => simp [Item.re, Re.free, hw, Re.plus, Re.chr, h.1]
  | gen g n r => rw [Item.re, hw]; exact h.1

theorem tmpl_free {T : List Item} (hi : ∀ i ∈ T, i.Inner) : (tmplRe T).free = true := by
  induction T with
  | nil => rfl
  | cons i T ih =>
    simp only [tmplRe, Re.free, Bool.and_eq_true]
    exact ⟨Item.free_of_inner (hi i (by simp)), ih fun j hj => hi j (by simp [hj])⟩

/-- A matched text is the text of the template for some contents of the fields, which are what the groups hold. -/
theorem tmpl_read {T : List Item} (hi : ∀ i ∈ T, i.Inner) (hn : (T.filterMap Item.slot).Nodup) {s : Str} {m}
    (h : reMatch (.seq .bos (.seq (tmplRe T) .eos)) s = some m) :
    ∃ v : Nat → Str, (∀ i ∈ T, i.Shape v) ∧ s = tmplText v T ∧ m = (0, s) :: tmplCaps v T := by
  obtain ⟨e, h1, rfl⟩ := full_match (tmpl_free hi) h
  obtain ⟨v, a, b, rfl⟩ := tmpl_inv hi hn h1
  exact ⟨v, a, b, rfl⟩

/-! ## One reading, in a given context -/

/-- With this text after it, the pattern reads the text in one way only. -/
def RunsAt (r : Re) (w : Str) (c : List (Nat × Str)) (R : Str) : Prop :=
  ∀ (α : Type) (prev : Str) (caps : List (Nat × Str)) (k : St → Option α),
    run r ⟨prev, w ++ R, caps⟩ k = k ⟨w.reverse ++ prev, R, c ++ caps⟩

theorem RunsTo.at {r : Re} {w c} (h : RunsTo r w c) (R : Str) : RunsAt r w c R := fun α prev caps k => h α prev R caps k

theorem runsAt_seq {a b : Re} {u v R : Str} {c d} (h1 : RunsAt a u c (v ++ R)) (h2 : RunsAt b v d R) :
    RunsAt (.seq a b) (u ++ v) (d ++ c) R := by
  intro α prev caps k
  rw [run_seq, List.append_assoc, h1, h2, List.reverse_append, List.append_assoc, List.append_assoc]

/-- One way of matching a beginning of the text. -/
theorem runsAt_unique {r : Re} (hf : r.free = true) {w R : Str} {c} (hm : Mt r w c)
    (hu : ∀ u e R', Mt r u e → u ++ R' = w ++ R → u = w ∧ e = c) : RunsAt r w c R := by
  intro α prev caps k
  have key : ∀ st', Step r ⟨prev, w ++ R, caps⟩ st' → st' = ⟨w.reverse ++ prev, R, c ++ caps⟩ := by
    intro st' h
    obtain ⟨u, e, h1, h2, h3, h4⟩ := h.mt hf
    obtain ⟨rfl, rfl⟩ := hu u e _ h1 h2.symm
    exact St.ext' h3 (List.append_cancel_left h2.symm) h4
  cases hrun : run r ⟨prev, w ++ R, caps⟩ k with
  | some x =>
    obtain ⟨st', h1, h2⟩ := (run_spec r _ _).2 x hrun
    rw [key st' h1] at h2
    exact h2.symm
  | none => exact ((run_spec r _ _).1.1 hrun _ (hm.step _ _ _)).symm

theorem runsTo_unique {r : Re} (hf : r.free = true) {w : Str} {c} (hm : Mt r w c)
    (hu : ∀ u e R R', Mt r u e → u ++ R' = w ++ R → u = w ∧ e = c) : RunsTo r w c := by
  intro α prev R caps k
  exact runsAt_unique hf hm (fun u e R' => hu u e R R') α prev caps k

theorem tmplText_append (v : Nat → Str) (A B : List Item) : tmplText v (A ++ B) = tmplText v A ++ tmplText v B := by
  induction A with
  | nil => rfl
  | cons i A ih => simp [tmplText, ih]

theorem tmplCaps_append (v : Nat → Str) (A B : List Item) : tmplCaps v (A ++ B) = tmplCaps v B ++ tmplCaps v A := by
  induction A with
  | nil => simp [tmplCaps]
  | cons i A ih => rw [List.cons_append, tmplCaps_cons, tmplCaps_cons, ih, List.append_assoc]

theorem run_tmpl_append {α : Type} (A B : List Item) : ∀ (st : St) (k : St → Option α),
    run (tmplRe (A ++ B)) st k = run (tmplRe A) st fun st' => run (tmplRe B) st' k := by
  induction A with
  | nil => intro st k; rfl
  | cons i A ih =>
    intro st k
    show run (.seq i.re (tmplRe (A ++ B))) st k = run (.seq i.re (tmplRe A)) st _
    rw [run_seq, run_seq]
    congr 1
    funext st'
    exact ih st' k

theorem runsAt_append {A B : List Item} {v : Nat → Str} {R : Str}
    (h1 : RunsAt (tmplRe A) (tmplText v A) (tmplCaps v A) (tmplText v B ++ R))
    (h2 : RunsAt (tmplRe B) (tmplText v B) (tmplCaps v B) R) :
    RunsAt (tmplRe (A ++ B)) (tmplText v (A ++ B)) (tmplCaps v (A ++ B)) R := by
  intro α prev caps k
  rw [run_tmpl_append, tmplText_append, List.append_assoc, h1, h2, tmplCaps_append, List.reverse_append, List.append_assoc,
    List.append_assoc]

theorem runsAt_match {T : List Item} {v : Nat → Str} (h : RunsAt (tmplRe T) (tmplText v T) (tmplCaps v T) []) :
    reMatch (.seq .bos (.seq (tmplRe T) .eos)) (tmplText v T) = some ((0, tmplText v T) :: tmplCaps v T) := by
  unfold reMatch
  rw [run_seq, run_bos, if_pos rfl, run_seq]
  have := h _ [] [] (fun st' => run .eos st' fun st => some ((0, (tmplText v T).take ((tmplText v T).length - st.rest.length)) :: st.caps))
  simp only [List.append_nil] at this
  rw [this, run_eos, if_pos rfl]
  simp

/-- A template whose last field is read up to the end of the text. -/
theorem tmpl_match_last {T : List Item} {v : Nat → Str} {g : Bool} {n : Nat} {r : Re} (h : Fit v T) (hf : r.free = true)
    (hg : r.groupsIn 0 0) (hm : Mt r (v n) []) :
    reMatch (.seq .bos (.seq (tmplRe (T ++ [.gen g n r])) .eos)) (tmplText v (T ++ [.gen g n r])) =
      some ((0, tmplText v (T ++ [.gen g n r])) :: tmplCaps v (T ++ [.gen g n r])) := by
  unfold reMatch
  rw [run_seq, run_bos, if_pos rfl, run_seq, run_tmpl_append, tmplText_append, runsTo_tmpl h]
  have e0 : tmplText v [Item.gen g n r] = v n := by simp [tmplText, Item.text]
  have hin : Item.Inner (.gen g n r) := ⟨hf, hg⟩
  have hfr : (tmplRe [Item.gen g n r]).free = true := tmpl_free (by simpa using hin)
  have hmt : Mt (tmplRe [Item.gen g n r]) (v n) (tmplCaps v [Item.gen g n r]) := by
    have h1 : Mt (Item.re (.gen g n r)) (v n) (if g then [(n, v n)] else []) := by
      cases g with
      | false => exact hm
      | true => exact .grp hm
    have := Mt.seq h1 Mt.eps
    simp only [List.append_nil, List.nil_append] at this
    have e1 : tmplCaps v [Item.gen g n r] = if g then [(n, v n)] else [] := by cases g <;> rfl
    rw [e1]
    exact this
  rw [e0]
  let K : St → Option (List (Nat × Str)) := fun st => run .eos st fun st =>
    some ((0, (tmplText v T ++ v n).take ((tmplText v T ++ v n).length - st.rest.length)) :: st.caps)
  have hK : ∀ st, st.rest ≠ [] → K st = none := by
    intro st hs
    show run .eos st _ = none
    rw [run_eos, if_neg hs]
  have key : ∀ st', Step (tmplRe [Item.gen g n r]) ⟨(tmplText v T).reverse ++ [], v n, tmplCaps v T ++ []⟩ st' →
      K st' = none ∨ st' = ⟨(v n).reverse ++ ((tmplText v T).reverse ++ []), [], tmplCaps v [Item.gen g n r] ++ (tmplCaps v T ++ [])⟩ := by
    intro st' h
    obtain ⟨u, e, h1, h2, h3, h4⟩ := h.mt hfr
    by_cases hs : st'.rest = []
    · right
      rw [hs, List.append_nil u] at h2
      have h2 : v n = u := h2
      subst h2
      have hinv := tmpl_inv (T := [.gen g n r]) (by simpa using hin) (by simp [Item.slot]) h1
      obtain ⟨v', _, h6, rfl⟩ := hinv
      have e3 : v' n = v n := by rw [h6]; simp [tmplText, Item.text]
      have : tmplCaps v' [Item.gen g n r] = tmplCaps v [Item.gen g n r] :=
        (tmpl_congr (by intro m hm; simp [Item.slot] at hm; subst hm; exact e3)).2
      rw [this] at h4
      exact St.ext' h3 hs h4
    · exact .inl (hK st' hs)
  have hrun : run (tmplRe [Item.gen g n r]) ⟨(tmplText v T).reverse ++ [], v n, tmplCaps v T ++ []⟩ K =
      K ⟨(v n).reverse ++ ((tmplText v T).reverse ++ []), [], tmplCaps v [Item.gen g n r] ++ (tmplCaps v T ++ [])⟩ := by
    cases hrun : run (tmplRe [Item.gen g n r]) ⟨(tmplText v T).reverse ++ [], v n, tmplCaps v T ++ []⟩ K with
    | some x =>
      obtain ⟨st', h1, h2⟩ := (run_spec _ _ _).2 x hrun
      rcases key st' h1 with h | h
      · rw [h] at h2; cases h2
      · rw [h] at h2; exact h2.symm
    | none =>
      have := hmt.step ((tmplText v T).reverse ++ []) [] (tmplCaps v T ++ [])
      rw [List.append_nil (v n)] at this
      exact ((run_spec _ _ _).1.1 hrun _ this).symm
  refine Eq.trans hrun ?_
  show run .eos _ _ = _
  rw [run_eos, if_pos rfl, tmplCaps_append]
  simp only [List.length_nil, Nat.sub_zero, List.take_length, List.append_nil]

end Py
