import Verif.Ptrac.Event
import Verif.Ptrac.RoundLemmas
import Verif.Py.RegexMt
import Verif.Py.RegexLex
/-! Helper lemmas: events and histories. -/
namespace Ptrac
open Py Types

/-! ### Lines -/

theorem nl_split {u u' x y : Str} (hu : '\n' ∉ u) (hu' : '\n' ∉ u') (h : u ++ '\n' :: x = u' ++ '\n' :: y) :
    u = u' ∧ x = y := by
  induction u generalizing u' with
  | nil =>
    cases u' with
    | nil => exact ⟨rfl, (List.cons.inj h).2⟩
    | cons c cs =>
      have := (List.cons.inj h).1
      exact absurd (this ▸ List.mem_cons_self) hu'
  | cons c cs ih =>
    cases u' with
    | nil =>
      have := (List.cons.inj h).1
      exact absurd (this.symm ▸ List.mem_cons_self) hu
    | cons d ds =>
      obtain ⟨h1, h2⟩ := List.cons.inj h
      obtain ⟨h3, h4⟩ := ih (fun hc => hu (List.mem_cons_of_mem _ hc)) (fun hc => hu' (List.mem_cons_of_mem _ hc)) h2
      exact ⟨by rw [h1, h3], h4⟩

theorem mt_rep {n : Nat} {w : Str} {e} (h : Mt (Re.rep n .dot) w e) : w.length = n ∧ '\n' ∉ w ∧ e = [] := by
  induction n generalizing w e with
  | zero => cases h; simp
  | succ n ih =>
    cases h with
    | seq h1 h2 =>
      cases h1 with
      | cls hc =>
        obtain ⟨a, b, c⟩ := ih h2
        refine ⟨by simp [a], ?_, by simp [c]⟩
        intro h
        rcases List.mem_append.1 h with h | h
        · rw [List.mem_singleton] at h
          subst h
          exact absurd hc (by decide)
        · exact b h

theorem rep_mt (w : Str) (h : '\n' ∉ w) : Mt (Re.rep w.length .dot) w [] := by
  induction w with
  | nil => exact .eps
  | cons c cs ih =>
    have hc : (c != '\n') = true := by
      simp only [List.mem_cons, not_or] at h
      simpa using fun e => h.1 e.symm
    exact .seq (u := [c]) (e := []) (f := []) (.cls hc) (ih (fun hc => h (List.mem_cons_of_mem _ hc)))

theorem mt_fields {n : Nat} {ws : List Nat} {w : Str} {e} (h : Mt (fieldsRe n ws) w e) :
    w.length = ws.sum ∧ '\n' ∉ w := by
  induction ws generalizing n w e with
  | nil => cases h; simp
  | cons x xs ih =>
    cases h with
    | seq h1 h2 =>
      cases h1 with
      | grp h3 =>
        obtain ⟨a, b, -⟩ := mt_rep h3
        obtain ⟨c, d⟩ := ih h2
        refine ⟨by simp [a, c], ?_⟩
        intro h
        rcases List.mem_append.1 h with h | h
        · exact b h
        · exact d h

theorem fields_mt (n : Nat) (ws : List Nat) (w : Str) (h : w.length = ws.sum) (hn : '\n' ∉ w) :
    ∃ e, Mt (fieldsRe n ws) w e := by
  induction ws generalizing n w with
  | nil =>
    have : w = [] := List.length_eq_zero_iff.1 (by simpa using h)
    subst this
    exact ⟨[], .eps⟩
  | cons x xs ih =>
    rw [List.sum_cons] at h
    obtain ⟨e, he⟩ := ih (n + 1) (w.drop x) (by rw [List.length_drop]; omega)
      (fun hc => hn (List.mem_of_mem_drop hc))
    have hr := rep_mt (w.take x) (fun hc => hn (List.mem_of_mem_take hc))
    rw [show (w.take x).length = x by rw [List.length_take]; omega] at hr
    have := Mt.seq (.grp (n := n) hr) he
    rw [List.take_append_drop] at this
    exact ⟨_, this⟩

theorem groups_rep (n lo hi : Nat) : (Re.rep n .dot).groupsIn lo hi := by
  induction n with
  | zero => trivial
  | succ n ih => exact ⟨trivial, ih⟩

theorem groups_fields (n : Nat) (ws : List Nat) : (fieldsRe n ws).groupsIn n (n + ws.length) := by
  induction ws generalizing n with
  | nil => trivial
  | cons x xs ih =>
    refine ⟨⟨Nat.le_refl _, by simp, groups_rep ..⟩, ?_⟩
    exact (ih (n + 1)).mono (by omega) (by simp; omega)

theorem free_rep (n : Nat) : (Re.rep n .dot).free = true := by
  induction n with
  | zero => rfl
  | succ n ih => simp only [Re.rep, Re.free, ih]; rfl

theorem free_fields (n : Nat) (ws : List Nat) : (fieldsRe n ws).free = true := by
  induction ws generalizing n with
  | nil => rfl
  | cons x xs ih => simp [fieldsRe, Re.free, ih, free_rep]

/-! ### The two lines of an event -/

/-- A line of one of the widths. -/
def Shape (widths : List Nat) (w : Str) : Prop := ∃ c u, w = c :: u ∧ isSpace c = true ∧ '\n' ∉ u ∧ u.length ∈ widths

def jWidths : List Nat := [50, 60, 70, 80]
def pWidths : List Nat := [39, 117]

theorem mt_line {n : Nat} {ws : List Nat} {w : Str} {e} (h : Mt (.seq .space (fieldsRe n ws)) w e) : Shape [ws.sum] w := by
  cases h with
  | seq h1 h2 =>
    cases h1 with
    | cls hc =>
      obtain ⟨a, b⟩ := mt_fields h2
      exact ⟨_, _, rfl, hc, b, by simp [a]⟩

theorem line_mt (n : Nat) (ws : List Nat) {w : Str} (h : Shape [ws.sum] w) : ∃ e, Mt (.seq .space (fieldsRe n ws)) w e := by
  obtain ⟨c, u, rfl, hc, hn, hl⟩ := h
  obtain ⟨e, he⟩ := fields_mt n ws u (by simpa using hl) hn
  exact ⟨_, .seq (u := [c]) (.cls hc) he⟩

theorem jSum : ∀ k : Fin 8, (10 :: (jTys k).map (fun _ => 10)).sum = [50, 60, 60, 70, 60, 70, 70, 80][k] := by
  decide

theorem pSum : ∀ k : Fin 2, (List.replicate (pSize k) 13).sum = [39, 117][k] := by decide

theorem Shape.mono {a b : List Nat} {w : Str} (h : Shape a w) (hs : ∀ x ∈ a, x ∈ b) : Shape b w := by
  obtain ⟨c, u, h1, h2, h3, h4⟩ := h
  exact ⟨c, u, h1, h2, h3, hs _ h4⟩

theorem mt_j {n : Nat} {w : Str} {e} (h : Mt (jAlts n) w e) : Shape jWidths w := by
  have key : ∀ n k w e, Mt (jAlt n k) w e → Shape jWidths w := by
    intro n k w e h
    have := mt_line h
    rw [jSum k] at this
    exact this.mono ((by decide : ∀ k : Fin 8, ∀ x ∈ [[50, 60, 60, 70, 60, 70, 70, 80][k]], x ∈ jWidths) k)
  unfold jAlts at h
  cases h with
  | altL h => exact key _ _ _ _ h
  | altR h => cases h with
    | altL h => exact key _ _ _ _ h
    | altR h => cases h with
      | altL h => exact key _ _ _ _ h
      | altR h => cases h with
        | altL h => exact key _ _ _ _ h
        | altR h => cases h with
          | altL h => exact key _ _ _ _ h
          | altR h => cases h with
            | altL h => exact key _ _ _ _ h
            | altR h => cases h with
              | altL h => exact key _ _ _ _ h
              | altR h => exact key _ _ _ _ h

theorem j_mt (n : Nat) {w : Str} (h : Shape jWidths w) : ∃ e, Mt (jAlts n) w e := by
  have key : ∀ n k, Shape [[50, 60, 60, 70, 60, 70, 70, 80][k]] w → ∃ e, Mt (jAlt n k) w e := by
    intro n k h
    rw [← jSum k] at h
    exact line_mt n _ h
  obtain ⟨c, u, h1, h2, h3, h4⟩ := h
  simp only [jWidths, List.mem_cons, List.not_mem_nil, or_false] at h4
  rcases h4 with h4 | h4 | h4 | h4
  · obtain ⟨e, he⟩ := key n 0 ⟨c, u, h1, h2, h3, by rw [h4]; decide⟩
    exact ⟨e, .altL he⟩
  · obtain ⟨e, he⟩ := key (n + 5) 1 ⟨c, u, h1, h2, h3, by rw [h4]; decide⟩
    exact ⟨e, .altR (.altL he)⟩
  · obtain ⟨e, he⟩ := key (n + 17) 3 ⟨c, u, h1, h2, h3, by rw [h4]; decide⟩
    exact ⟨e, .altR (.altR (.altR (.altL he)))⟩
  · obtain ⟨e, he⟩ := key (n + 44) 7 ⟨c, u, h1, h2, h3, by rw [h4]; decide⟩
    exact ⟨e, .altR (.altR (.altR (.altR (.altR (.altR (.altR he))))))⟩

theorem mt_p {n : Nat} {w : Str} {e} (h : Mt (pAlts n) w e) : Shape pWidths w := by
  have key : ∀ n k w e, Mt (pAlt n k) w e → Shape pWidths w := by
    intro n k w e h
    have := mt_line h
    rw [pSum k] at this
    exact this.mono ((by decide : ∀ k : Fin 2, ∀ x ∈ [[39, 117][k]], x ∈ pWidths) k)
  unfold pAlts at h
  cases h with
  | altL h => exact key _ _ _ _ h
  | altR h => exact key _ _ _ _ h

theorem p_mt (n : Nat) {w : Str} (h : Shape pWidths w) : ∃ e, Mt (pAlts n) w e := by
  have key : ∀ n k, Shape [[39, 117][k]] w → ∃ e, Mt (pAlt n k) w e := by
    intro n k h
    rw [← pSum k] at h
    exact line_mt n _ h
  obtain ⟨c, u, h1, h2, h3, h4⟩ := h
  simp only [pWidths, List.mem_cons, List.not_mem_nil, or_false] at h4
  rcases h4 with h4 | h4
  · obtain ⟨e, he⟩ := key n 0 ⟨c, u, h1, h2, h3, by rw [h4]; decide⟩
    exact ⟨e, .altL he⟩
  · obtain ⟨e, he⟩ := key (n + 3) 1 ⟨c, u, h1, h2, h3, by rw [h4]; decide⟩
    exact ⟨e, .altR he⟩

theorem groups_j (n : Nat) : (jAlts n).groupsIn n (n + 52) := by
  have key : ∀ m (k : Fin 8), n ≤ m → m + [5, 6, 6, 7, 6, 7, 7, 8][k] ≤ n + 52 → (jAlt m k).groupsIn n (n + 52) := by
    intro m k h1 h2
    refine ⟨trivial, ?_⟩
    rw [(by decide : ∀ k : Fin 8, [5, 6, 6, 7, 6, 7, 7, 8][k] = 1 + (jTys k).length) k] at h2
    exact (groups_fields m _).mono h1 (by simp only [List.length_cons, List.length_map]; omega)
  refine ⟨key _ _ ?_ ?_, key _ _ ?_ ?_, key _ _ ?_ ?_, key _ _ ?_ ?_, key _ _ ?_ ?_, key _ _ ?_ ?_, key _ _ ?_ ?_, key _ _ ?_ ?_⟩
  any_goals omega
  · show n + 5 ≤ _; omega
  · show n + 5 + 6 ≤ _; omega
  · show n + 11 + 6 ≤ _; omega
  · show n + 17 + 7 ≤ _; omega
  · show n + 24 + 6 ≤ _; omega
  · show n + 30 + 7 ≤ _; omega
  · show n + 37 + 7 ≤ _; omega
  · show n + 44 + 8 ≤ _; omega

theorem groups_p (n : Nat) : (pAlts n).groupsIn n (n + 12) := by
  have key : ∀ m k, n ≤ m → m + pSize k ≤ n + 12 → (pAlt m k).groupsIn n (n + 12) := by
    intro m k h1 h2
    refine ⟨trivial, ?_⟩
    exact (groups_fields m _).mono h1 (by simp only [List.length_replicate]; omega)
  refine ⟨key _ _ ?_ ?_, key _ _ ?_ ?_⟩
  any_goals omega
  · show n + 3 ≤ _; omega
  · show n + 3 + 9 ≤ _; omega

theorem free_event (n : Nat) : (eventBody n).free = true := by
  have hj : (jAlts (n + 1)).free = true := by simp [jAlts, jAlt, Re.free, Re.space, free_fields]
  have hp : (pAlts (n + 54)).free = true := by simp [pAlts, pAlt, Re.free, Re.space, free_fields]
  simp [eventBody, Re.free, hj, hp, Re.chr]

theorem mt_event {n : Nat} {w : Str} {e} (h : Mt (eventBody n) w e) : ∃ j p eJ eP,
    w = j ++ '\n' :: (p ++ ['\n']) ∧ Shape jWidths j ∧ Shape pWidths p ∧
    e = (n + 53, p) :: eP ++ (n, j) :: eJ ∧ (∀ x ∈ eP, n + 54 ≤ x.1) := by
  unfold eventBody at h
  cases h with
  | seq h1 h2 =>
    cases h1 with
    | grp h3 =>
      cases h2 with
      | seq h4 h5 =>
        cases h4 with
        | cls hc =>
          cases h5 with
          | seq h6 h7 =>
            cases h6 with
            | grp h8 =>
              cases h7 with
              | cls hc' =>
                have e1 := eq_of_beq hc
                have e2 := eq_of_beq hc'
                subst e1; subst e2
                refine ⟨_, _, _, _, rfl, mt_j h3, mt_p h8, by rw [List.nil_append, List.append_nil], ?_⟩
                intro x hx
                exact (h8.groups (groups_p _) x hx).1

theorem event_mt (n : Nat) {j p : Str} (hj : Shape jWidths j) (hp : Shape pWidths p) :
    ∃ e, Mt (eventBody n) (j ++ '\n' :: (p ++ ['\n'])) e := by
  obtain ⟨eJ, h1⟩ := j_mt (n + 1) hj
  obtain ⟨eP, h2⟩ := p_mt (n + 54) hp
  exact ⟨_, .seq (.grp h1) (.seq (u := ['\n']) (.cls (by decide)) (.seq (.grp h2) (.cls (by decide))))⟩

/-- Two events at the start of the same text are the same. -/
theorem event_unique {j p j' p' x y : Str} (hj : Shape jWidths j) (hp : Shape pWidths p) (hj' : Shape jWidths j')
    (hp' : Shape pWidths p') (h : (j ++ '\n' :: (p ++ ['\n'])) ++ x = (j' ++ '\n' :: (p' ++ ['\n'])) ++ y) :
    j = j' ∧ p = p' ∧ x = y := by
  obtain ⟨a, u, rfl, -, hu, -⟩ := hj
  obtain ⟨b, v, rfl, -, hv, -⟩ := hp
  obtain ⟨a', u', rfl, -, hu', -⟩ := hj'
  obtain ⟨b', v', rfl, -, hv', -⟩ := hp'
  simp only [List.cons_append, List.append_assoc, List.nil_append, List.cons.injEq] at h
  obtain ⟨rfl, h⟩ := h
  obtain ⟨rfl, h1⟩ := nl_split hu hu' h
  obtain ⟨rfl, h2⟩ := List.cons.inj h1
  obtain ⟨rfl, h3⟩ := nl_split hv hv' h2
  exact ⟨rfl, rfl, h3⟩

/-- Reading the text of an event reads its two lines. -/
theorem evParse_lines {j p : Str} (hj : Shape jWidths j) (hp : Shape pWidths p) :
    evParse (j ++ '\n' :: (p ++ ['\n'])) = (do
      let j ← firstOk [jParse 0, jParse 1, jParse 2, jParse 3, jParse 4, jParse 5, jParse 6, jParse 7] j
      let p ← firstOk [pParse 0, pParse 1] p
      mkEvent j p) := by
  have hs := (full_iff (eventBody 1) (free_event 1) (j ++ '\n' :: (p ++ ['\n']))).2 (event_mt 1 hj hp)
  obtain ⟨m, hm⟩ := Option.isSome_iff_exists.1 hs
  obtain ⟨st, h1, h2⟩ := reMatch_some hm
  obtain ⟨a, ha, hb⟩ := step_seq.1 h1
  obtain ⟨b, hc, hd⟩ := step_seq.1 hb
  obtain ⟨rfl, _⟩ := step_bos.1 ha
  obtain ⟨rfl, he⟩ := step_eos.1 hd
  obtain ⟨w, e, g1, g2, -, g3⟩ := hc.mt (free_event 1)
  obtain ⟨j', p', eJ, eP, k1, k2, k3, k4, k5⟩ := mt_event g1
  have hu := event_unique (x := []) (y := []) hj hp k2 k3 (by
    rw [← k1, List.append_nil, List.append_nil]
    have g : j ++ '\n' :: (p ++ ['\n']) = w ++ st.rest := g2
    rw [he, List.append_nil] at g
    exact g)
  obtain ⟨rfl, rfl, -⟩ := hu
  have c54 : cap m 54 = some p := by
    rw [h2, cap_skip (by decide), g3, k4]; simp [cap]
  have c1 : cap m 1 = some j := by
    rw [h2, cap_skip (by decide), g3, k4]
    unfold cap
    rw [List.append_assoc, List.cons_append, List.lookup_cons]
    have : ∀ l : List (Nat × Str), (∀ x ∈ l, 55 ≤ x.1) → ∀ r, List.lookup 1 (l ++ r) = List.lookup 1 r := by
      intro l hl r
      induction l with
      | nil => rfl
      | cons x xs ih =>
        rw [List.cons_append]
        obtain ⟨a, b⟩ := x
        rw [List.lookup_cons]
        have h := hl (a, b) (by simp)
        have : (1 == a) = false := by simp at h ⊢; omega
        rw [this]
        exact ih (fun x hx => hl x (by simp [hx]))
    have h2 : ((1 : Nat) == 1 + 53) = false := by decide
    rw [h2]
    simp only
    rw [this eP (fun x hx => by have := k5 x hx; omega)]
    simp
  unfold evParse
  rw [show eventRe = .seq .bos (.seq (eventBody 1) .eos) from rfl, hm]
  simp only [tok_of_cap c1, tok_of_cap c54]

/-! ### Which classes accept a line -/

theorem jTab : ∀ k : Fin 8, [50, 60, 60, 70, 60, 70, 70, 80][k] + 1 = [51, 61, 61, 71, 61, 71, 71, 81][k] := by decide

theorem pTab : ∀ k : Fin 2, [39, 117][k] + 1 = [40, 118][k] := by decide

theorem jParse_width {k : Fin 8} {s : Str} (h : s.length ≠ [51, 61, 61, 71, 61, 71, 71, 81][k]) :
    jParse k s = .error .ptrac := by
  unfold jParse
  cases hm : reMatch (jRe k) s with
  | none => rfl
  | some m =>
    exfalso
    have := line_only _ _ _ hm
    rw [jSum k] at this
    apply h
    rw [this]
    exact jTab k

theorem pParse_width {k : Fin 2} {s : Str} (h : s.length ≠ [40, 118][k]) : pParse k s = .error .ptrac := by
  unfold pParse
  cases hm : reMatch (pRe k) s with
  | none => rfl
  | some m =>
    exfalso
    have := line_only _ _ _ hm
    rw [pSum k] at this
    apply h
    rw [this]
    exact pTab k

theorem nums_length {ts : List NumTy} {vs : List Num} (h : NumsOk ts vs) :
    (vs.flatMap (fun v => rjust 10 v.str)).length = 10 * ts.length := by
  induction h with
  | nil => rfl
  | cons h1 h2 ih => rw [List.flatMap_cons, List.length_append, ih, h1.read.2.1, List.length_cons]; omega

theorem jline_shape (j : JLine) (h : NumsOk (jTys j.layout) j.nums) : Shape jWidths j.str ∧
    j.str.length = [51, 61, 61, 71, 61, 71, 71, 81][j.layout] := by
  obtain ⟨e1, e2, e3, e4⟩ := codes_ok j.next
  have hl : (rjust 10 j.next.code ++ j.nums.flatMap (fun v => rjust 10 v.str)).length = 10 + 10 * (jTys j.layout).length := by
    rw [List.length_append, nums_length h, rjust_length e2]
  have hw : ∀ k : Fin 8, 10 + 10 * (jTys k).length ∈ jWidths ∧
      10 + 10 * (jTys k).length + 1 = [51, 61, 61, 71, 61, 71, 71, 81][k] := by decide
  refine ⟨⟨' ', _, rfl, by decide, ?_, ?_⟩, ?_⟩
  · intro hc
    rcases List.mem_append.1 hc with hc | hc
    · exact rjust_nl e3 hc
    · obtain ⟨v, hv, hc⟩ := List.mem_flatMap.1 hc
      exact (nums_widths h).2 _ (List.mem_map_of_mem hv) hc
  · rw [hl]; exact (hw _).1
  · rw [JLine.str, List.length_cons, hl]; exact (hw _).2

/-- The class that reads the lines of a class: the first of the same width. -/
def readLayout : Fin 8 → Fin 8 := fun k => [0, 1, 1, 3, 1, 3, 3, 7][k]

theorem firstOk_j (s : Str) (k : Fin 8) (j : JLine) (hk : readLayout k = k) (hl : s.length = [51, 61, 61, 71, 61, 71, 71, 81][k])
    (hj : jParse k s = .ok j) :
    firstOk [jParse 0, jParse 1, jParse 2, jParse 3, jParse 4, jParse 5, jParse 6, jParse 7] s = .ok (some j) := by
  have hcase : k = 0 ∨ k = 1 ∨ k = 3 ∨ k = 7 := (by decide : ∀ k : Fin 8, readLayout k = k → k = 0 ∨ k = 1 ∨ k = 3 ∨ k = 7) k hk
  rcases hcase with rfl | rfl | rfl | rfl
  · rw [firstOk, hj]
  · rw [firstOk, jParse_width (k := 0) (by rw [hl]; decide), firstOk, hj]
  · rw [firstOk, jParse_width (k := 0) (by rw [hl]; decide), firstOk, jParse_width (k := 1) (by rw [hl]; decide), firstOk,
      jParse_width (k := 2) (by rw [hl]; decide), firstOk, hj]
  · rw [firstOk, jParse_width (k := 0) (by rw [hl]; decide), firstOk, jParse_width (k := 1) (by rw [hl]; decide), firstOk,
      jParse_width (k := 2) (by rw [hl]; decide), firstOk, jParse_width (k := 3) (by rw [hl]; decide), firstOk,
      jParse_width (k := 4) (by rw [hl]; decide), firstOk, jParse_width (k := 5) (by rw [hl]; decide), firstOk,
      jParse_width (k := 6) (by rw [hl]; decide), firstOk, hj]

theorem firstOk_p (s : Str) (k : Fin 2) (p : PLine) (hl : s.length = [40, 118][k])
    (hp : pParse k s = .ok p) : firstOk [pParse 0, pParse 1] s = .ok (some p) := by
  have hcase : k = 0 ∨ k = 1 := (by decide : ∀ k : Fin 2, k = 0 ∨ k = 1) k
  rcases hcase with rfl | rfl
  · rw [firstOk, hp]
  · rw [firstOk, pParse_width (k := 0) (by rw [hl]; decide), firstOk, hp]

theorem pline_shape (k : Fin 2) (ds : List Dec) (hl : ds.length = pSize k) (h : ∀ d ∈ ds, Col 1 d) :
    ∃ s, PLine.str ⟨k, ds.map fun d => .num (.fin d)⟩ = .ok s ∧ Shape pWidths s ∧ s.length = [40, 118][k] := by
  obtain ⟨s, h1, h2⟩ := pline_round k ds hl h
  refine ⟨s, h1, ?_⟩
  have hm : ∃ m, reMatch (pRe k) s = some m := by
    unfold pParse at h2
    cases hm : reMatch (pRe k) s with
    | none => rw [hm] at h2; cases h2
    | some m => exact ⟨m, rfl⟩
  obtain ⟨m, hm⟩ := hm
  have hlen := line_only _ _ _ hm
  rw [pSum k] at hlen
  have hlen' : s.length = [40, 118][k] := by rw [hlen]; exact pTab k
  refine ⟨?_, hlen'⟩
  have hne : ds ≠ [] := by
    rintro rfl
    exact (by decide : ∀ k : Fin 2, ¬ 0 = pSize k) k hl
  obtain ⟨ts, t1, t2, t3⟩ := pline_str ds k hne
  rw [h1] at t1
  have t1 := Except.ok.inj t1
  refine ⟨' ', _, t1, by decide, ?_, ?_⟩
  · intro hc
    obtain ⟨f, hf, hc⟩ := List.mem_flatten.1 hc
    obtain ⟨t, ht, rfl⟩ := List.mem_map.1 hf
    rcases List.mem_cons.1 hc with hc | hc
    · exact absurd hc (by decide)
    · obtain ⟨i, hi, rfl⟩ := List.getElem_of_mem ht
      have e := t3 i hi (by omega)
      obtain ⟨t', e', hnl, -⟩ := realFmt_read 5 1 0 (ds[i]'(by omega))
      rw [e] at e'; cases e'
      exact hnl hc
  · rw [t1, List.length_cons] at hlen
    have : (ts.map (' ' :: ·)).flatten.length = [39, 117][k] := by omega
    rw [this]
    exact (by decide : ∀ k : Fin 2, [39, 117][k] ∈ pWidths) k

end Ptrac
