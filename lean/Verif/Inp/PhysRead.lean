import Verif.Inp.PhysSpec
import Verif.Inp.Bare
import Verif.Inp.FlatRead
/-!
# Electron physics cards are read place by place
-/
set_option maxRecDepth 100000
namespace Inp
open Py Types

/-- The field of a place. -/
def Slot.field : Slot → Field
  | .word => ⟨.plus true (.cls (.one .S)), .opt⟩
  | .pair => ⟨.lits c!"j j", .opt⟩

theorem Slot.mode (s : Slot) : s.field.mode = .opt := by cases s <;> rfl
theorem Slot.ng (s : Slot) : s.field.unit.ng = 0 := by cases s <;> rfl

theorem word_accepts {w : Str} (h1 : NoSpace w) (h2 : w ≠ []) : unitOk Slot.word.field.unit w = true := by
  rw [unitOk_iff _ (by decide +kernel) 1]
  exact ⟨[], mt_plus_cls.2 ⟨h2, fun c hc => by
    change (!isSpace c) = true
    rw [h1 c hc]; rfl, rfl⟩⟩

theorem isJ_iff {w : Str} : isJ w = true ↔ ∃ c, w = [c] ∧ lowerC c = 'j' := by
  unfold isJ
  rw [beq_iff_eq]
  constructor
  · intro h
    cases w with
    | nil => cases h
    | cons c t => cases t with
      | nil => exact ⟨c, rfl, by simpa using h⟩
      | cons d t => simp at h
  · rintro ⟨c, rfl, h⟩; simp [h]

theorem pair_start {α : Type} (n : Nat) (a : Str) (ws : List Str) (prev caps) (k : St → Option α) :
    run (unitRe Slot.pair.field n) ⟨prev, enc (a :: ws), caps⟩ k =
      run (.cls fun x => lowerC x == lowerC 'j') ⟨' ' :: prev, a ++ enc ws, caps⟩ (fun st =>
        run (.cls fun x => lowerC x == lowerC ' ') st (fun st => run (.cls fun x => lowerC x == lowerC 'j') st k)) := by
  unfold unitRe
  rw [run_seq, run_seq, enc_cons]
  simp [Re.chrI, run_cls_cons, run_eps, Slot.field, Pat.re, litRe, run_seq]

/-- The words `j j` at the front of a list of words. -/
theorem pair_yes {α : Type} (n : Nat) (a b : Str) (r : List Str) (ha : isJ a = true) (hb : isJ b = true)
    (prev caps) (k : St → Option α) :
    run (unitRe Slot.pair.field n) ⟨prev, enc (a :: b :: r), caps⟩ k = k ⟨(enc [a, b]).reverse ++ prev, enc r, caps⟩ := by
  obtain ⟨c, rfl, hc⟩ := isJ_iff.1 ha
  obtain ⟨d, rfl, hd⟩ := isJ_iff.1 hb
  have hj : lowerC 'j' = 'j' := by decide
  rw [pair_start]
  simp [run_cls_cons, hc, hd, hj, enc_cons]

/-- Other words there. -/
theorem pair_no {α : Type} (n : Nat) (ws : List Str) (hws : Words ws)
    (h : ∀ a b r, ws = a :: b :: r → (isJ a && isJ b) = false) (prev caps) (k : St → Option α)
    (hb : ∀ st : St, (∀ c ∈ st.rest.head?, c ≠ ' ') → st.rest ≠ [] → k st = none) :
    run (unitRe Slot.pair.field n) ⟨prev, enc ws, caps⟩ k = none := by
  have hj : lowerC 'j' = 'j' := by decide
  cases ws with
  | nil => exact unitRe_blocked _ _ _ _ (by simp)
  | cons a ws =>
    rw [pair_start]
    obtain ⟨ha1, ha2⟩ := hws a (by simp)
    cases a with
    | nil => exact absurd rfl ha2
    | cons c a =>
      rw [List.cons_append, run_cls_cons]
      by_cases hc : lowerC c = 'j'
      · simp only [hj, hc, beq_self_eq_true, if_true]
        cases a with
        | cons d a =>
          have hd : d ≠ ' ' := by
            intro e; subst e
            exact absurd (ha1 ' ' (by simp)) (by decide)
          simp only [List.cons_append, run_cls_cons, beq_iff_eq, lower_space, hd, if_false]
        | nil =>
          cases ws with
          | nil => rfl
          | cons b r =>
            obtain ⟨hb1, hb2⟩ := hws b (by simp)
            cases b with
            | nil => exact absurd rfl hb2
            | cons d b =>
              simp only [List.nil_append, enc_cons, List.cons_append, run_cls_cons, beq_self_eq_true, if_true]
              by_cases hd : lowerC d = 'j'
              · simp only [hd, beq_self_eq_true, if_true]
                cases b with
                | nil =>
                  have := h [c] [d] r rfl
                  rw [isJ_iff.2 ⟨c, rfl, hc⟩, isJ_iff.2 ⟨d, rfl, hd⟩] at this
                  cases this
                | cons x b =>
                  refine hb _ ?_ (by simp)
                  intro y hy e
                  simp only [List.cons_append, List.head?_cons, Option.mem_def, Option.some.injEq] at hy
                  subst hy; subst e
                  exact absurd (hb1 ' ' (by simp)) (by decide)
              · simp [hd]
      · simp [hj, hc]

/-- Filling a place and then the others, as the matcher does it. -/
theorem slots_sem {α : Type} (s : List Slot) (n : Nat)
    (k : St → Option α) (hk : ∀ st, st.rest ≠ [] → k st = none) (hs : ∀ st, st.rest = [] → (k st).isSome = true) :
    ∀ ws, Words ws → ∀ prev caps,
    (slots s ws = none → run (fieldsRe (s.map Slot.field) n) ⟨prev, enc ws, caps⟩ k = none) ∧
    (∀ vs, slots s ws = some vs → ∃ e, Good n (s.map Slot.field) vs e ∧
      run (fieldsRe (s.map Slot.field) n) ⟨prev, enc ws, caps⟩ k = k ⟨(enc ws).reverse ++ prev, [], e ++ caps⟩) := by
  induction s generalizing n with
  | nil =>
    intro ws hws prev caps
    rw [List.map_nil, fieldsRe_nil, run_eps]
    cases ws with
    | nil =>
      refine ⟨fun h => (by cases h), ?_⟩
      intro vs h
      simp only [slots, Option.some.injEq] at h
      subst h
      exact ⟨[], .nil, rfl⟩
    | cons w ws =>
      refine ⟨fun _ => hk _ (by simp), ?_⟩
      intro vs h; cases h
  | cons x s ih =>
    have ih := ih (n + x.field.pat.ng)
    intro ws hws prev caps
    rw [List.map_cons, fieldsRe_cons, run_seq, Field.re_eq, x.mode]
    simp only
    have skip := ih ws hws prev caps
    have hblk : ∀ st : St, (∀ c ∈ st.rest.head?, c ≠ ' ') → st.rest ≠ [] →
        close n (enc ws) (fun st => run (fieldsRe (s.map Slot.field) (n + x.field.pat.ng)) st k) st = none := by
      intro st h1 h2
      unfold close
      exact fieldsRe_blocked _ _ _ _ h1 h2 hk
    have optional : ∀ (r : Option Assign) (m : Re),
        ((r = none → run m ⟨prev, enc ws, caps⟩ (close n (enc ws) (fun st => run (fieldsRe (s.map Slot.field) (n + x.field.pat.ng)) st k)) = none) ∧
        (∀ vs, r = some vs → ∃ e, Good n (x.field :: s.map Slot.field) vs e ∧
          run m ⟨prev, enc ws, caps⟩ (close n (enc ws) (fun st => run (fieldsRe (s.map Slot.field) (n + x.field.pat.ng)) st k)) =
          k ⟨(enc ws).reverse ++ prev, [], e ++ caps⟩)) →
        (r.or ((slots s ws).map (none :: ·)) = none →
          run (.opt true (.grp n m)) ⟨prev, enc ws, caps⟩ (fun st => run (fieldsRe (s.map Slot.field) (n + x.field.pat.ng)) st k) = none) ∧
        (∀ vs, r.or ((slots s ws).map (none :: ·)) = some vs → ∃ e, Good n (x.field :: s.map Slot.field) vs e ∧
          run (.opt true (.grp n m)) ⟨prev, enc ws, caps⟩ (fun st => run (fieldsRe (s.map Slot.field) (n + x.field.pat.ng)) st k) =
            k ⟨(enc ws).reverse ++ prev, [], e ++ caps⟩) := by
      intro r m hm
      rw [run_opt_greedy, run_grp]
      constructor
      · intro h
        rw [Option.or_eq_none_iff, Option.map_eq_none_iff] at h
        have := hm.1 h.1
        unfold close at this
        rw [this, skip.1 h.2]; rfl
      · intro vs h
        cases r with
        | none =>
          rw [Option.none_or] at h
          obtain ⟨vs', h1, rfl⟩ := Option.map_eq_some_iff.1 h
          obtain ⟨e, hg, hr⟩ := skip.2 vs' h1
          refine ⟨e, .none hg, ?_⟩
          have := hm.1 rfl
          unfold close at this
          rw [this, hr]; rfl
        | some vs' =>
          simp only [Option.some_or, Option.some.injEq] at h
          subst h
          obtain ⟨e, hg, hr⟩ := hm.2 vs' rfl
          refine ⟨e, hg, ?_⟩
          unfold close at hr
          rw [hr]
          obtain ⟨x, hx⟩ := Option.isSome_iff_exists.1 (hs ⟨(enc ws).reverse ++ prev, [], e ++ caps⟩ rfl)
          rw [hx]; rfl
    -- the place filled with the words `t`, leaving `r`
    have fill : ∀ (t r : List Str) (e : List (Nat × Str)), ws = t ++ r → (∀ y ∈ e, n + 1 ≤ y.1 ∧ y.1 < n + 1 + x.field.unit.ng) →
        run (unitRe x.field (n + 1)) ⟨prev, enc ws, caps⟩ (close n (enc ws) (fun st => run (fieldsRe (s.map Slot.field) (n + x.field.pat.ng)) st k)) =
          close n (enc ws) (fun st => run (fieldsRe (s.map Slot.field) (n + x.field.pat.ng)) st k) ⟨(enc t).reverse ++ prev, enc r, e ++ caps⟩ →
        (((slots s r).map (some t :: ·) = none →
          run (unitRe x.field (n + 1)) ⟨prev, enc ws, caps⟩ (close n (enc ws) (fun st => run (fieldsRe (s.map Slot.field) (n + x.field.pat.ng)) st k)) = none) ∧
        (∀ vs, (slots s r).map (some t :: ·) = some vs → ∃ e, Good n (x.field :: s.map Slot.field) vs e ∧
          run (unitRe x.field (n + 1)) ⟨prev, enc ws, caps⟩ (close n (enc ws) (fun st => run (fieldsRe (s.map Slot.field) (n + x.field.pat.ng)) st k)) =
          k ⟨(enc ws).reverse ++ prev, [], e ++ caps⟩)) := by
      intro t r e hw he hrun
      rw [hrun]
      have hc : close n (enc ws) (fun st => run (fieldsRe (s.map Slot.field) (n + x.field.pat.ng)) st k)
            ⟨(enc t).reverse ++ prev, enc r, e ++ caps⟩
          = run (fieldsRe (s.map Slot.field) (n + x.field.pat.ng)) ⟨(enc t).reverse ++ prev, enc r, (n, enc t) :: e ++ caps⟩ k := by
        unfold close
        rw [hw]
        simp only
        rw [take_enc t r]; rfl
      rw [hc]
      obtain ⟨i1, i2⟩ := ih r (fun w hm => hws w (by rw [hw]; simp [hm])) ((enc t).reverse ++ prev) ((n, enc t) :: e ++ caps)
      simp only [Option.map_eq_none_iff, Option.map_eq_some_iff]
      refine ⟨i1, ?_⟩
      rintro vs ⟨vs', h1, rfl⟩
      obtain ⟨e', hg, hr'⟩ := i2 vs' h1
      refine ⟨e' ++ (n, enc t) :: e, .some ?_ hg, ?_⟩
      · intro y hy
        have := he y hy
        rw [Field.ng_pat]; omega
      · rw [hr', hw]; simp [enc_append]
    cases x with
    | word =>
      cases ws with
      | nil =>
        refine optional none _ ⟨fun _ => unitRe_blocked _ _ _ _ (by simp), by intro vs h; cases h⟩
      | cons w ws =>
        obtain ⟨h1, h2⟩ := hws w (by simp)
        obtain ⟨e, he, hr⟩ := (unit_words Slot.word.field (by decide +kernel) (n + 1) w ws hws prev caps _ hblk).1 (word_accepts h1 h2)
        exact optional _ _ (fill [w] ws e rfl he hr)
    | pair =>
      have no : (∀ a b r, ws = a :: b :: r → (isJ a && isJ b) = false) → _ :=
        fun h => optional none (unitRe Slot.pair.field (n + 1)) ⟨fun _ => pair_no _ ws hws h _ _ _ hblk, by intro vs h; cases h⟩
      cases ws with
      | nil => exact no (by intro a b r h; cases h)
      | cons a ws =>
        cases ws with
        | nil => exact no (by intro a b r h; cases h)
        | cons b r =>
          cases hj : isJ a && isJ b with
          | false =>
            have := no (by intro a' b' r' h; cases h; exact hj)
            simpa only [slots, hj, Bool.false_eq_true, if_false] using this
          | true =>
            rw [Bool.and_eq_true] at hj
            have := optional _ _ (fill [a, b] r [] rfl (by simp) (pair_yes (n + 1) a b r hj.1 hj.2 prev caps _))
            simpa only [slots, hj.1, hj.2, Bool.and_self, if_true] using this

/-! ## The class with the usual pattern -/

/-- The keyword. -/
def electronHead : Head := ⟨.no, c!"phys:e", .no, .no⟩

/-- `phys:e` with the usual pattern `( x)?` for its entries. -/
def Electron : Cls := { Tab.Phys_2 with shape := .flat electronHead (electronSlots.map Slot.field) }

theorem sim_cls (p : Char → Bool) : Sim 1 (.cls p) (.cls p) := by
  intro α β r x y k k' hs hk
  simp only [run]
  rw [← hs.rest]
  cases hx : x.rest with
  | nil => exact trivial
  | cons c cs =>
    simp only
    split
    · exact hk _ _ ⟨by rw [hs.prev], rfl, hs.caps⟩ (by simp [hx])
    · exact trivial

theorem sim_word (n : Nat) : Sim 0 ((Pat.opt (.ngrp (.seq (.lits c!" ") (.grp (.plus true (.cls (.one .S))))))).re n) (Slot.word.field.pat.re n) :=
  Sim.opt (Sim.bare ((sim_cls _).seq (Sim.refl _)))

theorem sim_pair (n : Nat) : Sim 0 ((Pat.opt (.ngrp (.seq (.lits c!" ") (.grp (.lits c!"j j"))))).re n) (Slot.pair.field.pat.re n) :=
  Sim.opt (Sim.bare (Pat.eats_sim (p := .lits c!"j j") rfl (n + 1)))

theorem electron_rel : ClsRel Tab.Phys_2 Electron where
  info := rfl
  init := rfl
  attrs := SlotsRel.refl _
  ng := rfl
  sim n := Sim.seq (Sim.refl _) <|
    Sim.seq (sim_word _) <| Sim.seq (sim_word _) <| Sim.seq (sim_word _) <| Sim.seq (sim_word _) <| Sim.seq (sim_word _) <|
    Sim.seq (sim_word _) <| Sim.seq (sim_word _) <| Sim.seq (sim_word _) <| Sim.seq (sim_word _) <| Sim.seq (sim_word _) <|
    Sim.seq (sim_word _) <| Sim.seq (sim_pair _) <| Sim.seq (sim_word _) <| Sim.seq (sim_word _) <| Sim.eps_right (sim_word _)

theorem slots_aligned : ∀ s : List Slot, aligned (s.map Slot.field) = true
  | [] => rfl
  | [_] => rfl
  | a :: b :: s => by
    have := slots_aligned (b :: s)
    simp only [List.map_cons, aligned, Bool.and_eq_true, beq_iff_eq] at this ⊢
    exact ⟨a.ng, this⟩

theorem electron_head (hd : Str) : readHead electronHead hd = if hd.map lowerC = c!"phys:e" then some [] else none := by
  have e1 : ∀ t, readKw c!"phys:e" hd = some t → readHead electronHead hd = readDes .no t := by
    intro t ht
    have : readHead electronHead hd = match readKw c!"phys:e" hd with
        | none => none | some t => (readDes .no t).map (fun d => [] ++ [] ++ d) := rfl
    rw [this, ht]
    cases t <;> rfl
  have e2 : readKw c!"phys:e" hd = none → readHead electronHead hd = none := by
    intro ht
    have : readHead electronHead hd = match readKw c!"phys:e" hd with
        | none => none | some t => (readDes .no t).map (fun d => [] ++ [] ++ d) := rfl
    rw [this, ht]
  have hlow : (c!"phys:e").map lowerC = c!"phys:e" := by decide
  by_cases hk : lower (hd.take (c!"phys:e").length) = lower c!"phys:e"
  · rw [e1 (hd.drop (c!"phys:e").length) (by unfold readKw; rw [if_pos hk])]
    cases hdr : hd.drop (c!"phys:e").length with
    | nil =>
      rw [List.drop_eq_nil_iff] at hdr
      rw [List.take_of_length_le hdr] at hk
      have : hd.map lowerC = c!"phys:e" := hk.trans hlow
      rw [if_pos this]; rfl
    | cons c t =>
      rw [if_neg]
      · rfl
      · intro h
        have h1 := congrArg List.length hdr
        have h2 := congrArg List.length h
        simp only [List.length_map, List.length_drop, List.length_cons, List.length_nil] at h1 h2
        omega
  · rw [e2 (by unfold readKw; rw [if_neg hk]), if_neg]
    intro h
    apply hk
    have h2 := congrArg List.length h
    rw [List.length_map] at h2
    rw [← h2, List.take_length]
    exact h.trans hlow.symm

/-- The whole pattern on a first word and entries. -/
theorem electron_match (hd : Str) (ws : List Str) (hw : Words (hd :: ws)) :
    ((readHead electronHead hd = none ∨ slots electronSlots ws = none) → reMatch Electron.re (hd ++ enc ws) = none) ∧
    (∀ vs, readHead electronHead hd = some [] → slots electronSlots ws = some vs →
      ∃ m, reMatch Electron.re (hd ++ enc ws) = some m ∧ (∀ i v, vs[i]? = some v → cap m (1 + i) = v.map enc)) := by
  let h := electronHead
  let fs := electronSlots.map Slot.field
  have hok : h.ok = true := by decide
  let k : St → Option (List (Nat × Str)) := fun st => run .eos st (fun st =>
    some ((0, (hd ++ enc ws).take ((hd ++ enc ws).length - st.rest.length)) :: st.caps))
  have hk : ∀ st, st.rest ≠ [] → k st = none := by
    intro st hs; show run .eos st _ = none; rw [run_eos, if_neg hs]
  have hs : ∀ st, st.rest = [] → (k st).isSome = true := by
    intro st hs; show (run .eos st _).isSome = true; rw [run_eos, if_pos hs]; rfl
  have hre : Electron.re = anchored ((Shape.flat h fs).pat.re 1) := rfl
  have hrun : reMatch (anchored ((Shape.flat h fs).pat.re 1)) (hd ++ enc ws) =
      run (headRe h 1) ⟨[], hd ++ enc ws, []⟩ (fun st => run (fieldsRe fs (1 + h.ng)) st k) := by
    unfold reMatch anchored
    rw [run_seq, run_bos, if_pos rfl, run_seq]
    simp only [Shape.pat]
    rw [run_cat_append]
    rfl
  rw [hre, hrun]
  have hhw := (Pat.cat h.pats).facts (h.word hok) 1
  have key := run_word (headRe h 1) hhw.1 (noSp_mt hhw.2.1) hd (enc ws) [] [] (enc_bnd ws)
    (fun st => run (fieldsRe fs (1 + h.ng)) st k) (by
      intro u v e huv hv
      apply fieldsRe_blocked _ _ _ _ _ _ hk
      · intro c hc hcs
        subst hcs
        cases v with
        | nil => exact hv rfl
        | cons d ds =>
          simp at hc; subst hc
          have := (hw hd (by simp)).1 ' ' (by rw [huv]; simp)
          exact absurd this (by decide)
      · simp [hv])
  have hsem := slots_sem electronSlots (1 + h.ng) k hk hs ws hw.tail
  have hno : readHead h hd = none → run (headRe h 1) ⟨[], hd ++ enc ws, []⟩ (fun st => run (fieldsRe fs (1 + h.ng)) st k) = none := by
    intro h1
    apply key.2
    rintro ⟨e, he⟩
    obtain ⟨vs, _, _, h2⟩ := head_mt hok he
    rw [h1] at h2; cases h2
  constructor
  · rintro (h1 | h1)
    · exact hno h1
    · cases hr : readHead h hd with
      | none => exact hno hr
      | some hv =>
        obtain ⟨e, he, hr⟩ := key.1 (head_full hr (hw hd (by simp)).1 1)
        rw [hr]
        exact (hsem _ _).1 h1
  · intro vs h1 h2
    obtain ⟨e, he, hr⟩ := key.1 (head_full h1 (hw hd (by simp)).1 1)
    obtain ⟨hv', hc, hl, h3⟩ := head_mt hok he
    obtain ⟨e2, hg, hr2⟩ := (hsem (hd.reverse ++ []) (e ++ [])).2 vs h2
    obtain ⟨g1, g2⟩ := good_get hg (slots_aligned _)
    refine ⟨(0, hd ++ enc ws) :: (e2 ++ e), ?_, ?_⟩
    · rw [hr, hr2]
      show run .eos _ _ = _
      rw [run_eos, if_pos rfl]
      simp only [List.length_nil, Nat.sub_zero, List.take_length, List.append_nil]
    · intro i v hi
      have hn : h.ng = 0 := rfl
      unfold cap
      have : (1 + i == 0) = false := by simp
      have g := g1 i v hi
      rw [hn] at g
      rw [List.lookup, this, lookup_append, g, lookup_none (e := e) (by
        intro x hx; have := hc.keys x hx; rw [hl, hn] at this; omega), Option.or_none]

/-- Every filled place has words. -/
theorem slots_filled : ∀ (s : List Slot) (ws : List Str) (vs : Assign), slots s ws = some vs →
    vs.length = s.length ∧ Assign.flat vs = ws ∧ ∀ v ∈ vs, ∀ t ∈ v, t ≠ [] := by
  intro s
  induction s with
  | nil =>
    intro ws vs h
    cases ws with
    | nil => simp only [slots, Option.some.injEq] at h; subst h; exact ⟨rfl, rfl, by simp⟩
    | cons => cases h
  | cons x s ih =>
    intro ws vs h
    have skip : ∀ vs, (slots s ws).map (none :: ·) = some vs →
        vs.length = s.length + 1 ∧ Assign.flat vs = ws ∧ ∀ v ∈ vs, ∀ t ∈ v, t ≠ [] := by
      intro vs h
      obtain ⟨vs', h1, rfl⟩ := Option.map_eq_some_iff.1 h
      obtain ⟨a, b, c⟩ := ih ws vs' h1
      refine ⟨by simp [a], b, ?_⟩
      intro v hv t ht
      rcases List.mem_cons.1 hv with rfl | hv
      · cases ht
      · exact c v hv t ht
    have fill : ∀ (t r : List Str) vs, t ≠ [] → ws = t ++ r → (slots s r).map (some t :: ·) = some vs →
        vs.length = s.length + 1 ∧ Assign.flat vs = ws ∧ ∀ v ∈ vs, ∀ t ∈ v, t ≠ [] := by
      intro t r vs ht hw h
      obtain ⟨vs', h1, rfl⟩ := Option.map_eq_some_iff.1 h
      obtain ⟨a, b, c⟩ := ih r vs' h1
      refine ⟨by simp [a], by rw [flat_cons_some, b, hw], ?_⟩
      intro v hv u hu
      rcases List.mem_cons.1 hv with rfl | hv
      · cases hu; exact ht
      · exact c v hv u hu
    cases x with
    | word =>
      cases ws with
      | nil => exact skip vs h
      | cons w ws =>
        simp only [slots] at h
        cases h1 : (slots s ws).map (some [w] :: ·) with
        | none => rw [h1, Option.none_or] at h; exact skip vs h
        | some vs' =>
          rw [h1] at h
          simp only [Option.some_or, Option.some.injEq] at h
          subst h
          exact fill [w] ws vs' (by simp) rfl h1
    | pair =>
      cases ws with
      | nil => exact skip vs h
      | cons a ws =>
        cases ws with
        | nil => exact skip vs h
        | cons b r =>
          simp only [slots] at h
          split at h
          · cases h1 : (slots s r).map (some [a, b] :: ·) with
            | none => rw [h1, Option.none_or] at h; exact skip vs h
            | some vs' =>
              rw [h1] at h
              simp only [Option.some_or, Option.some.injEq] at h
              subst h
              exact fill [a, b] r vs' (by simp) rfl h1
          · rw [Option.none_or] at h; exact skip vs h

theorem attrs_slots (ng : Nat) (m) : ∀ (as : List Attr) (vs : Assign) (i : Nat), as.length = vs.length →
    (∀ a ∈ as, a.many = false) → (∀ v ∈ vs, ∀ t ∈ v, t ≠ []) → Words (Assign.flat vs) →
    (∀ j v, vs[j]? = some v → cap m (i + 1 + j) = v.map enc) → i + vs.length ≤ ng →
    attrVals ng m i as = readVals as vs := by
  intro as
  induction as with
  | nil => intro vs i hl _ _ _ _ _; cases vs with
    | nil => rfl
    | cons => cases hl
  | cons a as ih =>
    intro vs i hl hm hne hws hc hng
    cases vs with
    | nil => cases hl
    | cons v vs =>
      simp only [List.length_cons] at hng hl
      have h1 : attrVal ng m i a = readVal a v := by
        unfold attrVal
        rw [if_neg (by omega), show cap m (i + 1) = v.map enc by simpa using hc 0 v (by simp)]
        cases v with
        | none => rfl
        | some ws =>
          cases ws with
          | nil => exact absurd rfl (hne _ (by simp) [] rfl)
          | cons w ws =>
            have hw' : Words (w :: ws) := fun x hx => hws x (by rw [flat_cons_some]; exact List.mem_append_left _ hx)
            have hst : strip (enc (w :: ws)) = w ++ enc ws := strip_enc w ws hw'
            have hj : join [' '] (w :: ws) = w ++ enc ws := by
              clear hst hw' hne hc hws ih
              induction ws generalizing w with
              | nil => simp [join]
              | cons v vs ih => rw [join_cons _ _ _ (by simp), ih]; simp
            simp only [Option.map_some, enc_cons] at hst ⊢
            rw [hst]
            simp only [Attr.parse, hm a (by simp), readVal, hj]
            rfl
      have h2 : attrVals ng m (i + 1) as = readVals as vs := by
        refine ih vs (i + 1) (by omega) (fun b hb => hm b (by simp [hb])) (fun u hu => hne u (by simp [hu])) ?_ ?_ (by omega)
        · intro x hx
          apply hws
          cases v with
          | none => exact hx
          | some ws => rw [flat_cons_some]; simp [hx]
        · intro j w hj
          have := hc (j + 1) w (by simpa using hj)
          rw [← this]; congr 1; omega
      simp only [attrVals, readVals, h1, h2]
      rfl

/-- Matching and converting is reading place by place. -/
theorem electron_read (hd : Str) (ws : List Str) (hw : Words (hd :: ws)) :
    (match reMatch Electron.re (hd ++ enc ws) with | none => .error .inp | some m => Electron.build m) = electronRead hd ws := by
  obtain ⟨m1, m2⟩ := electron_match hd ws hw
  unfold electronRead
  rw [electron_head] at m1 m2
  by_cases h : hd.map lowerC = c!"phys:e"
  · rw [if_pos h] at m1 m2 ⊢
    cases hs : slots electronSlots ws with
    | none => rw [m1 (.inr hs)]
    | some vs =>
      obtain ⟨m, hm, g⟩ := m2 vs rfl hs
      rw [hm]
      obtain ⟨f1, f2, f3⟩ := slots_filled _ _ _ hs
      have hl : vs.length = 15 := f1
      have := attrs_slots Electron.pat.ng m Electron.attrs vs 0 (by rw [hl]; rfl) (by decide +kernel) f3 (by rw [f2]; exact hw.tail)
        (by intro j v hj; rw [← g j v hj]) (by rw [hl]; decide +kernel)
      show Electron.build m = _
      unfold Cls.build
      rw [this]
      rfl
  · rw [if_neg h] at m1 ⊢
    rw [m1 (.inl rfl)]

end Inp
