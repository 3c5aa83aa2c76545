import Verif.State.HistoryLemmas
/-!
# C30, C31: setting the history count and the random seed
-/
namespace Props
open Py Types Inp State

/-! ## C30 -/

/-- **C30.** In every state reached from a well-formed one by any history of operations: `inp.nps = a`
succeeds exactly when `a` denotes a positive number; then `inp.nps` reads that number, every object
other than the first NPS card keeps its contents, that card keeps its second entry, the data block
keeps its cards in order, and a card is appended only if there was no NPS card; otherwise nothing
changes. -/
theorem C30_set (w0 : World) (hw : w0.Wf) (ops : List Op) (a : Arg) :
    let w := w0.run ops
    let w' := (w.setNps a).1
    ((w.setNps a).2 = none ↔ ∃ h, Positive a h) ∧
    ((w.setNps a).2 ≠ none → w' = w) ∧
    (∀ h, Positive a h →
      w'.nps = some h ∧
      (∀ r o, w.get r = some o → ¬ IsFirstNps w r → w'.get r = some o) ∧
      (∀ r, IsFirstNps w r → w'.data = w.data ∧ w'.heap.length = w.heap.length ∧
        ∀ n m, w.get r = some (.nps n m) → w'.get r = some (.nps h m)) ∧
      ((¬ ∃ r, IsFirstNps w r) → w'.data = w.data ++ [w.heap.length] ∧
        w'.heap.length = w.heap.length + 1 ∧ w'.get w.heap.length = some (.nps h none))) := by
  intro w w'
  have hwf : w.Wf := wf_run hw ops
  have hpos : ∀ h, Positive a h → (w.setNps a).2 = none ∧ (w'.nps = some h ∧
      (∀ r o, w.get r = some o → ¬ IsFirstNps w r → w'.get r = some o) ∧
      (∀ r, IsFirstNps w r → w'.data = w.data ∧ w'.heap.length = w.heap.length ∧
        ∀ n m, w.get r = some (.nps n m) → w'.get r = some (.nps h m)) ∧
      ((¬ ∃ r, IsFirstNps w r) → w'.data = w.data ++ [w.heap.length] ∧
        w'.heap.length = w.heap.length + 1 ∧ w'.get w.heap.length = some (.nps h none))) := by
    intro h hp
    have hc := (checkNpp_iff a h).2 hp
    cases hf : w.first Obj.isNps w.data with
    | some r =>
      have hfr := first_nps hf
      obtain ⟨_, o, ho, hq⟩ := first_some hf
      obtain ⟨n, m, rfl⟩ := nps_cases hq
      have hs := setNps_found hc hf ho
      have hw' : w' = w.put r (.nps h m) := congrArg Prod.fst hs
      have hget : ∀ x, w'.get x = if x = r then some (.nps h m) else w.get x := by
        intro x; rw [hw', get_put _ _ _ _ (by rw [ho]; rfl)]
      have hdata : w'.data = w.data := by rw [hw']; rfl
      have hlen : w'.heap.length = w.heap.length := by rw [hw']; simp [World.put]
      refine ⟨congrArg Prod.snd hs, ?_, ?_, ?_, ?_⟩
      · have : w'.first Obj.isNps w'.data = some r := by
          rw [hdata, ← hf]
          refine first_congr ?_
          intro x _
          exact hw' ▸ is_put w r (.nps h m) (.nps n m) Obj.isNps ho rfl x
        unfold World.nps
        rw [this]
        simp only [hget r, if_true]
      · intro x o hx hn
        rw [hget, if_neg]
        · exact hx
        · intro e; subst e; exact hn hfr
      · intro x hx
        have := nps_first hx
        rw [hf] at this; cases this
        refine ⟨hdata, hlen, ?_⟩
        intro n' m' hg
        rw [ho] at hg; cases hg
        rw [hget, if_pos rfl]
      · intro hno
        exact absurd ⟨r, hfr⟩ hno
    | none =>
      have hs := setNps_new hc hf
      have hw' : w' = (w.alloc (.nps h none)).1.setData (w.data ++ [w.heap.length]) := congrArg Prod.fst hs
      have hall : ∀ r ∈ w.data ++ [w.heap.length], (w.alloc (.nps h none)).1.is Obj.isData r = true := by
        intro r hr
        rw [List.mem_append] at hr
        rcases hr with hr | hr
        · exact is_alloc_mono _ _ _ _ (hwf.data r hr)
        · simp at hr; subst hr; rw [is_alloc_new]; rfl
      have hdata : w'.data = w.data ++ [w.heap.length] := by
        rw [hw', setData_data hall]
      have hget : ∀ x, w'.get x = if x = w.heap.length then some (.nps h none) else w.get x := by
        intro x; rw [hw', setData_get, get_alloc]
      have hno : ¬ ∃ r, IsFirstNps w r := by
        rintro ⟨r, hr⟩
        rw [nps_first hr] at hf; cases hf
      refine ⟨congrArg Prod.snd hs, ?_, ?_, ?_, ?_⟩
      · have : w'.first Obj.isNps w'.data = some w.heap.length := by
          rw [hdata]
          refine first_append_new ?_ ?_
          · rw [← hf]
            refine first_congr ?_
            intro x hx
            obtain ⟨o, ho, _⟩ := is_get (hwf.data x hx)
            rw [hw', setData_is, is_alloc _ _ _ _ (by rw [ho]; rfl)]
          · rw [hw', setData_is, is_alloc_new]; rfl
        unfold World.nps
        rw [this]
        simp only [hget, if_true]
      · intro x o hx hn
        rw [hget, if_neg]
        · exact hx
        · intro e; subst e; rw [get_fresh] at hx; cases hx
      · intro x hx
        exact absurd ⟨x, hx⟩ hno
      · intro _
        refine ⟨hdata, ?_, ?_⟩
        · rw [hw', setData_heap]; simp [World.alloc]
        · rw [hget, if_pos rfl]
  have hneg : (¬ ∃ h, Positive a h) → ∃ e, w.setNps a = (w, some e) := by
    intro hno
    refine setNps_error ?_
    intro n hn
    exact hno ⟨n, (checkNpp_iff a n).1 hn⟩
  refine ⟨⟨?_, ?_⟩, ?_, fun h hp => (hpos h hp).2⟩
  · intro hn
    refine Classical.byContradiction fun hno => ?_
    obtain ⟨e, he⟩ := hneg hno
    rw [he] at hn; cases hn
  · rintro ⟨h, hp⟩
    exact (hpos h hp).1
  · intro hn
    have hno : ¬ ∃ h, Positive a h := by
      rintro ⟨h, hp⟩
      exact hn (hpos h hp).1
    obtain ⟨e, he⟩ := hneg hno
    exact congrArg Prod.fst he

theorem demo_wf : demo.Wf := by
  constructor
  · decide
  · intro r l h s hs
    have hr : r < 5 := get_lt h
    have five : ∀ n : Nat, n < 5 → n = 0 ∨ n = 1 ∨ n = 2 ∨ n = 3 ∨ n = 4 := by omega
    rcases five r hr with rfl | rfl | rfl | rfl | rfl <;>
      simp [demo, World.get] at h
    subst h; simp at hs; subst hs; decide

-- the hypotheses of `C30_set` are met and its cases occur
example : Positive (.str c!"1e3") (.int (.num 1000)) := .str (by decide +kernel) (by decide)
example : ((demo.run [.npsmg 0 (.int 3)]).setNps (.int 9)).1 =
    ⟨[.nps (.int (.num 9)) (some (.int (.num 3))), .card .none, .nps (.int (.num 7)) none, .rand (some [4]), .ropt .none], [1, 0, 2, 3]⟩ := by decide +kernel
example : (demo.setNps (.int 0)) = (demo, some .inp) := by decide +kernel
example : ((demo.run [.data [1]]).setNps (.int 9)).1.data = [1, 5] := by decide +kernel

/-- **C30.** Assigning the same count twice is the same as assigning it once. -/
theorem C30_idempotent (w0 : World) (hw : w0.Wf) (ops : List Op) (a : Arg) :
    let w' := ((w0.run ops).setNps a).1
    (w'.setNps a).1 = w' := by
  intro w'
  by_cases hp : ∃ h, Positive a h
  · obtain ⟨h, hp⟩ := hp
    have hwf' : w'.Wf := wf_setNps (wf_run hw ops) a
    obtain ⟨h1, h2, h3⟩ := C30_set w0 hw ops a
    have hn := (h3 h hp).1
    have hc := (checkNpp_iff a h).2 hp
    change w'.nps = some h at hn
    unfold World.nps at hn
    split at hn
    · cases hn
    · rename_i r hr
      split at hn
      · rename_i n m hg
        cases hn
        rw [setNps_found hc hr hg]
        unfold World.put
        have : w'.heap.set r (.nps h m) = w'.heap := by
          refine List.ext_getElem? ?_
          intro i
          rw [List.getElem?_set]
          split
          · subst_vars
            have hl := get_lt hg
            rw [if_pos hl]; exact hg.symm
          · rfl
        simp only [this]
      · cases hn
  · obtain ⟨e, he⟩ : ∃ e, w'.setNps a = (w', some e) := setNps_error (fun n hn => hp ⟨n, (checkNpp_iff a n).1 hn⟩)
    rw [he]

/-- **C30.** Through any history of assignments to `inp.nps` and `inp.seed`, accepted or not: the
count read is the last one accepted (the original one if none was), and at most one NPS card is ever
created, and none if there was one. -/
theorem C30_history (w : World) (hw : w.Wf) (ops : List Op) (ho : ∀ o ∈ ops, Op.onInput o = true) :
    (QuietNps ops → (w.run ops).nps = w.nps ∧ (npsCards (w.run ops)).length = (npsCards w).length) ∧
    (∀ pre a post h, ops = pre ++ .nps a :: post → Positive a h → QuietNps post →
      (w.run ops).nps = some h ∧ (npsCards (w.run ops)).length = max 1 (npsCards w).length) := by
  have quiet : ∀ (ops : List Op) (w : World), w.Wf → (∀ o ∈ ops, Op.onInput o = true) → QuietNps ops →
      (w.run ops).nps = w.nps ∧ (npsCards (w.run ops)).length = (npsCards w).length := by
    intro ops
    induction ops with
    | nil => intro w _ _ _; exact ⟨rfl, rfl⟩
    | cons o ops ih =>
      intro w hw ho hq
      have hw' := wf_step hw o
      obtain ⟨i1, i2⟩ := ih (w.step o).1 hw' (fun x hx => ho x (List.mem_cons_of_mem _ hx))
        (fun a ha => hq a (List.mem_cons_of_mem _ ha))
      have hstep : (w.step o).1.nps = w.nps ∧ (npsCards (w.step o).1).length = (npsCards w).length := by
        have := ho o (by simp)
        cases o <;> simp only [Op.onInput] at this <;> try cases this
        · rename_i a
          obtain ⟨e, he⟩ : ∃ e, w.setNps a = (w, some e) :=
            setNps_error (fun n hn => hq a (by simp) ⟨n, (checkNpp_iff a n).1 hn⟩)
          simp only [World.step, he]; exact ⟨trivial, trivial⟩
        · rename_i a
          obtain ⟨h1, h2⟩ := nps_after_seed w hw a
          simp only [World.step]; exact ⟨h1, by rw [h2]⟩
      exact ⟨i1.trans hstep.1, i2.trans hstep.2⟩
  have count : ∀ (ops : List Op) (w : World), w.Wf → (∀ o ∈ ops, Op.onInput o = true) →
      max 1 (npsCards (w.run ops)).length = max 1 (npsCards w).length := by
    intro ops
    induction ops with
    | nil => intro w _ _; rfl
    | cons o ops ih =>
      intro w hw ho
      have := ih (w.step o).1 (wf_step hw o) (fun x hx => ho x (List.mem_cons_of_mem _ hx))
      change max 1 (npsCards ((w.step o).1.run ops)).length = _
      rw [this]
      have := ho o (by simp)
      cases o <;> simp only [Op.onInput] at this <;> try cases this
      · rename_i a
        simp only [World.step]
        rw [npsCards_after w hw a]
        split <;> omega
      · rename_i a
        simp only [World.step]
        rw [(nps_after_seed w hw a).2]
  refine ⟨quiet ops w hw ho, ?_⟩
  rintro pre a post h rfl hp hq
  have run_append : ∀ (p q : List Op) (w : World), w.run (p ++ q) = (w.run p).run q := by
    intro p
    induction p with
    | nil => intro q w; rfl
    | cons o p ih => intro q w; exact ih q _
  rw [run_append]
  have hwf := wf_run hw pre
  have hpo : ∀ o ∈ post, Op.onInput o = true := fun o h => ho o (by simp [h])
  obtain ⟨q1, q2⟩ := quiet post ((w.run pre).setNps a).1 (wf_setNps hwf a) hpo hq
  obtain ⟨s1, _, s3⟩ := C30_set w hw pre a
  constructor
  · exact q1.trans (s3 h hp).1
  · refine q2.trans ?_
    rw [npsCards_after _ hwf a, if_pos (s1.2 ⟨h, hp⟩)]
    exact count pre w hw (fun o h => ho o (by simp [h]))

example : (demo.run [.nps (.int 0), .nps (.str c!"1e3"), .seed (.int 3), .nps (.str c!"x"), .seed (.int 2)]).nps = some (.int (.num 1000)) ∧
    (npsCards (demo.run [.nps (.str c!"1e3"), .seed (.int 3)])).length = 2 := by decide +kernel

/-- What the second entry of an NPS card is set to: none, or a positive number. -/
def NpsmgOf (a : Arg) (m : Option Held) : Prop := (a = .none ∧ m = none) ∨ ∃ h, Positive a h ∧ m = some h

theorem checkNpsmg_iff (a : Arg) (m : Option Held) : checkNpsmg a = .ok m ↔ NpsmgOf a m := by
  have hn : a = .none ↔ holdInt a = .ok none := by
    cases a with
    | str s => simp only [holdInt]; split <;> simp
    | _ => simp [holdInt]
  have hrel : ∀ h, checkNpp a = .ok h ↔ checkNpsmg a = .ok (some h) := by
    intro h
    unfold checkNpp checkNpsmg
    cases holdInt a with
    | error e => simp
    | ok o =>
      cases o with
      | none => simp
      | some x =>
        simp only
        cases x.gt0 with
        | error e => simp
        | ok b => cases b <;> simp
  cases m with
  | some h =>
    rw [← hrel, checkNpp_iff]
    constructor
    · exact fun hp => .inr ⟨h, hp, rfl⟩
    · rintro (⟨-, h0⟩ | ⟨h', hp, h0⟩)
      · cases h0
      · cases h0; exact hp
  | none =>
    constructor
    · intro hc
      refine .inl ⟨?_, rfl⟩
      rw [hn]
      unfold checkNpsmg at hc
      cases hh : holdInt a with
      | error e => rw [hh] at hc; cases hc
      | ok o =>
        rw [hh] at hc
        cases o with
        | none => rfl
        | some x =>
          simp only at hc
          cases hg : x.gt0 with
          | error e => rw [hg] at hc; cases hc
          | ok b => rw [hg] at hc; cases b <;> cases hc
    · rintro (⟨h0, -⟩ | ⟨h', hp, h0⟩)
      · subst h0; rfl
      · cases h0

/-- **C30, the card itself:** assigning an entry of an NPS card changes this entry of this card to the number given and nothing else; the second entry can be taken
away; anything but a positive number is refused and changes nothing.  A new card holds both entries it is made of and is not yet in the data block. -/
theorem C30_card (w : World) (a b : Arg) :
    (∀ r n m, w.get r = some (.nps n m) →
      ((∃ e, w.step (.npp r a) = (w, some e) ∧ ¬ ∃ h, Positive a h) ∨
        ∃ h, Positive a h ∧ (w.step (.npp r a)).2 = none ∧ (w.step (.npp r a)).1.get r = some (.nps h m) ∧
          (∀ x, x ≠ r → (w.step (.npp r a)).1.get x = w.get x) ∧ (w.step (.npp r a)).1.data = w.data) ∧
      ((∃ e, w.step (.npsmg r a) = (w, some e) ∧ ¬ ∃ m', NpsmgOf a m') ∨
        ∃ m', NpsmgOf a m' ∧ (w.step (.npsmg r a)).2 = none ∧ (w.step (.npsmg r a)).1.get r = some (.nps n m') ∧
          (∀ x, x ≠ r → (w.step (.npsmg r a)).1.get x = w.get x) ∧ (w.step (.npsmg r a)).1.data = w.data)) ∧
    ((∃ e, w.step (.newNps a b) = (w, some e) ∧ ¬ ∃ h m, Positive a h ∧ NpsmgOf b m) ∨
      ∃ h m, Positive a h ∧ NpsmgOf b m ∧ (w.step (.newNps a b)).2 = none ∧ (w.step (.newNps a b)).1.get w.heap.length = some (.nps h m) ∧
        (∀ x, x ≠ w.heap.length → (w.step (.newNps a b)).1.get x = w.get x) ∧ (w.step (.newNps a b)).1.data = w.data) := by
  refine ⟨fun r n m hr => ⟨?_, ?_⟩, ?_⟩
  · cases hc : checkNpp a with
    | error e =>
      refine .inl ⟨e, by simp only [World.step, hr, hc], ?_⟩
      rintro ⟨h, hp⟩
      rw [(checkNpp_iff a h).2 hp] at hc
      cases hc
    | ok h =>
      have e : w.step (.npp r a) = (w.put r (.nps h m), none) := by simp only [World.step, hr, hc]
      rw [e]
      refine .inr ⟨h, (checkNpp_iff a h).1 hc, rfl, ?_, fun x hx => ?_, rfl⟩
      · rw [get_put w r _ r (by simp [hr]), if_pos rfl]
      · rw [get_put w r _ x (by simp [hr]), if_neg hx]
  · cases hc : checkNpsmg a with
    | error e =>
      refine .inl ⟨e, by simp only [World.step, hr, hc], ?_⟩
      rintro ⟨h, hp⟩
      rw [(checkNpsmg_iff a h).2 hp] at hc
      cases hc
    | ok h =>
      have e : w.step (.npsmg r a) = (w.put r (.nps n h), none) := by simp only [World.step, hr, hc]
      rw [e]
      refine .inr ⟨h, (checkNpsmg_iff a h).1 hc, rfl, ?_, fun x hx => ?_, rfl⟩
      · rw [get_put w r _ r (by simp [hr]), if_pos rfl]
      · rw [get_put w r _ x (by simp [hr]), if_neg hx]
  · cases hc : checkNpp a with
    | error e =>
      refine .inl ⟨e, by simp only [World.step, hc], ?_⟩
      rintro ⟨h, m, hp, -⟩
      rw [(checkNpp_iff a h).2 hp] at hc
      cases hc
    | ok h =>
      cases hd : checkNpsmg b with
      | error e =>
        refine .inl ⟨e, by simp only [World.step, hc, hd], ?_⟩
        rintro ⟨h, m, -, hp⟩
        rw [(checkNpsmg_iff b m).2 hp] at hd
        cases hd
      | ok m =>
        have e : w.step (.newNps a b) = ((w.alloc (.nps h m)).1, none) := by simp only [World.step, hc, hd]
        rw [e]
        refine .inr ⟨h, m, (checkNpp_iff a h).1 hc, (checkNpsmg_iff b m).1 hd, rfl, ?_, fun x hx => ?_, rfl⟩
        · rw [get_alloc, if_pos rfl]
        · rw [get_alloc, if_neg hx]

example : demo.step (.npsmg 0 (.int 3)) = (⟨[.nps (.int (.num 5)) (some (.int (.num 3))), .card .none, .nps (.int (.num 7)) none, .rand (some [4]), .ropt .none], [1, 0, 2, 3]⟩, none) ∧
    demo.step (.npsmg 0 (.int (-3))) = (demo, some .inp) := by decide +kernel

/-! ## C31 -/

/-- **C31.** In every state reached from a well-formed one by any history of operations:
`inp.seed = a` succeeds exactly when `a` denotes an odd number, and otherwise nothing changes.  When
it succeeds `inp.seed` reads that number, and exactly this has changed: the first SEED option of the
first RAND card; or, if that card has none, one SEED option was appended to its options; or, if there
is no RAND card, one with this option was appended to the data block. -/
theorem C31_set (w0 : World) (hw : w0.Wf) (ops : List Op) (a : Arg) :
    let w := w0.run ops
    let w' := (w.setSeed a).1
    ((w.setSeed a).2 = none ↔ ∃ h, OddSeed a h) ∧
    ((w.setSeed a).2 ≠ none → w' = w) ∧
    (∀ h, OddSeed a h →
      w'.seed = some h ∧
      (∀ s, IsSeedSlot w s → w'.data = w.data ∧ w'.heap.length = w.heap.length ∧
        w'.get s = some (.seed h) ∧ ∀ x, x ≠ s → w'.get x = w.get x) ∧
      (∀ r l, IsFirstRand w r → (¬ ∃ s, IsSeedSlot w s) → OptsOf w r l →
        w'.data = w.data ∧ w'.heap.length = w.heap.length + 1 ∧
        w'.get r = some (.rand (some (l ++ [w.heap.length]))) ∧ w'.get w.heap.length = some (.seed h) ∧
        ∀ x, x ≠ r → x ≠ w.heap.length → w'.get x = w.get x) ∧
      ((¬ ∃ r, IsFirstRand w r) →
        w'.data = w.data ++ [w.heap.length + 1] ∧ w'.heap.length = w.heap.length + 2 ∧
        w'.get (w.heap.length + 1) = some (.rand (some [w.heap.length])) ∧ w'.get w.heap.length = some (.seed h) ∧
        ∀ x, x ≠ w.heap.length → x ≠ w.heap.length + 1 → w'.get x = w.get x)) := by
  intro w w'
  have hwf : w.Wf := wf_run hw ops
  have hneg : (¬ ∃ h, OddSeed a h) → ∃ e, w.setSeed a = (w, some e) := by
    intro hno
    refine setSeed_error ?_
    intro n hn
    exact hno ⟨n, (checkSeed_iff a n).1 hn⟩
  refine ⟨⟨?_, ?_⟩, ?_, ?_⟩
  · intro hn
    refine Classical.byContradiction fun hno => ?_
    obtain ⟨e, he⟩ := hneg hno
    rw [he] at hn; cases hn
  · rintro ⟨h, hp⟩
    exact (seed_effect w hwf hp).1
  · intro hn
    have hno : ¬ ∃ h, OddSeed a h := by
      rintro ⟨h, hp⟩
      exact hn (seed_effect w hwf hp).1
    obtain ⟨e, he⟩ := hneg hno
    exact congrArg Prod.fst he
  · intro h hp
    obtain ⟨_, he⟩ := seed_effect w hwf hp
    change (∃ r s, w.first Obj.isRand w.data = some r ∧ w.first Obj.isSeed (w.opts r) = some s ∧
        w'.data = w.data ∧ w'.heap.length = w.heap.length ∧ ∀ x, w'.get x = if x = s then some (.seed h) else w.get x) ∨
     (∃ r, w.first Obj.isRand w.data = some r ∧ w.first Obj.isSeed (w.opts r) = none ∧
        w'.data = w.data ∧ w'.heap.length = w.heap.length + 1 ∧
        ∀ x, w'.get x = if x = r then some (.rand (some (w.opts r ++ [w.heap.length]))) else
          if x = w.heap.length then some (.seed h) else w.get x) ∨
     (w.first Obj.isRand w.data = none ∧ w'.data = w.data ++ [w.heap.length + 1] ∧
        w'.heap.length = w.heap.length + 2 ∧
        ∀ x, w'.get x = if x = w.heap.length + 1 then some (.rand (some [w.heap.length])) else
          if x = w.heap.length then some (.seed h) else w.get x) at he
    have hdat : ∀ x ∈ w.data, ∃ o, w.get x = some o := by
      intro x hx
      obtain ⟨o, ho, _⟩ := is_get (hwf.data x hx)
      exact ⟨o, ho⟩
    rcases he with ⟨r, s, hr, hs, hd, hl, hx⟩ | ⟨r, hr, hs, hd, hl, hx⟩ | ⟨hr, hd, hl, hx⟩
    · obtain ⟨_, o, ho, hq⟩ := first_some hr
      obtain ⟨l, rfl⟩ := rand_cases hq
      obtain ⟨_, os, hos, hqs⟩ := first_some hs
      obtain ⟨n, rfl⟩ := seed_cases hqs
      have hw' : w' = w.put s (.seed h) := by
        have := setSeed_found ((checkSeed_iff a h).2 hp) hr hs
        exact congrArg Prod.fst this
      have his : ∀ p : Obj → Bool, p (.seed h) = p (.seed n) → ∀ x, w'.is p x = w.is p x :=
        fun p hpp x => hw' ▸ is_put w s (.seed h) (.seed n) p hos hpp x
      have hrs : r ≠ s := fun e => by subst e; rw [ho] at hos; cases hos
      refine ⟨?_, ?_, ?_, ?_⟩
      · have h1 : w'.first Obj.isRand w'.data = some r := by
          rw [hd, ← hr]; exact first_congr (fun x _ => his _ rfl x)
        have h2 : w'.opts r = w.opts r := by unfold World.opts; rw [hx, if_neg hrs]
        have h3 : w'.first Obj.isSeed (w'.opts r) = some s := by
          rw [h2, ← hs]; exact first_congr (fun x _ => his _ rfl x)
        unfold World.seed
        simp only [h1, h3, hx, if_true]
      · intro s' hs'
        obtain ⟨r', hr', hs'⟩ := seed_slot.1 hs'
        rw [hr] at hr'; cases hr'
        rw [hs] at hs'; cases hs'
        exact ⟨hd, hl, by rw [hx, if_pos rfl], fun x hne => by rw [hx, if_neg hne]⟩
      · intro r' l' hr' hno
        exact absurd ⟨s, seed_slot.2 ⟨r, hr, hs⟩⟩ hno
      · intro hno
        exact absurd ⟨r, first_rand.1 hr⟩ hno
    · obtain ⟨hrm, o, ho, hq⟩ := first_some hr
      obtain ⟨l, rfl⟩ := rand_cases hq
      have hrl : r ≠ w.heap.length := fun e => by rw [e, get_fresh] at ho; cases ho
      have hoptmem : ∀ x ∈ w.opts r, x ≠ r ∧ x ≠ w.heap.length := by
        intro x hxm
        obtain ⟨ox, hox, hpx⟩ := is_get (opts_wf hwf r x hxm)
        constructor
        · intro e; subst e; rw [ho] at hox; cases hox; cases hpx
        · intro e; subst e; rw [get_fresh] at hox; cases hox
      refine ⟨?_, ?_, ?_, ?_⟩
      · have h1 : w'.first Obj.isRand w'.data = some r := by
          rw [hd, ← hr]
          refine first_congr ?_
          intro x hxm
          unfold World.is
          rw [hx]
          by_cases e : x = r
          · subst e; rw [if_pos rfl, ho]; rfl
          · obtain ⟨ox, hox⟩ := hdat x hxm
            have : x ≠ w.heap.length := fun e => by rw [e, get_fresh] at hox; cases hox
            rw [if_neg e, if_neg this]
        have h2 : w'.opts r = w.opts r ++ [w.heap.length] := by unfold World.opts; rw [hx, if_pos rfl]; rfl
        have h3 : w'.first Obj.isSeed (w'.opts r) = some w.heap.length := by
          rw [h2]
          refine first_append_new ?_ ?_
          · rw [← hs]
            refine first_congr ?_
            intro x hxm
            obtain ⟨e1, e2⟩ := hoptmem x hxm
            unfold World.is
            rw [hx, if_neg e1, if_neg e2]
          · unfold World.is
            rw [hx, if_neg (fun e => hrl e.symm), if_pos rfl]; rfl
        unfold World.seed
        simp only [h1, h3, hx]
        rw [if_neg (fun e => hrl e.symm), if_pos trivial]
      · intro s hsl
        obtain ⟨r', hr', hs'⟩ := seed_slot.1 hsl
        rw [hr] at hr'; cases hr'
        rw [hs] at hs'; cases hs'
      · intro r' l' hr' _ hol
        have := first_rand.2 hr'
        rw [hr] at this; cases this
        have hl' := (opts_of hr' l').2 hol
        refine ⟨hd, hl, ?_, ?_, ?_⟩
        · rw [hx, if_pos rfl, hl']
        · rw [hx, if_neg (fun e => hrl e.symm), if_pos rfl]
        · intro x e1 e2; rw [hx, if_neg e1, if_neg e2]
      · intro hno
        exact absurd ⟨r, first_rand.1 hr⟩ hno
    · refine ⟨?_, ?_, ?_, ?_⟩
      · have hold : ∀ x, (∃ o, w.get x = some o) → w'.get x = w.get x := by
          rintro x ⟨o, ho⟩
          have hlt := get_lt ho
          rw [hx, if_neg (fun e => by subst e; exact absurd hlt (Nat.not_lt.2 (Nat.le_succ _))),
            if_neg (fun e => by subst e; exact absurd hlt (Nat.lt_irrefl _))]
        have h1 : w'.first Obj.isRand w'.data = some (w.heap.length + 1) := by
          rw [hd]
          refine first_append_new ?_ ?_
          · rw [← hr]
            refine first_congr ?_
            intro x hxm
            unfold World.is
            rw [hold x (hdat x hxm)]
          · unfold World.is
            rw [hx, if_pos rfl]; rfl
        have h2 : w'.opts (w.heap.length + 1) = [w.heap.length] := by unfold World.opts; rw [hx, if_pos rfl]
        have h3 : w'.get w.heap.length = some (.seed h) := by
          rw [hx, if_neg (Nat.ne_of_lt (Nat.lt_succ_self _)), if_pos rfl]
        have h4 : w'.first Obj.isSeed (w'.opts (w.heap.length + 1)) = some w.heap.length := by
          rw [h2]
          unfold World.first World.is
          simp [h3, Obj.isSeed]
        unfold World.seed
        simp only [h1, h4, h3]
      · intro s hsl
        obtain ⟨r', hr', _⟩ := seed_slot.1 hsl
        rw [hr] at hr'; cases hr'
      · intro r' l' hr'
        have := first_rand.2 hr'
        rw [hr] at this; cases this
      · intro _
        refine ⟨hd, hl, by rw [hx, if_pos rfl], ?_, ?_⟩
        · rw [hx, if_neg (Nat.ne_of_lt (Nat.lt_succ_self _)), if_pos rfl]
        · intro x e1 e2; rw [hx, if_neg e2, if_neg e1]

example : OddSeed (.flt 12 2) (.flt 12 2) := .flt (k := 1) (by decide)
-- the three cases and a rejected even seed
example : (demo.setSeed (.int 3)).1.seed = some (.int (.num 3)) ∧ (demo.setSeed (.int 3)).1.get 3 = some (.rand (some [4, 5])) := by decide +kernel
example : (demo.run [.seed (.int 3), .seed (.int 5)]).heap.length = 6 ∧ (demo.run [.seed (.int 3), .seed (.int 5)]).seed = some (.int (.num 5)) := by decide +kernel
example : ((demo.run [.data [0]]).setSeed (.int 3)).1.data = [0, 6] := by decide +kernel
example : demo.setSeed (.int 4) = (demo, some .inp) := by decide +kernel

/-- **C31.** Through any history of assignments to `inp.nps` and `inp.seed`, accepted or not, the seed
read is the last one accepted, or the original one if none was. -/
theorem C31_history (w : World) (hw : w.Wf) (ops : List Op) (ho : ∀ o ∈ ops, Op.onInput o = true) :
    (QuietSeed ops → (w.run ops).seed = w.seed) ∧
    (∀ pre a post h, ops = pre ++ .seed a :: post → OddSeed a h → QuietSeed post → (w.run ops).seed = some h) := by
  have quiet : ∀ (ops : List Op) (w : World), w.Wf → (∀ o ∈ ops, Op.onInput o = true) → QuietSeed ops →
      (w.run ops).seed = w.seed := by
    intro ops
    induction ops with
    | nil => intro w _ _ _; rfl
    | cons o ops ih =>
      intro w hw ho hq
      have i1 := ih (w.step o).1 (wf_step hw o) (fun x hx => ho x (List.mem_cons_of_mem _ hx))
        (fun a ha => hq a (List.mem_cons_of_mem _ ha))
      refine i1.trans ?_
      have := ho o (by simp)
      cases o <;> simp only [Op.onInput] at this <;> try cases this
      · exact seed_after_nps w hw _
      · rename_i a
        obtain ⟨e, he⟩ : ∃ e, w.setSeed a = (w, some e) :=
          setSeed_error (fun n hn => hq a (by simp) ⟨n, (checkSeed_iff a n).1 hn⟩)
        simp only [World.step, he]
  refine ⟨quiet ops w hw ho, ?_⟩
  rintro pre a post h rfl hp hq
  have run_append : ∀ (p q : List Op) (w : World), w.run (p ++ q) = (w.run p).run q := by
    intro p
    induction p with
    | nil => intro q w; rfl
    | cons o p ih => intro q w; exact ih q _
  rw [run_append]
  have hwf := wf_run hw pre
  have q1 := quiet post ((w.run pre).setSeed a).1 (wf_setSeed hwf a) (fun o h => ho o (by simp [h])) hq
  exact q1.trans ((C31_set w hw pre a).2.2 h hp).1

example : (demo.run [.seed (.int 3), .nps (.int 4), .seed (.int 8), .nps (.int 0)]).seed = some (.int (.num 3)) := by decide +kernel

end Props
