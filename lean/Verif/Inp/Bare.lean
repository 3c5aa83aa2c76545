import Verif.Inp.FlatLemmas
/-!
# Patterns that capture entries without their blank

Eight patterns of the source write `(?: (x))` where the others write `( x)`: the captured text lacks the leading blank.
The blank is stripped before the text is converted (_card.py:36-37, _option.py:38-40), so such a class reads every text
like the class with the usual pattern.  `Cls.plainly` is that class.
-/
set_option maxRecDepth 100000
namespace Inp
open Py Types

/-- The pattern does not match the empty text: alternatives of non-empty literals. -/
def Pat.eats : Pat → Bool
  | .lits s => s != []
  | .alt a b => a.eats && b.eats
  | _ => false

/-- The field that a piece of a pattern stands for: `(?: (x))`, `(?: (x))?` or `((?: x)+?)`. -/
def Pat.field? : Pat → Option Field
  | .ngrp (.seq (.lits b) (.grp a)) => if b == c!" " && a.eats then some ⟨a, .req⟩ else none
  | .opt (.ngrp (.seq (.lits b) (.grp a))) => if b == c!" " && a.eats then some ⟨a, .opt⟩ else none
  | .grp (.plus false (.ngrp (.seq (.lits b) u))) => if b == c!" " then some ⟨u, .many⟩ else none
  | _ => none

/-- The fields of a concatenation. -/
def Pat.fields? : Pat → Option (List Field)
  | .seq a b => match a.field?, b.fields? with
    | some f, some fs => some (f :: fs)
    | _, _ => none
  | p => match p.field? with
    | some f => some [f]
    | none => none

/-- A keyword, with or without a number, and fields. -/
def Pat.bare? : Pat → Option (Head × List Field)
  | .seq (.lits kw) (.seq (.grp (.plus true (.cls (.one .d)))) p) =>
    match p.fields? with
    | some fs => some (⟨.no, kw, .req, .no⟩, fs)
    | none => none
  | .seq (.lits kw) p =>
    match p.fields? with
    | some fs => some (⟨.no, kw, .no, .no⟩, fs)
    | none => none
  | _ => none

/-- The class with the usual pattern `( x)` for its entries; the class itself if its pattern is already usual or is
something else. -/
def Cls.plainly (c : Cls) : Cls :=
  match c.shape with
  | .flat _ _ => c
  | .other p => match p.bare? with
    | some (h, fs) => { c with shape := .flat h fs }
    | none => c

/-! ## Matching with related captures -/

/-- The same groups with texts that differ in surrounding blanks only. -/
def CapRel : List (Nat × Str) → List (Nat × Str) → Prop
  | [], [] => True
  | (i, t) :: c, (j, u) :: d => i = j ∧ strip t = strip u ∧ (t = [] ↔ u = []) ∧ CapRel c d
  | _, _ => False

theorem CapRel.refl : ∀ c, CapRel c c
  | [] => trivial
  | (_, _) :: c => ⟨rfl, rfl, Iff.rfl, CapRel.refl c⟩

structure StRel (x y : St) : Prop where
  prev : x.prev = y.prev
  rest : x.rest = y.rest
  caps : CapRel x.caps y.caps

/-- Both fail, or both succeed with related results. -/
def EndRel {α β : Type} (r : α → β → Prop) : Option α → Option β → Prop
  | none, none => True
  | some a, some b => r a b
  | _, _ => False

theorem EndRel.or {α β : Type} {r : α → β → Prop} {a a' : Option α} {b b' : Option β} (h : EndRel r a b) (h' : EndRel r a' b') :
    EndRel r (a.or a') (b.or b') := by
  cases a <;> cases b <;> first | exact h.elim | exact h' | exact h

/-- The two expressions match alike, consuming at least `d` characters. -/
def Sim (d : Nat) (R R' : Re) : Prop :=
  ∀ (α β : Type) (r : α → β → Prop) (x y : St) (k : St → Option α) (k' : St → Option β), StRel x y →
    (∀ x' y', StRel x' y' → x'.rest.length + d ≤ x.rest.length → EndRel r (k x') (k' y')) → EndRel r (run R x k) (run R' y k')

theorem Sim.mono {d R R'} (h : Sim d R R') : Sim 0 R R' :=
  fun _ _ r x y k k' hs hk => h _ _ r x y k k' hs (fun x' y' h1 h2 => hk x' y' h1 (by omega))

theorem Sim.seq {d e A A' B B'} (ha : Sim d A A') (hb : Sim e B B') : Sim (d + e) (.seq A B) (.seq A' B') := by
  intro α β r x y k k' hs hk
  simp only [run]
  exact ha _ _ r x y _ _ hs (fun x' y' h1 h2 => hb _ _ r x' y' k k' h1 (fun x2 y2 h3 h4 => hk x2 y2 h3 (by omega)))

theorem Sim.alt {d A A' B B'} (ha : Sim d A A') (hb : Sim d B B') : Sim d (.alt A B) (.alt A' B') := by
  intro α β r x y k k' hs hk
  simp only [run]
  exact (ha _ _ r x y k k' hs hk).or (hb _ _ r x y k k' hs hk)

theorem Sim.opt {A A' g} (ha : Sim 0 A A') : Sim 0 (.opt g A) (.opt g A') := by
  intro α β r x y k k' hs hk
  cases g
  · simp only [run]; exact (hk x y hs (by omega)).or (ha _ _ r x y k k' hs hk)
  · simp only [run]; exact (ha _ _ r x y k k' hs hk).or (hk x y hs (by omega))

theorem Sim.star {A A' g} (ha : Sim 0 A A') : Sim 0 (.star g A) (.star g A') := by
  intro α β r x y k k' hs hk
  simp only [run]
  rw [hs.rest]
  rw [show x.rest.length = y.rest.length by rw [hs.rest]] at hk
  have key : ∀ (n : Nat) (x y : St), StRel x y → (∀ x' y', StRel x' y' → x'.rest.length ≤ x.rest.length → EndRel r (k x') (k' y')) →
      EndRel r (starRun g (run A) n x k) (starRun g (run A') n y k') := by
    intro n
    induction n with
    | zero => intro x y hs hk; exact hk x y hs (Nat.le_refl _)
    | succ n ih =>
      intro x y hs hk
      have hm := ha _ _ r x y (fun st' => if st'.rest.length < x.rest.length then starRun g (run A) n st' k else none)
        (fun st' => if st'.rest.length < y.rest.length then starRun g (run A') n st' k' else none) hs (by
          intro x' y' h1 h2
          rw [← h1.rest, ← hs.rest]
          by_cases hl : x'.rest.length < x.rest.length
          · simp only [if_pos hl]
            exact ih x' y' h1 (fun x2 y2 h3 h4 => hk x2 y2 h3 (by omega))
          · simp only [if_neg hl]; exact trivial)
      have h0 := hk x y hs (Nat.le_refl _)
      simp only [starRun]
      cases g
      · exact h0.or hm
      · exact hm.or h0
  exact key _ x y hs (fun x' y' h1 h2 => hk x' y' h1 (by rw [← hs.rest]; omega))

theorem Sim.grp {d A A' n} (ha : Sim d A A') : Sim d (.grp n A) (.grp n A') := by
  intro α β r x y k k' hs hk
  simp only [run]
  refine ha _ _ r x y _ _ hs (fun x' y' h1 h2 => hk _ _ ⟨h1.prev, h1.rest, rfl, ?_, ?_, h1.caps⟩ h2)
  · rw [hs.rest, h1.rest]
  · rw [hs.rest, h1.rest]

theorem Sim.refl : ∀ R : Re, Sim 0 R R
  | .eps => fun _ _ _ x y _ _ hs hk => hk x y hs (Nat.le_refl _)
  | .cls p => by
    intro α β r x y k k' hs hk
    simp only [run]
    rw [← hs.rest]
    cases hx : x.rest with
    | nil => exact trivial
    | cons c cs =>
      simp only
      split
      · exact hk _ _ ⟨by rw [hs.prev], rfl, hs.caps⟩ (by simp [hx])
      · exact trivial
  | .seq a b => Sim.seq (Sim.refl a) (Sim.refl b)
  | .alt a b => Sim.alt (Sim.refl a) (Sim.refl b)
  | .opt _ a => Sim.opt (Sim.refl a)
  | .star _ a => Sim.star (Sim.refl a)
  | .grp _ a => Sim.grp (Sim.refl a)
  | .bos => by
    intro α β r x y k k' hs hk
    simp only [run]
    rw [← hs.prev]
    split
    · exact hk x y hs (Nat.le_refl _)
    · exact trivial
  | .eos => by
    intro α β r x y k k' hs hk
    simp only [run]
    rw [← hs.rest]
    split
    · exact hk x y hs (Nat.le_refl _)
    · exact trivial
  | .behind pos s => by
    intro α β r x y k k' hs hk
    simp only [run]
    rw [← hs.prev]
    split
    · exact hk x y hs (Nat.le_refl _)
    · exact trivial

theorem Sim.chr (c : Char) : Sim 1 (.chrI c) (.chrI c) := by
  intro α β r x y k k' hs hk
  simp only [Re.chrI, run]
  rw [← hs.rest]
  cases hx : x.rest with
  | nil => exact trivial
  | cons c cs =>
    simp only
    split
    · exact hk _ _ ⟨by rw [hs.prev], rfl, hs.caps⟩ (by simp [hx])
    · exact trivial

theorem Pat.eats_sim : ∀ {p : Pat}, p.eats = true → ∀ n, Sim 1 (p.re n) (p.re n)
  | .lits [], h, _ => by cases h
  | .lits (c :: s), _, _ => (Sim.chr c).seq (Sim.refl (litRe s))
  | .alt a b, h, n => by
    simp only [Pat.eats, Bool.and_eq_true] at h
    exact (Pat.eats_sim h.1 n).alt (Pat.eats_sim h.2 _)
  | .cls _, h, _ | .ty _, h, _ | .seq _ _, h, _ | .opt _, h, _ | .plus _ _, h, _ | .star _, h, _ | .grp _, h, _
  | .ngrp _, h, _ | .behind _ _, h, _ => by cases h

theorem strip_space {c : Char} (h : isSpace c = true) (t : Str) : strip (c :: t) = strip t := by
  unfold strip lstrip
  rw [List.dropWhile_cons, if_pos h]

/-- `(?: (x))` against `( x)`. -/
theorem Sim.bare {A n} (ha : Sim 1 A A) : Sim 0 (.seq (litRe c!" ") (.grp n A)) (.grp n (.seq (litRe c!" ") A)) := by
  intro α β r x y k k' hs hk
  simp only [litRe, run, Re.chrI]
  rw [← hs.rest]
  cases hx : x.rest with
  | nil => exact trivial
  | cons c cs =>
    simp only
    by_cases hc : (lowerC c == lowerC ' ') = true
    · simp only [if_pos hc]
      refine ha _ _ r _ _ _ _ ⟨by rw [hs.prev], rfl, hs.caps⟩ (fun x' y' h1 h2 => ?_)
      simp only at h2
      have hn : (c :: cs).length - y'.rest.length = (cs.length - x'.rest.length) + 1 := by
        rw [← h1.rest, List.length_cons]; omega
      have hp : 0 < cs.length - x'.rest.length := by omega
      refine hk _ _ ⟨h1.prev, h1.rest, rfl, ?_, ?_, h1.caps⟩ (by rw [hx, List.length_cons]; simp only; omega)
      · rw [hn, List.take_succ_cons, strip_space (c := c) (by
          have : c = ' ' := lower_space.1 (by simpa using hc)
          rw [this]; rfl)]
      · rw [hn, List.take_succ_cons]
        refine ⟨fun h => ?_, fun h => by cases h⟩
        have := congrArg List.length h
        rw [List.length_take, List.length_nil] at this
        omega
    · simp only [if_neg hc]; exact trivial


/-- A piece of a pattern and its field. -/
theorem field_sim {p : Pat} {f : Field} (h : p.field? = some f) (n : Nat) : Sim 0 (p.re n) (f.pat.re n) ∧ p.ng = f.pat.ng := by
  unfold Pat.field? at h
  split at h
  · rename_i b a
    split at h
    · rename_i hb
      simp only [Bool.and_eq_true, beq_iff_eq] at hb
      obtain ⟨rfl, ha⟩ := hb
      cases h
      exact ⟨Sim.bare (Pat.eats_sim ha (n + 1)), by simp [Field.pat, Pat.ng]⟩
    · cases h
  · rename_i b a
    split at h
    · rename_i hb
      simp only [Bool.and_eq_true, beq_iff_eq] at hb
      obtain ⟨rfl, ha⟩ := hb
      cases h
      exact ⟨Sim.opt (Sim.bare (Pat.eats_sim ha (n + 1))), by simp [Field.pat, Pat.ng]⟩
    · cases h
  · rename_i b u
    split at h
    · rename_i hb
      rw [beq_iff_eq] at hb
      subst hb
      cases h
      exact ⟨Sim.refl _, rfl⟩
    · cases h
  · cases h

theorem Sim.eps_right {A B} (h : Sim 0 A B) : Sim 0 A (.seq B .eps) := by
  intro α β r x y k k' hs hk
  simp only [run]
  exact h _ _ r x y k k' hs hk

theorem fields_sim : ∀ (p : Pat) (fs : List Field), p.fields? = some fs → ∀ n,
    Sim 0 (p.re n) ((Pat.cat (fs.map Field.pat)).re n) ∧ p.ng = (Pat.cat (fs.map Field.pat)).ng := by
  intro p
  induction p with
  | seq a b _ ihb =>
    intro fs h n
    simp only [Pat.fields?] at h
    split at h
    · rename_i f fs' hf hfs
      cases h
      obtain ⟨a1, a2⟩ := field_sim hf n
      obtain ⟨b1, b2⟩ := ihb fs' hfs (n + a.ng)
      refine ⟨?_, by simp only [List.map_cons, Pat.cat, Pat.ng, a2, b2]⟩
      simp only [List.map_cons, Pat.cat, Pat.re]
      rw [← a2]
      exact Sim.seq a1 b1
    · cases h
  | _ =>
    intro fs h n
    simp only [Pat.fields?] at h
    split at h
    · rename_i f hf
      cases h
      obtain ⟨a1, a2⟩ := field_sim hf n
      exact ⟨Sim.eps_right a1, by rw [a2]; rfl⟩
    · cases h

theorem bare_sim {p : Pat} {h : Head} {fs : List Field} (hp : p.bare? = some (h, fs)) (n : Nat) :
    Sim 0 (p.re n) ((Shape.flat h fs).pat.re n) ∧ p.ng = (Shape.flat h fs).pat.ng := by
  unfold Pat.bare? at hp
  split at hp
  · rename_i kw q
    split at hp
    · rename_i fs' hq
      cases hp
      obtain ⟨b1, b2⟩ := fields_sim q fs hq (n + 0 + 1)
      refine ⟨Sim.seq (Sim.refl _) (Sim.seq (Sim.refl _) b1), ?_⟩
      simp only [Shape.pat, Head.pats, Pre.pats, Suf.pats, Des.pats, List.nil_append, List.cons_append, List.append_nil, Pat.cat, Pat.ng, b2]
    · cases hp
  · rename_i kw q hne
    split at hp
    · rename_i fs' hq
      cases hp
      obtain ⟨b1, b2⟩ := fields_sim q fs hq (n + 0)
      refine ⟨Sim.seq (Sim.refl _) b1, ?_⟩
      simp only [Shape.pat, Head.pats, Pre.pats, Suf.pats, Des.pats, List.nil_append, List.cons_append, List.append_nil, Pat.cat, Pat.ng, b2]
    · cases hp
  · cases hp

theorem Cls.plainly_info (c : Cls) : c.plainly.info = c.info ∧ c.plainly.attrs = c.attrs ∧ c.plainly.init = c.init := by
  unfold Cls.plainly
  split
  · exact ⟨rfl, rfl, rfl⟩
  · split <;> exact ⟨rfl, rfl, rfl⟩

theorem Cls.plainly_sim (c : Cls) (n : Nat) : Sim 0 (c.pat.re n) (c.plainly.pat.re n) ∧ c.pat.ng = c.plainly.pat.ng := by
  unfold Cls.plainly
  split
  · exact ⟨Sim.refl _, rfl⟩
  · rename_i p hp
    split
    · rename_i h fs hb
      have : c.pat = p := by unfold Cls.pat; rw [hp]; rfl
      rw [this]
      exact bare_sim hb n
    · exact ⟨Sim.refl _, rfl⟩

/-! ## Reading with related captures -/

theorem CapRel.lookup {m m' : List (Nat × Str)} (h : CapRel m m') (i : Nat) :
    EndRel (fun t u => strip t = strip u ∧ (t = [] ↔ u = [])) (cap m i) (cap m' i) := by
  unfold cap
  induction m generalizing m' with
  | nil => cases m' with
    | nil => exact trivial
    | cons => exact h.elim
  | cons x m ih => cases m' with
    | nil => exact h.elim
    | cons y m' =>
      obtain ⟨j, t⟩ := x
      obtain ⟨j', u⟩ := y
      obtain ⟨rfl, h1, h2, h3⟩ := h
      simp only [List.lookup]
      split
      · exact ⟨h1, h2⟩
      · exact ih h3

/-- Attributes of the same name and check whose texts are converted alike. -/
structure SlotRel (a b : Attr) : Prop where
  name : a.name = b.name
  chk : a.chk = b.chk
  parse : ∀ s, a.parse s = b.parse s

theorem SlotRel.refl (a : Attr) : SlotRel a a := ⟨rfl, rfl, fun _ => rfl⟩

def SlotsRel : List Attr → List Attr → Prop
  | [], [] => True
  | a :: as, b :: bs => SlotRel a b ∧ SlotsRel as bs
  | _, _ => False

theorem SlotsRel.refl : ∀ as, SlotsRel as as
  | [] => trivial
  | a :: as => ⟨SlotRel.refl a, SlotsRel.refl as⟩

theorem attrVal_rel {ng m m' i a b} (h : CapRel m m') (ha : SlotRel a b) : attrVal ng m i a = attrVal ng m' i b := by
  unfold attrVal
  split
  · rfl
  · have := h.lookup (i + 1)
    cases h1 : cap m (i + 1) with
    | none =>
      rw [h1] at this
      cases h2 : cap m' (i + 1) with
      | none => rfl
      | some u => rw [h2] at this; exact this.elim
    | some t =>
      rw [h1] at this
      cases h2 : cap m' (i + 1) with
      | none => rw [h2] at this; exact this.elim
      | some u =>
        rw [h2] at this
        obtain ⟨e1, e2⟩ := this
        cases t with
        | nil => rw [e2.1 rfl]
        | cons x t =>
          cases u with
          | nil => cases e2.2 rfl
          | cons y u => simp only [e1, ha.parse]

theorem attrVals_rel {ng m m'} (h : CapRel m m') : ∀ (as bs : List Attr) (i : Nat), SlotsRel as bs → attrVals ng m i as = attrVals ng m' i bs
  | [], [], _, _ => rfl
  | [], _ :: _, _, h => h.elim
  | _ :: _, [], _, h => h.elim
  | a :: as, b :: bs, i, ha => by
    simp only [attrVals]
    rw [attrVal_rel h ha.1, attrVals_rel h as bs (i + 1) ha.2]

theorem setAttr_rel {env a b v} (h : SlotRel a b) : setAttr env a v = setAttr env b v := by
  unfold setAttr
  rw [h.chk, h.name]

theorem runInit_rel : ∀ (ns : List String) (as bs : List Attr) (vs : List Val) (env), SlotsRel as bs →
    runInit (as.zip vs) env ns = runInit (bs.zip vs) env ns
  | [], _, _, _, _, _ => rfl
  | n :: ns, as, bs, vs, env, h => by
    have key : ∀ (as bs : List Attr) (vs : List Val), SlotsRel as bs →
        EndRel (fun p q => SlotRel p.1 q.1 ∧ p.2 = q.2) ((as.zip vs).find? (fun p => p.1.name == n)) ((bs.zip vs).find? (fun p => p.1.name == n)) := by
      intro as
      induction as with
      | nil => intro bs vs h; cases bs with
        | nil => exact trivial
        | cons => exact h.elim
      | cons a as ih => intro bs vs h; cases bs with
        | nil => exact h.elim
        | cons b bs =>
          cases vs with
          | nil => exact trivial
          | cons v vs =>
            simp only [List.zip_cons_cons, List.find?_cons, h.1.name]
            split
            · exact ⟨h.1, rfl⟩
            · exact ih bs vs h.2
    have := key as bs vs h
    simp only [runInit]
    cases h1 : (as.zip vs).find? (fun p => p.1.name == n) with
    | none =>
      rw [h1] at this
      cases h2 : (bs.zip vs).find? (fun p => p.1.name == n) with
      | none => rfl
      | some q => rw [h2] at this; exact this.elim
    | some p =>
      rw [h1] at this
      cases h2 : (bs.zip vs).find? (fun p => p.1.name == n) with
      | none => rw [h2] at this; exact this.elim
      | some q =>
        rw [h2] at this
        obtain ⟨a, v⟩ := p
        obtain ⟨b, w⟩ := q
        obtain ⟨e1, rfl⟩ := this
        simp only
        rw [setAttr_rel e1]
        cases setAttr env b v with
        | error e => rfl
        | ok env' => exact runInit_rel ns as bs vs env' h

/-- Two classes whose patterns match alike and whose attributes are alike. -/
structure ClsRel (c d : Cls) : Prop where
  info : c.info = d.info
  init : c.init = d.init
  attrs : SlotsRel c.attrs d.attrs
  sim : ∀ n, Sim 0 (c.pat.re n) (d.pat.re n)
  ng : c.pat.ng = d.pat.ng

theorem plainly_rel (c : Cls) : ClsRel c c.plainly := by
  obtain ⟨h1, h2, h3⟩ := c.plainly_info
  exact ⟨h1.symm, h3.symm, by rw [h2]; exact SlotsRel.refl _, fun n => (c.plainly_sim n).1, (c.plainly_sim 0).2⟩

theorem ClsRel.mk' {c d : Cls} (h : ClsRel c d) (vs : List Val) : c.mk' vs = d.mk' vs := by
  unfold Cls.mk'
  rw [h.init, h.info, runInit_rel d.init c.attrs d.attrs vs [] h.attrs]

theorem ClsRel.build {c d : Cls} (h : ClsRel c d) {m m'} (hm : CapRel m m') : c.build m = d.build m' := by
  unfold Cls.build
  rw [h.ng, attrVals_rel hm c.attrs d.attrs 0 h.attrs]
  cases attrVals d.pat.ng m' 0 d.attrs with
  | error e => rfl
  | ok vs => exact h.mk' vs

theorem match_rel {R R' : Re} (h : Sim 0 R R') (s : Str) : EndRel CapRel (reMatch R s) (reMatch R' s) := by
  unfold reMatch
  refine h _ _ CapRel _ _ _ _ ⟨rfl, rfl, trivial⟩ (fun x y hs _ => ⟨rfl, ?_, ?_, hs.caps⟩) <;> rw [hs.rest]

theorem match_zero {R R' : Re} (h : Sim 0 R R') (s : Str) :
    EndRel (fun m m' => CapRel m m' ∧ cap m 0 = cap m' 0) (reMatch R s) (reMatch R' s) := by
  unfold reMatch
  refine h _ _ _ _ _ _ _ ⟨rfl, rfl, trivial⟩ (fun x y hs _ => ⟨⟨rfl, ?_, ?_, hs.caps⟩, ?_⟩) <;> rw [hs.rest]
  rfl

theorem ClsRel.re {c d : Cls} (h : ClsRel c d) : Sim 0 c.re d.re :=
  Sim.seq (Sim.refl _) (Sim.seq (h.sim 1) (Sim.refl _))

/-- Both classes read every text alike. -/
theorem ClsRel.card {c d : Cls} (h : ClsRel c d) (s : Str) : cardParse c s = cardParse d s := by
  unfold cardParse
  have := match_rel h.re (cardPreprocess s).1
  cases h1 : reMatch c.re (cardPreprocess s).1 with
  | none =>
    rw [h1] at this
    cases h2 : reMatch d.re (cardPreprocess s).1 with
    | none => rfl
    | some q => rw [h2] at this; exact this.elim
  | some m =>
    rw [h1] at this
    cases h2 : reMatch d.re (cardPreprocess s).1 with
    | none => rw [h2] at this; exact this.elim
    | some q =>
      rw [h2] at this
      simp only
      rw [h.build this]

theorem first_rel (s : Str) : ∀ cs : List Cls,
    EndRel (fun p q => q.1 = p.1.plainly ∧ CapRel p.2 q.2) (firstMatch s cs) (firstMatch s (cs.map Cls.plainly))
  | [] => trivial
  | c :: cs => by
    have ih := first_rel s cs
    have := match_zero (plainly_rel c).re s
    simp only [List.map_cons, firstMatch]
    cases h1 : reMatch c.re s with
    | none =>
      rw [h1] at this
      cases h2 : reMatch c.plainly.re s with
      | none => exact ih
      | some q => rw [h2] at this; exact this.elim
    | some m =>
      rw [h1] at this
      cases h2 : reMatch c.plainly.re s with
      | none => rw [h2] at this; exact this.elim
      | some q =>
        rw [h2] at this
        simp only
        rw [this.2]
        split
        · exact ⟨rfl, this.1⟩
        · exact ih

theorem union_rel (cs : List Cls) (s : Str) : unionParse cs s = unionParse (cs.map Cls.plainly) s := by
  unfold unionParse
  have := first_rel (preprocess s) cs
  cases h1 : firstMatch (preprocess s) cs with
  | none =>
    rw [h1] at this
    cases h2 : firstMatch (preprocess s) (cs.map Cls.plainly) with
    | none => rfl
    | some q => rw [h2] at this; exact this.elim
  | some m =>
    rw [h1] at this
    cases h2 : firstMatch (preprocess s) (cs.map Cls.plainly) with
    | none => rw [h2] at this; exact this.elim
    | some q =>
      rw [h2] at this
      obtain ⟨c, m⟩ := m
      obtain ⟨d, m'⟩ := q
      obtain ⟨rfl, hm⟩ := this
      exact (plainly_rel c).build hm

theorem alts_rel : ∀ (cs : List Cls) (n : Nat), Sim 0 (altsRe cs n) (altsRe (cs.map Cls.plainly) n)
  | [], _ => Sim.refl _
  | [c], n => (c.plainly_sim n).1
  | c :: d :: cs, n => by
    simp only [List.map_cons, altsRe]
    rw [← (c.plainly_sim n).2]
    exact Sim.alt (c.plainly_sim n).1 (alts_rel (d :: cs) _)

theorem insert_plainly (c : Cls) : ∀ cs : List Cls, insertLen c.plainly (cs.map Cls.plainly) = (insertLen c cs).map Cls.plainly
  | [] => rfl
  | d :: cs => by
    simp only [List.map_cons, insertLen, (c.plainly_info).1, (d.plainly_info).1]
    split
    · rfl
    · rw [insert_plainly c cs]; rfl

theorem sort_plainly (cs : List Cls) : sortLen (cs.map Cls.plainly) = (sortLen cs).map Cls.plainly := by
  unfold sortLen
  have : ∀ (cs acc : List Cls), (cs.map Cls.plainly).foldl (fun acc c => insertLen c acc) (acc.map Cls.plainly) =
      (cs.foldl (fun acc c => insertLen c acc) acc).map Cls.plainly := by
    intro cs
    induction cs with
    | nil => intro acc; rfl
    | cons c cs ih =>
      intro acc
      simp only [List.map_cons, List.foldl_cons, insert_plainly]
      exact ih _
  exact this cs []

/-- Types whose patterns match alike and that convert alike. -/
structure TyRel (t u : Ty) : Prop where
  sim : ∀ n, Sim 0 (t.re n) (u.re n)
  ng : t.ng = u.ng
  parse : ∀ s, t.parse s = u.parse s

theorem unionTy_rel (nm : String) (cs : List Cls) : TyRel (unionTy nm cs) (unionTy nm (cs.map Cls.plainly)) where
  sim n := by
    simp only [unionTy, Ty.re]
    rw [sort_plainly]
    exact alts_rel _ n
  ng := by
    simp only [unionTy, Ty.ng, List.map_map]
    congr 1
    exact List.map_congr_left (fun c _ => (c.plainly_sim 0).2)
  parse := union_rel cs

theorem find_rel {R R' : Re} (h : Sim 0 R R') (s : Str) : finditer R s = finditer R' s := by
  unfold finditer
  have key : ∀ (n : Nat) (prev s : Str),
      (finditerAux R n prev s).filterMap (fun | .inl _ => none | .inr (t, _) => some t) =
      (finditerAux R' n prev s).filterMap (fun | .inl _ => none | .inr (t, _) => some t) := by
    intro n
    induction n with
    | zero => intro prev s; rfl
    | succ n ih =>
      intro prev s
      cases s with
      | nil => rfl
      | cons c cs =>
        have := h _ _ StRel ⟨prev, c :: cs, []⟩ ⟨prev, c :: cs, []⟩ (fun st => if st.rest.length < (c :: cs).length then some st else none)
          (fun st => if st.rest.length < (c :: cs).length then some st else none) ⟨rfl, rfl, trivial⟩ (by
            intro x y hs _
            simp only [← hs.rest]
            split
            · exact hs
            · exact trivial)
        simp only [finditerAux]
        cases h1 : run R ⟨prev, c :: cs, []⟩ (fun st => if st.rest.length < (c :: cs).length then some st else none) with
        | none =>
          rw [h1] at this
          cases h2 : run R' ⟨prev, c :: cs, []⟩ (fun st => if st.rest.length < (c :: cs).length then some st else none) with
          | none => simp only [List.filterMap_cons]; exact ih _ _
          | some q => rw [h2] at this; exact this.elim
        | some x =>
          rw [h1] at this
          cases h2 : run R' ⟨prev, c :: cs, []⟩ (fun st => if st.rest.length < (c :: cs).length then some st else none) with
          | none => rw [h2] at this; exact this.elim
          | some y =>
            rw [h2] at this
            simp only [List.filterMap_cons, this.rest, this.prev]
            rw [ih]
  exact key _ _ _

theorem tuple_rel {t u : Ty} (h : TyRel t u) (s : Str) : tupleParse t s = tupleParse u s := by
  unfold tupleParse
  rw [find_rel (h.sim 1), show t.parse = u.parse from funext h.parse]

end Inp
