import Verif.Outp.Kinds
/-! What a block prints has no line beginning with `1` after the first one, when what was read has none. -/
namespace Outp
open Py Ptrac Props

set_option maxRecDepth 100000

/-- No `\n1`; the flag tells whether the character before is a line end. -/
def nl1 : Bool → Str → Bool
  | _, [] => true
  | f, c :: s => !(f && c == '1') && nl1 (c == '\n') s

/-- The flag after the text. -/
def flag : Bool → Str → Bool
  | f, [] => f
  | _, c :: s => flag (c == '\n') s

theorem nl1_append (f : Bool) (a b : Str) : nl1 f (a ++ b) = (nl1 f a && nl1 (flag f a) b) := by
  induction a generalizing f with
  | nil => simp [nl1, flag]
  | cons c a ih => simp [nl1, flag, ih, Bool.and_assoc]

theorem flag_append (f : Bool) (a b : Str) : flag f (a ++ b) = flag (flag f a) b := by
  induction a generalizing f with
  | nil => rfl
  | cons c a ih => simp [flag, ih]

theorem nl1_line {a : Str} (h : '\n' ∉ a) : nl1 false a = true := by
  induction a with
  | nil => rfl
  | cons c a ih =>
    simp only [List.mem_cons, not_or] at h
    have : (c == '\n') = false := by simpa using fun e => h.1 e.symm
    simp [nl1, this, ih h.2]

theorem flag_line {a : Str} (h : '\n' ∉ a) : flag false a = false := by
  induction a with
  | nil => rfl
  | cons c a ih =>
    simp only [List.mem_cons, not_or] at h
    have : (c == '\n') = false := by simpa using fun e => h.1 e.symm
    simp [flag, this, ih h.2]

theorem flag_line_ne {a : Str} (h : '\n' ∉ a) (h0 : a ≠ []) (f : Bool) : flag f a = false := by
  cases a with
  | nil => exact absurd rfl h0
  | cons c a =>
    simp only [List.mem_cons, not_or] at h
    have : (c == '\n') = false := by simpa using fun e => h.1 e.symm
    simp [flag, this, flag_line h.2]

theorem noAfter_nl1 : ∀ {s : Str}, NoAfter isOne s ↔ nl1 false s = true := by
  have key : ∀ (s : Str) (f : Bool), nl1 f s = true ↔ NoAfter isOne s ∧ (f = true → ∀ d t, s = d :: t → isOne d = false) := by
    intro s
    induction s with
    | nil =>
      intro f
      simp only [nl1, true_iff]
      exact ⟨by intro u c v e; simp at e, by intro _ d t e; cases e⟩
    | cons c s ih =>
      intro f
      simp only [nl1, Bool.and_eq_true, ih]
      constructor
      · rintro ⟨h1, h2, h3⟩
        refine ⟨noAfter_cons h2 (fun e d t e' => h3 (by simp [e]) d t e'), ?_⟩
        rintro rfl d t e
        cases e
        simpa [isOne] using h1
      · rintro ⟨h1, h2⟩
        refine ⟨?_, noAfter_tail h1, ?_⟩
        · cases f with
          | false => rfl
          | true => simpa [isOne] using h2 rfl c s rfl
        · intro hc d t e
          have : c = '\n' := by simpa using hc
          subst this
          subst e
          exact h1 [] d t rfl
  intro s
  rw [key]
  simp

/-! ## Changing fields -/

/-- Whether an item ends with a line end, when this is known. -/
def flagAfter (sf : Option Bool) : Item → Option Bool
  | .lit s => match s.getLast? with | some c => some (c == '\n') | none => sf
  | .fix _ _ w => if w = 0 then sf else some false
  | .line _ _ _ => some true
  | .many _ _ _ => some true
  | _ => none

/-- The field does not change, or is within a line, or made of repeated lines. -/
def changeItem (ch : Nat → Bool) (sf : Option Bool) : Item → Bool
  | .fix _ n w => !ch n || (decide (1 ≤ w) && sf == some false)
  | .line _ n _ => !ch n
  | .gen _ n _ => !ch n
  | _ => true

/-- The fields that change are within a line, or repeated lines. -/
def changeOk (ch : Nat → Bool) : Option Bool → List Item → Bool
  | _, [] => true
  | sf, i :: T => changeItem ch sf i && changeOk ch (flagAfter sf i) T

theorem flag_last (f : Bool) : ∀ (s : Str), flag f s = match s.getLast? with | some c => (c == '\n') | none => f
  | [] => rfl
  | [c] => rfl
  | c :: d :: s => by
    rw [flag, flag_last _ (d :: s)]
    rw [List.getLast?_cons_cons]
    simp [List.getLast?_cons]

theorem flag_snoc (f : Bool) (s : Str) : flag f (s ++ ['\n']) = true := by rw [flag_append]; rfl

theorem change_nl1 {ch : Nat → Bool} {v w : Nat → Str} (hvw : ∀ n, ch n = false → v n = w n)
    (T : List Item) : ∀ (sf : Option Bool) (f : Bool), (∀ b, sf = some b → f = b) → changeOk ch sf T = true → (∀ i ∈ T, i.Shape v) → (∀ i ∈ T, i.Shape w) →
      (∀ i ∈ T, ∀ g n r, i = .many g n r → ch n = true → ∀ f, nl1 f (w n) = true) →
      nl1 f (tmplText v T) = true → nl1 f (tmplText w T) = true := by
  induction T with
  | nil => intros; rfl
  | cons i T ih =>
    intro sf f hf hc hv hw hmany h
    rw [changeOk, Bool.and_eq_true] at hc
    rw [tmplText, nl1_append, Bool.and_eq_true] at h ⊢
    have hv' : ∀ j ∈ T, j.Shape v := fun j hj => hv j (by simp [hj])
    have hw' : ∀ j ∈ T, j.Shape w := fun j hj => hw j (by simp [hj])
    have hmany' : ∀ j ∈ T, ∀ g n r, j = .many g n r → ch n = true → ∀ f, nl1 f (w n) = true := fun j hj => hmany j (by simp [hj])
    -- when the text is the same
    have same : i.text v = i.text w → (∀ b, flagAfter sf i = some b → flag f (i.text v) = b) →
        nl1 f (i.text w) = true ∧ nl1 (flag f (i.text w)) (tmplText w T) = true := by
      intro e hfl
      rw [← e]
      exact ⟨h.1, ih _ _ hfl hc.2 hv' hw' hmany' h.2⟩
    cases i with
    | lit s =>
      apply same rfl
      intro b hb
      show flag f s = b
      rw [flag_last]
      rw [flagAfter] at hb
      cases hs : s.getLast? with
      | none => rw [hs] at hb; exact hf b hb
      | some c => rw [hs] at hb; exact Option.some.inj hb
    | ilit s => exact same rfl (by intro b hb; cases hb)
    | sp => exact same rfl (by intro b hb; cases hb)
    | gen g n r =>
      have : v n = w n := hvw n (by simpa [changeItem] using hc.1)
      exact same this (by intro b hb; cases hb)
    | line g n pre =>
      have : v n = w n := hvw n (by simpa [changeItem] using hc.1)
      refine same (by show v n ++ _ = w n ++ _; rw [this]) ?_
      intro b hb
      cases hb
      exact flag_snoc _ _
    | many g n r =>
      have hfl : ∀ u : Str, ∀ b, flagAfter sf (Item.many g n r) = some b → flag f (u ++ ['\n']) = b := by
        intro u b hb; cases hb; exact flag_snoc _ _
      cases hch : ch n with
      | false =>
        have : v n = w n := hvw n hch
        exact same (by show v n ++ _ = w n ++ _; rw [this]) (hfl _)
      | true =>
        refine ⟨?_, ?_⟩
        · show nl1 f (w n ++ ['\n']) = true
          rw [nl1_append, hmany _ (by simp) g n r rfl hch f]
          simp [nl1]
        · have e1 : flag f ((Item.many g n r).text w) = true := flag_snoc _ _
          have e2 : flag f ((Item.many g n r).text v) = true := flag_snoc _ _
          rw [e1]
          rw [e2] at h
          exact ih _ _ (by intro b hb; cases hb; rfl) hc.2 hv' hw' hmany' h.2
    | fix g n k =>
      have hfl : ∀ u : Nat → Str, (Item.fix g n k).Shape u → ∀ b, flagAfter sf (Item.fix g n k) = some b → flag f (u n) = b := by
        intro u hu b hb
        have hu : (u n).length = k ∧ '\n' ∉ u n := hu
        rw [flagAfter] at hb
        by_cases hk : k = 0
        · rw [if_pos hk] at hb
          have : u n = [] := List.length_eq_zero_iff.1 (hu.1.trans hk)
          rw [this]
          exact hf b hb
        · rw [if_neg hk] at hb
          cases hb
          exact flag_line_ne hu.2 (by intro e; rw [e] at hu; exact hk hu.1.symm) f
      cases hch : ch n with
      | false =>
        have : v n = w n := hvw n hch
        exact same this (hfl v (hv _ (by simp)))
      | true =>
        simp only [changeItem, hch, Bool.not_true, Bool.false_or, Bool.and_eq_true, decide_eq_true_eq, beq_iff_eq] at hc
        have hw1 : (w n).length = k ∧ '\n' ∉ w n := hw (.fix g n k) (by simp)
        have hf0 : f = false := hf false hc.1.2
        have e0 : flagAfter sf (Item.fix g n k) = some false := by
          rw [flagAfter, if_neg (by omega)]
        refine ⟨?_, ?_⟩
        · show nl1 f (w n) = true
          rw [hf0]; exact nl1_line hw1.2
        · have e1 : flag f ((Item.fix g n k).text w) = false := hfl w (hw _ (by simp)) _ e0
          have e2 : flag f ((Item.fix g n k).text v) = false := hfl v (hv _ (by simp)) _ e0
          rw [e1]
          rw [e2] at h
          exact ih _ _ (by intro b hb; rw [e0] at hb; cases hb; rfl) hc.2 hv' hw' hmany' h.2

end Outp

namespace Outp
open Py Ptrac Props

set_option maxRecDepth 100000

/-- The fields that are not kept. -/
def dropped (G : Nat) (n : Nat) : Bool := decide (G < n) || n == 0

theorem print_nl1 {T : List Item} {parts : List Part} {G : Nat} {σ : Nat → List Sym} (h : Agree T parts G σ)
    (hc : changeOk (dropped G) (some false) T = true) (hmany : ∀ i ∈ T, ∀ g n r, i = .many g n r → dropped G n = false)
    {v : Nat → Str} (hs : ∀ i ∈ T, i.Shape v) (h1 : nl1 false (tmplText v T) = true) : nl1 false (partsText (valsOf G v) parts) = true := by
  rw [print_eq h hs]
  refine change_nl1 (ch := dropped G) ?_ T (some false) false (by simp) hc hs (filled_shape h hs) ?_ h1
  · intro n hn
    simp only [dropped, Bool.or_eq_false_iff, decide_eq_false_iff_not, beq_eq_false_iff_ne] at hn
    rw [filled, if_pos (by omega), attr, valsOf_getD (by omega) (by omega)]
  · intro i hi g n r e hd
    rw [hmany i hi g n r e] at hd
    cases hd

theorem plain_nl1 {k : PlainKind} {s : Str} {b : List Str} (h : blockParse k.table s = .ok b) (hs : nl1 false s = true) :
    nl1 false (blockStr k.table b) = true := by
  obtain ⟨σ, hσ⟩ := plain_agree k
  obtain ⟨v, hv, rfl, rfl⟩ := block_read hσ h
  refine print_nl1 hσ ?_ ?_ hv hs
  · cases k <;> decide +kernel
  · intro i hi g n r e
    subst e
    rcases slot_cases hσ hi rfl with h1 | ⟨_, w, e, _⟩
    · simp only [dropped, Bool.or_eq_false_iff, decide_eq_false_iff_not, beq_eq_false_iff_ne]
      omega
    · cases e

theorem lines_nl1 {ls : List TLine} (h : ∀ l ∈ ls, l.Ok) : nl1 true (ls.flatMap TLine.str) = true ∧ flag true (ls.flatMap TLine.str) = true := by
  induction ls with
  | nil => exact ⟨rfl, rfl⟩
  | cons l ls ih =>
    obtain ⟨i1, i2⟩ := ih fun m hm => h m (by simp [hm])
    have ho := h l (by simp)
    have hb := not_space_mem ho.b.2 (x := '\n') (by decide)
    have hc := not_space_mem ho.c.2 (x := '\n') (by decide)
    have he := not_space_mem ho.e.2 (x := '\n') (by decide)
    simp only [List.flatMap_cons, nl1_append, flag_append, TLine.str]
    simp [nl1, flag, nl1_line hb, flag_line hb, nl1_line hc, flag_line hc, nl1_line he, flag_line he, i1, i2]

theorem para4_nl1 {x : Sub} (h : ParaOk x) (f : Bool) : nl1 f (x.str sub4) = true ∧ flag f (x.str sub4) = true := by
  obtain ⟨v1, v3, e, w1, w3, h0, hl⟩ := h
  obtain ⟨vals, ls⟩ := x
  simp only at e hl; subst e
  obtain ⟨i1, i2⟩ := lines_nl1 hl
  have hs : (⟨[v1, [], v3], ls⟩ : Sub).str sub4 =
      c!" cell  " ++ (v1 ++ (c!"\n      energy   \n" ++ (ls.flatMap TLine.str ++ (c!"      total      " ++ (v3 ++ c!"\n\n"))))) := by
    simp [Sub.str, sub4, partsText, pad]
  rw [hs]
  simp only [nl1_append, flag_append]
  simp [nl1, flag, nl1_line w1.2, flag_line w1.2, nl1_line w3.2, flag_line w3.2, i1, i2]

theorem para2_nl1 {x : Sub} (h : ParaOk x) (f : Bool) : nl1 f (x.str sub2) = true ∧ flag f (x.str sub2) = true := by
  obtain ⟨v1, v3, e, w1, w3, h0, hl⟩ := h
  obtain ⟨vals, ls⟩ := x
  simp only at e hl; subst e
  obtain ⟨i1, i2⟩ := lines_nl1 hl
  have hs : (⟨[v1, [], v3], ls⟩ : Sub).str sub2 =
      c!"      surface:  " ++ (v1 ++ (c!"\n        time   \n" ++ (ls.flatMap TLine.str ++ (c!"      total      " ++ (v3 ++ c!"\n\n"))))) := by
    simp [Sub.str, sub2, partsText, pad]
  rw [hs]
  simp only [nl1_append, flag_append]
  simp [nl1, flag, nl1_line w1.2, flag_line w1.2, nl1_line w3.2, flag_line w3.2, i1, i2]

theorem one_nl1 {x : Sub} (h : OneOk x) (f : Bool) : nl1 f (x.str sub1) = true ∧ flag f (x.str sub1) = true := by
  obtain ⟨v1, v2, v3, v5, e, w1, w2, w3, w5, h0, hl⟩ := h
  obtain ⟨vals, ls⟩ := x
  simp only at e hl; subst e
  obtain ⟨i1, i2⟩ := lines_nl1 hl
  have hs : (⟨[v1, v2, v3, [], v5], ls⟩ : Sub).str sub1 =
      c!" surface  " ++ (v1 ++ (c!"\n angle  bin:  " ++ (v2 ++ (c!" to  " ++ (v3 ++
        (c!" degrees                                                                                     \n      energy   \n" ++
          (ls.flatMap TLine.str ++ (c!"      total      " ++ (v5 ++ c!"\n\n"))))))))) := by
    simp [Sub.str, sub1, partsText, pad]
  rw [hs]
  simp only [nl1_append, flag_append]
  simp [nl1, flag, nl1_line w1.2, flag_line w1.2, nl1_line w2.2, flag_line w2.2, nl1_line w3.2, flag_line w3.2, nl1_line w5.2, flag_line w5.2, i1, i2]

theorem subs_nl1 {d : SubDef} {Ok : Sub → Prop} (h : ∀ {x}, Ok x → ∀ f, nl1 f (x.str d) = true ∧ flag f (x.str d) = true) :
    ∀ {xs : List Sub}, (∀ x ∈ xs, Ok x) → ∀ f, nl1 f (xs.flatMap (Sub.str d)) = true
  | [], _, f => rfl
  | x :: xs, hx, f => by
    rw [List.flatMap_cons, nl1_append, (h (hx x (by simp)) f).1, subs_nl1 h (fun y hy => hx y (by simp [hy]))]
    rfl

theorem tally_nl1 {d : TallyDef} {Ok : Sub → Prop} (h : TallyAgree d sigmaNumber) (hO : SubSpec d.sub Ok)
    (h1 : ∀ {x}, Ok x → ∀ f, nl1 f (x.str d.sub) = true ∧ flag f (x.str d.sub) = true)
    (hc : changeOk (fun n => dropped d.groups n || n == d.slot) (some false) d.items = true)
    (hmsg0 : ∀ n, d.msg = some n → 1 ≤ n ∧ n ≤ d.groups ∧ n ≠ d.slot)
    {s : Str} {t : Tally} (ht : tallyParse d s = .ok t) (hl : ∀ x ∈ t.subs, x.lines ≠ []) (hm : message d t = []) (hs : nl1 false s = true) :
    nl1 false (t.str d) = true := by
  obtain ⟨v, w, hv, hw, rfl, hstr, hvw, hws, _, hok, _, _⟩ := tally_print h hO ht hl (by
    intro n hn
    obtain ⟨a, b, c⟩ := hmsg0 n hn
    refine ⟨a, b, c, ?_⟩
    rw [message, hn] at hm
    exact hm)
  rw [hstr]
  refine change_nl1 (ch := fun n => dropped d.groups n || n == d.slot) (v := v) (w := w) ?_ d.items (some false) false (by simp) hc hv hw ?_ hs
  · intro n hn
    simp only [dropped, Bool.or_eq_false_iff, decide_eq_false_iff_not, beq_eq_false_iff_ne] at hn
    exact (hvw n (by omega) (by omega) hn.2).symm
  · intro i hi g n r e hd f
    subst e
    by_cases hn : n = d.slot
    · subst hn
      rw [hws]
      exact subs_nl1 h1 hok f
    · rcases slot_cases h.agree hi rfl with h2 | ⟨_, w, e, _⟩
      · simp only [dropped, Bool.or_eq_true, decide_eq_true_eq, beq_iff_eq] at hd
        omega
      · cases e

theorem tallyKind_nl1 {k : TallyKind} {s : Str} {t : Tally} (ht : tallyParse k.table s = .ok t) (hl : ∀ x ∈ t.subs, x.lines ≠ [])
    (hm : message k.table t = []) (hs : nl1 false s = true) : nl1 false (t.str k.table) = true := by
  cases k with
  | t1A => exact tally_nl1 tally1A_agree sub1_spec one_nl1 (by decide +kernel) (by decide) ht hl hm hs
  | t1B => exact tally_nl1 tally1B_agree sub1_spec one_nl1 (by decide +kernel) (by decide) ht hl hm hs
  | t2 => exact tally_nl1 tally2_agree sub2_spec para2_nl1 (by decide +kernel) (by decide) ht hl hm hs
  | t4 => exact tally_nl1 tally4_agree sub4_spec para4_nl1 (by decide +kernel) (by decide) ht hl hm hs
  | t8A => exact tally_nl1 tally8A_agree sub4_spec para4_nl1 (by decide +kernel) (by intro n hn; cases hn; decide) ht hl hm hs
  | t8B => exact tally_nl1 tally8B_agree sub4_spec para4_nl1 (by decide +kernel) (by intro n hn; cases hn; decide) ht hl hm hs

end Outp
