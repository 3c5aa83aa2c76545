import Verif.Inp.CaseSpec
import Verif.Inp.ErrLemmas
/-! Helper lemmas: reading does not look at the case of letters. -/
namespace Inp
open Py Types Ptrac

variable {β : Bool}

/-! ### Characters -/

/-- The lower-case letters. -/
def lowers : List Char := c!"abcdefghijklmnopqrstuvwxyz"
/-- The letters of both cases. -/
def letters : List Char := c!"abcdefghijklmnopqrstuvwxyzABCDEFGHIJKLMNOPQRSTUVWXYZ"

theorem lowerC_split (c : Char) : lowerC c = c ∧ c ∉ c!"ABCDEFGHIJKLMNOPQRSTUVWXYZ" ∨ ∃ x ∈ lowers, c = upperC x ∧ lowerC c = x := by
  by_cases h : ('A' ≤ c && c ≤ 'Z') = true
  · right
    have hc := h
    simp only [Bool.and_eq_true, decide_eq_true_eq] at hc
    have h1 : 65 ≤ c.toNat := hc.1
    have h2 : c.toNat ≤ 90 := hc.2
    have key : ∀ n : Fin 91, 65 ≤ n.1 → ∃ x ∈ lowers, Char.ofNat n.1 = upperC x ∧ lowerC (Char.ofNat n.1) = x := by decide +kernel
    have := key ⟨c.toNat, by omega⟩ h1
    rwa [Char.ofNat_toNat] at this
  · left
    unfold lowerC
    rw [if_neg h]
    refine ⟨rfl, fun hm => h ?_⟩
    have : ∀ x ∈ c!"ABCDEFGHIJKLMNOPQRSTUVWXYZ", ('A' ≤ x && x ≤ 'Z') = true := by decide +kernel
    exact this c hm

/-- Characters with the same lower case are equal or the two cases of a letter. -/
theorem lower_pair {c d : Char} (h : lowerC c = lowerC d) : c = d ∨ ∃ x ∈ lowers, (c = x ∧ d = upperC x) ∨ (c = upperC x ∧ d = x) := by
  rcases lowerC_split c with ⟨hc, -⟩ | ⟨x, hx, hc, hl⟩
  · rcases lowerC_split d with ⟨hd, -⟩ | ⟨y, hy, hd, hm⟩
    · left; rw [← hc, ← hd, h]
    · right; exact ⟨y, hy, .inl ⟨by rw [← hc, h, hm], hd⟩⟩
  · rcases lowerC_split d with ⟨hd, -⟩ | ⟨y, hy, hd, hm⟩
    · right; exact ⟨x, hx, .inr ⟨hc, by rw [← hd, ← h, hl]⟩⟩
    · left; rw [hc, hd, ← hl, ← hm, h]

/-- A set of characters that has both cases of a letter or none. -/
def caseP (p : Char → Bool) : Bool := lowers.all (fun x => p x == p (upperC x))

theorem caseP_eq {p : Char → Bool} (hp : caseP p = true) {c d : Char} (h : lowerC c = lowerC d) : p c = p d := by
  rcases lower_pair h with rfl | ⟨x, hx, ⟨rfl, rfl⟩ | ⟨rfl, rfl⟩⟩
  · rfl
  · simpa using List.all_eq_true.1 hp c hx
  · exact (by simpa using List.all_eq_true.1 hp d hx : p d = p (upperC d)).symm

theorem nonletter {c d : Char} (h : lowerC c = lowerC d) (hc : c ∉ letters) : c = d := by
  rcases lower_pair h with h | ⟨x, hx, ⟨rfl, -⟩ | ⟨rfl, -⟩⟩
  · exact h
  · exact absurd ((by decide +kernel : ∀ x ∈ lowers, x ∈ letters) c hx) hc
  · exact absurd ((by decide +kernel : ∀ x ∈ lowers, upperC x ∈ letters) x hx) hc

theorem lowerC_idem (c : Char) : lowerC (lowerC c) = lowerC c := by
  rcases lowerC_split c with ⟨hc, -⟩ | ⟨x, hx, -, hl⟩
  · rw [hc, hc]
  · rw [hl]; exact (by decide +kernel : ∀ x ∈ lowers, lowerC x = x) x hx

/-! ### Texts -/

theorem rec_lower : ∀ {s t : Str}, RecasedIf β s t → lower s = lower t
  | [], [], _ => rfl
  | c :: s, d :: t, h => by
    have := rec_lower h.2.2
    unfold lower at *
    rw [List.map_cons, List.map_cons, h.1, this]
  | [], _ :: _, h => h.elim
  | _ :: _, [], h => h.elim

theorem rec_refl : ∀ s : Str, RecasedIf β s s
  | [] => trivial
  | _ :: s => ⟨rfl, fun h => absurd rfl h, rec_refl s⟩

theorem rec_len {s t : Str} (h : RecasedIf β s t) : s.length = t.length := by
  have := congrArg List.length (rec_lower h)
  unfold lower at this
  simpa using this

theorem rec_nil {s t : Str} (h : RecasedIf β s t) : s = [] ↔ t = [] := by
  have := rec_len h
  rw [← List.length_eq_zero_iff, ← List.length_eq_zero_iff, this]

theorem expStart_take {n : Nat} {s : Str} (h : expStart s = false) : expStart (s.take n) = false := by
  cases s with
  | nil => simp [expStart]
  | cons c s =>
    cases n with
    | zero => rfl
    | succ n => exact h

theorem rec_take : ∀ (n : Nat) {s t : Str}, RecasedIf β s t → RecasedIf β (s.take n) (t.take n)
  | 0, _, _, _ => trivial
  | _ + 1, [], [], _ => trivial
  | n + 1, c :: s, d :: t, h => ⟨h.1, fun a b k => expStart_take (h.2.1 a b k), rec_take n h.2.2⟩
  | _ + 1, [], _ :: _, h => h.elim
  | _ + 1, _ :: _, [], h => h.elim

theorem rec_drop : ∀ (n : Nat) {s t : Str}, RecasedIf β s t → RecasedIf β (s.drop n) (t.drop n)
  | 0, _, _, h => h
  | _ + 1, [], [], _ => trivial
  | n + 1, c :: s, d :: t, h => rec_drop n h.2.2
  | _ + 1, [], _ :: _, h => h.elim
  | _ + 1, _ :: _, [], h => h.elim

/-- Recased texts without letters are equal. -/
theorem rec_eq : ∀ {s t : Str}, RecasedIf β s t → (∀ c ∈ s, c ∉ letters) → s = t
  | [], [], _, _ => rfl
  | c :: s, d :: t, h, hl => by
    rw [nonletter h.1 (hl c List.mem_cons_self), rec_eq h.2.2 (fun x hx => hl x (List.mem_cons_of_mem _ hx))]
  | [], _ :: _, h, _ => h.elim
  | _ :: _, [], h, _ => h.elim

/-! ### Patterns -/

/-- A pattern that does not look at the case of letters. -/
def caseless : Re → Bool
  | .cls p => caseP p
  | .seq a b => caseless a && caseless b
  | .alt a b => caseless a && caseless b
  | .opt _ a => caseless a
  | .star _ a => caseless a
  | .grp _ a => caseless a
  | .behind _ s => s.all (fun c => !letters.contains c)
  | _ => true

/-- What groups hold, letter case aside. -/
def RecCaps (β : Bool) : List (Nat × Str) → List (Nat × Str) → Prop
  | [], [] => True
  | x :: l, y :: m => x.1 = y.1 ∧ RecasedIf β x.2 y.2 ∧ RecCaps β l m
  | _, _ => False

/-- Two states of the matcher in recased texts. -/
structure RecSt (β : Bool) (a b : St) : Prop where
  prev : lower a.prev = lower b.prev
  rest : RecasedIf β a.rest b.rest
  caps : RecCaps β a.caps b.caps

/-- Both nothing, or something related. -/
def OptRel {α : Type} (Q : α → α → Prop) : Option α → Option α → Prop
  | none, none => True
  | some a, some b => Q a b
  | _, _ => False

theorem OptRel.or {α : Type} {Q : α → α → Prop} {a b c d : Option α} (h : OptRel Q a b) (h' : OptRel Q c d) :
    OptRel Q (a.or c) (b.or d) := by
  cases a <;> cases b <;> first | exact h' | exact h.elim | exact h

theorem starRun_rec {α : Type} {Q : α → α → Prop} (g : Bool) {f : St → (St → Option α) → Option α}
    (hf : ∀ a b, RecSt β a b → ∀ k l, (∀ a b, RecSt β a b → OptRel Q (k a) (l b)) → OptRel Q (f a k) (f b l)) :
    ∀ n a b, RecSt β a b → ∀ k l, (∀ a b, RecSt β a b → OptRel Q (k a) (l b)) → OptRel Q (starRun g f n a k) (starRun g f n b l) := by
  intro n
  induction n with
  | zero => intro a b h k l hk; exact hk a b h
  | succ n ih =>
    intro a b h k l hk
    have more : OptRel Q (f a (fun st' => if st'.rest.length < a.rest.length then starRun g f n st' k else none))
        (f b (fun st' => if st'.rest.length < b.rest.length then starRun g f n st' l else none)) := by
      apply hf a b h
      intro x y hxy
      rw [rec_len hxy.rest, rec_len h.rest]
      split
      · exact ih x y hxy k l hk
      · trivial
    unfold starRun
    simp only
    split
    · exact more.or (hk a b h)
    · exact (hk a b h).or more

theorem prefix_rec {s a b : Str} (hs : ∀ c ∈ s, c ∉ letters) (h : lower a = lower b) : s.isPrefixOf a = s.isPrefixOf b := by
  induction s generalizing a b with
  | nil => cases a <;> cases b <;> rfl
  | cons x s ih =>
    cases a with
    | nil => cases b with
      | nil => rfl
      | cons d b => unfold lower at h; simp at h
    | cons c a => cases b with
      | nil => unfold lower at h; simp at h
      | cons d b =>
        unfold lower at h ih
        simp only [List.map_cons, List.cons.injEq] at h
        show (x == c && s.isPrefixOf a) = (x == d && s.isPrefixOf b)
        rw [ih (fun c hc => hs c (List.mem_cons_of_mem _ hc)) h.2]
        congr 1
        have hx := hs x List.mem_cons_self
        by_cases hc : x = c
        · subst hc; rw [nonletter h.1 hx]
        · by_cases hd : x = d
          · subst hd; rw [nonletter h.1.symm hx]
          · rw [beq_eq_false_iff_ne.2 hc, beq_eq_false_iff_ne.2 hd]

/-- The matcher finds recased matches in recased texts. -/
theorem run_rec {α : Type} {Q : α → α → Prop} {r : Re} (hr : caseless r = true) : ∀ a b, RecSt β a b → ∀ k l,
    (∀ a b, RecSt β a b → OptRel Q (k a) (l b)) → OptRel Q (run r a k) (run r b l) := by
  induction r with
  | eps => intro a b h k l hk; exact hk a b h
  | cls p =>
    intro a b h k l hk
    obtain ⟨pa, ra, ca⟩ := a
    obtain ⟨pb, rb, cb⟩ := b
    have h1 := h.rest
    unfold run
    simp only at h1 ⊢
    cases ra with
    | nil => cases rb with
      | nil => trivial
      | cons d rb => exact h1.elim
    | cons c ra => cases rb with
      | nil => exact h1.elim
      | cons d rb =>
        simp only
        rw [caseP_eq hr h1.1]
        split
        · refine hk _ _ ⟨?_, h1.2.2, h.caps⟩
          have h0 : lower pa = lower pb := h.prev
          unfold lower at *
          simp only [List.map_cons, h1.1, h0]
        · trivial
  | seq r s ihr ihs =>
    intro a b h k l hk
    simp only [caseless, Bool.and_eq_true] at hr
    unfold run
    exact ihr hr.1 a b h _ _ (fun x y hxy => ihs hr.2 x y hxy k l hk)
  | alt r s ihr ihs =>
    intro a b h k l hk
    simp only [caseless, Bool.and_eq_true] at hr
    unfold run
    exact (ihr hr.1 a b h k l hk).or (ihs hr.2 a b h k l hk)
  | opt g r ih =>
    intro a b h k l hk
    cases g with
    | true => unfold run; exact (ih hr a b h k l hk).or (hk a b h)
    | false => unfold run; exact (hk a b h).or (ih hr a b h k l hk)
  | star g r ih =>
    intro a b h k l hk
    unfold run
    rw [rec_len h.rest]
    exact starRun_rec g (fun a b h k l hk => ih hr a b h k l hk) _ a b h k l hk
  | grp n r ih =>
    intro a b h k l hk
    unfold run
    apply ih hr a b h
    intro x y hxy
    apply hk
    refine ⟨hxy.prev, hxy.rest, rfl, ?_, hxy.caps⟩
    simp only
    rw [rec_len h.rest, rec_len hxy.rest]
    exact rec_take _ h.rest
  | bos =>
    intro a b h k l hk
    unfold run
    have : a.prev = [] ↔ b.prev = [] := by
      have h0 := congrArg List.length h.prev
      unfold lower at h0
      rw [List.length_map, List.length_map] at h0
      rw [← List.length_eq_zero_iff, ← List.length_eq_zero_iff, h0]
    simp only [this]
    split
    · exact hk a b h
    · trivial
  | eos =>
    intro a b h k l hk
    unfold run
    simp only [rec_nil h.rest]
    split
    · exact hk a b h
    · trivial
  | behind pos s =>
    intro a b h k l hk
    unfold run
    have hs : ∀ c ∈ s.reverse, c ∉ letters := by
      intro c hc
      simpa using List.all_eq_true.1 hr c (List.mem_reverse.1 hc)
    rw [prefix_rec hs h.prev]
    split
    · exact hk a b h
    · trivial

theorem reMatch_rec {r : Re} (hr : caseless r = true) {s t : Str} (h : RecasedIf β s t) : OptRel (RecCaps β) (reMatch r s) (reMatch r t) := by
  unfold reMatch
  apply run_rec hr ⟨[], s, []⟩ ⟨[], t, []⟩ ⟨rfl, h, trivial⟩
  intro a b hab
  refine ⟨rfl, ?_, hab.caps⟩
  simp only
  rw [rec_len h, rec_len hab.rest]
  exact rec_take _ h

theorem cap_rec (n : Nat) : ∀ {l m : List (Nat × Str)}, RecCaps β l m → OptRel (RecasedIf β) (cap l n) (cap m n)
  | [], [], _ => trivial
  | (i, x) :: l, (j, y) :: m, h => by
    obtain ⟨h1, h2, h3⟩ := h
    simp only at h1 h2
    subst h1
    have := cap_rec n h3
    unfold cap at *
    simp only [List.lookup_cons]
    split
    · exact h2
    · exact this
  | [], _ :: _, h => h.elim
  | _ :: _, [], h => h.elim

/-- Pieces of a text, letter case aside. -/
def RecList (β : Bool) : List Str → List Str → Prop
  | [], [] => True
  | x :: l, y :: m => RecasedIf β x y ∧ RecList β l m
  | _, _ => False

/-- The pieces `finditer` makes, letter case aside. -/
def RecPieces (β : Bool) : List (Str ⊕ (Str × List (Nat × Str))) → List (Str ⊕ (Str × List (Nat × Str))) → Prop
  | [], [] => True
  | .inl x :: l, .inl y :: m => RecasedIf β x y ∧ RecPieces β l m
  | .inr x :: l, .inr y :: m => (RecasedIf β x.1 y.1 ∧ RecCaps β x.2 y.2) ∧ RecPieces β l m
  | _, _ => False

theorem finditerAux_rec {r : Re} (hr : caseless r = true) : ∀ n p q s t, lower p = lower q → RecasedIf β s t →
    RecPieces β (finditerAux r n p s) (finditerAux r n q t)
  | 0, _, _, _, _, _, _ => trivial
  | _ + 1, _, _, [], [], _, _ => trivial
  | n + 1, p, q, c :: s, d :: t, hp, h => by
    have key := run_rec (Q := RecSt β) hr ⟨p, c :: s, []⟩ ⟨q, d :: t, []⟩ ⟨hp, h, trivial⟩
      (fun st => if st.rest.length < (c :: s).length then some st else none)
      (fun st => if st.rest.length < (d :: t).length then some st else none) (by
        intro a b hab
        rw [rec_len hab.rest, rec_len h]
        split
        · exact hab
        · trivial)
    unfold finditerAux
    revert key
    cases run r ⟨p, c :: s, []⟩ (fun st => if st.rest.length < (c :: s).length then some st else none) with
    | none =>
      cases run r ⟨q, d :: t, []⟩ (fun st => if st.rest.length < (d :: t).length then some st else none) with
      | none =>
        intro _
        refine ⟨⟨h.1, fun _ _ => fun _ => rfl, trivial⟩, finditerAux_rec hr n _ _ _ _ ?_ h.2.2⟩
        unfold lower at *
        rw [List.map_cons, List.map_cons, h.1, hp]
      | some y => intro h; exact h.elim
    | some x =>
      cases run r ⟨q, d :: t, []⟩ (fun st => if st.rest.length < (d :: t).length then some st else none) with
      | none => intro h; exact h.elim
      | some y =>
        intro hxy
        refine ⟨⟨?_, hxy.caps⟩, finditerAux_rec hr n _ _ _ _ hxy.prev hxy.rest⟩
        simp only
        rw [rec_len h, rec_len hxy.rest]
        exact rec_take _ h
  | _ + 1, _, _, [], _ :: _, _, h => h.elim
  | _ + 1, _, _, _ :: _, [], _, h => h.elim

theorem finditer_rec {r : Re} (hr : caseless r = true) {s t : Str} (h : RecasedIf β s t) : RecList β (finditer r s) (finditer r t) := by
  unfold finditer
  rw [rec_len h]
  have key := finditerAux_rec hr t.length [] [] s t rfl h
  revert key
  generalize finditerAux r t.length [] s = a
  generalize finditerAux r t.length [] t = b
  intro h
  induction a generalizing b with
  | nil => cases b with
    | nil => trivial
    | cons y b => exact h.elim
  | cons x a ih => cases b with
    | nil => cases x <;> exact h.elim
    | cons y b =>
      cases x with
      | inl x => cases y with
        | inl y => exact ih b h.2
        | inr y => exact h.elim
      | inr x => cases y with
        | inl y => exact h.elim
        | inr y => exact ⟨h.1.1, ih b h.2⟩

end Inp
