import Verif.Py.RegexStep
import Verif.Py.RegexMt
/-!
# What groups can capture

Lemmas about matching: what a match consumes is a piece of the text, what a group captures is too, a group that cannot be
empty and cannot be left out captures a non-empty piece.
-/
namespace Py

/-- The pattern never matches the empty text. -/
def Re.solid : Re → Bool
  | .cls _ => true
  | .seq a b => a.solid || b.solid
  | .alt a b => a.solid && b.solid
  | .grp _ a => a.solid
  | _ => false

/-- Every group of the pattern, with its number, satisfies `p`. -/
def Re.groupsAll (p : Nat → Re → Bool) : Re → Bool
  | .seq a b => a.groupsAll p && b.groupsAll p
  | .alt a b => a.groupsAll p && b.groupsAll p
  | .opt _ a => a.groupsAll p
  | .star _ a => a.groupsAll p
  | .grp n a => p n a && a.groupsAll p
  | _ => true

/-- The length of everything the pattern matches. -/
def Re.width : Re → Option Nat
  | .eps => some 0
  | .cls _ => some 1
  | .seq a b => do some ((← a.width) + (← b.width))
  | .grp _ a => a.width
  | _ => none

/-- Group `n` takes part in every match. -/
def Re.must (n : Nat) : Re → Bool
  | .seq a b => a.must n || b.must n
  | .alt a b => a.must n && b.must n
  | .grp k a => k == n || a.must n
  | _ => false

theorem Step.suffix {r st st'} (h : Step r st st') : st'.rest <:+ st.rest := by
  induction h with
  | cls p c cs prev caps h => exact List.suffix_cons _ _
  | seq _ _ _ _ _ _ _ ih1 ih2 => exact ih2.trans ih1
  | altL _ _ _ _ _ ih => exact ih
  | altR _ _ _ _ _ ih => exact ih
  | optSome _ _ _ _ _ ih => exact ih
  | starCons _ _ _ _ _ _ _ _ ih1 ih2 => exact ih2.trans ih1
  | grp _ _ _ _ _ ih => exact ih
  | _ => exact List.suffix_refl _

theorem Step.shrinks {r st st'} (h : Step r st st') : r.solid = true → st'.rest.length < st.rest.length := by
  induction h with
  | cls p c cs prev caps h => intro _; simp
  | seq a b _ _ _ h1 h2 ih1 ih2 =>
    intro hs
    simp only [Re.solid, Bool.or_eq_true] at hs
    have a1 := h1.suffix.length_le
    have a2 := h2.suffix.length_le
    rcases hs with hs | hs
    · have := ih1 hs; omega
    · have := ih2 hs; omega
  | altL _ _ _ _ _ ih => intro hs; simp only [Re.solid, Bool.and_eq_true] at hs; exact ih hs.1
  | altR _ _ _ _ _ ih => intro hs; simp only [Re.solid, Bool.and_eq_true] at hs; exact ih hs.2
  | grp _ _ _ _ _ ih => intro hs; exact ih hs
  | _ => intro hs; simp [Re.solid] at hs

theorem Step.consumes {r st st'} (h : Step r st st') : ∀ w, r.width = some w → st.rest.length = st'.rest.length + w := by
  induction h with
  | eps => intro w h; cases h; rfl
  | cls p c cs prev caps h => intro w h; cases h; rfl
  | seq a b _ _ _ h1 h2 ih1 ih2 =>
    intro w h
    simp only [Re.width, Option.bind_eq_bind, Option.bind_eq_some_iff] at h
    obtain ⟨x, hx, y, hy, h⟩ := h
    cases h
    have := ih1 x hx
    have := ih2 y hy
    omega
  | grp _ _ _ _ _ ih => intro w h; exact ih w h
  | _ => intro w h; cases h

/-- The text of a group with this body. -/
def Taken (b : Re) (u : Str) : Prop := (b.solid = true → u ≠ []) ∧ ∀ w, b.width = some w → u.length = w

theorem Step.caps {r st st'} (h : Step r st st') : ∃ e, st'.caps = e ++ st.caps ∧ (∀ x ∈ e, x.2 <:+: st.rest) ∧
    (∀ p, r.groupsAll p = true → ∀ x ∈ e, ∃ b, p x.1 b = true ∧ Taken b x.2) ∧ ∀ n, r.must n = true → ∃ x ∈ e, x.1 = n := by
  induction h with
  | seq a b _ _ _ h1 h2 ih1 ih2 =>
    obtain ⟨e, a1, a2, a3, a4⟩ := ih1
    obtain ⟨f, b1, b2, b3, b4⟩ := ih2
    refine ⟨f ++ e, by rw [b1, a1, List.append_assoc], ?_, ?_, ?_⟩
    · intro x hx
      rcases List.mem_append.1 hx with hx | hx
      · exact (b2 x hx).trans h1.suffix.isInfix
      · exact a2 x hx
    · intro p hs x hx
      simp only [Re.groupsAll, Bool.and_eq_true] at hs
      rcases List.mem_append.1 hx with hx | hx
      · exact b3 p hs.2 x hx
      · exact a3 p hs.1 x hx
    · intro n hn
      simp only [Re.must, Bool.or_eq_true] at hn
      rcases hn with hn | hn
      · obtain ⟨x, hx, h⟩ := a4 n hn; exact ⟨x, List.mem_append_right _ hx, h⟩
      · obtain ⟨x, hx, h⟩ := b4 n hn; exact ⟨x, List.mem_append_left _ hx, h⟩
  | altL _ _ _ _ _ ih =>
    obtain ⟨e, a1, a2, a3, a4⟩ := ih
    refine ⟨e, a1, a2, ?_, ?_⟩
    · intro p hs; simp only [Re.groupsAll, Bool.and_eq_true] at hs; exact a3 p hs.1
    · intro n hn; simp only [Re.must, Bool.and_eq_true] at hn; exact a4 n hn.1
  | altR _ _ _ _ _ ih =>
    obtain ⟨e, a1, a2, a3, a4⟩ := ih
    refine ⟨e, a1, a2, ?_, ?_⟩
    · intro p hs; simp only [Re.groupsAll, Bool.and_eq_true] at hs; exact a3 p hs.2
    · intro n hn; simp only [Re.must, Bool.and_eq_true] at hn; exact a4 n hn.2
  | optSome _ _ _ _ _ ih =>
    obtain ⟨e, a1, a2, a3, a4⟩ := ih
    exact ⟨e, a1, a2, a3, fun n hn => by simp [Re.must] at hn⟩
  | starCons _ _ _ _ _ h1 _ h2 ih1 ih2 =>
    obtain ⟨e, a1, a2, a3, a4⟩ := ih1
    obtain ⟨f, b1, b2, b3, b4⟩ := ih2
    refine ⟨f ++ e, by rw [b1, a1, List.append_assoc], ?_, ?_, fun n hn => by simp [Re.must] at hn⟩
    · intro x hx
      rcases List.mem_append.1 hx with hx | hx
      · exact (b2 x hx).trans h1.suffix.isInfix
      · exact a2 x hx
    · intro p hs x hx
      rcases List.mem_append.1 hx with hx | hx
      · exact b3 p hs x hx
      · exact a3 p hs x hx
  | grp k a s1 s2 h ih =>
    obtain ⟨e, a1, a2, a3, a4⟩ := ih
    refine ⟨(k, s1.rest.take (s1.rest.length - s2.rest.length)) :: e, by rw [a1]; rfl, ?_, ?_, ?_⟩
    · intro x hx
      rcases List.mem_cons.1 hx with rfl | hx
      · exact (List.take_prefix _ _).isInfix
      · exact a2 x hx
    · intro p hs x hx
      simp only [Re.groupsAll, Bool.and_eq_true] at hs
      rcases List.mem_cons.1 hx with rfl | hx
      · refine ⟨a, hs.1, ?_, ?_⟩
        · intro hs h0
          have := h.shrinks hs
          have := congrArg List.length h0
          simp only [List.length_take, List.length_nil] at this
          omega
        · intro w hw
          have := h.consumes w hw
          simp only [List.length_take]
          omega
      · exact a3 p hs.2 x hx
    · intro n hn
      simp only [Re.must, Bool.or_eq_true, beq_iff_eq] at hn
      rcases hn with hn | hn
      · exact ⟨_, List.mem_cons_self, hn⟩
      · obtain ⟨x, hx, h⟩ := a4 n hn; exact ⟨x, List.mem_cons_of_mem _ hx, h⟩
  | _ => exact ⟨[], rfl, by simp, by simp, fun n hn => by simp [Re.must] at hn⟩

theorem cap_mem {m : List (Nat × Str)} {n u} (h : cap m n = some u) : (n, u) ∈ m := by
  unfold cap at h
  induction m with
  | nil => cases h
  | cons x m ih =>
    rw [List.lookup_cons] at h
    split at h
    · rename_i heq
      simp only [beq_iff_eq] at heq
      subst heq
      rw [← Option.some.inj h]; exact List.mem_cons_self
    · exact List.mem_cons_of_mem _ (ih h)

theorem cap_of_mem {m : List (Nat × Str)} {n} (h : ∃ x ∈ m, x.1 = n) : ∃ u, cap m n = some u := by
  unfold cap
  obtain ⟨x, hx, rfl⟩ := h
  induction m with
  | nil => cases hx
  | cons y m ih =>
    rw [List.lookup_cons]
    split
    · exact ⟨_, rfl⟩
    · rename_i hne
      rcases List.mem_cons.1 hx with rfl | hx
      · simp at hne
      · exact ih hx

/-- What a group captured is a piece of the text. -/
theorem cap_infix {r : Re} {s : Str} {m} (h : reMatch r s = some m) {n u} (hu : cap m n = some u) : u <:+: s := by
  obtain ⟨st, h1, rfl⟩ := reMatch_some h
  obtain ⟨e, a1, a2, -, -⟩ := h1.caps
  have := cap_mem hu
  rcases List.mem_cons.1 this with h | h
  · cases h; exact (List.take_prefix _ _).isInfix
  · rw [a1, List.append_nil] at h; exact a2 _ h

/-- What a group captured was matched by a group of that number. -/
theorem cap_taken {r : Re} {s : Str} {m} (h : reMatch r s = some m) {p} (hr : r.groupsAll p = true) {n u} (hn : n ≠ 0)
    (hu : cap m n = some u) : ∃ b, p n b = true ∧ Taken b u := by
  obtain ⟨st, h1, rfl⟩ := reMatch_some h
  obtain ⟨e, a1, -, a3, -⟩ := h1.caps
  have := cap_mem hu
  rcases List.mem_cons.1 this with h | h
  · cases h; exact absurd rfl hn
  · rw [a1, List.append_nil] at h; exact a3 p hr _ h

/-- A group that takes part in every match captured something. -/
theorem cap_must {r : Re} {s : Str} {m} (h : reMatch r s = some m) {n} (hr : r.must n = true) : ∃ u, cap m n = some u := by
  obtain ⟨st, h1, rfl⟩ := reMatch_some h
  obtain ⟨e, a1, -, -, a4⟩ := h1.caps
  apply cap_of_mem
  obtain ⟨x, hx, he⟩ := a4 n hr
  exact ⟨x, List.mem_cons_of_mem _ (by rw [a1, List.append_nil]; exact hx), he⟩

theorem finditerAux_infix {r : Re} : ∀ k prev (s : Str), ∀ x ∈ finditerAux r k prev s, ∀ t c, x = .inr (t, c) →
    t <:+: s ∧ t ≠ [] ∧ ∀ y ∈ c, y.2 <:+: s
  | 0, _, _, x, hx => by simp [finditerAux] at hx
  | k + 1, _, [], x, hx => by simp [finditerAux] at hx
  | k + 1, prev, a :: s, x, hx => by
    intro t c ht
    rw [finditerAux] at hx
    split at hx
    · rename_i st hst
      obtain ⟨st', h1, h2⟩ := (run_spec r _ _).2 _ hst
      split at h2
      · rename_i hlt
        cases h2
        rcases List.mem_cons.1 hx with rfl | hx
        · cases ht
          refine ⟨(List.take_prefix _ _).isInfix, ?_, ?_⟩
          · intro h0
            have := congrArg List.length h0
            simp only [List.length_take, List.length_nil] at this
            omega
          · obtain ⟨e, a1, a2, -, -⟩ := h1.caps
            rw [a1, List.append_nil]; exact a2
        · obtain ⟨b1, b2, b3⟩ := finditerAux_infix k _ _ x hx t c ht
          have : st.rest <:+: a :: s := h1.suffix.isInfix
          exact ⟨b1.trans this, b2, fun y hy => (b3 y hy).trans this⟩
      · cases h2
    · rcases List.mem_cons.1 hx with rfl | hx
      · cases ht
      · obtain ⟨b1, b2, b3⟩ := finditerAux_infix k _ _ x hx t c ht
        have : s <:+: a :: s := (List.suffix_cons _ _).isInfix
        exact ⟨b1.trans this, b2, fun y hy => (b3 y hy).trans this⟩

/-- The pieces `re.finditer` finds are non-empty pieces of the text. -/
theorem finditer_infix {r : Re} {s t : Str} (h : t ∈ finditer r s) : t <:+: s ∧ t ≠ [] := by
  unfold finditer at h
  obtain ⟨x, hx, hy⟩ := List.mem_filterMap.1 h
  split at hy
  · cases hy
  · rename_i u c
    cases hy
    obtain ⟨a, b, -⟩ := finditerAux_infix _ _ _ _ hx _ _ rfl
    exact ⟨a, b⟩

theorem finditerAux_full {r : Re} (hf : r.free = true) : ∀ k prev (s : Str), ∀ x ∈ finditerAux r k prev s, ∀ t c, x = .inr (t, c) →
    Full r t
  | 0, _, _, x, hx => by simp [finditerAux] at hx
  | k + 1, _, [], x, hx => by simp [finditerAux] at hx
  | k + 1, prev, a :: s, x, hx => by
    intro t c ht
    rw [finditerAux] at hx
    split at hx
    · rename_i st hst
      obtain ⟨st', h1, h2⟩ := (run_spec r _ _).2 _ hst
      split at h2
      · cases h2
        rcases List.mem_cons.1 hx with rfl | hx
        · cases ht
          obtain ⟨w, e, g1, g2, -, -⟩ := h1.mt hf
          simp only at g2
          rw [g2, take_consumed]
          exact ⟨e, g1⟩
        · exact finditerAux_full hf k _ _ x hx t c ht
      · cases h2
    · rcases List.mem_cons.1 hx with rfl | hx
      · cases ht
      · exact finditerAux_full hf k _ _ x hx t c ht

/-- The pieces `re.finditer` finds are matched by the pattern. -/
theorem finditer_full {r : Re} (hf : r.free = true) {s t : Str} (h : t ∈ finditer r s) : Full r t := by
  unfold finditer at h
  obtain ⟨x, hx, hy⟩ := List.mem_filterMap.1 h
  split at hy
  · cases hy
  · cases hy; exact finditerAux_full hf _ _ _ _ hx _ _ rfl

end Py
