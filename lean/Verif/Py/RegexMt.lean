import Verif.Py.RegexSub
/-!
# Context-free matching

For patterns without `\A`, `\Z` and lookbehind, what a pattern can consume does not depend on the
surrounding text: `Mt r w e` says that `r` can match exactly the word `w`, adding the captures `e`.
-/
namespace Py

/-- `r` can match exactly `w`, adding the captures `e` (most recent first). -/
inductive Mt : Re → Str → List (Nat × Str) → Prop where
  | eps : Mt .eps [] []
  | cls {p c} (h : p c = true) : Mt (.cls p) [c] []
  | seq {a b u v e f} (h1 : Mt a u e) (h2 : Mt b v f) : Mt (.seq a b) (u ++ v) (f ++ e)
  | altL {a b u e} (h : Mt a u e) : Mt (.alt a b) u e
  | altR {a b u e} (h : Mt b u e) : Mt (.alt a b) u e
  | optNone {g a} : Mt (.opt g a) [] []
  | optSome {g a u e} (h : Mt a u e) : Mt (.opt g a) u e
  | starNil {g a} : Mt (.star g a) [] []
  | starCons {g a u v e f} (hu : u ≠ []) (h1 : Mt a u e) (h2 : Mt (.star g a) v f) :
      Mt (.star g a) (u ++ v) (f ++ e)
  | grp {n a u e} (h : Mt a u e) : Mt (.grp n a) u ((n, u) :: e)

/-- No anchors, no lookbehind. -/
def Re.free : Re → Bool
  | .eps => true
  | .cls _ => true
  | .seq a b => a.free && b.free
  | .alt a b => a.free && b.free
  | .opt _ a => a.free
  | .star _ a => a.free
  | .grp _ a => a.free
  | .bos => false
  | .eos => false
  | .behind _ _ => false

theorem Mt.step {r w e} (h : Mt r w e) : ∀ prev s caps, Step r ⟨prev, w ++ s, caps⟩ ⟨w.reverse ++ prev, s, e ++ caps⟩ := by
  induction h with
  | eps => intro prev s caps; exact .eps _
  | cls h => intro prev s caps; exact .cls _ _ _ _ _ h
  | @seq a b u v e f h1 h2 ih1 ih2 =>
    intro prev s caps
    have a := ih1 prev (v ++ s) caps
    have b := ih2 (u.reverse ++ prev) s (e ++ caps)
    rw [List.append_assoc, List.reverse_append, List.append_assoc, List.append_assoc]
    exact .seq _ _ _ _ _ a b
  | altL h ih => intro prev s caps; exact .altL _ _ _ _ (ih ..)
  | altR h ih => intro prev s caps; exact .altR _ _ _ _ (ih ..)
  | optNone => intro prev s caps; exact .optNone _ _ _
  | optSome h ih => intro prev s caps; exact .optSome _ _ _ _ (ih ..)
  | starNil => intro prev s caps; exact .starNil _ _ _
  | @starCons g a u v e f hu h1 h2 ih1 ih2 =>
    intro prev s caps
    have a := ih1 prev (v ++ s) caps
    have b := ih2 (u.reverse ++ prev) s (e ++ caps)
    rw [List.append_assoc, List.reverse_append, List.append_assoc, List.append_assoc]
    refine .starCons _ _ _ _ _ a ?_ b
    have : 0 < u.length := List.length_pos_iff.2 hu
    simp only [List.length_append]; omega
  | @grp n a u e h ih =>
    intro prev s caps
    have := Step.grp n _ _ _ (ih prev s caps)
    rw [take_consumed] at this
    exact this

theorem Step.mt {r st st'} (h : Step r st st') : r.free = true →
    ∃ w e, Mt r w e ∧ st.rest = w ++ st'.rest ∧ st'.prev = w.reverse ++ st.prev ∧ st'.caps = e ++ st.caps := by
  induction h with
  | eps => intro _; exact ⟨[], [], .eps, rfl, rfl, rfl⟩
  | cls p c cs prev caps h => intro _; exact ⟨[c], [], .cls h, rfl, rfl, rfl⟩
  | seq a b s m t h1 h2 ih1 ih2 =>
    intro hf
    simp only [Re.free, Bool.and_eq_true] at hf
    obtain ⟨u, e, a1, a2, a3, a4⟩ := ih1 hf.1
    obtain ⟨v, f, b1, b2, b3, b4⟩ := ih2 hf.2
    exact ⟨u ++ v, f ++ e, .seq a1 b1, by rw [a2, b2, List.append_assoc], by rw [b3, a3]; simp,
      by rw [b4, a4, List.append_assoc]⟩
  | altL a b s t h ih =>
    intro hf
    simp only [Re.free, Bool.and_eq_true] at hf
    obtain ⟨u, e, a1, a2⟩ := ih hf.1
    exact ⟨u, e, .altL a1, a2⟩
  | altR a b s t h ih =>
    intro hf
    simp only [Re.free, Bool.and_eq_true] at hf
    obtain ⟨u, e, a1, a2⟩ := ih hf.2
    exact ⟨u, e, .altR a1, a2⟩
  | optNone => intro _; exact ⟨[], [], .optNone, rfl, rfl, rfl⟩
  | optSome g a s t h ih => intro hf; obtain ⟨u, e, a1, a2⟩ := ih hf; exact ⟨u, e, .optSome a1, a2⟩
  | starNil => intro _; exact ⟨[], [], .starNil, rfl, rfl, rfl⟩
  | starCons g a s m t h1 hl h2 ih1 ih2 =>
    intro hf
    obtain ⟨u, e, a1, a2, a3, a4⟩ := ih1 hf
    obtain ⟨v, f, b1, b2, b3, b4⟩ := ih2 hf
    refine ⟨u ++ v, f ++ e, .starCons ?_ a1 b1, by rw [a2, b2, List.append_assoc], by rw [b3, a3]; simp,
      by rw [b4, a4, List.append_assoc]⟩
    rintro rfl
    rw [a2] at hl; simp at hl
  | grp n a s t h ih =>
    intro hf
    obtain ⟨u, e, a1, a2, a3, a4⟩ := ih hf
    refine ⟨u, _, .grp a1, a2, a3, ?_⟩
    simp only [a4, List.cons_append]
    rw [a2, take_consumed]
  | bos => intro hf; cases hf
  | eos => intro hf; cases hf
  | behind => intro hf; cases hf

/-! ## Forgetting groups -/

/-- The pattern without capturing groups. -/
def Re.erase : Re → Re
  | .seq a b => .seq a.erase b.erase
  | .alt a b => .alt a.erase b.erase
  | .opt g a => .opt g a.erase
  | .star g a => .star g a.erase
  | .grp _ a => a.erase
  | r => r

theorem Mt.erase {r w e} (h : Mt r w e) : Mt r.erase w [] := by
  induction h with
  | eps => exact .eps
  | cls h => exact .cls h
  | seq _ _ ih1 ih2 => exact .seq ih1 ih2
  | altL _ ih => exact .altL ih
  | altR _ ih => exact .altR ih
  | optNone => exact .optNone
  | optSome _ ih => exact .optSome ih
  | starNil => exact .starNil
  | starCons hu _ _ ih1 ih2 => exact .starCons hu ih1 ih2
  | grp _ ih => exact ih

theorem Mt.unerase {r : Re} : ∀ {w e}, Mt r.erase w e → ∃ e', Mt r w e' := by
  induction r with
  | eps => intro w e h; exact ⟨e, h⟩
  | cls => intro w e h; exact ⟨e, h⟩
  | seq a b iha ihb =>
    intro w e h
    cases h with
    | seq h1 h2 => obtain ⟨x, hx⟩ := iha h1; obtain ⟨y, hy⟩ := ihb h2; exact ⟨_, .seq hx hy⟩
  | alt a b iha ihb =>
    intro w e h
    cases h with
    | altL h => obtain ⟨x, hx⟩ := iha h; exact ⟨x, .altL hx⟩
    | altR h => obtain ⟨x, hx⟩ := ihb h; exact ⟨x, .altR hx⟩
  | opt g a iha =>
    intro w e h
    cases h with
    | optNone => exact ⟨[], .optNone⟩
    | optSome h => obtain ⟨x, hx⟩ := iha h; exact ⟨x, .optSome hx⟩
  | star g a iha =>
    intro w e h
    generalize hr : (Re.star g a).erase = r at h
    induction h with
    | starNil => exact ⟨[], .starNil⟩
    | @starCons g' a' u v e f hu h1 h2 _ ih2 =>
      simp only [Re.erase, Re.star.injEq] at hr
      obtain ⟨rfl, rfl⟩ := hr
      obtain ⟨x, hx⟩ := iha h1; obtain ⟨y, hy⟩ := ih2 rfl
      exact ⟨_, .starCons hu hx hy⟩
    | _ => simp [Re.erase] at hr
  | grp n a iha => intro w e h; obtain ⟨x, hx⟩ := iha h; exact ⟨_, .grp hx⟩
  | bos => intro w e h; exact ⟨e, h⟩
  | eos => intro w e h; exact ⟨e, h⟩
  | behind => intro w e h; exact ⟨e, h⟩

/-- `r` matches the whole of `w`. -/
def Full (r : Re) (w : Str) : Prop := ∃ e, Mt r w e

theorem full_erase {r w} : Full r.erase w ↔ Full r w :=
  ⟨fun ⟨_, h⟩ => Mt.unerase h, fun ⟨_, h⟩ => ⟨_, h.erase⟩⟩

theorem Full.congr {r r' w} (h : r.erase = r'.erase) : Full r w ↔ Full r' w := by
  rw [← full_erase, h, full_erase]

/-- `re.fullmatch`. -/
theorem full_iff (r : Re) (hf : r.free = true) (w : Str) :
    (reMatch (.seq .bos (.seq r .eos)) w).isSome = true ↔ Full r w := by
  constructor
  · intro h
    obtain ⟨m, hm⟩ := Option.isSome_iff_exists.1 h
    obtain ⟨st, h1, _⟩ := reMatch_some hm
    obtain ⟨a, ha, hb⟩ := step_seq.1 h1
    obtain ⟨b, hc, hd⟩ := step_seq.1 hb
    obtain ⟨rfl, _⟩ := step_bos.1 ha
    obtain ⟨rfl, he⟩ := step_eos.1 hd
    obtain ⟨u, e, h1, h2, _⟩ := hc.mt hf
    rw [he] at h2
    simp at h2; subst h2
    exact ⟨e, h1⟩
  · rintro ⟨e, he⟩
    cases hm : reMatch (.seq .bos (.seq r .eos)) w with
    | some m => rfl
    | none =>
      exfalso
      have := (run_spec _ _ _).1.1 hm ⟨w.reverse ++ [], [], e ++ []⟩ (step_seq.2 ⟨_, step_bos.2 ⟨rfl, rfl⟩,
        step_seq.2 ⟨_, by simpa using he.step [] [] [], step_eos.2 ⟨rfl, rfl⟩⟩⟩)
      cases this

/-! ## Captures -/

/-- All group numbers of a pattern lie in `[lo, hi)`. -/
def Re.groupsIn (lo hi : Nat) : Re → Prop
  | .seq a b => a.groupsIn lo hi ∧ b.groupsIn lo hi
  | .alt a b => a.groupsIn lo hi ∧ b.groupsIn lo hi
  | .opt _ a => a.groupsIn lo hi
  | .star _ a => a.groupsIn lo hi
  | .grp n a => lo ≤ n ∧ n < hi ∧ a.groupsIn lo hi
  | _ => True

theorem Re.groupsIn.mono {r : Re} {lo hi lo' hi'} (h : r.groupsIn lo hi) (h1 : lo' ≤ lo) (h2 : hi ≤ hi') :
    r.groupsIn lo' hi' := by
  induction r with
  | seq a b iha ihb => exact ⟨iha h.1, ihb h.2⟩
  | alt a b iha ihb => exact ⟨iha h.1, ihb h.2⟩
  | opt g a iha => exact iha h
  | star g a iha => exact iha h
  | grp n a iha => exact ⟨Nat.le_trans h1 h.1, Nat.lt_of_lt_of_le h.2.1 h2, iha h.2.2⟩
  | _ => trivial

theorem Mt.groups {r w e} (h : Mt r w e) : ∀ {lo hi}, r.groupsIn lo hi → ∀ x ∈ e, lo ≤ x.1 ∧ x.1 < hi := by
  induction h with
  | eps => intro lo hi _ x hx; cases hx
  | cls h => intro lo hi _ x hx; cases hx
  | seq _ _ ih1 ih2 =>
    intro lo hi hg x hx
    rcases List.mem_append.1 hx with h | h
    · exact ih2 hg.2 x h
    · exact ih1 hg.1 x h
  | altL _ ih => intro lo hi hg; exact ih hg.1
  | altR _ ih => intro lo hi hg; exact ih hg.2
  | optNone => intro lo hi _ x hx; cases hx
  | optSome _ ih => intro lo hi hg; exact ih hg
  | starNil => intro lo hi _ x hx; cases hx
  | starCons hu _ _ ih1 ih2 =>
    intro lo hi hg x hx
    rcases List.mem_append.1 hx with h | h
    · exact ih2 hg x h
    · exact ih1 hg x h
  | grp _ ih =>
    intro lo hi hg x hx
    rcases List.mem_cons.1 hx with rfl | h
    · exact ⟨hg.1, hg.2.1⟩
    · exact ih hg.2.2 x h

/-! ## Words -/

/-- Every match of `r` is free of blank space. -/
def NoSp (r : Re) : Prop := ∀ w e, Mt r w e → ∀ c ∈ w, isSpace c = false

/-- What follows a word: nothing or blank space. -/
def Bnd (s : Str) : Prop := ∀ c ∈ s.head?, isSpace c = true

theorem prefix_word {u w rest : Str} {t : Str} (hu : ∀ c ∈ u, isSpace c = false) (hr : Bnd rest)
    (h : w ++ rest = u ++ t) : ∃ v, w = u ++ v ∧ t = v ++ rest := by
  rcases List.append_eq_append_iff.1 h with ⟨a, h1, h2⟩ | ⟨a, h1, h2⟩
  · cases a with
    | nil => exact ⟨[], by simpa using h1.symm, by simpa using h2.symm⟩
    | cons c cs =>
      exfalso
      have := hr c (by rw [h2]; simp)
      have h3 := hu c (by rw [h1]; simp)
      rw [h3] at this; cases this
  · exact ⟨a, h1, h2⟩

/-- Matching one word: if the continuation fails inside the word, the pattern takes the whole word or
fails. -/
theorem run_word {α : Type} (r : Re) (hf : r.free = true) (hs : NoSp r) (w rest prev : Str) (caps)
    (hr : Bnd rest) (k : St → Option α)
    (hb : ∀ u v e, w = u ++ v → v ≠ [] → k ⟨u.reverse ++ prev, v ++ rest, e ++ caps⟩ = none) :
    (Full r w → ∃ e, Mt r w e ∧ run r ⟨prev, w ++ rest, caps⟩ k = k ⟨w.reverse ++ prev, rest, e ++ caps⟩) ∧
    (¬ Full r w → run r ⟨prev, w ++ rest, caps⟩ k = none) := by
  have key : ∀ st', Step r ⟨prev, w ++ rest, caps⟩ st' →
      k st' = none ∨ ∃ e, Mt r w e ∧ st' = ⟨w.reverse ++ prev, rest, e ++ caps⟩ := by
    intro st' h
    obtain ⟨u, e, h1, h2, h3, h4⟩ := h.mt hf
    obtain ⟨v, rfl, h6⟩ := prefix_word (hs u e h1) hr h2
    by_cases hv : v = []
    · subst hv
      right
      refine ⟨e, by simpa using h1, St.ext' (by simpa using h3) (by simpa using h6) h4⟩
    · left
      have := hb u v e rfl hv
      rw [← this]
      exact congrArg k (St.ext' h3 h6 h4)
  constructor
  · rintro ⟨e0, he0⟩
    cases hrun : run r ⟨prev, w ++ rest, caps⟩ k with
    | some x =>
      obtain ⟨st', h1, h2⟩ := (run_spec r _ _).2 x hrun
      rcases key st' h1 with h | ⟨e, he, rfl⟩
      · rw [h] at h2; cases h2
      · exact ⟨e, he, h2.symm⟩
    | none => exact ⟨e0, he0, ((run_spec r _ _).1.1 hrun _ (he0.step _ _ _)).symm⟩
  · intro hn
    apply run_none
    intro st' h
    rcases key st' h with h | ⟨e, he, _⟩
    · exact h
    · exact absurd ⟨e, he⟩ hn

end Py
