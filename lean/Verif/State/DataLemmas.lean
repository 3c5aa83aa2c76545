import Verif.State.DataSpec
/-!
# Lemmas on the data block of an input
-/
namespace State
open Py Types Inp

theorem get_put (w : World) (r : Ref) (o : Obj) (x : Ref) (h : (w.get r).isSome) :
    (w.put r o).get x = if x = r then some o else w.get x := by
  unfold World.get World.put at *
  simp only [List.getElem?_set]
  by_cases hx : x = r
  · subst hx
    rw [if_pos rfl, if_pos rfl]
    cases hx : w.heap[x]? with
    | none => rw [hx] at h; simp at h
    | some y =>
      rw [List.getElem?_eq_some_iff] at hx
      obtain ⟨hl, _⟩ := hx
      rw [if_pos hl]
  · rw [if_neg (fun h => hx h.symm), if_neg hx]

theorem get_alloc (w : World) (o : Obj) (x : Ref) :
    (w.alloc o).1.get x = if x = w.heap.length then some o else w.get x := by
  unfold World.get World.alloc
  simp only [List.getElem?_append]
  by_cases hx : x = w.heap.length
  · subst hx; simp
  · rw [if_neg hx]
    split
    · rfl
    · rename_i h
      rw [List.getElem?_eq_none (l := w.heap) (Nat.le_of_not_lt h), List.getElem?_eq_none]
      have : w.heap.length ≤ x := Nat.le_of_not_lt h
      have : x - w.heap.length ≠ 0 := fun e => hx (Nat.le_antisymm (Nat.sub_eq_zero_iff_le.1 e) this)
      simpa using Nat.one_le_iff_ne_zero.2 this

theorem get_fresh (w : World) : w.get w.heap.length = none := by
  unfold World.get; simp

theorem get_lt {w : World} {r : Ref} {o : Obj} (h : w.get r = some o) : r < w.heap.length := by
  unfold World.get at h
  rw [List.getElem?_eq_some_iff] at h
  exact h.1

theorem is_get {w : World} {p : Obj → Bool} {r : Ref} (h : w.is p r = true) : ∃ o, w.get r = some o ∧ p o = true := by
  unfold World.is at h
  split at h
  · exact ⟨_, ‹_›, h⟩
  · cases h

theorem is_put (w : World) (r : Ref) (o o' : Obj) (p : Obj → Bool) (h : w.get r = some o') (hp : p o = p o') (x : Ref) :
    (w.put r o).is p x = w.is p x := by
  unfold World.is
  rw [get_put w r o x (by rw [h]; rfl)]
  split
  · rename_i hx
    split at hx
    · cases hx; subst_vars; rw [h]; simp [hp]
    · rw [hx]
  · rename_i hx
    split at hx
    · cases hx
    · rw [hx]

theorem is_alloc (w : World) (o : Obj) (p : Obj → Bool) (x : Ref) (h : (w.get x).isSome) :
    (w.alloc o).1.is p x = w.is p x := by
  unfold World.is
  rw [get_alloc]
  rw [if_neg]
  intro hx; subst hx; rw [get_fresh] at h; cases h

theorem is_alloc_new (w : World) (o : Obj) (p : Obj → Bool) : (w.alloc o).1.is p w.heap.length = p o := by
  unfold World.is
  rw [get_alloc, if_pos rfl]

theorem is_alloc_mono (w : World) (o : Obj) (p : Obj → Bool) (x : Ref) (h : w.is p x = true) :
    (w.alloc o).1.is p x = true := by
  obtain ⟨o', h1, h2⟩ := is_get h
  rw [is_alloc _ _ _ _ (by rw [h1]; rfl)]; exact h

theorem find_congr {p q : α → Bool} {l : List α} (h : ∀ x ∈ l, p x = q x) : l.find? p = l.find? q := by
  induction l with
  | nil => rfl
  | cons a l ih =>
    simp only [List.find?_cons]
    rw [h a (by simp), ih (fun x hx => h x (by simp [hx]))]

theorem first_congr {w w' : World} {p : Obj → Bool} {l : List Ref} (h : ∀ x ∈ l, w'.is p x = w.is p x) :
    w'.first p l = w.first p l := find_congr h

theorem first_some {w : World} {p : Obj → Bool} {l : List Ref} {r : Ref} (h : w.first p l = some r) :
    r ∈ l ∧ ∃ o, w.get r = some o ∧ p o = true :=
  ⟨List.mem_of_find?_eq_some h, is_get (List.find?_some h)⟩

theorem first_append_new {w : World} {p : Obj → Bool} {l : List Ref} {r : Ref}
    (h : w.first p l = none) (hr : w.is p r = true) : w.first p (l ++ [r]) = some r := by
  unfold World.first at *
  rw [List.find?_append, h]
  simp [hr]

theorem first_append_skip {w : World} {p : Obj → Bool} {l : List Ref} {r : Ref}
    (hr : w.is p r = false) : w.first p (l ++ [r]) = w.first p l := by
  unfold World.first at *
  rw [List.find?_append]
  simp [hr]

theorem nps_cases {o : Obj} (h : o.isNps = true) : ∃ n m, o = .nps n m := by
  cases o <;> simp [Obj.isNps] at h; exact ⟨_, _, rfl⟩
theorem rand_cases {o : Obj} (h : o.isRand = true) : ∃ l, o = .rand l := by
  cases o <;> simp [Obj.isRand] at h; exact ⟨_, rfl⟩
theorem seed_cases {o : Obj} (h : o.isSeed = true) : ∃ n, o = .seed n := by
  cases o <;> simp [Obj.isSeed] at h; exact ⟨_, rfl⟩

theorem holdInt_arg (h : Option Held) : holdInt (Held.arg h) = .ok h := by
  cases h with
  | none => rfl
  | some h => cases h <;> rfl

theorem filter_all {p : α → Bool} {l : List α} (h : ∀ x ∈ l, p x = true) : l.filter p = l := by
  rw [List.filter_eq_self]; exact h

theorem setData_heap (w : World) (l : List Ref) : (w.setData l).heap = w.heap := rfl
theorem setData_get (w : World) (l : List Ref) (r : Ref) : (w.setData l).get r = w.get r := rfl
theorem setData_is (w : World) (l : List Ref) (p : Obj → Bool) (r : Ref) : (w.setData l).is p r = w.is p r := rfl
theorem setData_first (w : World) (l l' : List Ref) (p : Obj → Bool) : (w.setData l).first p l' = w.first p l' := rfl

theorem setData_data {w : World} {l : List Ref} (h : ∀ r ∈ l, w.is Obj.isData r = true) : (w.setData l).data = l :=
  filter_all h

/-! ## The invariant -/

theorem wf_put {w : World} (h : w.Wf) {r : Ref} {o o' : Obj} (hr : w.get r = some o')
    (hd : o.isData = o'.isData) (ho : o.isROpt = o'.isROpt)
    (hl : ∀ l, o = .rand (some l) → ∀ s ∈ l, w.is Obj.isROpt s = true) : (w.put r o).Wf := by
  constructor
  · intro x hx
    rw [is_put w r o o' _ hr hd]
    exact h.data x hx
  · intro x l hx s hs
    rw [is_put w r o o' _ hr ho]
    rw [get_put w r o x (by rw [hr]; rfl)] at hx
    split at hx
    · exact hl l (by cases hx; rfl) s hs
    · exact h.opts x l hx s hs

theorem wf_alloc {w : World} (h : w.Wf) (o : Obj)
    (hl : ∀ l, o = .rand (some l) → ∀ s ∈ l, w.is Obj.isROpt s = true) : (w.alloc o).1.Wf := by
  constructor
  · intro x hx
    exact is_alloc_mono _ _ _ _ (h.data x hx)
  · intro x l hx s hs
    rw [get_alloc] at hx
    split at hx
    · exact is_alloc_mono _ _ _ _ (hl l (by cases hx; rfl) s hs)
    · exact is_alloc_mono _ _ _ _ (h.opts x l hx s hs)

theorem wf_data {w : World} (h : w.Wf) (l : List Ref) : (w.setData l).Wf := by
  constructor
  · intro x hx
    exact (List.mem_filter.1 hx).2
  · exact h.opts

theorem keep_opts (w : World) (l : List Ref) : ∀ s ∈ w.keepOpts l, w.is Obj.isROpt s = true :=
  fun _ hs => (List.mem_filter.1 hs).2

theorem opts_wf {w : World} (h : w.Wf) (r : Ref) : ∀ s ∈ w.opts r, w.is Obj.isROpt s = true := by
  intro s hs
  unfold World.opts at hs
  split at hs
  · exact h.opts _ _ ‹_› s hs
  · cases hs

theorem wf_setNps {w : World} (h : w.Wf) (a : Arg) : (w.setNps a).1.Wf := by
  unfold World.setNps
  split
  · exact h
  · split
    · split
      · rename_i hg; exact wf_put h hg rfl rfl (by intro l hl; cases hl)
      · exact h
      · exact h
    · split
      · exact h
      · exact wf_data (wf_alloc h _ (by intro l hl; cases hl)) _

theorem wf_setSeed {w : World} (h : w.Wf) (a : Arg) : (w.setSeed a).1.Wf := by
  unfold World.setSeed
  split
  · exact h
  · split
    · rename_i r hr
      split
      · rename_i s hs
        split
        · exact h
        · obtain ⟨_, o, ho, hp⟩ := first_some hs
          obtain ⟨n, rfl⟩ := seed_cases hp
          exact wf_put h ho rfl rfl (by intro l hl; cases hl)
      · split
        · exact h
        · rename_i n _
          obtain ⟨_, o, ho, hp⟩ := first_some hr
          obtain ⟨l, rfl⟩ := rand_cases hp
          have h1 := wf_alloc h (.seed n) (by intro l hl; cases hl)
          have hne : r ≠ w.heap.length := fun e => by rw [e, get_fresh] at ho; cases ho
          have hg : (w.alloc (.seed n)).1.get r = some (.rand l) := by rw [get_alloc, if_neg hne]; exact ho
          refine wf_put h1 hg rfl rfl ?_
          intro l' hl' s hs
          cases hl'
          exact keep_opts _ _ s hs
    · split
      · exact h
      · rename_i n _
        refine wf_data (wf_alloc (wf_alloc h (.seed n) (by intro l hl; cases hl)) _ ?_) _
        intro l' hl' s hs
        cases hl'
        exact keep_opts _ _ s hs

theorem wf_step {w : World} (h : w.Wf) (o : Op) : (w.step o).1.Wf := by
  cases o with
  | nps a => exact wf_setNps h a
  | seed a => exact wf_setSeed h a
  | npp r a =>
    simp only [World.step]; split
    · rename_i hg _; exact wf_put h hg rfl rfl (by intro l hl; cases hl)
    · exact h
    · exact h
  | npsmg r a =>
    simp only [World.step]; split
    · rename_i hg _; exact wf_put h hg rfl rfl (by intro l hl; cases hl)
    · exact h
    · exact h
  | optSeed r a =>
    simp only [World.step]; split
    · rename_i hg _; exact wf_put h hg rfl rfl (by intro l hl; cases hl)
    · exact h
    · exact h
  | options r l =>
    simp only [World.step]; split
    · rename_i hg
      refine wf_put h hg rfl rfl ?_
      intro l' hl' s hs
      cases l with
      | none => cases hl'
      | some l => cases hl'; exact keep_opts _ _ s hs
    · exact h
  | data l => exact wf_data h l
  | newNps a b =>
    simp only [World.step]; split
    · exact h
    · exact h
    · exact wf_alloc h _ (by intro l hl; cases hl)
  | newSeed a =>
    simp only [World.step]; split
    · exact h
    · exact wf_alloc h _ (by intro l hl; cases hl)
  | newRand l =>
    refine wf_alloc h _ ?_
    intro l' hl' s hs
    cases l with
    | none => cases hl'
    | some l => cases hl'; exact keep_opts _ _ s hs
  | newOther v => exact wf_alloc h _ (by intro l hl; cases hl)

theorem wf_run {w : World} (h : w.Wf) (os : List Op) : (w.run os).Wf := by
  induction os generalizing w with
  | nil => exact h
  | cons o os ih => exact ih (wf_step h o)

/-! ## What an assignment of the history count does -/

theorem setNps_error {w : World} {a : Arg} (h : ∀ n, checkNpp a ≠ .ok n) :
    ∃ e, w.setNps a = (w, some e) := by
  unfold World.setNps
  have key : ∀ o n, holdInt a = .ok o → checkNpp (Held.arg o) ≠ .ok n := by
    intro o n ho hn
    apply h n
    unfold checkNpp at *
    rw [holdInt_arg] at hn
    rw [ho]; exact hn
  split
  · exact ⟨_, rfl⟩
  · rename_i o ho
    split
    · split
      · rename_i hc _; exact absurd hc (key o _ ho)
      · exact ⟨_, rfl⟩
      · exact ⟨_, rfl⟩
    · split
      · exact ⟨_, rfl⟩
      · rename_i hc; exact absurd hc (key o _ ho)

theorem check_hold {a : Arg} {n : Held} (h : checkNpp a = .ok n) : holdInt a = .ok (some n) ∧ checkNpp (Held.arg (some n)) = .ok n := by
  unfold checkNpp at *
  rw [holdInt_arg]
  split at h
  · cases h
  · cases h
  · rename_i x hx
    split at h
    · cases h
    · rename_i hg
      cases h
      rw [hx, hg]
      exact ⟨rfl, rfl⟩
    · cases h

theorem setNps_found {w : World} {a : Arg} {n : Held} {r : Ref} (h : checkNpp a = .ok n)
    (hr : w.first Obj.isNps w.data = some r) {k : Held} {m : Option Held} (hg : w.get r = some (.nps k m)) :
    w.setNps a = (w.put r (.nps n m), none) := by
  obtain ⟨h1, h2⟩ := check_hold h
  unfold World.setNps
  rw [h1]
  simp only [hr, h2, hg]

theorem setNps_new {w : World} {a : Arg} {n : Held} (h : checkNpp a = .ok n)
    (hr : w.first Obj.isNps w.data = none) :
    w.setNps a = ((w.alloc (.nps n none)).1.setData (w.data ++ [w.heap.length]), none) := by
  obtain ⟨h1, h2⟩ := check_hold h
  unfold World.setNps
  rw [h1]
  simp only [hr, h2]
  rfl

/-! ## What an assignment of the seed does -/

theorem setSeed_error {w : World} {a : Arg} (h : ∀ n, checkSeed a ≠ .ok n) :
    ∃ e, w.setSeed a = (w, some e) := by
  unfold World.setSeed
  have key : ∀ o n, holdInt a = .ok o → checkSeed (Held.arg o) ≠ .ok n := by
    intro o n ho hn
    apply h n
    unfold checkSeed at *
    rw [holdInt_arg] at hn
    rw [ho]; exact hn
  split
  · exact ⟨_, rfl⟩
  · rename_i o ho
    split
    · split
      · split
        · exact ⟨_, rfl⟩
        · rename_i hc; exact absurd hc (key o _ ho)
      · split
        · exact ⟨_, rfl⟩
        · rename_i hc; exact absurd hc (key o _ ho)
    · split
      · exact ⟨_, rfl⟩
      · rename_i hc; exact absurd hc (key o _ ho)

theorem check_hold_seed {a : Arg} {n : Held} (h : checkSeed a = .ok n) :
    holdInt a = .ok (some n) ∧ checkSeed (Held.arg (some n)) = .ok n := by
  unfold checkSeed at *
  rw [holdInt_arg]
  split at h
  · cases h
  · cases h
  · rename_i x hx
    split at h
    · cases h
    · rename_i hg
      cases h
      rw [hx, hg]
      exact ⟨rfl, rfl⟩
    · cases h

theorem setSeed_found {w : World} {a : Arg} {n : Held} {r s : Ref} (h : checkSeed a = .ok n)
    (hr : w.first Obj.isRand w.data = some r) (hs : w.first Obj.isSeed (w.opts r) = some s) :
    w.setSeed a = (w.put s (.seed n), none) := by
  obtain ⟨h1, h2⟩ := check_hold_seed h
  unfold World.setSeed
  rw [h1]
  simp only [hr, hs, h2]

theorem setSeed_opt {w : World} (hw : w.Wf) {a : Arg} {n : Held} {r : Ref} (h : checkSeed a = .ok n)
    (hr : w.first Obj.isRand w.data = some r) (hs : w.first Obj.isSeed (w.opts r) = none) :
    w.setSeed a = ((w.alloc (.seed n)).1.put r (.rand (some (w.opts r ++ [w.heap.length]))), none) := by
  obtain ⟨h1, h2⟩ := check_hold_seed h
  unfold World.setSeed
  rw [h1]
  simp only [hr, hs, h2]
  have : (w.alloc (.seed n)).1.keepOpts (w.opts r ++ [w.heap.length]) = w.opts r ++ [w.heap.length] := by
    refine filter_all ?_
    intro x hx
    rw [List.mem_append] at hx
    rcases hx with hx | hx
    · exact is_alloc_mono _ _ _ _ (opts_wf hw r x hx)
    · simp at hx; subst hx; rw [is_alloc_new]; rfl
  simp only [World.alloc] at this ⊢
  rw [this]

theorem setSeed_new {w : World} {a : Arg} {n : Held} (h : checkSeed a = .ok n)
    (hr : w.first Obj.isRand w.data = none) :
    w.setSeed a = (((w.alloc (.seed n)).1.alloc (.rand (some [w.heap.length]))).1.setData (w.data ++ [w.heap.length + 1]), none) := by
  obtain ⟨h1, h2⟩ := check_hold_seed h
  unfold World.setSeed
  rw [h1]
  simp only [hr, h2]
  have : (w.alloc (.seed n)).1.keepOpts [w.heap.length] = [w.heap.length] := by
    refine filter_all ?_
    intro x hx
    simp at hx; subst hx; rw [is_alloc_new]; rfl
  simp only [World.alloc] at this ⊢
  rw [this]
  simp

end State
