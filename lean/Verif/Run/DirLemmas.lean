import Verif.Run.Lemmas

namespace Run
open Py

/-- The directories a run made. -/
def made (t : List Ev) : List Str := t.filterMap fun | .mkdir p => some p | _ => none
/-- The files a run wrote. -/
def wrote (t : List Ev) : List Str := t.filterMap fun | .write p _ => some p | _ => none

theorem made_snoc (t : List Ev) (e : Ev) : made (t ++ [e]) = made t ++ made [e] := by simp [made, List.filterMap_append]

theorem step_made (j : Job) (fs : List Str) (s : St) :
    ((step j fs s).1 = fs ∧ made (step j fs s).2.trace = made s.trace) ∨
      ∃ p, p ∉ fs ∧ (step j fs s).1 = p :: fs ∧ made (step j fs s).2.trace = made s.trace ++ [p] := by
  have hmk : ∀ p pc, ((mkdir fs s p pc).1 = fs ∧ made (mkdir fs s p pc).2.trace = made s.trace) ∨
      ∃ p', p' ∉ fs ∧ (mkdir fs s p pc).1 = p' :: fs ∧ made (mkdir fs s p pc).2.trace = made s.trace ++ [p'] := by
    intro p pc
    unfold mkdir
    split
    · exact .inl ⟨rfl, rfl⟩
    · next h => exact .inr ⟨p, h, rfl, by simp [St.log, made_snoc]; rfl⟩
  have hlog : ∀ e pc, made [e] = [] → made (s.log e pc).trace = made s.trace := by
    intro e pc h
    simp [St.log, made_snoc, h]
  unfold step
  cases s.pc with
  | begin => exact hmk _ _
  | batch => exact .inl ⟨rfl, hlog _ _ rfl⟩
  | top i =>
    simp only
    split
    · exact hmk _ _
    · exact .inl ⟨rfl, rfl⟩
  | made i =>
    simp only
    cases j.inps[i]? with
    | none => exact .inl ⟨rfl, rfl⟩
    | some x =>
      cases x with
      | error e => exact .inl ⟨rfl, rfl⟩
      | ok t => exact .inl ⟨rfl, hlog _ _ rfl⟩
  | written i => exact .inl ⟨rfl, hlog _ _ rfl⟩
  | hooked i => exact .inl ⟨rfl, hlog (.start (j.args i)) (.top (i + 1)) rfl⟩
  | wait i =>
    simp only
    cases s.procs[i]? with
    | none => exact .inl ⟨rfl, rfl⟩
    | some p =>
      simp only
      split
      · exact .inl ⟨rfl, rfl⟩
      · exact .inl ⟨rfl, rfl⟩
  | ended i p => exact .inl ⟨rfl, hlog _ _ rfl⟩
  | closing => exact .inl ⟨rfl, hlog _ _ rfl⟩
  | done => exact .inl ⟨rfl, rfl⟩
  | failed e => exact .inl ⟨rfl, rfl⟩

theorem exit_made (s : St) (i : Nat) : made (exit s i).trace = made s.trace := by
  unfold exit
  split
  · simp [made_snoc]; rfl
  · rfl

/-- No directory is made twice, whoever makes it. -/
structure Dirs (fs0 : List Str) (y : Sys) : Prop where
  sub : ∀ p ∈ fs0, p ∈ y.fs
  nodup : ∀ (r : Nat) (x : Job × St), y.runs[r]? = some x → (made x.2.trace).Nodup
  mem : ∀ (r : Nat) (x : Job × St), y.runs[r]? = some x → ∀ p ∈ made x.2.trace, p ∈ y.fs ∧ p ∉ fs0
  disj : ∀ (r r' : Nat) (x x' : Job × St), r ≠ r' → y.runs[r]? = some x → y.runs[r']? = some x' → ∀ p ∈ made x.2.trace, p ∉ made x'.2.trace

theorem get_set {l : List (Job × St)} {k r : Nat} {a x : Job × St} (h : (l.set k a)[r]? = some x) :
    (r = k ∧ x = a) ∨ (r ≠ k ∧ l[r]? = some x) := by
  rw [List.getElem?_set] at h
  split at h
  · next e =>
    split at h
    · cases h; exact .inl ⟨e.symm, rfl⟩
    · cases h
  · next e => exact .inr ⟨fun e' => e e'.symm, h⟩

/-- A run changes without making a directory. -/
theorem dirs_same {fs0 : List Str} {y : Sys} (h : Dirs fs0 y) {k : Nat} {j : Job} {s s' : St} (hk : y.runs[k]? = some (j, s))
    (hm : made s'.trace = made s.trace) : Dirs fs0 ⟨y.fs, y.runs.set k (j, s')⟩ := by
  have hx : ∀ {r : Nat} {x : Job × St}, (y.runs.set k (j, s'))[r]? = some x → ∃ x', y.runs[r]? = some x' ∧ made x.2.trace = made x'.2.trace := by
    intro r x hr
    rcases get_set hr with ⟨rfl, rfl⟩ | ⟨_, hr⟩
    · exact ⟨_, hk, hm⟩
    · exact ⟨x, hr, rfl⟩
  refine ⟨h.sub, ?_, ?_, ?_⟩
  · intro r x hr
    obtain ⟨x', h1, h2⟩ := hx hr
    rw [h2]; exact h.nodup r x' h1
  · intro r x hr
    obtain ⟨x', h1, h2⟩ := hx hr
    rw [h2]; exact h.mem r x' h1
  · intro r r' x x' hne hr hr'
    obtain ⟨z, h1, h2⟩ := hx hr
    obtain ⟨z', h1', h2'⟩ := hx hr'
    rw [h2, h2']; exact h.disj r r' z z' hne h1 h1'

theorem dirs_move {fs0 : List Str} {y : Sys} (h : Dirs fs0 y) (m : Move) : Dirs fs0 (y.move m) := by
  cases m with
  | call j =>
    have hx : ∀ {r : Nat} {x : Job × St}, (y.runs ++ [(j, St.init)])[r]? = some x → y.runs[r]? = some x ∨ made x.2.trace = [] := by
      intro r x hr
      rw [List.getElem?_append] at hr
      split at hr
      · exact .inl hr
      · right
        have := List.mem_of_getElem? hr
        rw [List.mem_singleton] at this
        subst this; rfl
    refine ⟨h.sub, ?_, ?_, ?_⟩
    · intro r x hr
      rcases hx hr with h1 | h1
      · exact h.nodup r x h1
      · rw [h1]; exact List.nodup_nil
    · intro r x hr p hp
      rcases hx hr with h1 | h1
      · exact h.mem r x h1 p hp
      · rw [h1] at hp; cases hp
    · intro r r' x x' hne hr hr' p hp hp'
      rcases hx hr with h1 | h1
      · rcases hx hr' with h2 | h2
        · exact h.disj r r' x x' hne h1 h2 p hp hp'
        · rw [h2] at hp'; cases hp'
      · rw [h1] at hp; cases hp
  | go k =>
    simp only [Sys.move]
    split
    · next j s hk =>
      rcases step_made j y.fs s with ⟨h1, h2⟩ | ⟨p, hp, h1, h2⟩
      · rw [h1]
        exact dirs_same h hk h2
      · rw [h1]
        refine ⟨fun q hq => List.mem_cons_of_mem _ (h.sub q hq), ?_, ?_, ?_⟩
        · intro r x hr
          rcases get_set hr with ⟨rfl, rfl⟩ | ⟨_, hr⟩
          · simp only
            rw [h2, List.nodup_append]
            refine ⟨h.nodup _ _ hk, by simp, ?_⟩
            intro a ha b hb e
            rw [List.mem_singleton] at hb
            subst hb; subst e
            exact hp (h.mem _ _ hk _ ha).1
          · exact h.nodup r x hr
        · intro r x hr q hq
          rcases get_set hr with ⟨rfl, rfl⟩ | ⟨_, hr⟩
          · simp only at hq
            rw [h2] at hq
            rcases List.mem_append.1 hq with hq | hq
            · exact ⟨List.mem_cons_of_mem _ (h.mem _ _ hk q hq).1, (h.mem _ _ hk q hq).2⟩
            · rw [List.mem_singleton] at hq
              subst hq
              exact ⟨List.mem_cons_self, fun hf => hp (h.sub _ hf)⟩
          · exact ⟨List.mem_cons_of_mem _ (h.mem r x hr q hq).1, (h.mem r x hr q hq).2⟩
        · intro r r' x x' hne hr hr' q hq hq'
          rcases get_set hr with ⟨rfl, rfl⟩ | ⟨_, ha⟩
          · rcases get_set hr' with ⟨rfl, rfl⟩ | ⟨_, hb⟩
            · exact hne rfl
            · simp only at hq
              rw [h2] at hq
              rcases List.mem_append.1 hq with hq | hq
              · exact h.disj _ r' _ x' hne hk hb q hq hq'
              · rw [List.mem_singleton] at hq
                subst hq
                exact hp (h.mem r' x' hb _ hq').1
          · rcases get_set hr' with ⟨rfl, rfl⟩ | ⟨_, hb⟩
            · simp only at hq'
              rw [h2] at hq'
              rcases List.mem_append.1 hq' with hq' | hq'
              · exact h.disj r _ x _ hne ha hk q hq hq'
              · rw [List.mem_singleton] at hq'
                subst hq'
                exact hp (h.mem r x ha _ hq).1
            · exact h.disj r r' x x' hne ha hb q hq hq'
    · exact h
  | exit k i =>
    simp only [Sys.move]
    split
    · next j s hk => exact dirs_same h hk (exit_made s i)
    · exact h
  | raise k e =>
    simp only [Sys.move]
    split
    · next j s hk =>
      split
      · exact h
      · exact dirs_same h hk rfl
    · exact h
  | other p =>
    refine ⟨fun q hq => List.mem_cons_of_mem _ (h.sub q hq), h.nodup, ?_, h.disj⟩
    intro r x hr q hq
    exact ⟨List.mem_cons_of_mem _ (h.mem r x hr q hq).1, (h.mem r x hr q hq).2⟩

theorem exec_dirs (fs : List Str) (ms : List Move) : Dirs fs (exec fs ms) := by
  have : ∀ (ms : List Move) (y : Sys), Dirs fs y → Dirs fs (ms.foldl Sys.move y) := by
    intro ms
    induction ms with
    | nil => exact fun y hy => hy
    | cons m ms ih => exact fun y hy => ih _ (dirs_move hy m)
  exact this ms _ ⟨fun _ h => h, by simp, by simp, by simp⟩

/-! ### The directories and files of one run -/

theorem made_own (t : List Ev) : made (own t) = made t := by
  unfold made own
  rw [List.filterMap_filter]
  congr 1
  funext e
  cases e <;> rfl

theorem wrote_own (t : List Ev) : wrote (own t) = wrote t := by
  unfold wrote own
  rw [List.filterMap_filter]
  congr 1
  funext e
  cases e <;> rfl

theorem posts_wrote (j : Job) (n : Nat) : wrote (j.posts n) = [] := by
  simp [wrote, Job.posts, List.filterMap_map]

theorem files_wrote (j : Job) (n : Nat) : wrote (j.files n) = (List.range n).map fun i => j.file i c!".inp" := by
  induction n with
  | zero => rfl
  | succ n ih =>
    rw [files_succ, wrote, List.filterMap_append]
    show wrote (j.files n) ++ wrote (j.pre n) = _
    rw [ih, List.range_succ, List.map_append]
    rfl

theorem full_wrote (j : Job) : wrote j.full = (List.range j.inps.length).map fun i => j.file i c!".inp" := by
  have e : ∀ a b : List Ev, wrote (a ++ b) = wrote a ++ wrote b := by intro a b; simp [wrote, List.filterMap_append]
  rw [Job.full, e, e, e, posts_wrote, files_wrote]
  simp [wrote, Job.opening]

theorem file_inj {j j' : Job} {i i' : Nat} (h : j.file i c!".inp" = j'.file i' c!".inp") : j.sub i = j'.sub i' := by
  refine (pathJoin_inj ?_ ?_ h).1 <;>
  · intro hm
    rcases List.mem_append.1 hm with hm | hm
    · exact runName_noSlash _ hm
    · revert hm; decide

theorem sub_inj {j j' : Job} {i i' : Nat} (h : j.sub i = j'.sub i') : j.dir = j'.dir ∧ i = i' := by
  obtain ⟨h1, h2⟩ := pathJoin_inj (runName_noSlash i) (runName_noSlash i') h
  exact ⟨h1, runName_inj h2⟩

theorem wrote_nodup {j : Job} {s : St} (h : Inv j s) : (wrote s.trace).Nodup := by
  obtain ⟨l, e⟩ := h.pre
  have : (wrote j.full).Nodup := by
    rw [full_wrote]
    refine (List.pairwise_map.2 ?_)
    refine List.Pairwise.imp ?_ (List.nodup_range (n := j.inps.length))
    intro a b hab e
    exact hab (sub_inj (file_inj e)).2
  rw [← e] at this
  have e2 : wrote (own s.trace ++ l) = wrote s.trace ++ wrote l := by
    rw [wrote, List.filterMap_append]
    show wrote (own s.trace) ++ wrote l = _
    rw [wrote_own]
  rw [e2] at this
  exact (List.nodup_append.1 this).1

/-- A file was written in a directory that the run made. -/
theorem wrote_made {j : Job} {s : St} (h : Inv j s) {p : Str} (hp : p ∈ wrote s.trace) : ∃ i, p = j.file i c!".inp" ∧ j.sub i ∈ made s.trace := by
  -- in every prefix of the full trace, a file comes after its directory
  have key : ∀ (t : List Ev), t <+: j.full → p ∈ wrote t → ∃ i, p = j.file i c!".inp" ∧ j.sub i ∈ made t := by
    have hfull : ∀ (l : List Nat) (t : List Ev) , t <+: l.flatMap j.pre ++ (j.posts j.inps.length ++ [.posthookBatch j.dir]) → p ∈ wrote t →
        ∃ i, p = j.file i c!".inp" ∧ j.sub i ∈ made t := by
      intro l
      induction l with
      | nil =>
        intro t ht hw
        exfalso
        obtain ⟨q, e⟩ := ht
        have h2 : p ∈ wrote (t ++ q) := by
          rw [wrote, List.filterMap_append]
          exact List.mem_append_left _ hw
        rw [e] at h2
        have h3 : wrote ([].flatMap j.pre ++ (j.posts j.inps.length ++ [Ev.posthookBatch j.dir])) = [] := by
          show wrote (j.posts j.inps.length ++ [Ev.posthookBatch j.dir]) = []
          rw [wrote, List.filterMap_append]
          show wrote (j.posts j.inps.length) ++ _ = []
          rw [posts_wrote]; rfl
        rw [h3] at h2
        cases h2
      | cons a l ih =>
        intro t ht hw
        have e : (a :: l).flatMap j.pre ++ (j.posts j.inps.length ++ [Ev.posthookBatch j.dir]) =
            Ev.mkdir (j.sub a) :: Ev.write (j.file a c!".inp") (j.text a) :: Ev.prehookFile (j.sub a) a :: Ev.start (j.args a) ::
              (l.flatMap j.pre ++ (j.posts j.inps.length ++ [Ev.posthookBatch j.dir])) := by
          simp [List.flatMap_cons, Job.pre]
        rw [e] at ht
        cases t with
        | nil => cases hw
        | cons x t =>
          have hh := List.cons_prefix_cons.1 ht
          clear ht
          obtain ⟨hx, ht⟩ := hh
          subst hx
          cases t with
          | nil => cases hw
          | cons x t =>
            have hh := List.cons_prefix_cons.1 ht
            clear ht
            obtain ⟨hx, ht⟩ := hh
            subst hx
            rcases List.mem_cons.1 (show p ∈ j.file a c!".inp" :: wrote t from hw) with rfl | hw
            · exact ⟨a, rfl, by simp [made]⟩
            · have up : ∀ {t'}, made t' ⊆ made t → (∃ i, p = j.file i c!".inp" ∧ j.sub i ∈ made t') →
                  ∃ i, p = j.file i c!".inp" ∧ j.sub i ∈ made (Ev.mkdir (j.sub a) :: Ev.write (j.file a c!".inp") (j.text a) :: t) := by
                rintro t' hs ⟨i, h1, h2⟩
                exact ⟨i, h1, List.mem_cons_of_mem _ (hs h2)⟩
              cases t with
              | nil => cases hw
              | cons x t =>
                have hh := List.cons_prefix_cons.1 ht
                clear ht
                obtain ⟨hx, ht⟩ := hh
                subst hx
                cases t with
                | nil => cases hw
                | cons x t =>
                  have hh := List.cons_prefix_cons.1 ht
                  clear ht
                  obtain ⟨hx, ht⟩ := hh
                  subst hx
                  exact up (fun _ h => h) (ih t ht hw)
    intro t ht hw
    have e : j.full = Ev.mkdir j.dir :: Ev.prehookBatch j.dir :: ((List.range j.inps.length).flatMap j.pre ++
        (j.posts j.inps.length ++ [Ev.posthookBatch j.dir])) := by
      simp [Job.full, Job.opening, Job.files]
    rw [e] at ht
    cases t with
    | nil => cases hw
    | cons x t =>
      have hh := List.cons_prefix_cons.1 ht
      clear ht
      obtain ⟨hx, ht⟩ := hh
      subst hx
      cases t with
      | nil => cases hw
      | cons x t =>
        have hh := List.cons_prefix_cons.1 ht
        clear ht
        obtain ⟨hx, ht⟩ := hh
        subst hx
        obtain ⟨i, h1, h2⟩ := hfull _ t ht hw
        exact ⟨i, h1, List.mem_cons_of_mem _ h2⟩
  obtain ⟨i, h1, h2⟩ := key _ h.pre (by rw [wrote_own]; exact hp)
  exact ⟨i, h1, by rw [made_own] at h2; exact h2⟩

/-- A run that did anything made its directory. -/
theorem own_first {j : Job} {s : St} (h : Inv j s) (hn : own s.trace ≠ []) : j.dir ∈ made s.trace := by
  obtain ⟨l, e⟩ := h.pre
  rw [← made_own]
  cases ho : own s.trace with
  | nil => exact absurd ho hn
  | cons x t =>
    rw [ho] at e
    have : x = .mkdir j.dir := by
      simp [Job.full, Job.opening] at e
      exact e.1
    subst this
    simp [made]

end Run
