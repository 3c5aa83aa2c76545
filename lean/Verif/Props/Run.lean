import Verif.Run.DirLemmas

/-! C45: the hooks of a batch run are called in a fixed order. C46: runs never write to the same directory or file. -/

namespace Props
open Py Run

set_option maxRecDepth 100000

/-! ### The specification -/

/-- A number with five digits or more. -/
def fiveDigits (i : Nat) : Str := List.replicate (5 - (natStr i).length) '0' ++ natStr i

/-- The directory of a run. -/
def batchDir (j : Job) : Str := j.path ++ c!"/pymcnp-" ++ stamp j.time
/-- The directory of an input. -/
def inputDir (j : Job) (i : Nat) : Str := batchDir j ++ c!"/run-" ++ fiveDigits i
/-- A file of an input. -/
def inputFile (j : Job) (i : Nat) (ext : Str) : Str := inputDir j i ++ c!"/run-" ++ fiveDigits i ++ ext

/-- All that a run does, in order: the directory, the hook of the batch; for every input its directory, its file, its hook and its
process; for every input its second hook; the second hook of the batch. -/
def batchTrace (j : Job) : List Ev :=
  [.mkdir (batchDir j), .prehookBatch (batchDir j)] ++
  (List.range j.inps.length).flatMap (fun i =>
    [.mkdir (inputDir j i), .write (inputFile j i c!".inp") (match j.inps[i]? with | some (.ok t) => t | _ => []), .prehookFile (inputDir j i) i,
     .start [j.command, c!"inp=" ++ inputFile j i c!".inp" ++ c!" outp=" ++ inputFile j i c!".outp" ++ c!" ptrac=" ++ inputFile j i c!".ptrac"]]) ++
  (List.range j.inps.length).map (fun i => .posthookFile (inputDir j i) i) ++
  [.posthookBatch (batchDir j)]

/-- What the run did, without the ends of its processes. -/
def actions (t : List Ev) : List Ev := t.filter fun | .exit _ => false | _ => true

theorem dir_eq (j : Job) : j.dir = batchDir j := by simp [Job.dir, batchDir, pathJoin]
theorem sub_eq (j : Job) (i : Nat) : j.sub i = inputDir j i := by
  simp [Job.sub, inputDir, pathJoin, dir_eq, runName, fiveDigits, zfill]
theorem file_eq (j : Job) (i : Nat) (e : Str) : j.file i e = inputFile j i e := by
  simp [Job.file, inputFile, pathJoin, sub_eq, runName, fiveDigits, zfill]

theorem full_eq (j : Job) : j.full = batchTrace j := by
  unfold Job.full batchTrace Job.opening Job.files Job.posts
  simp only [dir_eq, sub_eq]
  congr 3
  congr 1
  funext i
  simp only [Job.pre, Job.args, sub_eq, file_eq, Job.text]
  rfl

theorem own_eq (t : List Ev) : own t = actions t := by
  unfold own actions
  congr 1
  funext e
  cases e <;> rfl

/-- C45: whatever the interleaving of any number of runs, their processes and other programs, what a run did is a beginning of
`batchTrace`; all of it when the run returned. -/
theorem C45_order (fs : List Str) (ms : List Move) (j : Job) (s : St) (h : (j, s) ∈ (exec fs ms).runs) :
    actions s.trace <+: batchTrace j ∧ (s.pc = .done → actions s.trace = batchTrace j) := by
  have hi := exec_inv fs ms _ h
  rw [← own_eq, ← full_eq]
  refine ⟨hi.pre, fun hd => ?_⟩
  have := hi.at_
  simp only at this hd
  rw [hd] at this
  exact this.1

/-- C45: the second hook of an input is called only after the process of that input is over. -/
theorem C45_after_exit (fs : List Str) (ms : List Move) (j : Job) (s : St) (h : (j, s) ∈ (exec fs ms).runs) (u v : List Ev) (p : Str) (i : Nat)
    (e : s.trace = u ++ .posthookFile p i :: v) : .exit i ∈ u := (exec_inv fs ms _ h).post u p i v e

/-- How many processes were started. -/
def starts (t : List Ev) : Nat := (t.filter fun e => match e with | .start _ => true | _ => false).length

/-- What the trace says about ended processes. -/
structure Exits (s : St) : Prop where
  procs : s.procs.length = starts s.trace
  over : ∀ i, .exit i ∈ s.trace → i ∈ s.over
  once : ∀ u i v, s.trace = u ++ .exit i :: v → i < starts u ∧ .exit i ∉ u

theorem starts_snoc (t : List Ev) (e : Ev) : starts (t ++ [e]) = starts t + (match e with | .start _ => 1 | _ => 0) := by
  unfold starts
  rw [List.filter_append]
  cases e <;> simp

theorem exits_log {s s' : St} {e : Ev} (h : Exits s) (he : ∀ i, e ≠ .exit i) (ht : s'.trace = s.trace ++ [e]) (ho : s'.over = s.over)
    (hp : s'.procs.length = starts s'.trace) : Exits s' := by
  refine ⟨hp, fun i hi => ?_, fun u i v huv => ?_⟩
  · rw [ht, List.mem_append, List.mem_singleton] at hi
    rw [ho]
    rcases hi with hi | hi
    · exact h.over i hi
    · exact absurd hi.symm (he i)
  · rw [ht] at huv
    rcases snoc_split huv with ⟨v', e'⟩ | ⟨_, e'⟩
    · exact h.once u i v' e'
    · exact absurd e'.symm (he i)

theorem exits_same {s s' : St} (h : Exits s) (ht : s'.trace = s.trace) (ho : s'.over = s.over) (hp : s'.procs = s.procs) : Exits s' :=
  ⟨by rw [hp, ht]; exact h.procs, by rw [ht, ho]; exact h.over, by rw [ht]; exact h.once⟩

theorem exits_plain {s : St} {e : Ev} {pc : Pc} (h : Exits s) (he : ∀ i, e ≠ .exit i) (hs : ∀ l, e ≠ .start l) : Exits (s.log e pc) :=
  exits_log h he rfl rfl (by
    show s.procs.length = starts (s.trace ++ [e])
    rw [starts_snoc, h.procs]
    cases e <;> simp at hs ⊢)

theorem exits_step (j : Job) (fs : List Str) (s : St) (h : Exits s) : Exits (step j fs s).2 := by
  have hmk : ∀ p pc, Exits (mkdir fs s p pc).2 := by
    intro p pc
    unfold mkdir
    split
    · exact exits_same h rfl rfl rfl
    · exact exits_plain h (by simp) (by simp)
  unfold step
  cases s.pc with
  | begin => exact hmk _ _
  | batch => exact exits_plain h (by simp) (by simp)
  | top i =>
    simp only
    split
    · exact hmk _ _
    · exact exits_same h rfl rfl rfl
  | made i =>
    simp only
    split
    · exact exits_plain h (by simp) (by simp)
    · exact exits_same h rfl rfl rfl
    · exact exits_same h rfl rfl rfl
  | written i => exact exits_plain h (by simp) (by simp)
  | hooked i =>
    refine exits_log h (e := .start _) (by simp) rfl rfl ?_
    simp only [St.log, List.length_append, List.length_singleton, starts_snoc, h.procs]
  | wait i =>
    simp only
    split
    · split
      · exact exits_same h rfl rfl rfl
      · exact h
    · exact exits_same h rfl rfl rfl
  | ended i sub => exact exits_plain h (by simp) (by simp)
  | closing => exact exits_plain h (by simp) (by simp)
  | done => exact h
  | failed e => exact h

/-- C45: a process ends once at most, and only after it was started, whatever the interleaving. -/
theorem C45_exits (fs : List Str) (ms : List Move) (j : Job) (s : St) (h : (j, s) ∈ (exec fs ms).runs) (u v : List Ev) (i : Nat)
    (e : s.trace = u ++ .exit i :: v) : i < starts u ∧ .exit i ∉ u ∧ .exit i ∉ v := by
  have hx : Exits s := by
    have hn : Exits .init := ⟨rfl, (fun i hi => by cases hi), (fun u i v h => by cases u <;> cases h)⟩
    refine exec_runs (P := fun _ s => Exits s) (fun _ => hn) (fun j fs s hs => exits_step j fs s hs) (fun _ s i hs => ?_)
      (fun _ s e hs => exits_same hs rfl rfl rfl) fs ms (j, s) h
    unfold exit
    split
    · rename_i hc
      refine ⟨?_, ?_, ?_⟩
      · show s.procs.length = starts (s.trace ++ [.exit i])
        rw [starts_snoc, hs.procs]; rfl
      · intro k hk
        rcases List.mem_append.1 hk with hk | hk
        · exact List.mem_cons_of_mem _ (hs.over k hk)
        · cases List.mem_singleton.1 hk; simp
      · intro u k v huv
        rcases snoc_split huv with ⟨v', e'⟩ | ⟨e1, e2⟩
        · exact hs.once u k v' e'
        · cases e2
          subst e1
          exact ⟨by rw [← hs.procs]; exact hc.1, fun hm => hc.2 (hs.over _ hm)⟩
    · exact hs
  refine ⟨(hx.once u i v e).1, (hx.once u i v e).2, fun hv => ?_⟩
  obtain ⟨a, b, rfl⟩ := List.append_of_mem hv
  have := (hx.once (u ++ .exit i :: a) i b (by rw [e]; simp)).2
  exact this (by simp)

/-- One run alone, `n` steps. -/
def steps (j : Job) (fs : List Str) : Nat → St → St
  | 0, s => s
  | n + 1, s => steps j fs n (step j fs s).2

theorem steps_wait (j : Job) (fs : List Str) : ∀ (k : Nat) (s : St) (i : Nat), s.pc = .wait i → j.inps.length = i + k →
    s.procs = (List.range j.inps.length).map j.sub → (∀ x < j.inps.length, x ∈ s.over) → ∃ n, (steps j fs n s).pc = .done
  | 0, s, i, hpc, hk, hp, ho => by
    refine ⟨2, ?_⟩
    have hnone : s.procs[i]? = none := by
      rw [hp, List.getElem?_eq_none_iff]; simp [hk]
    have e1 : (step j fs s).2 = { s with pc := .closing } := by
      unfold step
      rw [hpc]
      simp only [hnone]
    show (step j fs (step j fs s).2).2.pc = _
    rw [e1]
    rfl
  | k + 1, s, i, hpc, hk, hp, ho => by
    have hlt : i < j.inps.length := by omega
    have hsome : s.procs[i]? = some (j.sub i) := by
      rw [hp, List.getElem?_map, List.getElem?_range hlt]; rfl
    have e1 : (step j fs s).2 = { s with pc := .ended i (j.sub i) } := by
      unfold step
      rw [hpc]
      simp only [hsome]
      rw [if_pos (ho i hlt)]
    have e2 : (step j fs { s with pc := .ended i (j.sub i) }).2 = St.log { s with pc := .ended i (j.sub i) } (.posthookFile (j.sub i) i) (.wait (i + 1)) := rfl
    obtain ⟨n, hn⟩ := steps_wait j fs k (St.log { s with pc := .ended i (j.sub i) } (.posthookFile (j.sub i) i) (.wait (i + 1))) (i + 1) rfl
      (by omega) hp ho
    refine ⟨n + 2, ?_⟩
    show (steps j fs n (step j fs (step j fs s).2).2).pc = _
    rw [e1, e2]
    exact hn

/-- C45: once all inputs were started and all processes are over, in whatever order, the run returns if no hook raises. -/
theorem C45_returns (fs : List Str) (ms : List Move) (j : Job) (s : St) (h : (j, s) ∈ (exec fs ms).runs) (i : Nat) (hw : s.pc = .wait i)
    (ho : ∀ x < j.inps.length, x ∈ s.over) (fs' : List Str) :
    ∃ n, (steps j fs' n s).pc = .done := by
  have hat := (exec_inv fs ms _ h).at_
  simp only [hw] at hat
  obtain ⟨k, hk⟩ : ∃ k, j.inps.length = i + k := ⟨j.inps.length - i, by have := hat.2.1; omega⟩
  exact steps_wait j fs' k s i hw hk hat.2.2 ho

/-! ### Examples -/

def noon : Clock := ⟨2025, 1, 2, 12, 0, 0, 0⟩
def exJob : Job := ⟨c!"/tmp", noon, c!"mcnp6", [.ok c!"a", .ok c!"b", .ok c!"c"]⟩

/-- Three inputs, all started; the processes end in the reverse order. -/
def exMoves : List Move := [.call exJob] ++ List.replicate 16 (.go 0) ++ [.exit 0 2, .go 0, .exit 0 1, .go 0, .exit 0 0] ++ List.replicate 10 (.go 0)

example : ((exec [] exMoves).runs.map fun r => (r.2.pc, r.2.over)) = [(.done, [0, 1, 2])] := by decide +kernel
example : ((exec [] exMoves).runs.map fun r => actions r.2.trace) = [batchTrace exJob] := by decide +kernel
example : (batchTrace exJob).length = 18 := by decide +kernel
/-- A run that waits for its first process, all processes being over. -/
example : ((exec [] ([.call exJob] ++ List.replicate 15 (.go 0) ++ [.exit 0 2, .exit 0 1, .exit 0 0])).runs.map fun r => (r.2.pc, r.2.over)) =
    [(.wait 0, [0, 1, 2])] := by decide +kernel

/-- C45 when an input cannot be printed: the processes that were started are abandoned, neither waited for nor followed by a hook. -/
theorem C45_failure_abandons : ∃ ms j s, (exec [] ms).runs = [(j, s)] ∧ s.pc = .failed .types ∧ s.procs.length = 1 ∧ s.over = [] ∧
    ∀ e ∈ s.trace, ∀ p i, e ≠ .posthookFile p i ∧ e ≠ .posthookBatch p := by
  refine ⟨[.call ⟨c!"/tmp", noon, c!"mcnp6", [.ok c!"a", .error .types]⟩] ++ List.replicate 9 (.go 0), _, _, rfl, by decide +kernel, by decide +kernel,
    by decide +kernel, ?_⟩
  have : ∀ t : List Ev, (t.all fun | .posthookFile _ _ => false | .posthookBatch _ => false | _ => true) = true →
      ∀ e ∈ t, ∀ p i, e ≠ .posthookFile p i ∧ e ≠ .posthookBatch p := by
    intro t ht e he p i
    have := List.all_eq_true.1 ht e he
    constructor <;> (rintro rfl; cases this)
  exact this _ (by decide +kernel)

/-! ### C46 -/

/-- The directories a run made. -/
def dirsOf (t : List Ev) : List Str := t.filterMap fun | .mkdir p => some p | _ => none
/-- The files a run wrote. -/
def filesOf (t : List Ev) : List Str := t.filterMap fun | .write p _ => some p | _ => none

/-- C46: no directory is made twice, by one run or by two of them, however they are interleaved, and none that was there before. -/
theorem C46_directories (fs : List Str) (ms : List Move) (r r' : Nat) (x x' : Job × St) (hx : (exec fs ms).runs[r]? = some x)
    (hx' : (exec fs ms).runs[r']? = some x') :
    (dirsOf x.2.trace).Nodup ∧ (∀ p ∈ dirsOf x.2.trace, p ∉ fs) ∧ (r ≠ r' → ∀ p ∈ dirsOf x.2.trace, p ∉ dirsOf x'.2.trace) := by
  have h := exec_dirs fs ms
  exact ⟨h.nodup r x hx, fun p hp => (h.mem r x hx p hp).2, fun hne => h.disj r r' x x' hne hx hx'⟩

/-- C46: no file is written twice, by one run or by two of them, however they are interleaved. -/
theorem C46_files (fs : List Str) (ms : List Move) (r r' : Nat) (x x' : Job × St) (hx : (exec fs ms).runs[r]? = some x)
    (hx' : (exec fs ms).runs[r']? = some x') :
    (filesOf x.2.trace).Nodup ∧ (r ≠ r' → ∀ p ∈ filesOf x.2.trace, p ∉ filesOf x'.2.trace) := by
  have hi := exec_inv fs ms _ (List.mem_of_getElem? hx)
  have hi' := exec_inv fs ms _ (List.mem_of_getElem? hx')
  refine ⟨wrote_nodup hi, fun hne p hp hp' => ?_⟩
  obtain ⟨i, e, hm⟩ := wrote_made hi hp
  obtain ⟨i', e', hm'⟩ := wrote_made hi' hp'
  have := file_inj (e.symm.trans e')
  rw [← this] at hm'
  exact (exec_dirs fs ms).disj r r' x x' hne hx hx' _ hm hm'

/-- C46: every file a run writes is in a directory it made itself. -/
theorem C46_own_directory (fs : List Str) (ms : List Move) (j : Job) (s : St) (h : (j, s) ∈ (exec fs ms).runs) (p : Str) (hp : p ∈ filesOf s.trace) :
    ∃ d n, d ∈ dirsOf s.trace ∧ p = d ++ '/' :: n ∧ '/' ∉ n := by
  obtain ⟨i, e, hm⟩ := wrote_made (exec_inv fs ms _ h) hp
  refine ⟨_, _, hm, e, ?_⟩
  intro hs
  rcases List.mem_append.1 hs with hs | hs
  · exact runName_noSlash _ hs
  · revert hs; decide

/-- C46: two runs under the same path with the same directory: one of them does nothing at all (it raises `FileExistsError`). -/
theorem C46_same_directory (fs : List Str) (ms : List Move) (r r' : Nat) (x x' : Job × St) (hne : r ≠ r') (hx : (exec fs ms).runs[r]? = some x)
    (hx' : (exec fs ms).runs[r']? = some x') (hd : batchDir x.1 = batchDir x'.1) : actions x.2.trace = [] ∨ actions x'.2.trace = [] := by
  have hi := exec_inv fs ms _ (List.mem_of_getElem? hx)
  have hi' := exec_inv fs ms _ (List.mem_of_getElem? hx')
  rw [← own_eq, ← own_eq]
  by_cases h1 : own x.2.trace = []
  · exact .inl h1
  · by_cases h2 : own x'.2.trace = []
    · exact .inr h2
    · exfalso
      have m1 := own_first hi h1
      have m2 := own_first hi' h2
      rw [dir_eq] at m1 m2
      rw [← hd] at m2
      exact (exec_dirs fs ms).disj r r' x x' hne hx hx' _ m1 m2

/-- A reading of a clock. -/
def Clock.Valid (t : Clock) : Prop := t.year ≤ 9999 ∧ t.month ≤ 12 ∧ t.day ≤ 31 ∧ t.hour < 24 ∧ t.minute < 60 ∧ t.second < 62

/-- C46: the directories of two runs are the same only when the path is and the clock showed the same second. -/
theorem C46_names (j j' : Job) (h : Clock.Valid j.time) (h' : Clock.Valid j'.time) (hd : batchDir j = batchDir j') :
    j.path = j'.path ∧ { j.time with microsecond := 0 } = { j'.time with microsecond := 0 } := by
  rw [← dir_eq, ← dir_eq] at hd
  have hs : ∀ t, '/' ∉ c!"pymcnp-" ++ stamp t := by
    intro t ht
    rcases List.mem_append.1 ht with ht | ht
    · revert ht; decide
    · exact stamp_noSlash t ht
  obtain ⟨e1, e2⟩ := pathJoin_inj (hs _) (hs _) hd
  obtain ⟨a1, a2, a3, a4, a5, a6⟩ := h
  obtain ⟨b1, b2, b3, b4, b5, b6⟩ := h'
  generalize j.time = t at *
  generalize j'.time = u at *
  obtain ⟨y, m, d, hh, mi, se, us⟩ := t
  obtain ⟨y', m', d', hh', mi', se', us'⟩ := u
  simp only at a1 a2 a3 a4 a5 b1 b2 b3 b4 b5
  obtain ⟨c1, c2, c3, c4, c5, c6⟩ := stamp_inj (t := ⟨y, m, d, hh, mi, se, us⟩) (u := ⟨y', m', d', hh', mi', se', us'⟩)
    ⟨by simp only; omega, by simp only; omega, by simp only; omega, by simp only; omega, by simp only; omega⟩
    ⟨by simp only; omega, by simp only; omega, by simp only; omega, by simp only; omega, by simp only; omega⟩ (List.append_cancel_left e2)
  simp only at c1 c2 c3 c4 c5 c6
  exact ⟨e1, by simp only [c1, c2, c3, c4, c5, c6]⟩

/-- C46: a second run in the same second does not take place. -/
theorem C46_same_second : ((exec [] [.call exJob, .call { exJob with time := { noon with microsecond := 900000 } }, .go 0, .go 1]).runs.map
    fun r => (r.2.pc, r.2.trace.length)) = [(.batch, 1), (.failed .fileExists, 0)] := by decide +kernel

example : ∃ ms, ((exec [c!"/tmp"] ms).runs.map fun r => (filesOf r.2.trace).length) = [3, 2] :=
  ⟨[.call exJob, .call { exJob with time := { noon with second := 1 } }, .go 0, .go 1] ++ List.replicate 14 (.go 0) ++ List.replicate 7 (.go 1), by decide +kernel⟩

end Props
