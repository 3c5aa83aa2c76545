import Verif.Run.Run
import Verif.Py.StrLemmas

namespace Run
open Py

/-! ### Names -/

theorem strNat_zeros (k : Nat) (s : Str) : strNat (List.replicate k '0' ++ s) = strNat s := by
  induction k with
  | zero => rfl
  | succ k ih =>
    rw [List.replicate_succ, List.cons_append, strNat_cons, ih, digitVal_zero]
    simp

theorem zfill_inj {w a b : Nat} (h : zfill w (natStr a) = zfill w (natStr b)) : a = b := by
  have := congrArg strNat h
  rwa [zfill, zfill, strNat_zeros, strNat_zeros, strNat_natStr, strNat_natStr] at this

theorem zfill_length {w a : Nat} (hw : 0 < w) (h : a < 10 ^ w) : (zfill w (natStr a)).length = w := by
  have := natStr_length_le a w hw h
  simp only [zfill, List.length_append, List.length_replicate]
  omega

theorem digit_ne_slash {c : Char} (h : isDigit c = true) : c ≠ '/' := by
  intro e; subst e; exact absurd h (by decide)

theorem zfill_noSlash (w n : Nat) : '/' ∉ zfill w (natStr n) := by
  intro h
  rcases List.mem_append.1 h with h | h
  · exact absurd (List.eq_of_mem_replicate h) (by decide)
  · exact digit_ne_slash (natStr_digits n _ h) rfl

theorem runName_noSlash (i : Nat) : '/' ∉ runName i := by
  intro h
  rcases List.mem_append.1 h with h | h
  · revert h; decide
  · exact zfill_noSlash _ _ h

theorem runName_inj {a b : Nat} (h : runName a = runName b) : a = b := zfill_inj (List.append_cancel_left h)

theorem pathJoin_inj : ∀ {p q n m : Str}, '/' ∉ n → '/' ∉ m → pathJoin p n = pathJoin q m → p = q ∧ n = m
  | [], [], n, m, _, _, h => ⟨rfl, (List.cons.inj h).2⟩
  | [], c :: q, n, m, hn, _, h => by
    have := (List.cons.inj h).2
    rw [this] at hn
    exact absurd (List.mem_append_right q List.mem_cons_self) hn
  | c :: p, [], n, m, _, hm, h => by
    have := (List.cons.inj h).2
    rw [← this] at hm
    exact absurd (List.mem_append_right p List.mem_cons_self) hm
  | c :: p, d :: q, n, m, hn, hm, h => by
    have h2 := List.cons.inj h
    obtain ⟨e1, e2⟩ := pathJoin_inj (p := p) (q := q) hn hm h2.2
    exact ⟨by rw [h2.1, e1], e2⟩

theorem stamp_inj {t u : Clock} (ht : t.year < 10000 ∧ t.month < 100 ∧ t.day < 100 ∧ t.hour < 100 ∧ t.minute < 100)
    (hu : u.year < 10000 ∧ u.month < 100 ∧ u.day < 100 ∧ u.hour < 100 ∧ u.minute < 100) (h : stamp t = stamp u) :
    t.year = u.year ∧ t.month = u.month ∧ t.day = u.day ∧ t.hour = u.hour ∧ t.minute = u.minute ∧ t.second = u.second := by
  obtain ⟨a1, a2, a3, a4, a5⟩ := ht
  obtain ⟨b1, b2, b3, b4, b5⟩ := hu
  have l : ∀ {w a b : Nat}, 0 < w → a < 10 ^ w → b < 10 ^ w → (zfill w (natStr a)).length = (zfill w (natStr b)).length := by
    intro w a b hw ha hb
    rw [zfill_length hw ha, zfill_length hw hb]
  unfold stamp at h
  obtain ⟨e1, h⟩ := List.append_inj h (l (by decide) (by omega) (by omega))
  obtain ⟨e2, h⟩ := List.append_inj (List.cons.inj h).2 (l (by decide) (by omega) (by omega))
  obtain ⟨e3, h⟩ := List.append_inj (List.cons.inj h).2 (l (by decide) (by omega) (by omega))
  obtain ⟨e4, h⟩ := List.append_inj (List.cons.inj (List.cons.inj h).2).2 (l (by decide) (by omega) (by omega))
  obtain ⟨e5, h⟩ := List.append_inj (List.cons.inj h).2 (l (by decide) (by omega) (by omega))
  exact ⟨zfill_inj e1, zfill_inj e2, zfill_inj e3, zfill_inj e4, zfill_inj e5, zfill_inj (List.cons.inj h).2⟩

theorem stamp_noSlash (t : Clock) : '/' ∉ stamp t := by
  simp [stamp, zfill_noSlash]

/-! ### What is preserved by every move -/

/-- What holds of every run after every sequence of moves, when it holds at the call and is kept by what can happen to the run. -/
theorem exec_runs {P : Job → St → Prop} (h0 : ∀ j, P j .init) (h1 : ∀ j fs s, P j s → P j (step j fs s).2)
    (h2 : ∀ j s i, P j s → P j (exit s i)) (h3 : ∀ j s e, P j s → P j { s with pc := .failed e }) (fs : List Str) (ms : List Move) :
    ∀ r ∈ (exec fs ms).runs, P r.1 r.2 := by
  have hm : ∀ (y : Sys) (m : Move), (∀ r ∈ y.runs, P r.1 r.2) → ∀ r ∈ (y.move m).runs, P r.1 r.2 := by
    intro y m hy
    have hset : ∀ (k : Nat) (x : Job × St), P x.1 x.2 → ∀ r ∈ y.runs.set k x, P r.1 r.2 := by
      intro k x hx r hr
      rcases List.mem_or_eq_of_mem_set hr with hr | rfl
      · exact hy r hr
      · exact hx
    cases m with
    | call j =>
      intro r hr
      rcases List.mem_append.1 hr with hr | hr
      · exact hy r hr
      · cases List.mem_singleton.1 hr; exact h0 j
    | go k =>
      simp only [Sys.move]
      split
      · next j s hk => exact hset k (j, _) (h1 j y.fs s (hy (j, s) (List.mem_of_getElem? hk)))
      · exact hy
    | exit k i =>
      simp only [Sys.move]
      split
      · next j s hk => exact hset k (j, _) (h2 j s i (hy (j, s) (List.mem_of_getElem? hk)))
      · exact hy
    | raise k e =>
      simp only [Sys.move]
      split
      · next j s hk =>
        split
        · exact hy
        · exact hset k (j, _) (h3 j s e (hy (j, s) (List.mem_of_getElem? hk)))
      · exact hy
    | other p => exact hy
  have : ∀ (ms : List Move) (y : Sys), (∀ r ∈ y.runs, P r.1 r.2) → ∀ r ∈ (ms.foldl Sys.move y).runs, P r.1 r.2 := by
    intro ms
    induction ms with
    | nil => exact fun y hy => hy
    | cons m ms ih => exact fun y hy => ih _ (hm y m hy)
  exact this ms _ (by simp)

/-! ### The trace of one run -/

/-- The subdirectory of input `i`. -/
def Job.sub (j : Job) (i : Nat) : Str := pathJoin j.dir (runName i)
/-- A file of input `i`. -/
def Job.file (j : Job) (i : Nat) (ext : Str) : Str := pathJoin (j.sub i) (runName i ++ ext)
/-- The text of input `i`. -/
def Job.text (j : Job) (i : Nat) : Str := match j.inps[i]? with | some (.ok t) => t | _ => []
/-- The arguments for input `i`. -/
def Job.args (j : Job) (i : Nat) : List Str :=
  [j.command, c!"inp=" ++ j.file i c!".inp" ++ c!" outp=" ++ j.file i c!".outp" ++ c!" ptrac=" ++ j.file i c!".ptrac"]

/-- What is done for input `i` before its process is over. -/
def Job.pre (j : Job) (i : Nat) : List Ev :=
  [.mkdir (j.sub i), .write (j.file i c!".inp") (j.text i), .prehookFile (j.sub i) i, .start (j.args i)]

def Job.opening (j : Job) : List Ev := [.mkdir j.dir, .prehookBatch j.dir]
def Job.files (j : Job) (n : Nat) : List Ev := (List.range n).flatMap j.pre
def Job.posts (j : Job) (n : Nat) : List Ev := (List.range n).map fun i => .posthookFile (j.sub i) i
def Job.full (j : Job) : List Ev := j.opening ++ j.files j.inps.length ++ j.posts j.inps.length ++ [.posthookBatch j.dir]

def isExit : Ev → Bool
  | .exit _ => true
  | _ => false

/-- What the run itself did. -/
def own (t : List Ev) : List Ev := t.filter fun e => !isExit e

/-- What was done before the program is there, and what is known there. -/
def At (j : Job) (s : St) : Pc → Prop
  | .begin => own s.trace = [] ∧ s.procs = []
  | .batch => own s.trace = [.mkdir j.dir] ∧ s.procs = []
  | .top i => own s.trace = j.opening ++ j.files i ∧ i ≤ j.inps.length ∧ s.procs = (List.range i).map j.sub
  | .made i => own s.trace = j.opening ++ j.files i ++ (j.pre i).take 1 ∧ i < j.inps.length ∧ s.procs = (List.range i).map j.sub
  | .written i => own s.trace = j.opening ++ j.files i ++ (j.pre i).take 2 ∧ i < j.inps.length ∧ s.procs = (List.range i).map j.sub
  | .hooked i => own s.trace = j.opening ++ j.files i ++ (j.pre i).take 3 ∧ i < j.inps.length ∧ s.procs = (List.range i).map j.sub
  | .wait i => own s.trace = j.opening ++ j.files j.inps.length ++ j.posts i ∧ i ≤ j.inps.length ∧ s.procs = (List.range j.inps.length).map j.sub
  | .ended i p => own s.trace = j.opening ++ j.files j.inps.length ++ j.posts i ∧ i < j.inps.length ∧
      s.procs = (List.range j.inps.length).map j.sub ∧ p = j.sub i ∧ i ∈ s.over
  | .closing => own s.trace = j.opening ++ j.files j.inps.length ++ j.posts j.inps.length ∧ s.procs = (List.range j.inps.length).map j.sub
  | .done => own s.trace = j.full ∧ s.procs = (List.range j.inps.length).map j.sub
  | .failed _ => True

structure Inv (j : Job) (s : St) : Prop where
  at_ : At j s s.pc
  pre : own s.trace <+: j.full
  over : ∀ i ∈ s.over, .exit i ∈ s.trace
  post : ∀ u p i v, s.trace = u ++ .posthookFile p i :: v → .exit i ∈ u

theorem range_split {i n : Nat} (h : i ≤ n) : ∃ l, List.range n = List.range i ++ l := by
  obtain ⟨k, rfl⟩ : ∃ k, n = i + k := ⟨n - i, by omega⟩
  exact ⟨_, List.range_add⟩

theorem files_succ (j : Job) (i : Nat) : j.files (i + 1) = j.files i ++ j.pre i := by
  simp [Job.files, List.range_succ, List.flatMap_append]

theorem posts_succ (j : Job) (i : Nat) : j.posts (i + 1) = j.posts i ++ [.posthookFile (j.sub i) i] := by
  simp [Job.posts, List.range_succ]

theorem files_prefix (j : Job) {i : Nat} (h : i ≤ j.inps.length) : j.opening ++ j.files i <+: j.full := by
  obtain ⟨l, e⟩ := range_split h
  refine ⟨l.flatMap j.pre ++ j.posts j.inps.length ++ [.posthookBatch j.dir], ?_⟩
  simp [Job.full, Job.files, e, List.flatMap_append]

theorem part_prefix (j : Job) {i : Nat} (k : Nat) (h : i < j.inps.length) : j.opening ++ j.files i ++ (j.pre i).take k <+: j.full := by
  have h1 := files_prefix j (i := i + 1) (by omega)
  refine List.IsPrefix.trans ?_ h1
  rw [files_succ, ← List.append_assoc]
  exact (List.prefix_append_right_inj _).2 (List.take_prefix _ _)

theorem posts_prefix (j : Job) {i : Nat} (h : i ≤ j.inps.length) : j.opening ++ j.files j.inps.length ++ j.posts i <+: j.full := by
  obtain ⟨l, e⟩ := range_split h
  refine ⟨l.map (fun i => .posthookFile (j.sub i) i) ++ [.posthookBatch j.dir], ?_⟩
  simp [Job.full, Job.posts, e]

theorem at_prefix {j : Job} {s : St} : ∀ {pc : Pc}, (∀ e, pc ≠ .failed e) → At j s pc → own s.trace <+: j.full
  | .begin, _, h => by rw [h.1]; exact List.nil_prefix
  | .batch, _, h => by rw [h.1]; exact ⟨_, by simp [Job.full, Job.opening]; rfl⟩
  | .top i, _, h => by rw [h.1]; exact files_prefix j h.2.1
  | .made i, _, h => by rw [h.1]; exact part_prefix j 1 h.2.1
  | .written i, _, h => by rw [h.1]; exact part_prefix j 2 h.2.1
  | .hooked i, _, h => by rw [h.1]; exact part_prefix j 3 h.2.1
  | .wait i, _, h => by rw [h.1]; exact posts_prefix j h.2.1
  | .ended i p, _, h => by rw [h.1]; exact posts_prefix j (by have := h.2.1; omega)
  | .closing, _, h => by rw [h.1]; exact posts_prefix j (Nat.le_refl _)
  | .done, _, h => by rw [h.1]; exact List.prefix_refl _
  | .failed e, hf, _ => absurd rfl (hf e)

theorem own_snoc (t : List Ev) {e : Ev} (h : isExit e = false) : own (t ++ [e]) = own t ++ [e] := by
  simp [own, h]

theorem snoc_split {t : List Ev} {e : Ev} {u : List Ev} {x : Ev} {v : List Ev} (h : t ++ [e] = u ++ x :: v) :
    (∃ v', t = u ++ x :: v') ∨ (u = t ∧ x = e) := by
  rcases List.eq_nil_or_concat v with rfl | ⟨w, y, rfl⟩
  · have := List.append_inj' h rfl
    exact .inr ⟨this.1.symm, by simpa using this.2.symm⟩
  · left
    refine ⟨w, ?_⟩
    have : t ++ [e] = (u ++ x :: w) ++ [y] := by rw [h]; simp
    exact (List.append_inj' this rfl).1

/-- The invariant after an event other than the end of a process or a hook that follows one. -/
theorem inv_log {j : Job} {s : St} (h : Inv j s) {e : Ev} (hp : ∀ p i, e ≠ .posthookFile p i) {pc : Pc} {ps : List Str}
    (hat : At j { s with pc := pc, procs := ps, trace := s.trace ++ [e] } pc) (hf : ∀ e, pc ≠ .failed e) :
    Inv j { s with pc := pc, procs := ps, trace := s.trace ++ [e] } := by
  refine ⟨hat, at_prefix hf hat, ?_, ?_⟩
  · intro i hi
    exact List.mem_append_left _ (h.over i hi)
  · intro u p i v huv
    rcases snoc_split huv with ⟨v', e'⟩ | ⟨_, e'⟩
    · exact h.post u p i v' e'
    · exact absurd e'.symm (hp p i)

/-- The invariant after a step without an event. -/
theorem inv_go {j : Job} {s : St} (h : Inv j s) {pc : Pc} (hat : At j { s with pc := pc } pc) : Inv j { s with pc := pc } :=
  ⟨hat, h.pre, h.over, h.post⟩

theorem inv_fail {j : Job} {s : St} (h : Inv j s) (e : Err) : Inv j { s with pc := .failed e } := inv_go h trivial

theorem inv_mkdir {j : Job} {s : St} (h : Inv j s) (fs : List Str) (p : Str) {pc : Pc} (hf : ∀ e, pc ≠ .failed e)
    (hat : At j { s with pc := pc, trace := s.trace ++ [.mkdir p] } pc) : Inv j (mkdir fs s p pc).2 := by
  unfold mkdir
  split
  · exact inv_fail h _
  · exact inv_log h (by simp) hat hf

theorem inv_step (j : Job) (fs : List Str) (s : St) (h : Inv j s) : Inv j (step j fs s).2 := by
  have hat := h.at_
  unfold step
  cases hpc : s.pc with
  | begin =>
    rw [hpc] at hat
    refine inv_mkdir h fs _ (by simp) ⟨?_, hat.2⟩
    rw [own_snoc _ rfl, hat.1]; rfl
  | batch =>
    rw [hpc] at hat
    refine inv_log h (e := .prehookBatch j.dir) (by simp) ⟨?_, by omega, ?_⟩ (by simp)
    · rw [own_snoc _ rfl, hat.1]; rfl
    · rw [hat.2]; rfl
  | top i =>
    rw [hpc] at hat
    simp only
    split
    · refine inv_mkdir h fs _ (by simp) ⟨?_, by assumption, hat.2.2⟩
      rw [own_snoc _ rfl, hat.1]; rfl
    · next hn =>
      have : i = j.inps.length := by have := hat.2.1; omega
      subst this
      exact inv_go h ⟨by rw [hat.1]; simp [Job.posts], by omega, hat.2.2⟩
  | made i =>
    rw [hpc] at hat
    simp only
    cases hi : j.inps[i]? with
    | none => exact inv_fail h _
    | some x =>
      cases x with
      | error e => exact inv_fail h _
      | ok t =>
        refine inv_log h (by simp) ⟨?_, hat.2.1, hat.2.2⟩ (by simp)
        have ht : j.text i = t := by simp [Job.text, hi]
        rw [own_snoc _ rfl, hat.1, List.append_assoc]
        show _ = _ ++ [Ev.mkdir (j.sub i), Ev.write (j.file i c!".inp") (j.text i)]
        rw [ht]; rfl
  | written i =>
    rw [hpc] at hat
    refine inv_log h (by simp) ⟨?_, hat.2.1, hat.2.2⟩ (by simp)
    rw [own_snoc _ rfl, hat.1, List.append_assoc]; rfl
  | hooked i =>
    rw [hpc] at hat
    refine inv_log h (pc := .top (i + 1)) (ps := s.procs ++ [j.sub i]) (e := .start (j.args i)) (by simp) ⟨?_, hat.2.1, ?_⟩ (by simp)
    · rw [own_snoc _ rfl, hat.1, files_succ, List.append_assoc, List.append_assoc]; rfl
    · simp only
      rw [hat.2.2, List.range_succ, List.map_append]; rfl
  | wait i =>
    rw [hpc] at hat
    obtain ⟨h1, h2, h3⟩ := hat
    simp only
    cases hi : s.procs[i]? with
    | none =>
      have : j.inps.length ≤ i := by
        rw [h3, List.getElem?_eq_none_iff] at hi
        simpa using hi
      have : i = j.inps.length := by omega
      subst this
      exact inv_go h ⟨h1, h3⟩
    | some p =>
      have hlt : i < j.inps.length := by
        rcases Nat.lt_or_ge i j.inps.length with h | h
        · exact h
        · rw [h3, List.getElem?_eq_none (by simpa using h)] at hi; cases hi
      have hp : p = j.sub i := by
        rw [h3, List.getElem?_map, List.getElem?_range hlt] at hi
        cases hi; rfl
      simp only
      split
      · next ho => exact inv_go h ⟨h1, hlt, h3, hp, ho⟩
      · exact h
  | ended i p =>
    rw [hpc] at hat
    obtain ⟨h1, h2, h3, h4, h5⟩ := hat
    have hA : At j { s with pc := .wait (i + 1), trace := s.trace ++ [.posthookFile p i] } (.wait (i + 1)) := by
      refine ⟨?_, h2, h3⟩
      rw [own_snoc _ rfl, h1, posts_succ, h4, List.append_assoc]
    refine ⟨hA, at_prefix (by simp) hA, fun k hk => List.mem_append_left _ (h.over k hk), ?_⟩
    intro u q k v huv
    rcases snoc_split huv with ⟨v', e'⟩ | ⟨e1, e2⟩
    · exact h.post u q k v' e'
    · cases e2
      rw [e1]
      exact h.over _ h5
  | closing =>
    rw [hpc] at hat
    refine inv_log h (by simp) ⟨?_, hat.2⟩ (by simp)
    rw [own_snoc _ rfl, hat.1]; rfl
  | done => exact h
  | failed e => exact h

theorem own_exit (t : List Ev) (i : Nat) : own (t ++ [.exit i]) = own t := by simp [own, isExit]

theorem at_exit {j : Job} {s : St} {i : Nat} : ∀ {pc : Pc}, At j s pc → At j { s with over := i :: s.over, trace := s.trace ++ [.exit i] } pc
  | .begin, h => by simpa [At, own_exit] using h
  | .batch, h => by simpa [At, own_exit] using h
  | .top _, h => by simpa [At, own_exit] using h
  | .made _, h => by simpa [At, own_exit] using h
  | .written _, h => by simpa [At, own_exit] using h
  | .hooked _, h => by simpa [At, own_exit] using h
  | .wait _, h => by simpa [At, own_exit] using h
  | .ended k p, h => by
    obtain ⟨h1, h2, h3, h4, h5⟩ := h
    exact ⟨by rw [own_exit]; exact h1, h2, h3, h4, List.mem_cons_of_mem _ h5⟩
  | .closing, h => by simpa [At, own_exit] using h
  | .done, h => by simpa [At, own_exit] using h
  | .failed _, _ => trivial

theorem inv_exit (j : Job) (s : St) (i : Nat) (h : Inv j s) : Inv j (exit s i) := by
  unfold exit
  split
  · refine ⟨at_exit h.at_, by rw [own_exit]; exact h.pre, ?_, ?_⟩
    · intro k hk
      rcases List.mem_cons.1 hk with rfl | hk
      · simp
      · exact List.mem_append_left _ (h.over k hk)
    · intro u p k v huv
      rcases snoc_split huv with ⟨v', e'⟩ | ⟨_, e'⟩
      · exact h.post u p k v' e'
      · cases e'
  · exact h

theorem inv_init (j : Job) : Inv j .init := by
  refine ⟨⟨rfl, rfl⟩, List.nil_prefix, by simp [St.init], ?_⟩
  intro u p i v h
  cases u <;> cases h

theorem exec_inv (fs : List Str) (ms : List Move) : ∀ r ∈ (exec fs ms).runs, Inv r.1 r.2 :=
  exec_runs inv_init inv_step inv_exit (fun _ _ e h => inv_fail h e) fs ms

end Run
