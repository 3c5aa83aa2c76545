import Verif.Run.Commands
import Verif.Props.Cli
import Verif.Props.Equal
import Verif.Props.Run
/-!
# Statuses of commands: C77
-/
namespace Props
open Py Cli State
open Outp (Table tables outpParse)

set_option maxRecDepth 100000

/-! ## Specification -/

/-- An input file that is there and can be read. -/
def Readable (w : World) (path : Str) (f : File) : Prop := ∃ s, w.get path = some s ∧ inpRead s = .ok f

/-- Input files that are there and can be read, in order. -/
inductive ReadableAll (w : World) : List Str → List File → Prop where
  | nil : ReadableAll w [] []
  | cons {p f ps fs} : Readable w p f → ReadableAll w ps fs → ReadableAll w (p :: ps) (f :: fs)

/-- The files `w'` are the files `w`, but the file `path` holds `s`. -/
def Wrote (w w' : World) (path s : Str) : Prop := ∀ q, w'.get q = if path = q then some s else w.get q

/-! ## Helper lemmas -/

theorem good_read {f : File} (h : GoodFile f) : inpRead (inpPrint f) = .ok f := by
  obtain ⟨ws, h1, h2⟩ := h.title
  exact C71_roundtrip_partial f h.message ws h1 h2 h.plain h.short h.cells h.imp h.surfaces h.data h.other

/-! ## C77 – the status tells whether the command did its work -/

/-- **C77, `pymcnp check`:** the status is 0 exactly when the file is there and can be read, 2 when there is no such file, and no file is changed
by a check alone. -/
theorem C77_check (path : Str) (w : World) :
    ((checkMain path false w).1 = 0 ↔ ∃ f, Readable w path f) ∧ (w.get path = none → (checkMain path false w).1 = 2) ∧
      (checkMain path false w).2 = w := by
  unfold checkMain checkFile Readable
  cases hw : w.get path with
  | none => exact ⟨⟨fun h => by simp [inpStatus] at h, fun ⟨_, _, h, _⟩ => by simp at h⟩, fun _ => rfl, rfl⟩
  | some s =>
    simp only
    cases hr : inpRead s with
    | error e =>
      refine ⟨⟨fun h => ?_, fun ⟨f, t, h, h'⟩ => ?_⟩, fun h => by simp at h, rfl⟩
      · cases e <;> simp [inpStatus, traceback] at h
      · simp only [Option.some.injEq] at h; subst h; rw [hr] at h'; cases h'
    | ok f => exact ⟨⟨fun _ => ⟨f, s, rfl, hr⟩, fun _ => rfl⟩, fun h => by simp at h, rfl⟩

/-- A file that can be read, for the examples. -/
def exDisk : World := [(c!"a.inp", inpPrint (exNoted c!"note")), (c!"b.inp", c!"no input")]

theorem exDisk_readable : Readable exDisk c!"a.inp" (exNoted c!"note") := 
  ⟨_, by simp [exDisk, World.get], good_read (exNoted_good _ ⟨by decide, by decide, by decide⟩)⟩

example : (checkMain c!"a.inp" false exDisk).1 = 0 ∧ (checkMain c!"b.inp" false exDisk).1 = 1 ∧ (checkMain c!"c.inp" false exDisk).1 = 2 :=
  ⟨(C77_check _ _).1.2 ⟨_, exDisk_readable⟩, by decide +kernel, (C77_check _ _).2.1 (by simp [exDisk, World.get])⟩

/-- **C77, why a check fails:** the status is 1 for an error in the syntax, 3 for an error in a value, and 1 for an uncaught exception. -/
theorem C77_check_status (path s : Str) (w : World) (e : Err) (fixing : Bool) (hw : w.get path = some s) (h : inpRead s = .error e) :
    (checkMain path fixing w).1 = (if e = .types then 3 else if e = .cli then 2 else 1) := by
  unfold checkMain checkFile
  rw [hw]
  simp only
  rw [h]
  cases e <;> rfl

example : exDisk.get c!"b.inp" = some c!"no input" ∧ inpRead c!"no input" = .error .inp := by decide +kernel

/-- **C77, `pymcnp check --fix`:** the status is 0 exactly when the file is there and can be read.  Then the file holds the print of what was read,
and all other files are as they were.  Otherwise all files are as they were. -/
theorem C77_fix (path : Str) (w : World) :
    ((checkMain path true w).1 = 0 ↔ ∃ f, Readable w path f) ∧
      (∀ f, Readable w path f → Wrote w (checkMain path true w).2 path (inpPrint f)) ∧
      ((checkMain path true w).1 ≠ 0 → (checkMain path true w).2 = w) := by
  unfold checkMain checkFile Readable
  cases hw : w.get path with
  | none => exact ⟨⟨fun h => by simp [inpStatus] at h, fun ⟨_, _, h, _⟩ => by simp at h⟩, fun _ ⟨_, h, _⟩ => by simp at h, fun _ => rfl⟩
  | some s =>
    simp only
    cases hr : inpRead s with
    | error e =>
      refine ⟨⟨fun h => ?_, fun ⟨f, t, h, h'⟩ => ?_⟩, fun f ⟨t, h, h'⟩ => ?_, fun _ => rfl⟩
      · cases e <;> simp [inpStatus, traceback] at h
      · simp only [Option.some.injEq] at h; subst h; rw [hr] at h'; cases h'
      · simp only [Option.some.injEq] at h; subst h; rw [hr] at h'; cases h'
    | ok f =>
      obtain ⟨h1, h2⟩ := (C65_fix_safe inpRead (fun f => .ok (inpPrint f)) path w).1 s f _ hw hr rfl
      simp only [if_true]
      cases hx : fix inpRead (fun f => .ok (inpPrint f)) path w with
      | mk a w' =>
        rw [hx] at h1 h2
        simp only at h1 h2
        subst h1
        refine ⟨⟨fun _ => ⟨f, s, rfl, hr⟩, fun _ => rfl⟩, fun g ⟨t, h, h'⟩ => ?_, fun h => absurd rfl h⟩
        simp only [Option.some.injEq] at h
        subst h
        rw [hr] at h'
        cases h'
        exact h2

/-- **C77, fixed files:** after a fix of a file made of readable parts, a check succeeds, and another fix changes nothing.  Missing: files with
parts that do not survive printing (`C71_message_violated`). -/
theorem C77_fixed_partial (path : Str) (w : World) (f : File) (h : Readable w path f) (hf : GoodFile f) :
    (checkMain path false (checkMain path true w).2).1 = 0 ∧
      ∀ q, (checkMain path true (checkMain path true w).2).2.get q = (checkMain path true w).2.get q := by
  have h1 := (C77_fix path w).2.1 f h
  have h2 : (checkMain path true w).2.get path = some (inpPrint f) := by rw [h1]; simp
  have h3 : Readable (checkMain path true w).2 path f := ⟨_, h2, good_read hf⟩
  refine ⟨((C77_check path _).1).2 ⟨f, h3⟩, fun q => ?_⟩
  rw [(C77_fix path _).2.1 f h3 q]
  by_cases e : path = q
  · rw [if_pos e, ← e, h2]
  · rw [if_neg e]

example : Readable exDisk c!"a.inp" (exNoted c!"note") ∧ GoodFile (exNoted c!"note") := ⟨exDisk_readable, exNoted_good _ ⟨by decide, by decide, by decide⟩⟩

theorem readAll_ok (w : World) (ps : List Str) (fs : List File) :
    readAll w ps = .ok fs ↔ ReadableAll w ps fs := by
  induction ps generalizing fs with
  | nil =>
    constructor
    · intro h; cases h; exact .nil
    · intro h; cases h; rfl
  | cons p ps ih =>
    unfold readAll
    constructor
    · intro h
      cases hp : fromFile inpRead p w with
      | error e => rw [hp] at h; cases h
      | ok f =>
        rw [hp] at h
        simp only at h
        cases hps : readAll w ps with
        | error e => rw [hps] at h; cases h
        | ok gs =>
          rw [hps] at h
          cases h
          refine .cons ?_ ((ih gs).1 hps)
          unfold fromFile at hp
          cases hg : w.get p with
          | none => rw [hg] at hp; cases hp
          | some s => rw [hg] at hp; exact ⟨s, hg, hp⟩
    · intro h
      cases h with
      | cons h1 h2 =>
        obtain ⟨s, h3, h4⟩ := h1
        have : fromFile inpRead p w = inpRead s := by unfold fromFile; rw [h3]
        rw [this, h4]
        simp only
        rw [(ih _).2 h2]

/-- **C77, `pymcnp run`:** a batch is started exactly when every input file is there and can be read and the command is found; it then runs the
prints of the files, in the order in which they were given, with the command in the directory given. -/
theorem C77_run (paths : List Str) (command : Str) (found : Bool) (dir : Str) (time : Run.Clock) (w : World) (j : Run.Job) :
    runMain paths command found dir time w = .started j ↔
      found = true ∧ ∃ fs, ReadableAll w paths fs ∧ j = ⟨dir, time, command, fs.map fun f => .ok (inpPrint f)⟩ := by
  unfold runMain
  cases hr : readAll w paths with
  | error e =>
    simp only
    refine ⟨fun h => (by cases h), fun ⟨_, fs, h, _⟩ => ?_⟩
    rw [(readAll_ok w paths fs).2 h] at hr
    cases hr
  | ok fs =>
    simp only
    cases found with
    | false =>
      exact ⟨fun h => by simp at h, fun h => by simp at h⟩
    | true =>
      simp only [if_true]
      constructor
      · intro h
        cases h
        exact ⟨trivial, fs, (readAll_ok w paths fs).1 hr, rfl⟩
      · rintro ⟨_, gs, h, rfl⟩
        rw [(readAll_ok w paths gs).2 h] at hr
        cases hr
        rfl

/-- **C77, `pymcnp run`:** if some input file is missing or cannot be read, the command ends with another status than 0, and nothing is run. -/
theorem C77_run_unreadable (paths : List Str) (command : Str) (found : Bool) (dir : Str) (time : Run.Clock) (w : World) (p : Str) (hp : p ∈ paths)
    (h : ∀ f, ¬ Readable w p f) : ∃ n, runMain paths command found dir time w = .ended n ∧ n ≠ 0 := by
  unfold runMain
  cases hr : readAll w paths with
  | error e => exact ⟨_, rfl, by cases e <;> simp [inpStatus, traceback]⟩
  | ok fs =>
    have h2 := (readAll_ok w paths fs).1 hr
    have : ∀ {ps : List Str} {fs : List File}, ReadableAll w ps fs → p ∈ ps → ∃ f, Readable w p f := by
      intro ps fs h
      induction h with
      | nil => intro h; cases h
      | cons h1 _ ih =>
        intro hp
        rcases List.mem_cons.1 hp with rfl | hp
        · exact ⟨_, h1⟩
        · exact ih hp
    obtain ⟨f, hf⟩ := this h2 hp
    exact absurd hf (h f)

example : ReadableAll exDisk [c!"a.inp", c!"a.inp"] [exNoted c!"note", exNoted c!"note"] ∧ ∀ f, ¬ Readable exDisk c!"c.inp" f :=
  ⟨.cons exDisk_readable (.cons exDisk_readable .nil), fun _ ⟨_, h, _⟩ => by simp [exDisk, World.get] at h⟩

/-- C77 fails for `pymcnp run` with a command that is not there: nothing is run, and the status is 0. -/
theorem C77_run_violated (paths : List Str) (fs : List File) (command dir : Str) (time : Run.Clock) (w : World)
    (h : ReadableAll w paths fs) : runMain paths command false dir time w = .ended 0 := by
  unfold runMain
  rw [(readAll_ok w paths fs).2 h]
  rfl

/-- **C77, `pymcnp convert`:** the status is 0 exactly when the file is there and can be read, its name has a point, and its tallies can be made into
tables one of which has the number.  Then one file is written, which holds that table, and all other files are as they were. -/
theorem C77_convert (conv : Table → Str) (path number : Str) (fmt : Format) (w : World) :
    (convertMain conv path number fmt w).1 = 0 ↔
      ∃ s f d t out, w.get path = some s ∧ outpParse s = .ok f ∧ getOutfile path fmt.ext (some number) = .ok out ∧ tables f.blocks [] = .ok d ∧
        lookup d number = some t ∧ Wrote w (convertMain conv path number fmt w).2 out (conv t) := by
  unfold convertMain fromFile
  cases hw : w.get path with
  | none => exact ⟨fun h => by simp [outpStatus] at h, fun ⟨_, _, _, _, _, h, _⟩ => by simp at h⟩
  | some s =>
    simp only
    cases hr : outpParse s with
    | error e =>
      refine ⟨fun h => ?_, fun ⟨t, f, _, _, _, h, h', _⟩ => ?_⟩
      · cases e <;> simp [outpStatus, traceback] at h
      · simp only [Option.some.injEq] at h; subst h; rw [hr] at h'; cases h'
    | ok f =>
      simp only
      cases ho : getOutfile path fmt.ext (some number) with
      | error e =>
        refine ⟨fun h => by simp [traceback] at h, fun ⟨t, f, _, _, _, _, _, h, _⟩ => by simp at h⟩
      | ok out =>
        simp only
        unfold toCsv
        cases ht : tables f.blocks [] with
        | error e =>
          refine ⟨fun h => by simp [traceback] at h, fun ⟨t, g, _, _, _, h, h', _, h'', _⟩ => ?_⟩
          simp only [Option.some.injEq] at h; subst h; rw [hr] at h'; cases h'; rw [ht] at h''; cases h''
        | ok d =>
          simp only
          cases hl : lookup d number with
          | none =>
            refine ⟨fun h => by simp [traceback] at h, fun ⟨t, g, _, _, _, h, h', _, h'', h3, _⟩ => ?_⟩
            simp only [Option.some.injEq] at h; subst h; rw [hr] at h'; cases h'; rw [ht] at h''; cases h''; rw [hl] at h3; cases h3
          | some t =>
            refine ⟨fun _ => ⟨s, f, d, t, out, rfl, hr, rfl, ht, hl, fun q => ?_⟩, fun _ => rfl⟩
            simp only
            rw [get_put, get_put]
            by_cases e : out = q <;> simp [e]

example : ((convertMain (fun _ => c!"table") c!"run.outp" c!"2" .csv [(c!"run.outp", exOutpFile.str)]).2.get c!"run-20000.csv") = some c!"table" ∧
    (convertMain (fun _ => c!"table") c!"run.outp" c!"2" .csv [(c!"run.outp", exOutpFile.str)]).1 = 0 ∧
    (convertMain (fun _ => c!"table") c!"run" c!"2" .csv [(c!"run", exOutpFile.str)]).1 = 1 := by decide +kernel

/-- **C77, why a conversion fails:** the status is 2 if there is no such file, and 1 if the file cannot be read. -/
theorem C77_convert_status (conv : Table → Str) (path number : Str) (fmt : Format) (w : World) :
    (w.get path = none → convertMain conv path number fmt w = (2, w)) ∧
      ∀ s e, w.get path = some s → outpParse s = .error e → e ≠ .cli → convertMain conv path number fmt w = (1, w) := by
  unfold convertMain fromFile
  refine ⟨fun h => by rw [h]; rfl, fun s e h h' he => ?_⟩
  rw [h]
  simp only
  rw [h']
  cases e <;> first | rfl | exact absurd rfl he

example : outpParse c!"nothing" = .error .outp := by decide +kernel

/-- **C77, the end of `pymcnp run`:** however the batch goes, as long as it is under way there is no status; the status is 0 if the batch is complete, with every
input written, started and waited for; it is 1 if the batch was ended by an exception, which leaves only errors of the command line aside. -/
theorem C77_run_status (fs : List Str) (ms : List Run.Move) (j : Run.Job) (s : Run.St) (h : (j, s) ∈ (Run.exec fs ms).runs) :
    (batchStatus s.pc = some 0 → s.pc ≠ .failed .cli → actions s.trace = batchTrace j) ∧
      (s.pc = .done → batchStatus s.pc = some 0) ∧ (∀ e, s.pc = .failed e → e ≠ .cli → batchStatus s.pc = some 1) ∧
      (batchStatus s.pc = none ↔ s.pc ≠ .done ∧ ∀ e, s.pc ≠ .failed e) := by
  have h1 := (C45_order fs ms j s h).2
  cases hp : s.pc with
  | done => exact ⟨fun _ _ => h1 hp, fun _ => rfl, fun e h => by simp at h, by simp [batchStatus]⟩
  | failed e =>
    refine ⟨fun h h' => ?_, fun h => by simp at h, fun e' h h' => ?_, by simp [batchStatus]⟩
    · have : e ≠ .cli := fun x => h' (by rw [x])
      simp [batchStatus, this, traceback] at h
    · cases h
      simp [batchStatus, h', traceback]
  | _ => simp [batchStatus]

example : ((Run.exec [] exMoves).runs.map fun r => batchStatus r.2.pc) = [some 0] ∧
    ((Run.exec [batchDir exJob] [.call exJob, .go 0]).runs.map fun r => batchStatus r.2.pc) = [some 1] ∧
    ((Run.exec [] [.call exJob, .go 0]).runs.map fun r => batchStatus r.2.pc) = [none] := by decide +kernel

end Props
