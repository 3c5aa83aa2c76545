import Verif.Run.Cli
import Verif.Props.OutpFile
import Verif.Props.File

/-! C47: exports of different tallies go to different files. C64: a failed export leaves the files as they are. C65: fixing a file. -/

namespace Props
open Py Outp Cli
open Inp (IsMessage)

set_option maxRecDepth 100000

/-! ### C47 -/

/-- A text that ends with the figure zero. -/
def EndsInZero (s : Str) : Prop := ∃ u, s = u ++ ['0']

theorem fmt5_cases {a b : Str} (h : fmt5 a = fmt5 b) :
    a = b ∨ ((∃ k, 0 < k ∧ a = b ++ List.replicate k '0') ∧ a.length ≤ 5) ∨ ((∃ k, 0 < k ∧ b = a ++ List.replicate k '0') ∧ b.length ≤ 5) := by
  unfold fmt5 at h
  have hl := congrArg List.length h
  simp only [List.length_append, List.length_replicate] at hl
  rcases Nat.lt_trichotomy a.length b.length with hlt | he | hgt
  · right; right
    have hk : 5 - a.length = (b.length - a.length) + (5 - b.length) := by omega
    rw [hk, ← List.replicate_append_replicate, ← List.append_assoc] at h
    have h2 := List.append_inj h (by simp; omega)
    refine ⟨⟨b.length - a.length, by omega, h2.1.symm⟩, by omega⟩
  · left
    exact (List.append_inj h he).1
  · right; left
    have hk : 5 - b.length = (a.length - b.length) + (5 - a.length) := by omega
    rw [hk, ← List.replicate_append_replicate, ← List.append_assoc] at h
    have h2 := List.append_inj h (by simp; omega)
    exact ⟨⟨a.length - b.length, by omega, h2.1⟩, by omega⟩

theorem getOutfile_eq {path ext : Str} {i i' : Str} {f : Str} (h0 : i ≠ []) (h0' : i' ≠ []) (h : getOutfile path ext (some i) = .ok f)
    (h' : getOutfile path ext (some i') = .ok f) : fmt5 i = fmt5 i' := by
  unfold getOutfile at h h'
  cases hb : beforeDot path with
  | none => rw [hb] at h; cases h
  | some p =>
    rw [hb] at h h'
    simp only [suffix, if_neg h0, if_neg h0', Except.ok.injEq] at h h'
    rw [← h', List.append_assoc, List.append_assoc] at h
    have := List.append_cancel_left h
    simp only [List.cons_append, List.cons.injEq, true_and] at this
    have hlen : (fmt5 i).length = (fmt5 i').length := by
      have := congrArg List.length this
      simp at this
      omega
    exact (List.append_inj this hlen).1

/-- C47 (partial): exports of two tallies from one file go to two files when their numbers do not end in zero, as MCNP's do
not. Missing: numbers that end in zero, for which the claim is false (`C47_zero_violated`). -/
theorem C47_partial (path ext i i' f : Str) (h0 : i ≠ []) (h0' : i' ≠ []) (hz : ¬ EndsInZero i) (hz' : ¬ EndsInZero i')
    (h : getOutfile path ext (some i) = .ok f) (h' : getOutfile path ext (some i') = .ok f) : i = i' := by
  have hk : ∀ {a b : Str} {k : Nat}, 0 < k → a = b ++ List.replicate k '0' → EndsInZero a := by
    intro a b k hk e
    obtain ⟨n, rfl⟩ : ∃ n, k = n + 1 := ⟨k - 1, by omega⟩
    rw [List.replicate_succ', ← List.append_assoc] at e
    exact ⟨_, e⟩
  rcases fmt5_cases (getOutfile_eq h0 h0' h h') with e | ⟨⟨k, k0, e⟩, _⟩ | ⟨⟨k, k0, e⟩, _⟩
  · exact e
  · exact absurd (hk k0 e) hz
  · exact absurd (hk k0 e) hz'

/-- C47: which exports collide, exactly: one identifier is the other followed by zeros, up to five characters. -/
theorem C47_collisions (path ext i i' f : Str) (h0 : i ≠ []) (h0' : i' ≠ []) (h : getOutfile path ext (some i) = .ok f) :
    getOutfile path ext (some i') = .ok f ↔
      i = i' ∨ ((∃ k, i = i' ++ List.replicate k '0') ∧ i.length ≤ 5) ∨ ((∃ k, i' = i ++ List.replicate k '0') ∧ i'.length ≤ 5) := by
  constructor
  · intro h'
    rcases fmt5_cases (getOutfile_eq h0 h0' h h') with e | ⟨⟨k, _, e⟩, hl⟩ | ⟨⟨k, _, e⟩, hl⟩
    · exact .inl e
    · exact .inr (.inl ⟨⟨k, e⟩, hl⟩)
    · exact .inr (.inr ⟨⟨k, e⟩, hl⟩)
  · intro hc
    have hf : ∀ {a b : Str} {k : Nat}, a = b ++ List.replicate k '0' → a.length ≤ 5 → fmt5 a = fmt5 b := by
      intro a b k e hl
      subst e
      simp only [List.length_append, List.length_replicate] at hl
      unfold fmt5
      rw [List.append_assoc, List.replicate_append_replicate]
      congr 2
      simp only [List.length_append, List.length_replicate]
      omega
    have e : fmt5 i' = fmt5 i := by
      rcases hc with rfl | ⟨⟨k, e⟩, hl⟩ | ⟨⟨k, e⟩, hl⟩
      · rfl
      · exact (hf e hl).symm
      · exact hf e hl
    rw [← h]
    unfold getOutfile
    cases beforeDot path with
    | none => rfl
    | some p => simp only [suffix, if_neg h0, if_neg h0', e]

example : convertFile c!"run.outp" c!"4" = .ok c!"run-40000.csv" ∧ convertFile c!"run.outp" c!"14" = .ok c!"run-14000.csv" := by decide
example : ¬ EndsInZero c!"4" ∧ ¬ EndsInZero c!"14" := by
  constructor
  · rintro ⟨u, h⟩
    have := congrArg List.getLast? h
    simp at this
  · rintro ⟨u, h⟩
    have := congrArg List.getLast? h
    simp at this

/-- C47 fails for numbers that differ by zeros at the end. -/
theorem C47_zero_violated : c!"4" ≠ c!"40" ∧ convertFile c!"run.outp" c!"4" = convertFile c!"run.outp" c!"40" ∧
    (convertFile c!"run.outp" c!"4").toOption.isSome = true := by decide

/-- C47 fails for plots: the number is not in the name of the file. -/
theorem C47_plot_violated (path n n' : Str) : plotFile path n = plotFile path n' := rfl

/-- C47 fails for a file without a point in a directory with one: the export goes elsewhere, for all files of the directory to the
same place. -/
theorem C47_directory_violated : convertFile c!"runs.d/a" c!"4" = .ok c!"runs-40000.csv" ∧ convertFile c!"runs.d/b" c!"4" = .ok c!"runs-40000.csv" := by
  decide

/-- Without a point there is no export at all. -/
theorem C47_no_point (path ext : Str) (i : Option Str) (h : '.' ∉ path) : getOutfile path ext i = .error .value := by
  have : ∀ s : Str, '.' ∉ s → beforeDot s = none := by
    intro s
    induction s with
    | nil => intro; rfl
    | cons c s ih =>
      intro h
      simp only [List.mem_cons, not_or] at h
      unfold beforeDot
      rw [ih h.2]
      simp only
      rw [if_neg (fun e => h.1 e.symm)]
  unfold getOutfile
  rw [this path h]

/-! ### C64 -/

theorem get_put (w : World) (p q s : Str) : (w.put p s).get q = if p = q then some s else w.get q := by
  unfold World.put World.get
  rw [List.find?_cons]
  by_cases h : p = q
  · simp [h]
  · have : (p == q) = false := by simpa using h
    simp only [this, if_neg h]

/-- C64: saving a file changes no other file, and no file at all when the object cannot be printed. -/
theorem C64_save (text : Res Str) (path : Str) (w : World) :
    (∀ s, text = .ok s → (toFile text path w).1 = .ok () ∧ ∀ q, (toFile text path w).2.get q = if path = q then some s else w.get q) ∧
    (∀ e, text = .error e → (toFile text path w).1 = .error e ∧ (toFile text path w).2 = w) := by
  refine ⟨?_, ?_⟩
  · rintro s rfl; exact ⟨rfl, fun q => get_put w path q s⟩
  · rintro e rfl; exact ⟨rfl, rfl⟩

/-- C64 (partial): exporting a tally that is in the file writes its table to the given file and changes no other file.
Missing: a tally that is not in the file, for which the claim is false (`C64_convert_violated`), and failures of the
operating system. -/
theorem C64_convert_partial (conv : Table → Str) (s : Str) (f : Outp.File) (h : outpParse s = .ok f)
    (hn : ((talliesOf f.blocks).map fun p => tallyNumber p.2).Nodup) (hl : ∀ p ∈ talliesOf f.blocks, ∀ x ∈ p.2.subs, HasTable x)
    (p : TallyKind × Tally) (hp : p ∈ talliesOf f.blocks) (path : Str) (w : World) :
    (toCsv conv f (tallyNumber p.2) path w).1 = .ok () ∧
      ∀ q, (toCsv conv f (tallyNumber p.2) path w).2.get q = if path = q then some (conv ⟨tallyRows p.1 p.2, tallyCommon p.2⟩) else w.get q := by
  have ht := C44_tables_partial s f h hn hl
  have hlook : ∀ (l : List (TallyKind × Tally)), (l.map fun p => tallyNumber p.2).Nodup → p ∈ l →
      lookup (l.map fun p => (tallyNumber p.2, (⟨tallyRows p.1 p.2, tallyCommon p.2⟩ : Table))) (tallyNumber p.2) =
        some ⟨tallyRows p.1 p.2, tallyCommon p.2⟩ := by
    intro l
    induction l with
    | nil => intro _ h; cases h
    | cons a l ih =>
      intro hn hp
      simp only [List.map_cons, List.nodup_cons] at hn
      unfold lookup
      rw [List.map_cons, List.find?_cons]
      rcases List.mem_cons.1 hp with rfl | hp
      · simp
      · have hne : tallyNumber a.2 ≠ tallyNumber p.2 := by
          intro e
          exact hn.1 (e ▸ List.mem_map_of_mem (f := fun p => tallyNumber p.2) hp)
        have : (tallyNumber a.2 == tallyNumber p.2) = false := by simpa using hne
        simp only [this]
        exact ih hn.2 hp
  unfold toCsv
  rw [ht]
  simp only [hlook _ hn hp]
  refine ⟨trivial, fun q => ?_⟩
  rw [get_put, get_put]
  by_cases e : path = q
  · simp [e]
  · simp [e]

example : ∃ p ∈ talliesOf exOutpFile.blocks, tallyNumber p.2 = c!"2" := by decide +kernel

/-- C64 fails for a tally that is not in the file: the export raises `KeyError`, and the file that was there is empty. -/
theorem C64_convert_violated (conv : Table → Str) : ∃ s f, outpParse s = .ok f ∧
    (toCsv conv f c!"14" c!"run-14000.csv" [(c!"run-14000.csv", c!"results")]).1 = .error .key ∧
    (toCsv conv f c!"14" c!"run-14000.csv" [(c!"run-14000.csv", c!"results")]).2.get c!"run-14000.csv" = some [] := by
  have h : outpParse exOutpFile.str = .ok exOutpFile := by decide +kernel
  refine ⟨exOutpFile.str, exOutpFile, h, ?_⟩
  have ht : ∃ d, tables exOutpFile.blocks [] = .ok d ∧ lookup d c!"14" = none := by
    refine ⟨(talliesOf exOutpFile.blocks).map fun p => (tallyNumber p.2, ⟨tallyRows p.1 p.2, tallyCommon p.2⟩), ?_, ?_⟩
    · decide +kernel
    · decide +kernel
  obtain ⟨d, h1, h2⟩ := ht
  unfold toCsv
  rw [h1]
  simp only [h2]
  exact ⟨trivial, rfl⟩

/-! ### C65 -/

/-- C65: fixing a file that cannot be read or printed leaves everything as it is; otherwise the file holds the print of what was read,
and no other file changes. -/
theorem C65_fix_safe {α : Type} (parse : Str → Res α) (print : α → Res Str) (path : Str) (w : World) :
    (∀ s x t, w.get path = some s → parse s = .ok x → print x = .ok t →
      (fix parse print path w).1 = .ok () ∧ ∀ q, (fix parse print path w).2.get q = if path = q then some t else w.get q) ∧
    (∀ e, (fix parse print path w).1 = .error e → (fix parse print path w).2 = w) := by
  constructor
  · intro s x t h1 h2 h3
    unfold fix fromFile
    rw [h1]
    simp only [h2, h3, toFile]
    exact ⟨trivial, fun q => get_put w path q t⟩
  · intro e h
    revert h
    unfold fix
    cases fromFile parse path w with
    | error e' => intro _; rfl
    | ok x =>
      simp only
      cases print x with
      | error e' => intro _; rfl
      | ok t => intro h; cases h

/-- C65 (partial): fixing a file whose input survives printing keeps the input, and fixing it again changes nothing. Missing:
inputs that printing changes, for which the claim is false (`C65_fix_violated`). -/
theorem C65_fix_partial {α : Type} (parse : Str → Res α) (print : α → Res Str) (path : Str) (w : World) (s t : Str) (x : α)
    (hw : w.get path = some s) (hp : parse s = .ok x) (ht : print x = .ok t) (hr : parse t = .ok x) :
    fromFile parse path (fix parse print path w).2 = .ok x ∧
      ∀ q, (fix parse print path (fix parse print path w).2).2.get q = (fix parse print path w).2.get q := by
  obtain ⟨h1, h2⟩ := (C65_fix_safe parse print path w).1 s x t hw hp ht
  have h3 : (fix parse print path w).2.get path = some t := by rw [h2]; simp
  obtain ⟨h4, h5⟩ := (C65_fix_safe parse print path (fix parse print path w).2).1 t x t h3 hr ht
  refine ⟨?_, fun q => ?_⟩
  · unfold fromFile
    rw [h3]
    exact hr
  · rw [h5 q]
    by_cases e : path = q
    · rw [if_pos e, ← e, h3]
    · rw [if_neg e]

/-- C65 (partial), for input files: fixing an input file without a message, with a title of plain words and cards that each survive
printing, keeps the input, and fixing it again changes nothing. Missing: files with a message, for which the claim is false
(`C65_fix_violated`), and titles that are not words one blank apart. -/
theorem C65_input_partial {α β γ : Type} (rc : Str → Res α) (rs : Str → Res β) (rd : Str → Res γ)
    (pc : α → Str) (ps : β → Str) (pd : γ → Str) (f : Inp.InpFile α β γ) (s path : Str) (w : World)
    (hw : w.get path = some s) (hp : Inp.fileRead rc rs rd s = .ok f)
    (hrc : ReadsCards rc) (hrs : ReadsCards rs) (hrd : ReadsCards rd)
    (hmsg : f.message = none) (title : List Str) (ht : TextWords title) (hft : f.title = join [' '] title)
    (hm : ¬ IsMessage f.title) (hlen : f.title.length < 80)
    (hc : f.cells ≠ [] ∧ ∀ x ∈ f.cells, Survives rc pc x)
    (hs : f.surfaces ≠ [] ∧ ∀ x ∈ f.surfaces, Survives rs ps x)
    (hd : f.data ≠ [] ∧ ∀ x ∈ f.data, Survives rd pd x) (ho : Trailing f.other) :
    fromFile (Inp.fileRead rc rs rd) path (fix (Inp.fileRead rc rs rd) (fun x => .ok (Inp.filePrint pc ps pd x)) path w).2 = .ok f ∧
      ∀ q, (fix (Inp.fileRead rc rs rd) (fun x => .ok (Inp.filePrint pc ps pd x)) path
          (fix (Inp.fileRead rc rs rd) (fun x => .ok (Inp.filePrint pc ps pd x)) path w).2).2.get q =
        (fix (Inp.fileRead rc rs rd) (fun x => .ok (Inp.filePrint pc ps pd x)) path w).2.get q :=
  C65_fix_partial _ _ path w s _ f hw hp rfl
    (C35_file_partial rc rs rd pc ps pd f hrc hrs hrd hmsg title ht hft hm hlen hc hs hd ho)

/-- Input files with cards as texts. -/
def readText : Str → Res (Inp.InpFile Str Str Str) := Inp.fileRead .ok .ok .ok
def printText (f : Inp.InpFile Str Str Str) : Res Str := .ok (Inp.filePrint id id id f)

/-- The hypotheses of `C65_fix_partial` are met by an input file that is changed by the fix. -/
example : ∃ s t x, readText s = .ok x ∧ printText x = .ok t ∧ readText t = .ok x ∧ s ≠ t :=
  ⟨c!"title\n1 0 -1\n2 0\n     1\n\n1 so 5\n\nnps 100\n", _, ⟨none, c!"title", [c!"1 0 -1", c!"2 0 1"], [c!"1 so 5"], [c!"nps 100"], none⟩,
    by decide +kernel, rfl, by decide +kernel, by decide +kernel⟩

/-- C65 fails for a file with a message: after the fix the message is the title and the title a cell. -/
theorem C65_fix_violated : ∃ s x y, readText s = .ok x ∧ fromFile readText c!"a.inp" (fix readText printText c!"a.inp" [(c!"a.inp", s)]).2 = .ok y ∧
    x.title = c!"title" ∧ y.title = c!"message: datapath x" ∧ y.cells = [c!"title", c!"1 0 -1", c!"2 0 1"] := by
  refine ⟨c!"message: datapath=x\ntitle\n1 0 -1\n2 0 1\n\n1 so 5\n\nnps 100\n\n", 
    ⟨some c!"message: datapath x\n", c!"title", [c!"1 0 -1", c!"2 0 1"], [c!"1 so 5"], [c!"nps 100"], none⟩,
    ⟨none, c!"message: datapath x", [c!"title", c!"1 0 -1", c!"2 0 1"], [c!"1 so 5"], [c!"nps 100"], none⟩, by decide +kernel, by decide +kernel, rfl, rfl, rfl⟩

end Props
