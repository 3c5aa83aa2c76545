import Verif.Ptrac.ErrLemmas
import Verif.Meshtal.File
import Verif.Outp.File
/-!
# Which exceptions reading MESHTAL and OUTP text raises (C85)
-/
namespace Props
open Py Types Ptrac

/-! ## OUTP -/

/-- Reading any text as an output file gives an object or `OutpError`. -/
theorem C85_outp (s : Str) (e : Err) (h : Outp.outpParse s = .error e) : e = .outp := by
  revert e
  show Out (· = .outp) _
  have hd : ∀ t, Out (· = .outp) (Outp.headerParse t) := by
    intro t
    unfold Outp.headerParse
    split
    · exact .err rfl
    · exact .ok _
  unfold Outp.outpParse
  split
  · exact .map (hd _)
  · exact .map (hd _)

theorem out_mapM {α β : Type} {P : Err → Prop} {f : α → Res β} (xs : List α) (h : ∀ x ∈ xs, Out P (f x)) : Out P (xs.mapM f) := by
  induction xs with
  | nil => exact .ok _
  | cons x xs ih =>
    rw [List.mapM_cons]
    exact .bind (x := f x) (h x (by simp)) fun y _ => .bind (x := xs.mapM f) (ih fun z hz => h z (by simp [hz])) fun _ _ => .ok _

/-- Reading any text as a block of any class gives an object or `OutpError`. -/
theorem C85_block (k : Outp.Kind) (s : Str) (e : Err) (h : Outp.readAs k s = .error e) : e = .outp := by
  revert e
  show Out (· = .outp) _
  cases k with
  | header =>
    refine .map ?_
    unfold Outp.headerParse
    split
    · exact .err rfl
    · exact .ok _
  | plain k =>
    refine .map ?_
    unfold Outp.blockParse
    split
    · exact .err rfl
    · exact .ok _
  | tally k =>
    refine .map ?_
    unfold Outp.tallyParse
    split
    · exact .err rfl
    · refine .bind (x := List.mapM _ _) (out_mapM _ fun t _ => ?_) fun _ _ => .ok _
      unfold Outp.subParse
      split
      · exact .err rfl
      · refine .bind (x := List.mapM _ _) (out_mapM _ fun t _ => ?_) fun _ _ => .ok _
        unfold Outp.lineParse
        split
        · exact .err rfl
        · exact .ok _

/-! ## MESHTAL -/

/-- Reading any text as a row gives an object or `MeshtalError`. -/
theorem C85_row (s : Str) (e : Err) (h : Meshtal.rowParse s = .error e) : e = .meshtal := by
  revert e
  show Out (· = .meshtal) _
  unfold Meshtal.rowParse
  split
  · exact .err rfl
  · exact .ok _

/-- The exceptions of a header. -/
def MeshErr (s : Str) (e : Err) : Prop :=
  (e = .meshtal ∨ e = .types) ∨
  (e = .overflow ∨ e = .value) ∧ ∃ t, t <:+: s ∧ (t.length = 10 ∨ t.length = 17) ∧ ∃ d, realParse t = .ok (.num d) ∧ ∀ f, d ≠ .fin f

theorem out_bins (ls : List (Str × Str)) : ∀ b, Out (· = .meshtal) (Meshtal.readBins b ls) := by
  induction ls with
  | nil => intro b; exact .ok _
  | cons l ls ih =>
    intro b
    obtain ⟨k, v⟩ := l
    unfold Meshtal.readBins
    split
    · exact ih _
    · split
      · exact ih _
      · split
        · exact ih _
        · split
          · exact ih _
          · split
            · exact ih _
            · exact .err rfl

/-- Reading any text as a header gives an object, a library error or, if a field reads as infinity or not-a-number, an
`OverflowError` or `ValueError`. Missing: that these two exceptions do not occur, which is false (`C85_special_violated`). -/
theorem C85_header_partial (s : Str) (e : Err) (h : Meshtal.headParse s = .error e) : MeshErr s e := by
  revert e
  show Out (MeshErr s) _
  unfold Meshtal.headParse
  split
  · exact .err (.inl (.inl rfl))
  · rename_i m hm
    have h6 : Field s 17 (tok m 6) := tok_field hm 6 17 (by decide) (by decide +kernel) (by decide +kernel)
    have h7 : Field s 10 (tok m 7) := tok_field hm 7 10 (by decide) (by decide +kernel) (by decide +kernel)
    refine .bind (x := intParse (tok m 6)) ((out_int (h6.ne (by decide))).mono ?_) fun _ _ =>
      .bind (x := intParse (tok m 7)) ((out_int (h7.ne (by decide))).mono ?_) fun _ _ =>
      .bind (x := Meshtal.readBins _ _) ((out_bins _ _).mono fun e h => .inl (.inl h)) fun _ _ => .ok _
    · rintro e (h | ⟨h, hs⟩)
      · exact .inl (.inr h)
      · exact .inr ⟨h, _, h6.part, .inr h6.width, hs⟩
    · rintro e (h | ⟨h, hs⟩)
      · exact .inl (.inr h)
      · exact .inr ⟨h, _, h7.part, .inl h7.width, hs⟩

/-- Reading any text as a MESHTAL file: as for headers. Missing: as for headers. -/
theorem C85_meshtal_partial (s : Str) (e : Err) (h : Meshtal.fileParse s = .error e) : MeshErr s e := by
  revert e
  show Out (MeshErr s) _
  unfold Meshtal.fileParse
  split
  · exact .err (.inl (.inl rfl))
  · rename_i m hm
    refine .bind (x := Meshtal.headParse (tok m 1)) (fun e he => ?_) fun _ _ => .ok _
    rcases C85_header_partial _ _ he with h | ⟨h, t, ht, h'⟩
    · exact .inl h
    · exact .inr ⟨h, t, ht.trans (tok_infix hm 1), h'⟩

/-- A header with this text for the number of histories. -/
def meshText (histories : Str) : Str :=
  c!"mcnp   version 6     ld=01/01/25  probid =  01/01/25 00:00:00 \n title\n Number of histories used for normalizing tallies =" ++
  (histories ++ c!"\n\n Mesh Tally Number         4\n neutron  mesh tally.\n\n Tally bin boundaries:\n    X direction: 1 2\n\n  X Result Error\n")

/-- C85 fails: a number of histories that is infinite or not a number raises `OverflowError` or `ValueError`. -/
theorem C85_special_violated :
    Meshtal.headParse (meshText c!"              inf") = .error .overflow ∧
    Meshtal.headParse (meshText c!"              nan") = .error .value ∧
    ¬ Err.overflow.isLibrary = true ∧ ¬ Err.value.isLibrary = true := by decide +kernel

/-- The hypotheses can be met in each way. -/
example :
    (Meshtal.headParse (meshText c!"              100")).toOption.isSome = true ∧
    Meshtal.headParse (meshText c!"                x") = .error .types ∧ Meshtal.headParse (meshText c!"x") = .error .meshtal ∧
    Meshtal.rowParse c!"x" = .error .meshtal ∧ Outp.outpParse c!"x" = .error .outp ∧
    Outp.readAs (.tally .t4) c!"x" = .error .outp := by decide +kernel

end Props
