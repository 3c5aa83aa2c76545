import Verif.Outp.TallyLemmas
/-!
# C62: tallies of output files
-/
namespace Props
open Py Outp

set_option maxRecDepth 100000

/-- The number after `bin of tally` is dropped and printed as the number of the tally. -/
def sigmaNumber : Nat → List Sym := fun _ => [.inr 1]

theorem tally1A_agree : TallyAgree tally1A sigmaNumber :=
  ⟨by decide +kernel, by decide, by decide, by simp [tally1A, sub1Re]⟩
theorem tally1B_agree : TallyAgree tally1B sigmaNumber :=
  ⟨by decide +kernel, by decide, by decide, by simp [tally1B, sub1Re]⟩
theorem tally2_agree : TallyAgree tally2 sigmaNumber :=
  ⟨by decide +kernel, by decide, by decide, by simp [tally2, sub2Re]⟩
theorem tally4_agree : TallyAgree tally4 sigmaNumber :=
  ⟨by decide +kernel, by decide, by decide, by simp [tally4, sub4Re]⟩
theorem tally8A_agree : TallyAgree tally8A sigmaNumber :=
  ⟨by decide +kernel, by decide, by decide, by simp [tally8A, sub4Re]⟩
theorem tally8B_agree : TallyAgree tally8B sigmaNumber :=
  ⟨by decide +kernel, by decide, by decide, by simp [tally8B, sub4Re]⟩

theorem tally1A_det : ∀ i ∈ tally1A.items, i.slot ≠ some tally1A.slot → detItem i := by simp [tally1A, detItem, Item.slot]
theorem tally1B_det : ∀ i ∈ tally1B.items, i.slot ≠ some tally1B.slot → detItem i := by simp [tally1B, detItem, Item.slot]
theorem tally2_det : ∀ i ∈ tally2.items, i.slot ≠ some tally2.slot → detItem i := by simp [tally2, detItem, Item.slot]
theorem tally4_det : ∀ i ∈ tally4.items, i.slot ≠ some tally4.slot → detItem i := by simp [tally4, detItem, Item.slot]
theorem tally8A_det : ∀ i ∈ tally8A.items.take 7 ++ tally8A.items.drop 11, detItem i := by simp [tally8A, detItem]
theorem tally8B_det : ∀ i ∈ tally8B.items.take 7 ++ tally8B.items.drop 11, detItem i := by simp [tally8B, detItem]

theorem sub4_start (x : Sub) : ∃ r, x.str sub4 = ' ' :: 'c' :: r := ⟨_, rfl⟩

/-- The tally classes. -/
def tallies : List TallyDef := [tally1A, tally1B, tally2, tally4, tally8A, tally8B]

/-- The text of the message of a tally, when its class has one. -/
def message (d : TallyDef) (t : Tally) : Str := match d.msg with | some n => t.vals.getD (n - 1) [] | none => []

/-- C62: a tally that was read is read again from what it prints, with the same attributes, the same subtallies in the same order
and the same lines in each of them, provided that every subtally has a line and that the tally has no message. Missing:
tallies with a message and lines of another form, for which the claim is false (`C62_message_violated`,
`C62_lines_violated`). -/
theorem C62_tally_reread_partial : ∀ d ∈ tallies, ∀ s t, tallyParse d s = .ok t → (∀ x ∈ t.subs, x.lines ≠ []) → message d t = [] →
    tallyParse d (t.str d) = .ok t := by
  intro d hd s t h hl hm
  simp only [tallies, List.mem_cons, List.not_mem_nil, or_false] at hd
  rcases hd with rfl | rfl | rfl | rfl | rfl | rfl
  · exact tally_reread tally1A_agree sub1_spec rfl tally1A_det h hl
  · exact tally_reread tally1B_agree sub1_spec rfl tally1B_det h hl
  · exact tally_reread tally2_agree sub2_spec rfl tally2_det h hl
  · exact tally_reread tally4_agree sub4_spec rfl tally4_det h hl
  · exact tally_reread_msg tally8A_agree sub4_spec rfl (by decide) (by decide) (A := tally8A.items.take 7) (B := tally8A.items.drop 11) rfl
      tally8A_det sub4_start h hl hm
  · exact tally_reread_msg tally8B_agree sub4_spec rfl (by decide) (by decide) (A := tally8B.items.take 7) (B := tally8B.items.drop 11) rfl
      tally8B_det sub4_start h hl hm

/-- C62: every tally has at least one subtally. -/
theorem C62_tally_subs : ∀ d ∈ tallies, ∀ s t, tallyParse d s = .ok t → t.subs ≠ [] := by
  intro d hd s t h
  simp only [tallies, List.mem_cons, List.not_mem_nil, or_false] at hd
  rcases hd with rfl | rfl | rfl | rfl | rfl | rfl
  · exact (tally_read tally1A_agree sub1_spec h).choose_spec.2.2.2.1
  · exact (tally_read tally1B_agree sub1_spec h).choose_spec.2.2.2.1
  · exact (tally_read tally2_agree sub2_spec h).choose_spec.2.2.2.1
  · exact (tally_read tally4_agree sub4_spec h).choose_spec.2.2.2.1
  · exact (tally_read tally8A_agree sub4_spec h).choose_spec.2.2.2.1
  · exact (tally_read tally8B_agree sub4_spec h).choose_spec.2.2.2.1

/-! A tally of every class. -/

def exLines : List TLine := [⟨c!"1.0000E-02", c!"0.00000E+00", c!"0.0000"⟩, ⟨c!"2.0000E-02", c!"1.50000E-03", c!"0.0101"⟩]
def exSub4 : List Sub := [⟨[c!"4", [], c!"1.50000E-03 0.0101"], exLines⟩, ⟨[c!"5", [], c!"0.00000E+00 0.0000"], exLines⟩]
def exSub2 : List Sub := [⟨[c!"7", [], c!"1.50000E-03 0.0101"], exLines⟩]
def exSub1 : List Sub := [⟨[c!"7", c!"180.00000000", c!"90.00000000", [], c!"1.50000E-03 0.0101"], exLines⟩]
def exStats : List Str := [c!" desired  random", c!" observed random", c!" passed?  yes"]
def exHead : List Str := [c!"       4", c!"       1000", c!"4    track length estimate", c!"neutrons"]
def exEnd : List Str := [c!"1.0E-03 to 2.0E-03", c!"1.1E-03 to 1.9E-03"]

def exTally1A : Tally := ⟨exHead ++ [[]] ++ exStats ++ exEnd, exSub1⟩
def exTally1B : Tally := ⟨exHead ++ [[]] ++ exStats ++ [c!" 2"], exSub1⟩
def exTally2 : Tally := ⟨exHead ++ [c!"7", c!"1.0E+00", []] ++ exStats ++ exEnd, exSub2⟩
def exTally4 : Tally := ⟨exHead ++ [c!"4", c!"1.0E+00", []] ++ exStats ++ exEnd, exSub4⟩
def exTally8A : Tally := ⟨exHead ++ [[], []] ++ exStats ++ exEnd, exSub4⟩
def exTally8B : Tally := ⟨exHead ++ [[], []] ++ exStats ++ [c!" 2"], exSub4⟩

example : tallyParse tally1A (exTally1A.str tally1A) = .ok exTally1A := by decide +kernel
example : tallyParse tally1B (exTally1B.str tally1B) = .ok exTally1B := by decide +kernel
example : tallyParse tally2 (exTally2.str tally2) = .ok exTally2 := by decide +kernel
example : tallyParse tally4 (exTally4.str tally4) = .ok exTally4 := by decide +kernel
example : tallyParse tally8A (exTally8A.str tally8A) = .ok exTally8A := by decide +kernel
example : tallyParse tally8B (exTally8B.str tally8B) = .ok exTally8B := by decide +kernel

/-- C62, the exceptions: the message of a pulse height tally is read with the line end before it and printed with another line end
and eleven blanks, and what is printed is not read. -/
theorem C62_message_violated : ∃ s t, tallyParse tally8A s = .ok t ∧ (∀ x ∈ t.subs, x.lines ≠ []) ∧
    tallyParse tally8A (t.str tally8A) = .error .outp := by
  -- the tally above, its message being what its third line ends with
  refine ⟨partsText ((exTally8A.vals.set 5 (exSub4.flatMap (Sub.str sub4))).set 4 c!"\n    modified by ft") tally8A.parts,
    ⟨exTally8A.vals.set 4 c!"\n    modified by ft", exSub4⟩, ?_⟩
  decide +kernel

/-- A subtally whose lines have another form (here two blanks before the energy) is read as one without lines, and what is printed is
not read. -/
theorem C62_lines_violated : ∃ s t, tallyParse tally4 s = .ok t ∧ (∃ x ∈ t.subs, x.lines = []) ∧
    tallyParse tally4 (t.str tally4) = .error .outp := by
  refine ⟨partsText (exTally4.vals.set 6 c!" cell  4\n      energy   \n  1.0000E-02 0.0 0.0\n      total      0.0 0.0\n\n") tally4.parts,
    ⟨exTally4.vals, [⟨[c!"4", [], c!"0.0 0.0"], []⟩]⟩, ?_⟩
  decide +kernel

end Props
