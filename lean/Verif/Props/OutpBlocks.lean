import Verif.Outp.BlockLemmas
/-!
# C61: blocks of output files
-/
namespace Props
open Py Outp

set_option maxRecDepth 100000

/-- No field is dropped. -/
def keepAll : Nat → List Sym := fun _ => []

theorem mcnp_agree : Agree mcnp.items mcnp.parts mcnp.groups keepAll := by decide +kernel
theorem neutronActivity_agree : Agree neutronActivity.items neutronActivity.parts neutronActivity.groups keepAll := by decide +kernel
theorem photonActivity_agree : Agree photonActivity.items photonActivity.parts photonActivity.groups keepAll := by decide +kernel
theorem problemSummary_agree : Agree problemSummary.items problemSummary.parts problemSummary.groups keepAll := by decide +kernel

/-- The figure printed twice in the last line: the second one is dropped and printed as the first. -/
def sigmaFom : Nat → List Sym := fun _ => [.inr 33]
/-- The character after `mcrun` is dropped and printed as a point. -/
def sigmaMcrun : Nat → List Sym := fun _ => [.inl '.']
/-- The slope is dropped and printed as `0.0`. -/
def sigmaSlope : Nat → List Sym := fun _ => [.inl '0', .inl '.', .inl '0']

theorem fluctuation_agree : Agree analysisTallyFluctuation.items analysisTallyFluctuation.parts analysisTallyFluctuation.groups sigmaFom := by
  decide +kernel
theorem mcrun_agree : Agree startingMcrun.items startingMcrun.parts startingMcrun.groups sigmaMcrun := by decide +kernel
theorem density_agree : Agree unnormedTallyDensity.items unnormedTallyDensity.parts unnormedTallyDensity.groups sigmaSlope := by
  decide +kernel

theorem fluctuation_det : ∀ i ∈ analysisTallyFluctuation.items, detItem i := by
  simp [analysisTallyFluctuation, detItem]

theorem mcrun_det : ∀ i ∈ startingMcrun.items.dropLast, detItem i := by
  simp [startingMcrun, detItem]

theorem density_det : ∀ i ∈ unnormedTallyDensity.items.dropLast, detItem i := by
  simp [unnormedTallyDensity, detItem]

/-- The block classes without subtallies. -/
def plainBlocks : List BlockDef :=
  [mcnp, neutronActivity, photonActivity, analysisTallyFluctuation, problemSummary, startingMcrun, unnormedTallyDensity]

/-- The block classes all of whose fields are kept. -/
def exactBlocks : List BlockDef := [mcnp, neutronActivity, photonActivity, problemSummary]

/-- C61: what is read as a title, activity or summary block is printed unchanged, character by character. -/
theorem C61_blocks_exact : ∀ d ∈ exactBlocks, ∀ s b, blockParse d s = .ok b → blockStr d b = s := by
  intro d hd s b h
  simp only [exactBlocks, List.mem_cons, List.not_mem_nil, or_false] at hd
  rcases hd with rfl | rfl | rfl | rfl
  · exact block_exact mcnp_agree (by decide +kernel) h
  · exact block_exact neutronActivity_agree (by decide +kernel) h
  · exact block_exact photonActivity_agree (by decide +kernel) h
  · exact block_exact problemSummary_agree (by decide +kernel) h

/-- C61: every block without subtallies that was read is read again, with the same attributes, from what it prints. -/
theorem C61_blocks_reread : ∀ d ∈ plainBlocks, ∀ s b, blockParse d s = .ok b → blockParse d (blockStr d b) = .ok b := by
  intro d hd s b h
  simp only [plainBlocks, List.mem_cons, List.not_mem_nil, or_false] at hd
  rcases hd with rfl | rfl | rfl | rfl | rfl | rfl | rfl
  · rw [C61_blocks_exact mcnp (by simp [exactBlocks]) s b h, h]
  · rw [C61_blocks_exact neutronActivity (by simp [exactBlocks]) s b h, h]
  · rw [C61_blocks_exact photonActivity (by simp [exactBlocks]) s b h, h]
  · exact block_reread fluctuation_agree fluctuation_det h
  · rw [C61_blocks_exact problemSummary (by simp [exactBlocks]) s b h, h]
  · exact block_reread_last mcrun_agree (T := startingMcrun.items.dropLast) rfl mcrun_det h
  · exact block_reread_last density_agree (T := unnormedTallyDensity.items.dropLast) rfl density_det h

/-! A block of every class. -/

/-- A text of this many characters, from a digit on. -/
def fillText (w : Nat) (c : Char) : Str := List.replicate w c

def mcnpVals : List Str := [c!"version 6     ", c!"ld=02/20/18                     ", c!"01/02/25 ", c!"10:00:00 ",
  c!"probid =  01/02/25 10:00:00 ", c!"i=a.txt", c!" warning.\n\n", c!"                   1", c!"                   2",
  c!"                   3", c!"                   4", c!"                   5", c!"                   6", c!"line\n\nline\n"]

example : blockParse mcnp (blockStr mcnp mcnpVals) = .ok mcnpVals := by decide +kernel

def activityVals : List Str := [c!"        1        1       20\n        2        2       21\n", c!"        41", c!"       22", c!"        23",
  c!"2.4000E+01"]

example : blockParse neutronActivity (blockStr neutronActivity activityVals) = .ok activityVals := by decide +kernel
example : blockParse photonActivity (blockStr photonActivity activityVals) = .ok activityVals := by decide +kernel

def mcrunVals : List Str := [c!" 0.01", fillText 80 't', c!"        1    0.000E+00\n        2    1.000E+00\n"]

example : blockParse startingMcrun (blockStr startingMcrun mcrunVals) = .ok mcrunVals := by decide +kernel

def densityVals : List Str := [c!"         4", c!"1.000E+00", c!"                 1000", c!" 1.00-03  1 *****\n 2.00-03  1 ***\n  total    2 1.00"]

example : blockParse unnormedTallyDensity (blockStr unnormedTallyDensity densityVals) = .ok densityVals := by decide +kernel

def summaryVals : List Str := [c!"       1000", c!"01/02/25 10:00:00", c!"     1.000", c!"title", c!"01/02/25 10:00:00",
  c!" source 1\n total 1\n\n number 2\n", c!" source 3\n\n number 4\n", c!"0.10 minutes", c!"      1", c!"0.10 minutes", c!"      0",
  c!"1.0000E+04", c!"       5000", c!"         10", c!"          3", c!"1.0000E+00", c!"1.0000E+00"]

example : blockParse problemSummary (blockStr problemSummary summaryVals) = .ok summaryVals := by decide +kernel

def fluctuationVals : List Str := [c!"4", c!"               1000", fillText 11 'a', fillText 11 'b', fillText 11 'c', fillText 6 'd', fillText 11 'e',
  fillText 6 'f', fillText 11 'g', fillText 6 'h', fillText 11 'i', fillText 11 'j', fillText 11 'k', fillText 11 'l', fillText 11 'm',
  fillText 11 'n', fillText 11 'o', fillText 11 'p', fillText 9 'q', fillText 11 'r', fillText 11 's', fillText 9 't', fillText 11 'u',
  fillText 11 'v', fillText 9 'w', fillText 11 'x', fillText 11 'y', fillText 9 'z', fillText 11 'A', fillText 11 'B', fillText 9 'C',
  c!" the large score tail\n of the tally\n", fillText 9 'D', fillText 10 'E', fillText 9 'F', fillText 9 'G']

example : blockParse analysisTallyFluctuation (blockStr analysisTallyFluctuation fluctuationVals) = .ok fluctuationVals := by decide +kernel

/-- C61, the exception: the slope of a tally density is read and printed as `0.0` whatever it was, so the text is not kept. -/
theorem C61_density_exact_violated : ∃ s b, blockParse unnormedTallyDensity s = .ok b ∧ blockStr unnormedTallyDensity b ≠ s :=
  ⟨c!"1unnormed tally density for tally          4 nonzero tally mean(m) = 1.000E+00   nps =                  1000 print table 161\n\n abscissa              ordinate   log plot of tally probability density function in tally fluctuation chart bin(d=decade,slope= 3.7)\n 1.00-03  1 *****\n  total    2 1.00",
    [c!"         4", c!"1.000E+00", c!"                 1000", c!" 1.00-03  1 *****\n  total    2 1.00"], by decide +kernel⟩

end Props
