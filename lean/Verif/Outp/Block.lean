import Verif.Py.Tmpl
import Verif.Py.Lit
import Verif.Ptrac.Line
/-!
# Blocks of output files

A block class of `outp/` has a pattern (`_REGEX`, between `\A` and `\Z`) and a printed form (the f-string of `to_mcnp`).  Both
are given here as tables copied from the source: the pattern as a template (`Item`), the f-string as a list of `Part`.  The
attributes of a block are the texts of the groups, in order; `types.String` keeps a text as it is (types/String.py:41-65), so
the value of a block is the list of these texts.

Simplifications.  The groups inside the repeated subtally of a tally are not modelled as groups: the code never reads them
(`offset` skips them).  An absent message (`(\n.*)?`) is the empty text: the group never captures the empty text and the code
asks only whether it is empty.  `None` arguments (which the constructors refuse) cannot arise from `from_mcnp`.
-/
namespace Outp
open Py Ptrac

/-- A part of an f-string: a text, or `{self.attribute:w}` with the number of the attribute (`w` = 0: no width). -/
inductive Part where
  | text (s : Str)
  | field (n w : Nat)
deriving DecidableEq

/-- `'{:w}'.format(s)` for a string (types/String.py:86-87): blanks on the right. -/
def pad (w : Nat) (s : Str) : Str := s ++ List.replicate (w - s.length) ' '

/-- The text of an f-string with these attributes. -/
def partsText (b : List Str) : List Part → Str
  | [] => []
  | .text s :: ps => s ++ partsText b ps
  | .field n w :: ps => pad w (b.getD (n - 1) []) ++ partsText b ps

/-- A block class. -/
structure BlockDef where
  items : List Item
  parts : List Part
  groups : Nat

/-- `\A` pattern `\Z` -/
def whole (r : Re) : Re := .seq .bos (.seq r .eos)

/-- The texts of the groups 1, ..., `n`. -/
def groupTexts (m : List (Nat × Str)) (n : Nat) : List Str := (List.range n).map fun i => tok m (i + 1)

/-- `from_mcnp` of the classes without subtallies (outp/Mcnp.py:142-189, and the same in the others). -/
def blockParse (d : BlockDef) (s : Str) : Res (List Str) :=
  match reMatch (whole (tmplRe d.items)) s with
  | none => .error .outp
  | some m => .ok (groupTexts m d.groups)

/-- `to_mcnp` -/
def blockStr (d : BlockDef) (b : List Str) : Str := partsText b d.parts

/-- `.+\n` -/
def dotLine : Re := .seq (Re.plus true .dot) (Re.chr '\n')
/-- `.*\n` -/
def anyLine : Re := .seq (.star true .dot) (Re.chr '\n')

/-- `Mcnp` (outp/Mcnp.py): `_REGEX` (30-45) and `to_mcnp` (204-220).  Attributes, in the order of the groups: version,
code_date, run_date, run_time, probid, command, lines, random_generator, random_seed, random_multiplier, random_adder,
random_bits, random_stride, messages. -/
def mcnp : BlockDef where
  items := [
    .lit c!"1mcnp     ", .fix true 1 14, .fix true 2 32, .fix true 3 9, .fix true 4 9,
    .lit c!"\n *************************************************************************                 ",
    .fix true 5 28, .lit c!"\n ", .line true 6 [], .lit c!"\n \n", .gen true 7 (.star true anyLine),
    .lit c!"\n ***************************************************\n * Random Number Generator  = ", .fix true 8 20,
    .lit c!" *\n * Random Number Seed       = ", .fix true 9 20, .lit c!" *\n * Random Number Multiplier = ",
    .fix true 10 20, .lit c!" *\n * Random Number Adder      = ", .fix true 11 20,
    .lit c!" *\n * Random Number Bits Used  = ", .fix true 12 20, .lit c!" *\n * Random Number Stride     = ",
    .fix true 13 20, .lit c!" *\n ***************************************************\n",
    .gen true 14 (.star true anyLine)]
  parts := [
    .text c!"1mcnp     ", .field 1 0, .field 2 0, .field 3 0, .field 4 0,
    .text c!"\n *************************************************************************                 ",
    .field 5 0, .text c!"\n ", .field 6 0, .text c!"\n\n \n", .field 7 0,
    .text c!"\n ***************************************************\n * Random Number Generator  = ", .field 8 0,
    .text c!" *\n * Random Number Seed       = ", .field 9 0, .text c!" *\n * Random Number Multiplier = ",
    .field 10 0, .text c!" *\n * Random Number Adder      = ", .field 11 0,
    .text c!" *\n * Random Number Bits Used  = ", .field 12 0, .text c!" *\n * Random Number Stride     = ",
    .field 13 0, .text c!" *\n ***************************************************\n", .field 14 0]
  groups := 14

/-- `NeutronActivity` (outp/NeutronActivity.py): `_REGEX` (21-28) and `to_mcnp` (108-117).  Attributes, in the order of the
groups: cells, total_tracks, total_population, total_collisions, total_weighted_collisions. -/
def neutronActivity : BlockDef where
  items := [
    .lit c!"1neutron  activity in each cell                                                                         print table 126\n\n                       tracks     population   collisions   collisions     number        flux        average      average\n              cell    entering                               * weight     weighted     weighted   track weight   track mfp\n                                                          (per history)    energy       energy     (relative)      (cm)\n\n",
    .many true 1 dotLine, .lit c!"           total    ", .fix true 2 10, .lit c!"    ", .fix true 3 9, .lit c!"   ",
    .fix true 4 10, .lit c!"    ", .fix true 5 10]
  parts := [
    .text c!"1neutron  activity in each cell                                                                         print table 126\n\n                       tracks     population   collisions   collisions     number        flux        average      average\n              cell    entering                               * weight     weighted     weighted   track weight   track mfp\n                                                          (per history)    energy       energy     (relative)      (cm)\n\n",
    .field 1 0, .text c!"\n           total    ", .field 2 10, .text c!"    ", .field 3 10, .text c!"  ", .field 4 10,
    .text c!"    ", .field 5 10]
  groups := 5

/-- `PhotonActivity` (outp/PhotonActivity.py): `_REGEX` (21-28) and `to_mcnp` (108-117).  Attributes, in the order of the
groups: cells, total_tracks, total_population, total_collisions, total_weighted_collisions. -/
def photonActivity : BlockDef where
  items := [
    .lit c!"1photon   activity in each cell                                                                         print table 126\n\n                       tracks     population   collisions   collisions     number        flux        average      average\n              cell    entering                               * weight     weighted     weighted   track weight   track mfp\n                                                          (per history)    energy       energy     (relative)      (cm)\n\n",
    .many true 1 dotLine, .lit c!"           total    ", .fix true 2 10, .lit c!"    ", .fix true 3 9, .lit c!"   ",
    .fix true 4 10, .lit c!"    ", .fix true 5 10]
  parts := [
    .text c!"1photon   activity in each cell                                                                         print table 126\n\n                       tracks     population   collisions   collisions     number        flux        average      average\n              cell    entering                               * weight     weighted     weighted   track weight   track mfp\n                                                          (per history)    energy       energy     (relative)      (cm)\n\n",
    .field 1 0, .text c!"\n           total    ", .field 2 10, .text c!"    ", .field 3 10, .text c!"  ", .field 4 10,
    .text c!"    ", .field 5 10]
  groups := 5

/-- `AnalysisTallyFluctuation` (outp/AnalysisTallyFluctuation.py): `_REGEX` (52-70) and `to_mcnp` (367-394).  Attributes, in the
order of the groups: tally, nps, normed_average_per_history, unnormed_average_per_history, tally_relative_error,
tally_variance_variance, relative_error_zero, relative_error_nonzero, number_nonzero, efficiency_nonzero, largest_history,
largest_unormalized, largest_per_average, largest_per_verage_nonzero, confidence_per_mean, shifted_confidence, nps_mean,
nps_plus_mean, nps_times_mean, nps_relative_error, nps_plus_relative_error, nps_times_relative_error, nps_variance_variance,
nps_plus_variance_variance, nps_times_variance_variance, nps_shifted_center, nps_plus_shifted_center,
nps_times_shifted_center, nps_merit, nps_plus_merit, nps_times_merit, message, histories_per_minute, singal_noise,
singal_noise_squared, fom. -/
def analysisTallyFluctuation : BlockDef where
  items := [
    .lit c!"1analysis of the results in the tally fluctuation chart bin (tfc) for tally ", .fix true 1 1,
    .lit c!" with nps = ", .fix true 2 19, .lit c!" print table 160\n\n\n normed average tally per history  = ",
    .fix true 3 11, .lit c!"          unnormed average tally per history  = ", .fix true 4 11,
    .lit c!"\n estimated tally relative error    = ", .fix true 5 11,
    .lit c!"          estimated variance of the variance  = ", .fix true 6 6,
    .lit c!"\n relative error from zero tallies  = ", .fix true 7 11,
    .lit c!"          relative error from nonzero scores  = ", .fix true 8 6,
    .lit c!"\n\n number of nonzero history tallies = ", .fix true 9 11,
    .lit c!"          efficiency for the nonzero tallies  = ", .fix true 10 6,
    .lit c!"\n history number of largest  tally  = ", .fix true 11 11,
    .lit c!"          largest  unnormalized history tally = ", .fix true 12 11,
    .lit c!"\n (largest  tally)/(average tally)  = ", .fix true 13 11,
    .lit c!"          (largest  tally)/(avg nonzero tally)= ", .fix true 14 11,
    .lit c!"\n\n (confidence interval shift)/mean  = ", .fix true 15 11,
    .lit c!"          shifted confidence interval center  = ", .fix true 16 11,
    .lit c!"\n\n\n if the largest  history score sampled so far were to occur on the next history, the tfc bin quantities would change as follows:\n\n      estimated quantities           value at nps           value at nps+1           value(nps+1)/value(nps)-1.\n\n      mean                            ",
    .fix true 17 11, .lit c!"             ", .fix true 18 11, .lit c!"                    ", .fix true 19 9,
    .lit c!"\n      relative error                  ", .fix true 20 11, .lit c!"             ", .fix true 21 11,
    .lit c!"                    ", .fix true 22 9, .lit c!"\n      variance of the variance        ", .fix true 23 11,
    .lit c!"             ", .fix true 24 11, .lit c!"                    ", .fix true 25 9,
    .lit c!"\n      shifted center                  ", .fix true 26 11, .lit c!"             ", .fix true 27 11,
    .lit c!"                    ", .fix true 28 9, .lit c!"\n      figure of merit                 ", .fix true 29 11,
    .lit c!"             ", .fix true 30 11, .lit c!"                    ", .fix true 31 9, .lit c!"\n\n",
    .many true 32 dotLine, .lit c!" fom = (histories/minute)*(f(x) signal-to-noise ratio)**2 = (", .fix true 33 9,
    .lit c!")*(", .fix true 34 10, .lit c!")**2 = (", .fix false 100 9, .lit c!")*(", .fix true 35 9, .lit c!") = ",
    .fix true 36 9, .lit c!"\n"]
  parts := [
    .text c!"1analysis of the results in the tally fluctuation chart bin (tfc) for tally ", .field 1 1,
    .text c!" with nps = ", .field 2 19, .text c!" print table 160\n\n\n normed average tally per history  = ",
    .field 3 11, .text c!"          unnormed average tally per history  = ", .field 4 11,
    .text c!"\n estimated tally relative error    = ", .field 5 11,
    .text c!"          estimated variance of the variance  = ", .field 6 6,
    .text c!"\n relative error from zero tallies  = ", .field 7 11,
    .text c!"          relative error from nonzero scores  = ", .field 8 6,
    .text c!"\n\n number of nonzero history tallies = ", .field 9 11,
    .text c!"          efficiency for the nonzero tallies  = ", .field 10 6,
    .text c!"\n history number of largest  tally  = ", .field 11 11,
    .text c!"          largest  unnormalized history tally = ", .field 12 11,
    .text c!"\n (largest  tally)/(average tally)  = ", .field 13 11,
    .text c!"          (largest  tally)/(avg nonzero tally)= ", .field 14 11,
    .text c!"\n\n (confidence interval shift)/mean  = ", .field 15 11,
    .text c!"          shifted confidence interval center  = ", .field 16 11,
    .text c!"\n\n\n if the largest  history score sampled so far were to occur on the next history, the tfc bin quantities would change as follows:\n\n      estimated quantities           value at nps           value at nps+1           value(nps+1)/value(nps)-1.\n\n      mean                            ",
    .field 17 11, .text c!"             ", .field 18 11, .text c!"                    ", .field 19 8,
    .text c!"\n      relative error                  ", .field 20 11, .text c!"             ", .field 21 11,
    .text c!"                    ", .field 22 8, .text c!"\n      variance of the variance        ", .field 23 11,
    .text c!"             ", .field 24 11, .text c!"                    ", .field 25 8,
    .text c!"\n      shifted center                  ", .field 26 11, .text c!"             ", .field 27 11,
    .text c!"                    ", .field 28 8, .text c!"\n      figure of merit                 ", .field 29 11,
    .text c!"             ", .field 30 11, .text c!"                    ", .field 31 8, .text c!"\n\n", .field 32 0,
    .text c!"\n fom = (histories/minute)*(f(x) signal-to-noise ratio)**2 = (", .field 33 9, .text c!")*(",
    .field 34 10, .text c!")**2 = (", .field 33 9, .text c!")*(", .field 35 9, .text c!") = ", .field 36 9,
    .text c!"\n"]
  groups := 36

/-- `ProblemSummary` (outp/ProblemSummary.py): `_REGEX` (31-48) and `to_mcnp` (212-237).  Attributes, in the order of the
groups: histories, datetime, histories_rate, title, probid, neutron_data, proton_data, computer_time, max_bank,
computer_mcrun, bank_overflows, source_per_minute, random_numbers, most_random, most_history, range_lower, range_upper. -/
def problemSummary : BlockDef where
  items := [
    .lit c!"1problem summary                                                                                                           \n\n      run terminated when ",
    .fix true 1 11,
    .lit c!"  particle histories were done.\n+                                                                                                    ",
    .fix true 2 17, .lit c!" \n\n =====> ", .fix true 3 10,
    .lit c!" M histories/hr    (based on wall-clock time in mcrun)\n\n\n      ", .gen true 4 (Re.plus true .dot),
    .lit c!"     probid =  ", .fix true 5 17,
    .lit c!" \n\n neutron creation    tracks      weight        energy            neutron loss        tracks      weight        energy\n                                 (per source particle)                                           (per source particle)\n\n",
    .gen true 6 (.seq (Re.plus true dotLine) (.seq (Re.chr '\n') (Re.plus true dotLine))),
    .lit c!"\n photon creation     tracks      weight        energy            photon loss         tracks      weight        energy\n                                 (per source particle)                                           (per source particle)\n\n",
    .gen true 7 (.seq (Re.plus true dotLine) (.seq (Re.chr '\n') (Re.plus true dotLine))),
    .lit c!"\n computer time so far in this run     ", .fix true 8 12,
    .lit c!"            maximum number ever in bank   ", .fix true 9 7,
    .lit c!"\n computer time in mcrun               ", .fix true 10 12,
    .lit c!"            bank overflows to backup file ", .fix true 11 7,
    .lit c!"\n source particles per minute            ", .fix true 12 10,
    .lit c!"\n random numbers generated              ", .fix true 13 11,
    .lit c!"            most random numbers used was ", .fix true 14 11, .lit c!" in history ", .fix true 15 11,
    .lit c!"\n\n range of sampled source weights = ", .fix true 16 10, .lit c!" to ", .fix true 17 10, .lit c!"\n"]
  parts := [
    .text c!"1problem summary                                                                                                           \n\n      run terminated when ",
    .field 1 11,
    .text c!"  particle histories were done.\n+                                                                                                    ",
    .field 2 17, .text c!" \n\n =====> ", .field 3 10,
    .text c!" M histories/hr    (based on wall-clock time in mcrun)\n\n\n      ", .field 4 0,
    .text c!"     probid =  ", .field 5 17,
    .text c!" \n\n neutron creation    tracks      weight        energy            neutron loss        tracks      weight        energy\n                                 (per source particle)                                           (per source particle)\n\n",
    .field 6 0,
    .text c!"\n photon creation     tracks      weight        energy            photon loss         tracks      weight        energy\n                                 (per source particle)                                           (per source particle)\n\n",
    .field 7 0, .text c!"\n computer time so far in this run     ", .field 8 12,
    .text c!"            maximum number ever in bank   ", .field 9 7,
    .text c!"\n computer time in mcrun               ", .field 10 12,
    .text c!"            bank overflows to backup file ", .field 11 7,
    .text c!"\n source particles per minute            ", .field 12 10,
    .text c!"\n random numbers generated              ", .field 13 11,
    .text c!"            most random numbers used was ", .field 14 11, .text c!" in history ", .field 15 11,
    .text c!"\n\n range of sampled source weights = ", .field 16 10, .text c!" to ", .field 17 10, .text c!"\n"]
  groups := 17

/-- `StartingMcrun` (outp/StartingMcrun.py): `_REGEX` (19-24) and `to_mcnp` (90-99).  Attributes, in the order of the groups:
cp0, title, data. -/
def startingMcrun : BlockDef where
  items := [
    .lit c!"1starting mcrun", .fix false 100 1, .lit c!"      cp0 = ", .fix true 1 5,
    .lit c!"                                                                       print table 110\n\n      ",
    .fix true 2 80,
    .lit c!"\n\n\n     nps    x          y          z          cell       surf     u          v          w        energy     weight      time\n \n",
    .gen true 3 (Re.plus true dotLine)]
  parts := [
    .text c!"1starting mcrun.      cp0 = ", .field 1 5,
    .text c!"                                                                       print table 110\n\n      ",
    .field 2 80,
    .text c!"\n\n\n     nps    x          y          z          cell       surf     u          v          w        energy     weight      time\n \n",
    .field 3 0]
  groups := 3

/-- `UnnormedTallyDensity` (outp/UnnormedTallyDensity.py): `_REGEX` (20-24) and `to_mcnp` (97-102).  Attributes, in the order of
the groups: tally, mean, nps, chart. -/
def unnormedTallyDensity : BlockDef where
  items := [
    .lit c!"1unnormed tally density for tally ", .fix true 1 10, .lit c!" nonzero tally mean(m) = ", .fix true 2 9,
    .lit c!"   nps = ", .fix true 3 21,
    .lit c!" print table 161\n\n abscissa              ordinate   log plot of tally probability density function in tally fluctuation chart bin(d=decade,slope= ",
    .fix false 100 3, .lit c!")\n",
    .gen true 4 (.seq (Re.plus true dotLine) (.seq (litC c!"  total") (Re.plus true .dot)))]
  parts := [
    .text c!"1unnormed tally density for tally ", .field 1 8, .text c!" nonzero tally mean(m) = ", .field 2 9,
    .text c!"   nps = ", .field 3 11,
    .text c!" print table 161\n\n abscissa              ordinate   log plot of tally probability density function in tally fluctuation chart bin(d=decade,slope= 0.0)\n",
    .field 4 0]
  groups := 4

end Outp
