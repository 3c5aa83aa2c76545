import Verif.Outp.Block
/-!
# Tallies of output files

A tally block holds subtallies, a subtally holds lines.  In the pattern of the tally the pattern of the subtally is repeated
and is case sensitive; `types.Tuple(Subtally).from_mcnp` then looks for the same pattern in the group, whatever the letter case,
and reads every piece found (types/Tuple.py:64-65); the lines of a subtally are looked for in the same way
(types/Generator.py:63; the generator can be read any number of times, 77-80).
-/
namespace Outp
open Py Ptrac

/-- A line of a subtally (outp/tally/subtally/Line.py:44-46) -/
structure TLine where
  bucket : Str
  count : Str
  error : Str
deriving DecidableEq

/-- `Line._REGEX` between its anchors (outp/tally/subtally/Line.py:22); there is no letter in it. -/
def lineRe : Re :=
  .seq (litC c!"    ") (.seq (.grp 1 (Re.plus true Re.nonspace)) (.seq (litC c!"   ") (.seq (.grp 2 (Re.plus true Re.nonspace))
    (.seq (litC c!" ") (.seq (.grp 3 (Re.plus true Re.nonspace)) (Re.chr '\n'))))))

/-- `Line.from_mcnp` (outp/tally/subtally/Line.py:49-74) -/
def lineParse (s : Str) : Res TLine :=
  match reMatch (whole lineRe) s with
  | none => .error .outp
  | some m => .ok ⟨tok m 1, tok m 2, tok m 3⟩

/-- `Line.to_mcnp` (outp/tally/subtally/Line.py:84) -/
def TLine.str (l : TLine) : Str := c!"    " ++ l.bucket ++ c!"   " ++ l.count ++ c!" " ++ l.error ++ ['\n']

/-- A text of a pattern, whatever the letter case or not. -/
def text (ci : Bool) (s : Str) : Item := if ci then .ilit s else .lit s

/-- A subtally class: the pattern (whatever the letter case or not; with groups or not), the f-string, the number of groups, the
group of the lines. -/
structure SubDef where
  items : Bool → Bool → List Item
  parts : List Part
  groups : Nat
  slot : Nat

/-- A subtally: the texts of the groups (nothing in the place of the lines) and the lines. -/
structure Sub where
  vals : List Str
  lines : List TLine
deriving DecidableEq

/-- `Subtally_4.from_mcnp` (outp/tally/Subtally_4.py:58-80), `Subtally_2`, `Subtally_1` -/
def subParse (d : SubDef) (s : Str) : Res Sub :=
  match reMatch (whole (tmplRe (d.items true true))) s with
  | none => .error .outp
  | some m => do
    let ls ← (finditer lineRe (tok m d.slot)).mapM lineParse
    pure ⟨(groupTexts m d.groups).set (d.slot - 1) [], ls⟩

/-- `to_mcnp` of the subtallies (outp/tally/Subtally_4.py:90-95) -/
def Sub.str (d : SubDef) (x : Sub) : Str := partsText (x.vals.set (d.slot - 1) (x.lines.flatMap TLine.str)) d.parts

/-- `Subtally_1` (outp/tally/Subtally_1.py): `_REGEX` (24) and `to_mcnp` (104-110).  Attributes, in the order of the groups:
surface, angle_from, angle_to, lines, total. -/
def sub1 : SubDef where
  items := fun ci g => [
    text ci c!" surface  ", .line g 1 [], text ci c!" angle  bin:  ", .fix g 2 12, text ci c!" to  ", .fix g 3 11,
    text ci c!" degrees                                                                                     \n      energy   \n",
    .gen g 4 (Re.plus false dotLine), text ci c!"      total      ", .line g 5 [],
    .gen false 100 (.opt true (Re.chr ' ')), text ci c!"\n"]
  parts := [
    .text c!" surface  ", .field 1 0, .text c!"\n angle  bin:  ", .field 2 0, .text c!" to  ", .field 3 0,
    .text c!" degrees                                                                                     \n      energy   \n",
    .field 4 0, .text c!"      total      ", .field 5 0, .text c!"\n\n"]
  groups := 5
  slot := 4

/-- The pattern of `Subtally_1` as it stands in the pattern of a tally. -/
def sub1Re : Re := tmplRe (sub1.items false false)

/-- `Subtally_2` (outp/tally/Subtally_2.py): `_REGEX` (22) and `to_mcnp` (88-93).  Attributes, in the order of the groups:
surface, lines, total. -/
def sub2 : SubDef where
  items := fun ci g => [
    text ci c!"      surface:  ", .line g 1 [], text ci c!"        time   \n", .gen g 2 (Re.plus true dotLine),
    text ci c!"      total      ", .line g 3 [], text ci c!"\n"]
  parts := [
    .text c!"      surface:  ", .field 1 0, .text c!"\n        time   \n", .field 2 0, .text c!"      total      ",
    .field 3 0, .text c!"\n\n"]
  groups := 3
  slot := 2

/-- The pattern of `Subtally_2` as it stands in the pattern of a tally. -/
def sub2Re : Re := tmplRe (sub2.items false false)

/-- `Subtally_4` (outp/tally/Subtally_4.py): `_REGEX` (22) and `to_mcnp` (88-93).  Attributes, in the order of the groups:
cell, lines, total. -/
def sub4 : SubDef where
  items := fun ci g => [
    text ci c!" cell  ", .line g 1 [], text ci c!"      energy   \n", .gen g 2 (Re.plus true dotLine),
    text ci c!"      total      ", .line g 3 [], text ci c!"\n"]
  parts := [
    .text c!" cell  ", .field 1 0, .text c!"\n      energy   \n", .field 2 0, .text c!"      total      ", .field 3 0,
    .text c!"\n\n"]
  groups := 3
  slot := 2

/-- The pattern of `Subtally_4` as it stands in the pattern of a tally. -/
def sub4Re : Re := tmplRe (sub4.items false false)

/-- A tally class: pattern and f-string, the class of its subtallies and the group they are in, the group of the message. -/
structure TallyDef extends BlockDef where
  sub : SubDef
  slot : Nat
  msg : Option Nat

/-- A tally: the texts of the groups (nothing in the place of the subtallies) and the subtallies. -/
structure Tally where
  vals : List Str
  subs : List Sub
deriving DecidableEq

/-- `from_mcnp` of the tallies (outp/Tally_8A.py:118-160 and the same in the others) -/
def tallyParse (d : TallyDef) (s : Str) : Res Tally :=
  match reMatch (whole (tmplRe d.items)) s with
  | none => .error .outp
  | some m => do
    let xs ← (finditer (tmplRe (d.sub.items true false)) (tok m d.slot)).mapM (subParse d.sub)
    pure ⟨(groupTexts m d.groups).set (d.slot - 1) [], xs⟩

/-- The message as printed (outp/Tally_8A.py:169, outp/Tally_8B.py:159). -/
def msgText (s : Str) : Str := if s = [] then [] else c!"\n           " ++ s ++ ['\n']

/-- `to_mcnp` of the tallies -/
def Tally.str (d : TallyDef) (t : Tally) : Str :=
  let b := t.vals.set (d.slot - 1) (t.subs.flatMap (Sub.str d.sub))
  match d.msg with
  | none => partsText b d.parts
  | some n => partsText (b.set (n - 1) (msgText (b.getD (n - 1) []))) d.parts

/-- `Tally_1A` (outp/Tally_1A.py): `_REGEX` (29-48) and `to_mcnp` (164-192).  Attributes, in the order of the groups: number,
nps, tally_type, particles, subtallies, stats_desired, stats_observed, stats_passed, asymmetric_interval,
symmetric_interval. -/
def tally1A : TallyDef where
  items := [
    .lit c!"1tally ", .fix true 1 8, .lit c!"        nps = ", .fix true 2 11, .lit c!"\n           tally type ",
    .line true 3 [], .lit c!"           particle(s): ", .line true 4 [], .lit c!" \n", .many true 5 sub1Re,
    .lit c!" ===================================================================================================================================\n\n           results of 10 statistical checks for the estimated answer for the tally fluctuation chart (tfc) bin of tally ",
    .fix false 100 8,
    .lit c!"\n\n tfc bin     --mean--      ---------relative error---------      ----variance of the variance----      --figure of merit--     -pdf-\n behavior    behavior      value   decrease   decrease rate      value   decrease   decrease rate       value     behavior     slope\n\n",
    .line true 6 c!" ", .line true 7 c!" ", .line true 8 c!" ",
    .lit c!"\n ===================================================================================================================================\n\n\n this tally meets the statistical criteria used to form confidence intervals: check the tally fluctuation chart to verify.\n the results in other bins associated with this tally may not meet these statistical criteria.\n\n ----- estimated confidence intervals:  -----\n\n estimated asymmetric confidence interval(1,2,3 sigma): ",
    .line true 9 [], .lit c!" estimated  symmetric confidence interval(1,2,3 sigma): ", .line true 10 []]
  parts := [
    .text c!"1tally ", .field 1 0, .text c!"        nps = ", .field 2 0, .text c!"\n           tally type ",
    .field 3 0, .text c!"\n           particle(s): ", .field 4 0, .text c!"\n \n", .field 5 0,
    .text c!"\n ===================================================================================================================================\n\n           results of 10 statistical checks for the estimated answer for the tally fluctuation chart (tfc) bin of tally ",
    .field 1 0,
    .text c!"\n\n tfc bin     --mean--      ---------relative error---------      ----variance of the variance----      --figure of merit--     -pdf-\n behavior    behavior      value   decrease   decrease rate      value   decrease   decrease rate       value     behavior     slope\n\n",
    .field 6 0, .text c!"\n", .field 7 0, .text c!"\n", .field 8 0,
    .text c!"\n\n ===================================================================================================================================\n\n\n this tally meets the statistical criteria used to form confidence intervals: check the tally fluctuation chart to verify.\n the results in other bins associated with this tally may not meet these statistical criteria.\n\n ----- estimated confidence intervals:  -----\n\n estimated asymmetric confidence interval(1,2,3 sigma): ",
    .field 9 0, .text c!"\n estimated  symmetric confidence interval(1,2,3 sigma): ", .field 10 0, .text c!"\n"]
  groups := 10
  sub := sub1
  slot := 5
  msg := none

/-- `Tally_1B` (outp/Tally_1B.py): `_REGEX` (28-43) and `to_mcnp` (152-174).  Attributes, in the order of the groups: number,
nps, tally_type, particles, subtallies, stats_desired, stats_observed, stats_passed, fails. -/
def tally1B : TallyDef where
  items := [
    .lit c!"1tally ", .fix true 1 8, .lit c!"        nps = ", .fix true 2 11, .lit c!"\n           tally type ",
    .line true 3 [], .lit c!"           particle(s): ", .line true 4 [], .lit c!" \n", .many true 5 sub1Re,
    .lit c!" ===================================================================================================================================\n\n           results of 10 statistical checks for the estimated answer for the tally fluctuation chart (tfc) bin of tally ",
    .fix false 100 8,
    .lit c!"\n\n tfc bin     --mean--      ---------relative error---------      ----variance of the variance----      --figure of merit--     -pdf-\n behavior    behavior      value   decrease   decrease rate      value   decrease   decrease rate       value     behavior     slope\n\n",
    .line true 6 c!" ", .line true 7 c!" ", .line true 8 c!" ",
    .lit c!"\n ===================================================================================================================================\n\n\n warning.  the tally in the tally fluctuation chart bin did not pass ",
    .fix true 9 2, .lit c!" of the 10 statistical checks.\n"]
  parts := [
    .text c!"1tally ", .field 1 0, .text c!"        nps = ", .field 2 0, .text c!"\n           tally type ",
    .field 3 0, .text c!"\n           particle(s): ", .field 4 0, .text c!"\n \n", .field 5 0,
    .text c!"\n ===================================================================================================================================\n\n           results of 10 statistical checks for the estimated answer for the tally fluctuation chart (tfc) bin of tally ",
    .field 1 0,
    .text c!"\n\n tfc bin     --mean--      ---------relative error---------      ----variance of the variance----      --figure of merit--     -pdf-\n behavior    behavior      value   decrease   decrease rate      value   decrease   decrease rate       value     behavior     slope\n\n",
    .field 6 0, .text c!"\n", .field 7 0, .text c!"\n", .field 8 0,
    .text c!"\n\n ===================================================================================================================================\n\n\n warning.  the tally in the tally fluctuation chart bin did not pass ",
    .field 9 0, .text c!" of the 10 statistical checks.\n"]
  groups := 9
  sub := sub1
  slot := 5
  msg := none

/-- `Tally_2` (outp/Tally_2.py): `_REGEX` (31-52) and `to_mcnp` (182-213).  Attributes, in the order of the groups: number, nps,
tally_type, particles, surface, surface_value, subtallies, stats_desired, stats_observed, stats_passed, asymmetric_interval,
symmetric_interval. -/
def tally2 : TallyDef where
  items := [
    .lit c!"1tally ", .fix true 1 8, .lit c!"        nps = ", .fix true 2 11, .lit c!"\n           tally type ",
    .line true 3 [], .lit c!"           particle(s): ", .line true 4 [],
    .lit c!"\n           areas   \n                surface: ", .line true 5 [], .lit c!"                         ",
    .line true 6 [], .lit c!" \n", .many true 7 sub2Re,
    .lit c!" ===================================================================================================================================\n\n           results of 10 statistical checks for the estimated answer for the tally fluctuation chart (tfc) bin of tally ",
    .fix false 100 8,
    .lit c!"\n\n tfc bin     --mean--      ---------relative error---------      ----variance of the variance----      --figure of merit--     -pdf-\n behavior    behavior      value   decrease   decrease rate      value   decrease   decrease rate       value     behavior     slope\n\n",
    .line true 8 c!" ", .line true 9 c!" ", .line true 10 c!" ",
    .lit c!"\n ===================================================================================================================================\n\n\n this tally meets the statistical criteria used to form confidence intervals: check the tally fluctuation chart to verify.\n the results in other bins associated with this tally may not meet these statistical criteria.\n\n ----- estimated confidence intervals:  -----\n\n estimated asymmetric confidence interval(1,2,3 sigma): ",
    .line true 11 [], .lit c!" estimated  symmetric confidence interval(1,2,3 sigma): ", .line true 12 []]
  parts := [
    .text c!"1tally ", .field 1 0, .text c!"        nps = ", .field 2 0, .text c!"\n           tally type ",
    .field 3 0, .text c!"\n           particle(s): ", .field 4 0,
    .text c!"\n\n           areas   \n                surface: ", .field 5 0, .text c!"\n                         ",
    .field 6 0, .text c!"\n \n", .field 7 0,
    .text c!"\n ===================================================================================================================================\n\n           results of 10 statistical checks for the estimated answer for the tally fluctuation chart (tfc) bin of tally ",
    .field 1 0,
    .text c!"\n\n tfc bin     --mean--      ---------relative error---------      ----variance of the variance----      --figure of merit--     -pdf-\n behavior    behavior      value   decrease   decrease rate      value   decrease   decrease rate       value     behavior     slope\n\n",
    .field 8 0, .text c!"\n", .field 9 0, .text c!"\n", .field 10 0,
    .text c!"\n\n ===================================================================================================================================\n\n\n this tally meets the statistical criteria used to form confidence intervals: check the tally fluctuation chart to verify.\n the results in other bins associated with this tally may not meet these statistical criteria.\n\n ----- estimated confidence intervals:  -----\n\n estimated asymmetric confidence interval(1,2,3 sigma): ",
    .field 11 0, .text c!"\n estimated  symmetric confidence interval(1,2,3 sigma): ", .field 12 0, .text c!"\n"]
  groups := 12
  sub := sub2
  slot := 7
  msg := none

/-- `Tally_4` (outp/Tally_4.py): `_REGEX` (31-52) and `to_mcnp` (182-213).  Attributes, in the order of the groups: number, nps,
tally_type, particles, cell, cell_value, subtallies, stats_desired, stats_observed, stats_passed, asymmetric_interval,
symmetric_interval. -/
def tally4 : TallyDef where
  items := [
    .lit c!"1tally ", .fix true 1 8, .lit c!"        nps = ", .fix true 2 11, .lit c!"\n           tally type ",
    .line true 3 [], .lit c!"           particle(s): ", .line true 4 [],
    .lit c!"\n           volumes \n                   cell: ", .line true 5 [], .lit c!"                         ",
    .line true 6 [], .lit c!" \n", .many true 7 sub4Re,
    .lit c!" ===================================================================================================================================\n\n           results of 10 statistical checks for the estimated answer for the tally fluctuation chart (tfc) bin of tally ",
    .fix false 100 8,
    .lit c!"\n\n tfc bin     --mean--      ---------relative error---------      ----variance of the variance----      --figure of merit--     -pdf-\n behavior    behavior      value   decrease   decrease rate      value   decrease   decrease rate       value     behavior     slope\n\n",
    .line true 8 c!" ", .line true 9 c!" ", .line true 10 c!" ",
    .lit c!"\n ===================================================================================================================================\n\n\n this tally meets the statistical criteria used to form confidence intervals: check the tally fluctuation chart to verify.\n the results in other bins associated with this tally may not meet these statistical criteria.\n\n ----- estimated confidence intervals:  -----\n\n estimated asymmetric confidence interval(1,2,3 sigma): ",
    .line true 11 [], .lit c!" estimated  symmetric confidence interval(1,2,3 sigma): ", .line true 12 []]
  parts := [
    .text c!"1tally ", .field 1 0, .text c!"        nps = ", .field 2 0, .text c!"\n           tally type ",
    .field 3 0, .text c!"\n           particle(s): ", .field 4 0,
    .text c!"\n\n           volumes \n                   cell: ", .field 5 0, .text c!"\n                         ",
    .field 6 0, .text c!"\n \n", .field 7 0,
    .text c!"\n ===================================================================================================================================\n\n           results of 10 statistical checks for the estimated answer for the tally fluctuation chart (tfc) bin of tally ",
    .field 1 0,
    .text c!"\n\n tfc bin     --mean--      ---------relative error---------      ----variance of the variance----      --figure of merit--     -pdf-\n behavior    behavior      value   decrease   decrease rate      value   decrease   decrease rate       value     behavior     slope\n\n",
    .field 8 0, .text c!"\n", .field 9 0, .text c!"\n", .field 10 0,
    .text c!"\n\n ===================================================================================================================================\n\n\n this tally meets the statistical criteria used to form confidence intervals: check the tally fluctuation chart to verify.\n the results in other bins associated with this tally may not meet these statistical criteria.\n\n ----- estimated confidence intervals:  -----\n\n estimated asymmetric confidence interval(1,2,3 sigma): ",
    .field 11 0, .text c!"\n estimated  symmetric confidence interval(1,2,3 sigma): ", .field 12 0, .text c!"\n"]
  groups := 12
  sub := sub4
  slot := 7
  msg := none

/-- `Tally_8A` (outp/Tally_8A.py): `_REGEX` (30-48) and `to_mcnp` (171-198).  Attributes, in the order of the groups: number,
nps, tally_type, particles, message, subtallies, stats_desired, stats_observed, stats_passed, asymmetric_interval,
symmetric_interval. -/
def tally8A : TallyDef where
  items := [
    .lit c!"1tally ", .fix true 1 8, .lit c!"        nps = ", .fix true 2 11, .lit c!"\n           tally type ",
    .line true 3 [], .lit c!"           particle(s): ", .gen true 4 (Re.plus true .dot),
    .gen true 5 (.opt true (.seq (Re.chr '\n') (.star true .dot))), .lit c!"\n \n", .many true 6 sub4Re,
    .lit c!" ===================================================================================================================================\n\n           results of 10 statistical checks for the estimated answer for the tally fluctuation chart (tfc) bin of tally ",
    .fix false 100 8,
    .lit c!"\n\n tfc bin     --mean--      ---------relative error---------      ----variance of the variance----      --figure of merit--     -pdf-\n behavior    behavior      value   decrease   decrease rate      value   decrease   decrease rate       value     behavior     slope\n\n",
    .line true 7 c!" ", .line true 8 c!" ", .line true 9 c!" ",
    .lit c!"\n ===================================================================================================================================\n\n\n this tally meets the statistical criteria used to form confidence intervals: check the tally fluctuation chart to verify.\n the results in other bins associated with this tally may not meet these statistical criteria.\n\n ----- estimated confidence intervals:  -----\n\n estimated asymmetric confidence interval(1,2,3 sigma): ",
    .line true 10 [], .lit c!" estimated  symmetric confidence interval(1,2,3 sigma): ", .line true 11 []]
  parts := [
    .text c!"1tally ", .field 1 0, .text c!"        nps = ", .field 2 0, .text c!"\n           tally type ",
    .field 3 0, .text c!"\n           particle(s): ", .field 4 0, .field 5 0, .text c!"\n \n", .field 6 0,
    .text c!"\n ===================================================================================================================================\n\n           results of 10 statistical checks for the estimated answer for the tally fluctuation chart (tfc) bin of tally ",
    .field 1 0,
    .text c!"\n\n tfc bin     --mean--      ---------relative error---------      ----variance of the variance----      --figure of merit--     -pdf-\n behavior    behavior      value   decrease   decrease rate      value   decrease   decrease rate       value     behavior     slope\n\n",
    .field 7 0, .text c!"\n", .field 8 0, .text c!"\n", .field 9 0,
    .text c!"\n\n ===================================================================================================================================\n\n\n this tally meets the statistical criteria used to form confidence intervals: check the tally fluctuation chart to verify.\n the results in other bins associated with this tally may not meet these statistical criteria.\n\n ----- estimated confidence intervals:  -----\n\n estimated asymmetric confidence interval(1,2,3 sigma): ",
    .field 10 0, .text c!"\n estimated  symmetric confidence interval(1,2,3 sigma): ", .field 11 0, .text c!"\n"]
  groups := 11
  sub := sub4
  slot := 6
  msg := some 5

/-- `Tally_8B` (outp/Tally_8B.py): `_REGEX` (29-43) and `to_mcnp` (161-182).  Attributes, in the order of the groups: number,
nps, tally_type, particles, message, subtallies, stats_desired, stats_observed, stats_passed, fails. -/
def tally8B : TallyDef where
  items := [
    .lit c!"1tally ", .fix true 1 8, .lit c!"        nps = ", .fix true 2 11, .lit c!"\n           tally type ",
    .line true 3 [], .lit c!"           particle(s): ", .gen true 4 (Re.plus true .dot),
    .gen true 5 (.opt true (.seq (Re.chr '\n') (.star true .dot))), .lit c!"\n \n", .many true 6 sub4Re,
    .lit c!" ===================================================================================================================================\n\n           results of 10 statistical checks for the estimated answer for the tally fluctuation chart (tfc) bin of tally ",
    .fix false 100 8,
    .lit c!"\n\n tfc bin     --mean--      ---------relative error---------      ----variance of the variance----      --figure of merit--     -pdf-\n behavior    behavior      value   decrease   decrease rate      value   decrease   decrease rate       value     behavior     slope\n\n",
    .line true 7 c!" ", .line true 8 c!" ", .line true 9 c!" ",
    .lit c!"\n ===================================================================================================================================\n\n\n warning.  the tally in the tally fluctuation chart bin did not pass ",
    .fix true 10 2, .lit c!" of the 10 statistical checks.\n"]
  parts := [
    .text c!"1tally ", .field 1 0, .text c!"        nps = ", .field 2 0, .text c!"\n           tally type ",
    .field 3 0, .text c!"\n           particle(s): ", .field 4 0, .field 5 0, .text c!"\n \n", .field 6 0,
    .text c!"\n ===================================================================================================================================\n\n           results of 10 statistical checks for the estimated answer for the tally fluctuation chart (tfc) bin of tally ",
    .field 1 0,
    .text c!"\n\n tfc bin     --mean--      ---------relative error---------      ----variance of the variance----      --figure of merit--     -pdf-\n behavior    behavior      value   decrease   decrease rate      value   decrease   decrease rate       value     behavior     slope\n\n",
    .field 7 0, .text c!"\n", .field 8 0, .text c!"\n", .field 9 0,
    .text c!"\n\n ===================================================================================================================================\n\n\n warning.  the tally in the tally fluctuation chart bin did not pass ",
    .field 10 0, .text c!" of the 10 statistical checks.\n"]
  groups := 10
  sub := sub4
  slot := 6
  msg := some 5

end Outp
