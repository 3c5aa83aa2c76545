import Verif.Inp.RangeSpec
import Verif.Inp.TableAll
/-!
# The documented ranges of numbers and texts

One row for each attribute whose setter refuses numbers outside a range, or texts other than certain words; written down from the setters and
the documentation of the classes (the file and the line of each are cited), not from the tables of the classes.
-/
set_option maxRecDepth 100000
namespace Inp.Ranges
open Inp

/-- Setters of numbers, part 0. -/
def numbers0 : List NumRow := [
  ⟨Tab.Cell, "number", false, false, false, [⟨(some ⟨1, 0, true⟩), (some ⟨99999999, 0, true⟩)⟩], none⟩,  -- Cell.py:121
  ⟨Tab.Cell, "material", false, false, false, [⟨(some ⟨0, 0, true⟩), (some ⟨99999999, 0, true⟩)⟩], none⟩,  -- Cell.py:161
  ⟨Tab.Cf, "suffix", false, false, false, [.upTo (99999999) 0], none⟩,  -- Cf.py:70
  ⟨Tab.Cm, "suffix", false, false, false, [.upTo (99999999) 0], none⟩,  -- Cm.py:70
  ⟨Tab.Cosyp, "axsh", false, false, false, [.point (1) 0, .point (2) 0, .point (3) 0], none⟩,  -- Cosyp.py:116
  ⟨Tab.Cosyp, "axsv", false, false, false, [.point (1) 0, .point (2) 0, .point (3) 0], none⟩,  -- Cosyp.py:154
  ⟨Tab.Ctme, "tme", false, false, false, [.atLeast (0) 0], none⟩,  -- Ctme.py:67
  ⟨Tab.Dbcn, "x1", false, true, false, [.atLeast (0) 0], none⟩,  -- Dbcn.py:469
  ⟨Tab.Dbcn, "x6", false, true, false, [⟨(some ⟨50, 0, true⟩), (some ⟨200, 0, true⟩)⟩], none⟩,  -- Dbcn.py:647
  ⟨Tab.De, "suffix", false, false, false, [.upTo (99999999) 0], none⟩,  -- De.py:73
  ⟨Tab.Df_0, "suffix", false, false, false, [.upTo (99999999) 0], none⟩,  -- Df_0.py:73
  ⟨Tab.Df_1, "suffix", false, false, false, [.upTo (99999999) 0], none⟩,  -- Df_1.py:71
  ⟨Tab.Ds_0, "suffix", false, false, false, [⟨(some ⟨1, 0, true⟩), (some ⟨999, 0, true⟩)⟩], none⟩,  -- Ds_0.py:73
  ⟨Tab.Ds_1, "suffix", false, false, false, [⟨(some ⟨1, 0, true⟩), (some ⟨999, 0, true⟩)⟩], none⟩,  -- Ds_1.py:80
  ⟨Tab.Ds_2, "suffix", false, false, false, [⟨(some ⟨1, 0, true⟩), (some ⟨999, 0, true⟩)⟩], none⟩,  -- Ds_2.py:80
  ⟨Tab.Ds_3, "suffix", false, false, false, [⟨(some ⟨1, 0, true⟩), (some ⟨999, 0, true⟩)⟩], none⟩,  -- Ds_3.py:79
  ⟨Tab.Dxc, "suffix", false, false, false, [.upTo (99999999) 0], none⟩,  -- Dxc.py:73
  ⟨Tab.Em, "suffix", false, false, false, [.upTo (99999999) 0], none⟩,  -- Em.py:70
  ⟨Tab.F_0, "suffix", false, false, false, [.upTo (99999999) 0], (some (10, [1, 2, 4, 6, 7]))⟩,  -- F_0.py:122
  ⟨Tab.F_1, "suffix", false, false, false, [.upTo (99999999) 0], (some (10, [5]))⟩,  -- F_1.py:118
  ⟨Tab.F_2, "suffix", false, false, false, [.upTo (99999999) 0], (some (10, [5]))⟩,  -- F_2.py:137
  ⟨Tab.F_3, "suffix", false, false, false, [.upTo (99999999) 0], (some (10, [8]))⟩,  -- F_3.py:122
  ⟨Tab.F_4, "suffix", false, false, false, [.upTo (99999999) 0], (some (10, [1, 2, 4, 6, 7]))⟩,  -- F_4.py:122
  ⟨Tab.Fc, "suffix", false, false, false, [.upTo (99999999) 0], none⟩,  -- Fc.py:70
  ⟨Tab.Fic, "suffix", false, false, false, [.upTo (99999999) 0], (some (10, [5]))⟩,  -- Fic.py:117
  ⟨Tab.Fic, "ro", true, false, false, [.point (0) 0], none⟩,  -- Fic.py:305
  ⟨Tab.Fic, "f1", true, false, false, [.point (0) 0, .point (-1) 0], none⟩,  -- Fic.py:457
  ⟨Tab.Fic, "f2", true, false, false, [.below (0) 0, .above (0) 0], none⟩,  -- Fic.py:495
  ⟨Tab.Fic, "f3", true, false, false, [.point (0) 0, .point (-1) 0], none⟩,  -- Fic.py:533
  ⟨Tab.Fip, "suffix", false, false, false, [.upTo (99999999) 0], (some (10, [5]))⟩,  -- Fip.py:117
  ⟨Tab.Fip, "ro", true, false, false, [.point (0) 0], none⟩,  -- Fip.py:305
  ⟨Tab.Fip, "f1", true, false, false, [.atLeast (0) 0], none⟩,  -- Fip.py:457
  ⟨Tab.Fip, "f2", true, false, false, [.atLeast (0) 0], none⟩,  -- Fip.py:495
  ⟨Tab.Fip, "f3", true, false, false, [.atLeast (0) 0], none⟩,  -- Fip.py:533
  ⟨Tab.Fir, "suffix", false, false, false, [.upTo (99999999) 0], (some (10, [5]))⟩,  -- Fir.py:117
  ⟨Tab.Fir, "ro", true, false, false, [.point (0) 0], none⟩,  -- Fir.py:302
  ⟨Tab.Fir, "f1", true, false, false, [.point (0) 0, .point (-1) 0, .point (1) 0], none⟩,  -- Fir.py:454
  ⟨Tab.Fir, "f3", true, false, false, [.point (0) 0, .point (-1) 0, .point (1) 0], none⟩,  -- Fir.py:530
  ⟨Tab.Fm, "suffix", false, false, false, [.upTo (99999999) 0], none⟩,  -- Fm.py:109
  ⟨Tab.Fmesh, "suffix", false, false, false, [⟨(some ⟨0, 0, false⟩), (some ⟨999, 0, true⟩)⟩], none⟩,  -- Fmesh.py:74
  ⟨Tab.Fq, "suffix", false, true, false, [.upTo (99999999) 0], none⟩,  -- Fq.py:105
  ⟨Tab.Fs, "suffix", false, false, false, [.upTo (99999999) 0], none⟩,  -- Fs.py:76
  ⟨Tab.Ft, "suffix", false, false, false, [.upTo (99999999) 0], none⟩,  -- Ft.py:70
  ⟨Tab.Fu, "suffix", false, false, false, [.upTo (99999999) 0], none⟩,  -- Fu.py:76
  ⟨Tab.Hsrc, "x_number", false, false, false, [.above (0) 0], none⟩,  -- Hsrc.py:105
  ⟨Tab.Hsrc, "y_number", false, false, false, [.above (0) 0], none⟩,  -- Hsrc.py:219
  ⟨Tab.Hsrc, "z_number", false, false, false, [.above (0) 0], none⟩,  -- Hsrc.py:333
  ⟨Tab.Kcode, "nsrck", false, true, true, [.atLeast (0) 0], none⟩,  -- Kcode.py:101
  ⟨Tab.Kcode, "kct", false, true, true, [.above (0) 0], none⟩,  -- Kcode.py:209
  ⟨Tab.Kcode, "knrm", false, true, true, [.point (0) 0, .point (1) 0], none⟩,  -- Kcode.py:285
  ⟨Tab.Kcode, "mrkp", false, true, true, [.above (0) 0], none⟩,  -- Kcode.py:323
  ⟨Tab.Kcode, "kc8", false, true, true, [.point (0) 0, .point (1) 0], none⟩,  -- Kcode.py:361
  ⟨Tab.Kpert, "suffix", false, false, false, [⟨(some ⟨0, 0, false⟩), (some ⟨10000, 0, true⟩)⟩], none⟩,  -- Kpert.py:71
  ⟨Tab.Ksen, "suffix", false, false, false, [⟨(some ⟨0, 0, false⟩), (some ⟨999, 0, true⟩)⟩], none⟩,  -- Ksen.py:74
  ⟨Tab.Lca, "ielas", false, true, true, [.point (0) 0, .point (1) 0, .point (2) 0], none⟩,  -- Lca.py:113
  ⟨Tab.Lca, "ipreg", false, true, true, [.point (0) 0, .point (1) 0, .point (2) 0, .point (3) 0], none⟩,  -- Lca.py:151
  ⟨Tab.Lca, "iexisa", false, true, true, [.point (0) 0, .point (1) 0, .point (2) 0], none⟩,  -- Lca.py:189
  ⟨Tab.Lca, "jcoul", false, true, true, [.point (0) 0, .point (1) 0], none⟩,  -- Lca.py:262
  ⟨Tab.Lca, "nexite", false, true, true, [.point (0) 0, .point (1) 0], none⟩,  -- Lca.py:300
  ⟨Tab.Lca, "npidk", false, true, true, [.point (0) 0, .point (1) 0], none⟩]  -- Lca.py:338

/-- Setters of numbers, part 1. -/
def numbers1 : List NumRow := [
  ⟨Tab.Lca, "noact", false, true, true, [.point (-2) 0, .point (-1) 0, .point (0) 0, .point (1) 0, .point (2) 0], none⟩,  -- Lca.py:376
  ⟨Tab.Lca, "icem", false, true, true, [.point (0) 0, .point (1) 0, .point (2) 0], none⟩,  -- Lca.py:414
  ⟨Tab.Lca, "ilaq", false, true, true, [.point (0) 0, .point (1) 0], none⟩,  -- Lca.py:452
  ⟨Tab.Lcc, "npaulincl", false, true, false, [.point (0) 0, .point (-1) 0, .point (1) 0], none⟩,  -- Lcc.py:206
  ⟨Tab.Lcc, "nosurfincl", false, true, false, [.point (-2) 0, .point (-1) 0, .point (0) 0, .point (1) 0], none⟩,  -- Lcc.py:244
  ⟨Tab.Lea, "ipht", false, true, true, [.point (0) 0, .point (1) 0], none⟩,  -- Lea.py:101
  ⟨Tab.Lea, "icc", false, true, true, [.point (0) 0, .point (1) 0, .point (2) 0, .point (3) 0, .point (4) 0], none⟩,  -- Lea.py:139
  ⟨Tab.Lea, "nobalc", false, true, true, [.point (0) 0, .point (1) 0], none⟩,  -- Lea.py:177
  ⟨Tab.Lea, "nobale", false, true, true, [.point (0) 0, .point (1) 0], none⟩,  -- Lea.py:215
  ⟨Tab.Lea, "ifbrk", false, true, true, [.point (0) 0, .point (1) 0], none⟩,  -- Lea.py:253
  ⟨Tab.Lea, "ilvden", false, true, true, [.point (0) 0, .point (1) 0, .point (-1) 0], none⟩,  -- Lea.py:291
  ⟨Tab.Lea, "ievap", false, true, true, [.point (0) 0, .point (1) 0, .point (-1) 0, .point (2) 0], none⟩,  -- Lea.py:329
  ⟨Tab.Lea, "nofis", false, true, true, [.point (0) 0, .point (1) 0], none⟩,  -- Lea.py:367
  ⟨Tab.Leb, "yzere", true, true, true, [.above (0) 0], none⟩,  -- Leb.py:78
  ⟨Tab.Leb, "bzere", true, true, true, [.above (0) 0], none⟩,  -- Leb.py:116
  ⟨Tab.Leb, "yzero", true, true, true, [.above (0) 0], none⟩,  -- Leb.py:154
  ⟨Tab.Leb, "bzero", true, true, true, [.above (0) 0], none⟩,  -- Leb.py:192
  ⟨Tab.Like, "number", false, false, false, [⟨(some ⟨1, 0, true⟩), (some ⟨99999999, 0, true⟩)⟩], none⟩,  -- Like.py:90
  ⟨Tab.Like, "cell", false, false, false, [⟨(some ⟨1, 0, true⟩), (some ⟨99999999, 0, true⟩)⟩], none⟩,  -- Like.py:128
  ⟨Tab.Lost, "lost1", false, false, false, [.atLeast (0) 0], none⟩,  -- Lost.py:70
  ⟨Tab.Lost, "lost2", false, false, false, [.atLeast (0) 0], none⟩,  -- Lost.py:108
  ⟨Tab.Mgopt, "igm", false, false, false, [.atLeast (0) 0], none⟩,  -- Mgopt.py:133
  ⟨Tab.Mgopt, "iplt", false, true, false, [.point (0) 0, .point (1) 0, .point (2) 0], none⟩,  -- Mgopt.py:171
  ⟨Tab.Mgopt, "iab", false, true, false, [.point (0) 0, .point (1) 0, .point (2) 0], none⟩,  -- Mgopt.py:209
  ⟨Tab.Nps, "npp", false, false, false, [.above (0) 0], none⟩,  -- Nps.py:70
  ⟨Tab.Nps, "npsmg", false, true, false, [.above (0) 0], none⟩,  -- Nps.py:108
  ⟨Tab.Pd, "suffix", false, false, false, [.upTo (99999999) 0], none⟩,  -- Pd.py:73
  ⟨Tab.Pert, "suffix", false, false, false, [.upTo (99999999) 0], none⟩,  -- Pert.py:74
  ⟨Tab.Phys_0, "iunr", false, true, true, [.point (0) 0, .point (1) 0], none⟩,  -- Phys_0.py:171
  ⟨Tab.Phys_0, "ngam", false, true, true, [.point (0) 0, .point (1) 0, .point (2) 0], none⟩,  -- Phys_0.py:279
  ⟨Tab.Phys_0, "i_int_model", false, true, true, [.point (-1) 0, .point (0) 0, .point (1) 0, .point (2) 0, .point (3) 0], none⟩,  -- Phys_0.py:317
  ⟨Tab.Phys_0, "i_els_model", false, true, true, [.point (-1) 0, .point (0) 0, .point (1) 0], none⟩,  -- Phys_0.py:355
  ⟨Tab.Phys_1, "ides", false, true, true, [.point (0) 0, .point (1) 0], none⟩,  -- Phys_1.py:128
  ⟨Tab.Phys_1, "nocoh", false, true, true, [.point (0) 0, .point (1) 0], none⟩,  -- Phys_1.py:166
  ⟨Tab.Phys_1, "ispn", false, true, true, [.point (-1) 0, .point (0) 0, .point (1) 0], none⟩,  -- Phys_1.py:204
  ⟨Tab.Phys_1, "nodop", false, true, true, [.point (0) 0, .point (1) 0], none⟩,  -- Phys_1.py:242
  ⟨Tab.Phys_2, "ides", false, true, true, [.point (0) 0, .point (1) 0], none⟩,  -- Phys_2.py:164
  ⟨Tab.Phys_2, "iphot", false, true, true, [.point (0) 0, .point (1) 0], none⟩,  -- Phys_2.py:202
  ⟨Tab.Phys_2, "ibad", false, true, true, [.point (0) 0, .point (1) 0], none⟩,  -- Phys_2.py:240
  ⟨Tab.Phys_2, "istrg", false, true, true, [.point (0) 0, .point (1) 0], none⟩,  -- Phys_2.py:278
  ⟨Tab.Phys_2, "xnum", true, true, true, [.atLeast (0) 0], none⟩,  -- Phys_2.py:351
  ⟨Tab.Phys_2, "rnok", false, true, true, [.atLeast (0) 0], none⟩,  -- Phys_2.py:389
  ⟨Tab.Phys_2, "enum", false, true, true, [.atLeast (0) 0], none⟩,  -- Phys_2.py:427
  ⟨Tab.Phys_2, "numb", false, true, true, [.atLeast (0) 0], none⟩,  -- Phys_2.py:465
  ⟨Tab.Phys_2, "i_mcs_model", false, true, true, [.point (-1) 0, .point (0) 0], none⟩,  -- Phys_2.py:503
  ⟨Tab.Phys_2, "efac", true, true, true, [⟨(some ⟨8, 1, true⟩), (some ⟨99, 2, true⟩)⟩], none⟩,  -- Phys_2.py:577
  ⟨Tab.Phys_2, "ckvnum", true, true, true, [⟨(some ⟨0, 0, true⟩), (some ⟨1, 0, false⟩)⟩], none⟩,  -- Phys_2.py:650
  ⟨Tab.Phys_3, "tabl", true, true, true, [.point (-1) 0, .atLeast (0) 0], none⟩,  -- Phys_3.py:183
  ⟨Tab.Phys_3, "istrg", false, true, true, [.point (0) 0, .point (1) 0], none⟩,  -- Phys_3.py:221
  ⟨Tab.Phys_3, "recl", true, true, true, [⟨(some ⟨0, 0, true⟩), (some ⟨1, 0, true⟩)⟩], none⟩,  -- Phys_3.py:259
  ⟨Tab.Phys_3, "i_mcs_model", false, true, true, [.point (-1) 0, .point (0) 0, .point (1) 0, .point (2) 0], none⟩,  -- Phys_3.py:297
  ⟨Tab.Phys_3, "i_int_model", false, true, true, [.point (-1) 0, .point (0) 0, .point (1) 0, .point (2) 0], none⟩,  -- Phys_3.py:335
  ⟨Tab.Phys_3, "i_els_model", false, true, true, [.point (-1) 0, .point (0) 0], none⟩,  -- Phys_3.py:373
  ⟨Tab.Phys_3, "efac", true, true, true, [⟨(some ⟨8, 1, true⟩), (some ⟨99, 2, true⟩)⟩], none⟩,  -- Phys_3.py:411
  ⟨Tab.Phys_3, "ckvnum", true, true, true, [⟨(some ⟨0, 0, true⟩), (some ⟨1, 0, false⟩)⟩], none⟩,  -- Phys_3.py:449
  ⟨Tab.Phys_3, "drp", true, true, true, [.atLeast (0) 0, .point (-1) 0], none⟩,  -- Phys_3.py:487
  ⟨Tab.Phys_4, "istrg", false, true, true, [.point (0) 0, .point (1) 0], none⟩,  -- Phys_4.py:184
  ⟨Tab.Phys_4, "xmunum", false, true, true, [.point (-1) 0, .point (1) 0], none⟩,  -- Phys_4.py:222
  ⟨Tab.Phys_4, "i_mcs_model", false, true, true, [.point (-1) 0, .point (0) 0, .point (1) 0, .point (2) 0], none⟩,  -- Phys_4.py:295
  ⟨Tab.Phys_4, "i_int_model", false, true, true, [.point (-1) 0, .point (0) 0, .point (1) 0, .point (2) 0], none⟩]  -- Phys_4.py:333

/-- Setters of numbers, part 2. -/
def numbers2 : List NumRow := [
  ⟨Tab.Phys_4, "i_els_model", false, true, true, [.point (-1) 0, .point (0) 0], none⟩,  -- Phys_4.py:371
  ⟨Tab.Phys_4, "efac", true, true, true, [⟨(some ⟨8, 1, true⟩), (some ⟨99, 2, true⟩)⟩], none⟩,  -- Phys_4.py:409
  ⟨Tab.Phys_4, "ckvnum", true, true, true, [⟨(some ⟨0, 0, true⟩), (some ⟨1, 0, false⟩)⟩], none⟩,  -- Phys_4.py:447
  ⟨Tab.Phys_4, "drp", true, true, true, [.atLeast (0) 0, .point (-1) 0], none⟩,  -- Phys_4.py:485
  ⟨Tab.Sb_0, "suffix", false, false, false, [⟨(some ⟨1, 0, true⟩), (some ⟨999, 0, true⟩)⟩], none⟩,  -- Sb_0.py:73
  ⟨Tab.Sb_1, "function", false, false, false, [.point (-2) 0, .point (-3) 0, .point (-4) 0, .point (-5) 0, .point (-6) 0, .point (-7) 0, .point (-21) 0, .point (-31) 0, .point (-41) 0], none⟩,  -- Sb_1.py:73
  ⟨Tab.Sc, "suffix", false, false, false, [⟨(some ⟨1, 0, true⟩), (some ⟨999, 0, true⟩)⟩], none⟩,  -- Sc.py:70
  ⟨Tab.Sd, "suffix", false, false, false, [.upTo (99999999) 0], none⟩,  -- Sd.py:70
  ⟨Tab.Sf, "suffix", false, false, false, [.upTo (99999999) 0], none⟩,  -- Sf.py:70
  ⟨Tab.Sp_0, "suffix", false, false, false, [⟨(some ⟨1, 0, true⟩), (some ⟨999, 0, true⟩)⟩], none⟩,  -- Sp_0.py:73
  ⟨Tab.Sp_1, "function", false, false, false, [.point (-2) 0, .point (-3) 0, .point (-4) 0, .point (-5) 0, .point (-6) 0, .point (-7) 0, .point (-21) 0, .point (-31) 0, .point (-41) 0], none⟩,  -- Sp_1.py:73
  ⟨Tab.Surface, "transform", false, true, false, [⟨(some ⟨0, 0, true⟩), (some ⟨999, 0, true⟩)⟩], none⟩,  -- Surface.py:210
  ⟨Tab.Tf_0, "suffix", false, false, false, [.upTo (99999999) 0], none⟩,  -- Tf_0.py:105
  ⟨Tab.Tf_1, "suffix", false, false, false, [.upTo (99999999) 0], none⟩,  -- Tf_1.py:137
  ⟨Tab.Tm, "suffix", false, false, false, [.upTo (99999999) 0], none⟩,  -- Tm.py:70
  ⟨Tab.Tr_0, "suffix", false, false, false, [⟨(some ⟨1, 0, true⟩), (some ⟨999, 0, true⟩)⟩], none⟩,  -- Tr_0.py:165
  ⟨Tab.Tr_0, "system", false, true, false, [.point (-1) 0, .point (1) 0], none⟩,  -- Tr_0.py:659
  ⟨Tab.Tr_1, "suffix", false, false, false, [⟨(some ⟨1, 0, true⟩), (some ⟨999, 0, true⟩)⟩], none⟩,  -- Tr_1.py:153
  ⟨Tab.Tr_1, "system", false, true, false, [.point (-1) 0, .point (1) 0], none⟩,  -- Tr_1.py:533
  ⟨Tab.Tr_2, "suffix", false, false, false, [⟨(some ⟨1, 0, true⟩), (some ⟨999, 0, true⟩)⟩], none⟩,  -- Tr_2.py:149
  ⟨Tab.Tr_2, "system", false, true, false, [.point (-1) 0, .point (1) 0], none⟩,  -- Tr_2.py:491
  ⟨Tab.Tr_3, "suffix", false, false, false, [⟨(some ⟨1, 0, true⟩), (some ⟨999, 0, true⟩)⟩], none⟩,  -- Tr_3.py:141
  ⟨Tab.Tr_3, "system", false, true, false, [.point (-1) 0, .point (1) 0], none⟩,  -- Tr_3.py:407
  ⟨Tab.Tr_4, "suffix", false, false, false, [⟨(some ⟨1, 0, true⟩), (some ⟨999, 0, true⟩)⟩], none⟩,  -- Tr_4.py:128
  ⟨Tab.Tr_4, "system", false, true, false, [.point (-1) 0, .point (1) 0], none⟩,  -- Tr_4.py:280
  ⟨Tab.Wwg, "tally", false, false, false, [.upTo (99999999) 0], none⟩,  -- Wwg.py:78
  ⟨Tab.Wwg, "cell", false, false, false, [.upTo (99999999) 0], none⟩,  -- Wwg.py:116
  ⟨Tab.Wwn, "suffix", false, false, false, [.upTo (99999999) 0], none⟩,  -- Wwn.py:73
  ⟨Tab.Wwp, "wupn", true, true, true, [.atLeast (2) 0], none⟩,  -- Wwp.py:149
  ⟨Tab.Wwp, "wsurvn", true, true, true, [.above (1) 0], none⟩,  -- Wwp.py:187
  ⟨Tab.Wwp, "mxspln", true, true, true, [.above (1) 0], none⟩,  -- Wwp.py:225
  ⟨Tab.Wwp, "mwhere", false, true, true, [.point (-1) 0, .point (0) 0, .point (1) 0], none⟩,  -- Wwp.py:263
  ⟨Tab.Wwp, "etsplt", false, true, true, [.point (0) 0, .point (1) 0], none⟩,  -- Wwp.py:406
  ⟨Tab.act_Dnbais, "count", false, false, false, [⟨(some ⟨0, 0, true⟩), (some ⟨10, 0, true⟩)⟩], none⟩,  -- act/Dnbais.py:67
  ⟨Tab.act_Nap, "count", false, false, false, [.atLeast (0) 0], none⟩,  -- act/Nap.py:67
  ⟨Tab.act_Thresh, "fraction", true, false, false, [⟨(some ⟨0, 0, true⟩), (some ⟨1, 0, true⟩)⟩], none⟩,  -- act/Thresh.py:67
  ⟨Tab.cell_Bflcl, "number", false, false, false, [.atLeast (0) 0], none⟩,  -- cell/Bflcl.py:67
  ⟨Tab.cell_Cosy, "number", false, false, false, [.point (1) 0, .point (2) 0, .point (3) 0, .point (4) 0, .point (5) 0, .point (6) 0], none⟩,  -- cell/Cosy.py:67
  ⟨Tab.cell_Dxc, "probability", true, false, false, [⟨(some ⟨0, 0, true⟩), (some ⟨1, 0, true⟩)⟩], none⟩,  -- cell/Dxc.py:147
  ⟨Tab.cell_Fcl, "control", true, false, false, [⟨(some ⟨-1, 0, true⟩), (some ⟨1, 0, true⟩)⟩], none⟩,  -- cell/Fcl.py:106
  ⟨Tab.cell_Fill_1, "universe", false, false, false, [.point (10000000000) 0, ⟨(some ⟨0, 0, true⟩), (some ⟨99999999, 0, true⟩)⟩], none⟩,  -- cell/Fill_1.py:109
  ⟨Tab.cell_Fill_2, "universe", false, false, false, [.point (10000000000) 0, ⟨(some ⟨0, 0, true⟩), (some ⟨99999999, 0, true⟩)⟩], none⟩,  -- cell/Fill_2.py:109
  ⟨Tab.cell_Fill_3, "universe", false, false, false, [.point (10000000000) 0, ⟨(some ⟨0, 0, true⟩), (some ⟨99999999, 0, true⟩)⟩], none⟩,  -- cell/Fill_3.py:109
  ⟨Tab.cell_Fill_4, "universe", false, false, false, [.point (10000000000) 0, ⟨(some ⟨0, 0, true⟩), (some ⟨99999999, 0, true⟩)⟩], none⟩,  -- cell/Fill_4.py:109
  ⟨Tab.cell_Fill_5, "universe", false, false, false, [.point (10000000000) 0, ⟨(some ⟨0, 0, true⟩), (some ⟨99999999, 0, true⟩)⟩], none⟩,  -- cell/Fill_5.py:109
  ⟨Tab.cell_Fill_6, "universe", false, false, false, [.point (10000000000) 0, ⟨(some ⟨0, 0, true⟩), (some ⟨99999999, 0, true⟩)⟩], none⟩,  -- cell/Fill_6.py:109
  ⟨Tab.cell_Fill_6, "transformation", false, true, false, [⟨(some ⟨0, 0, true⟩), (some ⟨999, 0, true⟩)⟩], none⟩,  -- cell/Fill_6.py:147
  ⟨Tab.cell_Lat, "shape", false, false, false, [.point (1) 0, .point (2) 0], none⟩,  -- cell/Lat.py:67
  ⟨Tab.cell_Nonu, "setting", false, false, false, [.point (0) 0, .point (1) 0, .point (2) 0], none⟩,  -- cell/Nonu.py:67
  ⟨Tab.cell_Pd, "probability", true, false, false, [⟨(some ⟨0, 0, true⟩), (some ⟨1, 0, true⟩)⟩], none⟩,  -- cell/Pd.py:108
  ⟨Tab.cell_Trcl_0, "transformation", false, false, false, [⟨(some ⟨0, 0, true⟩), (some ⟨999, 0, true⟩)⟩], none⟩,  -- cell/Trcl_0.py:106
  ⟨Tab.cell_U, "number", false, false, false, [.point (10000000000) 0, ⟨(some ⟨-9, 0, true⟩), (some ⟨99999999, 0, true⟩)⟩], none⟩,  -- cell/U.py:67
  ⟨Tab.cell_Unc, "setting", false, false, false, [.point (0) 0, .point (1) 0], none⟩,  -- cell/Unc.py:106
  ⟨Tab.cell_Vol, "volume", true, false, false, [.atLeast (0) 0], none⟩,  -- cell/Vol.py:67
  ⟨Tab.cell_Wwn, "bound", true, false, false, [.point (-1) 0, .atLeast (0) 0], none⟩,  -- cell/Wwn.py:147
  ⟨Tab.dawwg_Block, "setting", false, false, false, [.point (1) 0, .point (3) 0, .point (5) 0, .point (6) 0], none⟩,  -- dawwg/Block.py:71
  ⟨Tab.dawwg_block_Ajed, "setting", false, false, false, [.point (0) 0, .point (1) 0], none⟩,  -- dawwg/block/Ajed.py:67
  ⟨Tab.dawwg_block_Angp, "setting", false, false, false, [.point (0) 0, .point (1) 0], none⟩,  -- dawwg/block/Angp.py:67
  ⟨Tab.dawwg_block_Avatar, "setting", false, false, false, [.point (0) 0, .point (1) 0], none⟩,  -- dawwg/block/Avatar.py:67
  ⟨Tab.dawwg_block_Balp, "setting", false, false, false, [.point (0) 0, .point (1) 0], none⟩]  -- dawwg/block/Balp.py:67

/-- Setters of numbers, part 3. -/
def numbers3 : List NumRow := [
  ⟨Tab.dawwg_block_Balxs, "setting", false, false, false, [.point (-1) 0, .point (0) 0, .point (1) 0], none⟩,  -- dawwg/block/Balxs.py:67
  ⟨Tab.dawwg_block_Byvolp, "setting", false, false, false, [.point (0) 0, .point (1) 0], none⟩,  -- dawwg/block/Byvolp.py:67
  ⟨Tab.dawwg_block_Edoutf, "setting", false, false, false, [.point (-3) 0, .point (-2) 0, .point (-1) 0, .point (0) 0, .point (1) 0, .point (2) 0, .point (3) 0], none⟩,  -- dawwg/block/Edoutf.py:67
  ⟨Tab.dawwg_block_Fissrp, "setting", false, false, false, [.point (0) 0, .point (1) 0], none⟩,  -- dawwg/block/Fissrp.py:67
  ⟨Tab.dawwg_block_Fluxone, "setting", false, false, false, [.point (0) 0, .point (1) 0], none⟩,  -- dawwg/block/Fluxone.py:67
  ⟨Tab.dawwg_block_Fmmix, "setting", false, false, false, [.point (0) 0, .point (1) 0], none⟩,  -- dawwg/block/Fmmix.py:67
  ⟨Tab.dawwg_block_Ievt, "setting", false, false, false, [.point (0) 0, .point (1) 0, .point (2) 0, .point (3) 0, .point (4) 0], none⟩,  -- dawwg/block/Ievt.py:67
  ⟨Tab.dawwg_block_Iquad, "setting", false, false, false, [.point (1) 0, .point (2) 0, .point (3) 0, .point (4) 0, .point (5) 0, .point (6) 0, .point (7) 0, .point (8) 0, .point (9) 0], none⟩,  -- dawwg/block/Iquad.py:67
  ⟨Tab.dawwg_block_Ith, "setting", false, false, false, [.point (0) 0, .point (1) 0], none⟩,  -- dawwg/block/Ith.py:67
  ⟨Tab.dawwg_block_Massed, "setting", false, false, false, [.point (0) 0, .point (1) 0], none⟩,  -- dawwg/block/Massed.py:67
  ⟨Tab.dawwg_block_Noadjm, "setting", false, false, false, [.point (0) 0, .point (1) 0], none⟩,  -- dawwg/block/Noadjm.py:67
  ⟨Tab.dawwg_block_Noasg, "setting", false, false, false, [.point (0) 0, .point (1) 0], none⟩,  -- dawwg/block/Noasg.py:67
  ⟨Tab.dawwg_block_Noedit, "setting", false, false, false, [.point (0) 0, .point (1) 0], none⟩,  -- dawwg/block/Noedit.py:67
  ⟨Tab.dawwg_block_Noedtt, "setting", false, false, false, [.point (0) 0, .point (1) 0], none⟩,  -- dawwg/block/Noedtt.py:67
  ⟨Tab.dawwg_block_Nogeod, "setting", false, false, false, [.point (0) 0, .point (1) 0], none⟩,  -- dawwg/block/Nogeod.py:67
  ⟨Tab.dawwg_block_Nomacr, "setting", false, false, false, [.point (0) 0, .point (1) 0], none⟩,  -- dawwg/block/Nomacr.py:67
  ⟨Tab.dawwg_block_Nomix, "setting", false, false, false, [.point (0) 0, .point (1) 0], none⟩,  -- dawwg/block/Nomix.py:67
  ⟨Tab.dawwg_block_Nosigf, "setting", false, false, false, [.point (0) 0, .point (1) 0], none⟩,  -- dawwg/block/Nosigf.py:67
  ⟨Tab.dawwg_block_Noslnp, "setting", false, false, false, [.point (0) 0, .point (1) 0], none⟩,  -- dawwg/block/Noslnp.py:67
  ⟨Tab.dawwg_block_Nosolv, "setting", false, false, false, [.point (0) 0, .point (1) 0], none⟩,  -- dawwg/block/Nosolv.py:67
  ⟨Tab.dawwg_block_Ptconv, "setting", false, false, false, [.point (0) 0, .point (1) 0], none⟩,  -- dawwg/block/Ptconv.py:67
  ⟨Tab.dawwg_block_Pted, "setting", false, false, false, [.point (0) 0, .point (1) 0], none⟩,  -- dawwg/block/Pted.py:67
  ⟨Tab.dawwg_block_Raflux, "setting", false, false, false, [.point (0) 0, .point (1) 0], none⟩,  -- dawwg/block/Raflux.py:67
  ⟨Tab.dawwg_block_Rmflux, "setting", false, false, false, [.point (0) 0, .point (1) 0], none⟩,  -- dawwg/block/Rmflux.py:67
  ⟨Tab.dawwg_block_Rzflux, "setting", false, false, false, [.point (0) 0, .point (1) 0], none⟩,  -- dawwg/block/Rzflux.py:67
  ⟨Tab.dawwg_block_Rzmflux, "setting", false, false, false, [.point (0) 0, .point (1) 0], none⟩,  -- dawwg/block/Rzmflux.py:67
  ⟨Tab.dawwg_block_Sourcp, "setting", false, false, false, [.point (0) 0, .point (1) 0, .point (2) 0, .point (3) 0], none⟩,  -- dawwg/block/Sourcp.py:67
  ⟨Tab.dawwg_block_Xsectp, "setting", false, false, false, [.point (0) 0, .point (1) 0, .point (2) 0], none⟩,  -- dawwg/block/Xsectp.py:67
  ⟨Tab.dawwg_block_Zned, "setting", false, false, false, [.point (0) 0, .point (1) 0], none⟩,  -- dawwg/block/Zned.py:67
  ⟨Tab.df_1_Fac, "normalization", false, false, true, [.atLeast (-3) 0], none⟩,  -- df_1/Fac.py:67
  ⟨Tab.df_1_Ic, "function", false, false, true, [.point (10) 0, .point (20) 0, .point (31) 0, .point (32) 0, .point (33) 0, .point (34) 0, .point (35) 0, .point (40) 0, .point (99) 0], none⟩,  -- df_1/Ic.py:67
  ⟨Tab.df_1_Iu, "units", false, false, true, [.point (1) 0, .point (2) 0], none⟩,  -- df_1/Iu.py:67
  ⟨Tab.embed_Background, "number", false, false, false, [⟨(some ⟨1, 0, true⟩), (some ⟨99999999, 0, true⟩)⟩], none⟩,  -- embed/Background.py:67
  ⟨Tab.embed_Length, "factor", true, false, false, [.above (0) 0], none⟩,  -- embed/Length.py:67
  ⟨Tab.embed_matcell_Entry, "material", false, false, false, [⟨(some ⟨0, 0, true⟩), (some ⟨99999999, 0, true⟩)⟩], none⟩,  -- embed/matcell/Entry.py:70
  ⟨Tab.embed_matcell_Entry, "cell", false, false, false, [⟨(some ⟨0, 0, true⟩), (some ⟨99999999, 0, true⟩)⟩], none⟩,  -- embed/matcell/Entry.py:108
  ⟨Tab.embee_Embed, "number", false, false, false, [⟨(some ⟨0, 0, true⟩), (some ⟨99999999, 0, true⟩)⟩], none⟩,  -- embee/Embed.py:67
  ⟨Tab.embee_Energy, "factor", true, false, false, [.above (0) 0], none⟩,  -- embee/Energy.py:67
  ⟨Tab.embee_Mat, "number", false, false, false, [⟨(some ⟨0, 0, true⟩), (some ⟨99999999, 0, true⟩)⟩], none⟩,  -- embee/Mat.py:67
  ⟨Tab.embee_Time, "factor", true, false, false, [.above (0) 0], none⟩,  -- embee/Time.py:67
  ⟨Tab.fmesh_Tr, "number", false, false, false, [⟨(some ⟨1, 0, true⟩), (some ⟨999, 0, true⟩)⟩], none⟩,  -- fmesh/Tr.py:67
  ⟨Tab.fmult_Data, "setting", false, false, false, [.point (0) 0, .point (1) 0, .point (2) 0, .point (3) 0], none⟩,  -- fmult/Data.py:67
  ⟨Tab.fmult_Method, "setting", false, false, false, [.point (0) 0, .point (1) 0, .point (3) 0, .point (5) 0, .point (6) 0, .point (7) 0], none⟩,  -- fmult/Method.py:67
  ⟨Tab.fmult_Shift, "setting", false, false, false, [.point (0) 0, .point (1) 0, .point (2) 0, .point (3) 0, .point (4) 0], none⟩,  -- fmult/Shift.py:67
  ⟨Tab.kopts_Blocksize, "ncy", false, false, false, [.atLeast (2) 0], none⟩,  -- kopts/Blocksize.py:67
  ⟨Tab.like_Bflcl, "number", false, false, false, [.atLeast (0) 0], none⟩,  -- like/Bflcl.py:66
  ⟨Tab.like_Cosy, "number", false, false, false, [.point (1) 0, .point (2) 0, .point (3) 0, .point (4) 0, .point (5) 0, .point (6) 0], none⟩,  -- like/Cosy.py:66
  ⟨Tab.like_Dxc, "probability", true, false, false, [⟨(some ⟨0, 0, true⟩), (some ⟨1, 0, true⟩)⟩], none⟩,  -- like/Dxc.py:144
  ⟨Tab.like_Fcl, "control", true, false, false, [⟨(some ⟨-1, 0, true⟩), (some ⟨1, 0, true⟩)⟩], none⟩,  -- like/Fcl.py:104
  ⟨Tab.like_Fill_1, "universe", false, false, false, [.point (10000000000) 0, ⟨(some ⟨0, 0, true⟩), (some ⟨99999999, 0, true⟩)⟩], none⟩,  -- like/Fill_1.py:107
  ⟨Tab.like_Fill_2, "universe", false, false, false, [.point (10000000000) 0, ⟨(some ⟨0, 0, true⟩), (some ⟨99999999, 0, true⟩)⟩], none⟩,  -- like/Fill_2.py:107
  ⟨Tab.like_Fill_3, "universe", false, false, false, [.point (10000000000) 0, ⟨(some ⟨0, 0, true⟩), (some ⟨99999999, 0, true⟩)⟩], none⟩,  -- like/Fill_3.py:107
  ⟨Tab.like_Fill_4, "universe", false, false, false, [.point (10000000000) 0, ⟨(some ⟨0, 0, true⟩), (some ⟨99999999, 0, true⟩)⟩], none⟩,  -- like/Fill_4.py:107
  ⟨Tab.like_Fill_5, "universe", false, false, false, [.point (10000000000) 0, ⟨(some ⟨0, 0, true⟩), (some ⟨99999999, 0, true⟩)⟩], none⟩,  -- like/Fill_5.py:107
  ⟨Tab.like_Fill_6, "universe", false, false, false, [.point (10000000000) 0, ⟨(some ⟨0, 0, true⟩), (some ⟨99999999, 0, true⟩)⟩], none⟩,  -- like/Fill_6.py:107
  ⟨Tab.like_Fill_6, "transformation", false, true, false, [⟨(some ⟨0, 0, true⟩), (some ⟨999, 0, true⟩)⟩], none⟩,  -- like/Fill_6.py:144
  ⟨Tab.like_Lat, "shape", false, false, false, [.point (1) 0, .point (2) 0], none⟩,  -- like/Lat.py:66
  ⟨Tab.like_Mat, "material", false, false, false, [⟨(some ⟨0, 0, true⟩), (some ⟨99999999, 0, true⟩)⟩], none⟩,  -- like/Mat.py:66
  ⟨Tab.like_Nonu, "setting", false, false, false, [.point (0) 0, .point (1) 0, .point (2) 0], none⟩,  -- like/Nonu.py:66
  ⟨Tab.like_Pd, "probability", true, false, false, [⟨(some ⟨0, 0, true⟩), (some ⟨1, 0, true⟩)⟩], none⟩]  -- like/Pd.py:106

/-- Setters of numbers, part 4. -/
def numbers4 : List NumRow := [
  ⟨Tab.like_Trcl_0, "transformation", false, false, false, [⟨(some ⟨0, 0, true⟩), (some ⟨999, 0, true⟩)⟩], none⟩,  -- like/Trcl_0.py:104
  ⟨Tab.like_U, "number", false, false, false, [.point (10000000000) 0, ⟨(some ⟨-9, 0, true⟩), (some ⟨99999999, 0, true⟩)⟩], none⟩,  -- like/U.py:66
  ⟨Tab.like_Unc, "setting", false, false, false, [.point (0) 0, .point (1) 0], none⟩,  -- like/Unc.py:104
  ⟨Tab.like_Vol, "volume", true, false, false, [.atLeast (0) 0], none⟩,  -- like/Vol.py:66
  ⟨Tab.like_Wwn, "bound", true, false, false, [.point (-1) 0, .atLeast (0) 0], none⟩,  -- like/Wwn.py:144
  ⟨Tab.m_0_Estep, "step", false, false, false, [.atLeast (0) 0], none⟩,  -- m_0/Estep.py:67
  ⟨Tab.m_0_Hstep, "step", false, false, false, [.atLeast (0) 0], none⟩,  -- m_0/Hstep.py:67
  ⟨Tab.mplot_Kcode, "i", false, false, false, [⟨(some ⟨1, 0, true⟩), (some ⟨6, 0, true⟩)⟩, ⟨(some ⟨1, 0, true⟩), (some ⟨19, 0, true⟩)⟩], none⟩,  -- mplot/Kcode.py:67
  ⟨Tab.mplot_Scales, "n", false, false, false, [.point (1) 0, .point (2) 0, .point (3) 0], none⟩,  -- mplot/Scales.py:67
  ⟨Tab.mplot_Term, "n", false, false, false, [.point (0) 0, .point (1) 0], none⟩,  -- mplot/Term.py:67
  ⟨Tab.mplot_Title, "n", false, false, false, [.above (0) 0], none⟩,  -- mplot/Title.py:70
  ⟨Tab.mplot_Xlims, "nsteps", true, true, false, [.atLeast (0) 0], none⟩,  -- mplot/Xlims.py:149
  ⟨Tab.mplot_Ylims, "nsteps", true, true, false, [.atLeast (0) 0], none⟩,  -- mplot/Ylims.py:149
  ⟨Tab.pert_Mat, "material", false, false, false, [⟨(some ⟨0, 0, true⟩), (some ⟨99999999, 0, true⟩)⟩], none⟩,  -- pert/Mat.py:67
  ⟨Tab.pert_Method, "setting", false, false, false, [.point (1) 0, .point (-1) 0, .point (2) 0, .point (-2) 0, .point (3) 0, .point (-3) 0], none⟩,  -- pert/Method.py:67
  ⟨Tab.ptrac_Buffer, "storage", false, false, false, [.above (0) 0], none⟩,  -- ptrac/Buffer.py:67
  ⟨Tab.ptrac_Max, "events", false, false, false, [.below (0) 0, .above (0) 0], none⟩,  -- ptrac/Max.py:67
  ⟨Tab.ptrac_Meph, "events", false, false, false, [.above (0) 0], none⟩,  -- ptrac/Meph.py:67
  ⟨Tab.rand_Gen, "setting", false, false, false, [.point (1) 0, .point (2) 0, .point (3) 0, .point (4) 0], none⟩,  -- rand/Gen.py:67
  ⟨Tab.rand_Seed, "seed", false, false, false, [⟨none, none⟩], (some (2, [1]))⟩,  -- rand/Seed.py:67
  ⟨Tab.sdef_Bem_0, "bml", true, false, false, [.atLeast (0) 0], none⟩,  -- sdef/Bem_0.py:149
  ⟨Tab.sdef_Ccc_0, "number", false, false, false, [⟨(some ⟨0, 0, true⟩), (some ⟨99999999, 0, true⟩)⟩], none⟩,  -- sdef/Ccc_0.py:67
  ⟨Tab.sdef_Cel_0, "number", false, false, true, [⟨(some ⟨0, 0, true⟩), (some ⟨99999999, 0, true⟩)⟩], none⟩,  -- sdef/Cel_0.py:67
  ⟨Tab.sdef_Dat_0, "month", false, false, false, [⟨(some ⟨1, 0, true⟩), (some ⟨12, 0, true⟩)⟩], none⟩,  -- sdef/Dat_0.py:73
  ⟨Tab.sdef_Dat_0, "day", false, false, false, [⟨(some ⟨1, 0, true⟩), (some ⟨31, 0, true⟩)⟩], none⟩,  -- sdef/Dat_0.py:111
  ⟨Tab.sdef_Dat_0, "year", false, false, false, [⟨(some ⟨1, 0, true⟩), (some ⟨9999, 0, true⟩)⟩], none⟩,  -- sdef/Dat_0.py:149
  ⟨Tab.sdef_Loc_0, "latitude", true, false, false, [⟨(some ⟨0, 0, true⟩), (some ⟨90, 0, true⟩)⟩], none⟩,  -- sdef/Loc_0.py:73
  ⟨Tab.sdef_Loc_0, "longitude", true, false, false, [⟨(some ⟨0, 0, true⟩), (some ⟨180, 0, true⟩)⟩], none⟩,  -- sdef/Loc_0.py:111
  ⟨Tab.sdef_Loc_0, "altitude", true, false, false, [.atLeast (0) 0], none⟩,  -- sdef/Loc_0.py:149
  ⟨Tab.sdef_Sur_0, "number", false, false, true, [⟨(some ⟨0, 0, true⟩), (some ⟨99999999, 0, true⟩)⟩], none⟩,  -- sdef/Sur_0.py:67
  ⟨Tab.ssr_Bcw, "zb", true, false, false, [.above (0) 0], none⟩,  -- ssr/Bcw.py:111
  ⟨Tab.ssr_Col, "setting", false, false, false, [.point (-1) 0, .point (0) 0, .point (1) 0], none⟩,  -- ssr/Col.py:67
  ⟨Tab.ssr_Psc, "constant", true, false, false, [.atLeast (0) 0], none⟩,  -- ssr/Psc.py:67
  ⟨Tab.ssw_Sym, "setting", false, false, false, [.point (0) 0, .point (1) 0, .point (2) 0], none⟩,  -- ssw/Sym.py:67
  ⟨Tab.stop_F, "suffix", false, false, false, [.upTo (99999999) 0], none⟩,  -- stop/F.py:70
  ⟨Tab.uran_Stochastic, "universe", false, false, false, [⟨(some ⟨0, 0, true⟩), (some ⟨99999999, 0, true⟩)⟩], none⟩]  -- uran/Stochastic.py:76

/-- Setters of numbers. -/
def numbers : List NumRow := numbers0 ++ numbers1 ++ numbers2 ++ numbers3 ++ numbers4

/-- Setters of texts, part 0. -/
def texts0 : List TextRow := [
  ⟨Tab.Bfld, "kind", false, .words ["const", "quad", "quadff"]⟩,  -- Bfld.py:110
  ⟨Tab.C, "prefix", true, .words ["*", "+"]⟩,  -- C.py:79
  ⟨Tab.De, "method", true, .words ["log", "lin"]⟩,  -- De.py:109
  ⟨Tab.Df_0, "method", true, .words ["log", "lin"]⟩,  -- Df_0.py:109
  ⟨Tab.Ds_0, "option", true, .words ["h", "l", "s"]⟩,  -- Ds_0.py:109
  ⟨Tab.F_0, "prefix", true, .words ["*", "+"]⟩,  -- F_0.py:84
  ⟨Tab.F_0, "t", true, .words ["t"]⟩,  -- F_0.py:232
  ⟨Tab.F_1, "prefix", true, .words ["*", "+"]⟩,  -- F_1.py:80
  ⟨Tab.F_1, "nd", true, .exactly "nd"⟩,  -- F_1.py:226
  ⟨Tab.F_2, "prefix", true, .words ["*", "+"]⟩,  -- F_2.py:99
  ⟨Tab.F_2, "a", false, .words ["x", "y", "z"]⟩,  -- F_2.py:173
  ⟨Tab.F_2, "nd", true, .exactly "nd"⟩,  -- F_2.py:281
  ⟨Tab.F_3, "prefix", true, .words ["*", "+"]⟩,  -- F_3.py:84
  ⟨Tab.F_4, "prefix", true, .words ["*", "+"]⟩,  -- F_4.py:84
  ⟨Tab.F_4, "t", true, .words ["t"]⟩,  -- F_4.py:230
  ⟨Tab.Fm, "prefix", true, .words ["*", "+"]⟩,  -- Fm.py:71
  ⟨Tab.Fq, "a1", true, .words ["f", "d", "u", "s", "m", "c", "e", "t"]⟩,  -- Fq.py:141
  ⟨Tab.Fq, "a2", true, .words ["f", "d", "u", "s", "m", "c", "e", "t"]⟩,  -- Fq.py:177
  ⟨Tab.Fq, "a3", true, .words ["f", "d", "u", "s", "m", "c", "e", "t"]⟩,  -- Fq.py:213
  ⟨Tab.Fq, "a4", true, .words ["f", "d", "u", "s", "m", "c", "e", "t"]⟩,  -- Fq.py:249
  ⟨Tab.Fq, "a5", true, .words ["f", "d", "u", "s", "m", "c", "e", "t"]⟩,  -- Fq.py:285
  ⟨Tab.Fq, "a6", true, .words ["f", "d", "u", "s", "m", "c", "e", "t"]⟩,  -- Fq.py:321
  ⟨Tab.Fq, "a7", true, .words ["f", "d", "u", "s", "m", "c", "e", "t"]⟩,  -- Fq.py:357
  ⟨Tab.Fq, "a8", true, .words ["f", "d", "u", "s", "m", "c", "e", "t"]⟩,  -- Fq.py:393
  ⟨Tab.Fs, "t", true, .words ["t"]⟩,  -- Fs.py:153
  ⟨Tab.Fs, "c", true, .words ["c"]⟩,  -- Fs.py:189
  ⟨Tab.Fu, "nt", true, .words ["nt"]⟩,  -- Fu.py:153
  ⟨Tab.Fu, "c", true, .words ["c"]⟩,  -- Fu.py:189
  ⟨Tab.Mgopt, "mcal", false, .words ["f", "a"]⟩,  -- Mgopt.py:95
  ⟨Tab.Mphys, "setting", true, .words ["on", "off"]⟩,  -- Mphys.py:65
  ⟨Tab.Phys_2, "j", true, .words ["j j"]⟩,  -- Phys_2.py:539
  ⟨Tab.Sb_0, "option", true, .words ["d", "c", "v", "w"]⟩,  -- Sb_0.py:109
  ⟨Tab.Sp_0, "option", true, .words ["d", "c", "v", "w"]⟩,  -- Sp_0.py:109
  ⟨Tab.Surface, "prefix", true, .words ["*", "+"]⟩,  -- Surface.py:282
  ⟨Tab.Totnu, "no", true, .exactly "no"⟩,  -- Totnu.py:65
  ⟨Tab.Tr_0, "prefix", true, .words ["*"]⟩,  -- Tr_0.py:127
  ⟨Tab.Tr_1, "prefix", true, .words ["*"]⟩,  -- Tr_1.py:115
  ⟨Tab.Tr_2, "prefix", true, .words ["*"]⟩,  -- Tr_2.py:111
  ⟨Tab.Tr_3, "prefix", true, .words ["*"]⟩,  -- Tr_3.py:103
  ⟨Tab.Tr_4, "prefix", true, .words ["*"]⟩,  -- Tr_4.py:90
  ⟨Tab.Vol, "no", true, .words ["no"]⟩,  -- Vol.py:68
  ⟨Tab.act_Dg, "source", false, .words ["line", "mg", "none"]⟩,  -- act/Dg.py:65
  ⟨Tab.act_Dn, "source", false, .words ["model", "library", "both", "prompt"]⟩,  -- act/Dn.py:65
  ⟨Tab.act_Fission, "kind", false, .words ["none", "n,p,e,f,a", "all"]⟩,  -- act/Fission.py:65
  ⟨Tab.act_Nonfiss, "kind", false, .words ["none", "n,p,e,f,a", "all"]⟩,  -- act/Nonfiss.py:65
  ⟨Tab.act_Sample, "setting", false, .words ["correlate", "nonfiss_cor"]⟩,  -- act/Sample.py:65
  ⟨Tab.cell_Fill_0, "prefix", true, .words ["*"]⟩,  -- cell/Fill_0.py:88
  ⟨Tab.cell_Fill_1, "prefix", true, .words ["*"]⟩,  -- cell/Fill_1.py:71
  ⟨Tab.cell_Fill_2, "prefix", true, .words ["*"]⟩,  -- cell/Fill_2.py:71
  ⟨Tab.cell_Fill_3, "prefix", true, .words ["*"]⟩,  -- cell/Fill_3.py:71
  ⟨Tab.cell_Fill_4, "prefix", true, .words ["*"]⟩,  -- cell/Fill_4.py:71
  ⟨Tab.cell_Fill_5, "prefix", true, .words ["*"]⟩,  -- cell/Fill_5.py:71
  ⟨Tab.cell_Fill_6, "prefix", true, .words ["*"]⟩,  -- cell/Fill_6.py:71
  ⟨Tab.cell_Trcl_0, "prefix", true, .words ["*"]⟩,  -- cell/Trcl_0.py:68
  ⟨Tab.cell_Trcl_1, "prefix", true, .words ["*"]⟩,  -- cell/Trcl_1.py:68
  ⟨Tab.cell_Trcl_2, "prefix", true, .words ["*"]⟩,  -- cell/Trcl_2.py:68
  ⟨Tab.cell_Trcl_3, "prefix", true, .words ["*"]⟩,  -- cell/Trcl_3.py:68
  ⟨Tab.cell_Trcl_4, "prefix", true, .words ["*"]⟩,  -- cell/Trcl_4.py:68
  ⟨Tab.cell_Trcl_5, "prefix", true, .words ["*"]⟩,  -- cell/Trcl_5.py:68
  ⟨Tab.dawwg_block_Srcacc, "setting", false, .words ["dsa", "tsa", "no"]⟩]  -- dawwg/block/Srcacc.py:65

/-- Setters of texts, part 1. -/
def texts1 : List TextRow := [
  ⟨Tab.dawwg_block_Trcor, "setting", false, .words ["diag"]⟩,  -- dawwg/block/Trcor.py:65
  ⟨Tab.embed_Calcvols, "setting", false, .words ["yes", "no"]⟩,  -- embed/Calcvols.py:65
  ⟨Tab.embed_Debug, "parameter", false, .words ["echomesh"]⟩,  -- embed/Debug.py:65
  ⟨Tab.embed_Filetype, "kind", false, .words ["ascii", "binary"]⟩,  -- embed/Filetype.py:65
  ⟨Tab.embed_Meshgeo, "form", false, .words ["lnk3dnt", "abaqus", "mcnpum"]⟩,  -- embed/Meshgeo.py:65
  ⟨Tab.embee_Atom, "setting", false, .words ["yes", "no"]⟩,  -- embee/Atom.py:65
  ⟨Tab.embee_Mtype, "kind", false, .words ["flux", "isotropic", "population", "reaction", "source", "track"]⟩,  -- embee/Mtype.py:65
  ⟨Tab.files_File, "access", true, .words ["sequential", "direct", "s", "d"]⟩,  -- files/File.py:153
  ⟨Tab.files_File, "form", true, .words ["formatted", "unformatted", "f", "u"]⟩,  -- files/File.py:189
  ⟨Tab.fmesh_Enorm, "setting", false, .words ["yes", "no"]⟩,  -- fmesh/Enorm.py:65
  ⟨Tab.fmesh_Geom, "geometry", false, .words ["xyz", "rec", "rzt", "cyl"]⟩,  -- fmesh/Geom.py:65
  ⟨Tab.fmesh_Out, "setting", false, .words ["col", "cf", "ij", "ik", "jk", "none"]⟩,  -- fmesh/Out.py:65
  ⟨Tab.fmesh_Tnorm, "setting", false, .words ["yes", "no"]⟩,  -- fmesh/Tnorm.py:65
  ⟨Tab.fmesh_Type, "setting", false, .words ["flux", "source"]⟩,  -- fmesh/Type.py:65
  ⟨Tab.kopts_Fmat, "setting", false, .words ["yes", "no"]⟩,  -- kopts/Fmat.py:65
  ⟨Tab.kopts_Fmataccel, "setting", false, .words ["yes", "no"]⟩,  -- kopts/Fmataccel.py:65
  ⟨Tab.kopts_Fmatreduce, "setting", false, .words ["yes", "no"]⟩,  -- kopts/Fmatreduce.py:65
  ⟨Tab.kopts_Kinetics, "setting", false, .words ["yes", "no"]⟩,  -- kopts/Kinetics.py:65
  ⟨Tab.kopts_Ksental, "fileopt", false, .words ["mctal", "tsunami-b"]⟩,  -- kopts/Ksental.py:65
  ⟨Tab.kopts_Precursor, "setting", false, .words ["yes", "no"]⟩,  -- kopts/Precursor.py:65
  ⟨Tab.kpert_Linear, "setting", false, .words ["yes", "no"]⟩,  -- kpert/Linear.py:65
  ⟨Tab.ksen_Constrain, "setting", false, .words ["yes", "no"]⟩,  -- ksen/Constrain.py:65
  ⟨Tab.like_Fill_0, "prefix", true, .words ["*"]⟩,  -- like/Fill_0.py:87
  ⟨Tab.like_Fill_1, "prefix", true, .words ["*"]⟩,  -- like/Fill_1.py:70
  ⟨Tab.like_Fill_2, "prefix", true, .words ["*"]⟩,  -- like/Fill_2.py:70
  ⟨Tab.like_Fill_3, "prefix", true, .words ["*"]⟩,  -- like/Fill_3.py:70
  ⟨Tab.like_Fill_4, "prefix", true, .words ["*"]⟩,  -- like/Fill_4.py:70
  ⟨Tab.like_Fill_5, "prefix", true, .words ["*"]⟩,  -- like/Fill_5.py:70
  ⟨Tab.like_Fill_6, "prefix", true, .words ["*"]⟩,  -- like/Fill_6.py:70
  ⟨Tab.like_Trcl_0, "prefix", true, .words ["*"]⟩,  -- like/Trcl_0.py:67
  ⟨Tab.like_Trcl_1, "prefix", true, .words ["*"]⟩,  -- like/Trcl_1.py:67
  ⟨Tab.like_Trcl_2, "prefix", true, .words ["*"]⟩,  -- like/Trcl_2.py:67
  ⟨Tab.like_Trcl_3, "prefix", true, .words ["*"]⟩,  -- like/Trcl_3.py:67
  ⟨Tab.like_Trcl_4, "prefix", true, .words ["*"]⟩,  -- like/Trcl_4.py:67
  ⟨Tab.like_Trcl_5, "prefix", true, .words ["*"]⟩,  -- like/Trcl_5.py:67
  ⟨Tab.m_0_Gas, "setting", false, .words ["yes", "no"]⟩,  -- m_0/Gas.py:65
  ⟨Tab.mesh_Geom, "geometry", false, .words ["xyz", "rzt", "rpt", "cyl", "rec", "sph"]⟩,  -- mesh/Geom.py:65
  ⟨Tab.mplot_Factor, "a", false, .words ["x", "y", "z"]⟩,  -- mplot/Factor.py:71
  ⟨Tab.mplot_File, "aa", true, .words ["all", "none"]⟩,  -- mplot/File.py:65
  ⟨Tab.mplot_Fixed, "q", false, .words ["f", "d", "u", "s", "m", "c", "e", "t", "i", "j", "k"]⟩,  -- mplot/Fixed.py:68
  ⟨Tab.mplot_Free, "x", false, .words ["f", "d", "u", "s", "m", "c", "e", "t", "i", "j", "k"]⟩,  -- mplot/Free.py:72
  ⟨Tab.mplot_Free, "y", false, .words ["f", "d", "u", "s", "m", "c", "e", "t", "i", "j", "k"]⟩,  -- mplot/Free.py:108
  ⟨Tab.mplot_Label, "aa", false, .upto 10⟩,  -- mplot/Label.py:65
  ⟨Tab.mplot_Reset, "aa", true, .words ["all", "coplot"]⟩,  -- mplot/Reset.py:65
  ⟨Tab.mplot_Subtitle, "aa", false, .upto 40⟩,  -- mplot/Subtitle.py:147
  ⟨Tab.mplot_Title, "aa", false, .upto 40⟩,  -- mplot/Title.py:106
  ⟨Tab.mplot_Wash, "aa", false, .words ["on", "off"]⟩,  -- mplot/Wash.py:65
  ⟨Tab.mplot_Xs_2, "m", false, .exactly "?"⟩,  -- mplot/Xs_2.py:65
  ⟨Tab.mplot_Xtitle, "aa", false, .upto 40⟩,  -- mplot/Xtitle.py:65
  ⟨Tab.mplot_Ytitle, "aa", false, .upto 40⟩,  -- mplot/Ytitle.py:65
  ⟨Tab.mplot_Ztitle, "aa", false, .upto 40⟩,  -- mplot/Ztitle.py:65
  ⟨Tab.ptrac_Conic, "setting", false, .words ["col", "lin"]⟩,  -- ptrac/Conic.py:65
  ⟨Tab.ptrac_File, "setting", false, .words ["asc", "bin", "aov", "bov"]⟩,  -- ptrac/File.py:65
  ⟨Tab.ptrac_Write, "setting", false, .words ["pos", "all"]⟩,  -- ptrac/Write.py:65
  ⟨Tab.tropt_Eloss, "setting", false, .words ["off", "strag1", "csda"]⟩,  -- tropt/Eloss.py:65
  ⟨Tab.tropt_Mcscat, "setting", false, .words ["off", "fnal1", "gaussian", "fnal2"]⟩,  -- tropt/Mcscat.py:65
  ⟨Tab.tropt_Nescat, "setting", false, .words ["off", "on"]⟩,  -- tropt/Nescat.py:65
  ⟨Tab.tropt_Nreact, "setting", false, .words ["off", "on", "atten", "remove"]⟩,  -- tropt/Nreact.py:65
  ⟨Tab.var_Rr, "setting", false, .words ["no", "off"]⟩]  -- var/Rr.py:65

/-- Setters of texts. -/
def texts : List TextRow := texts0 ++ texts1

/-- Setters that refuse only `None`, part 0. -/
def needed0 : List NeedRow := [
  ⟨Tab.Area, ["areas"]⟩,  -- Area.py:70
  ⟨Tab.Awtab, ["weight_ratios"]⟩,  -- Awtab.py:68
  ⟨Tab.Bbrem, ["bias_1", "bias_2", "bias_3", "bias_4", "bias_5", "bias_6", "bias_7", "bias_8", "bias_9", "bias_10", "bias_11", "bias_12", "bias_13", "bias_14", "bias_15", "bias_16", "bias_17", "bias_18", "bias_19", "bias_20", "bias_21", "bias_22", "bias_23", "bias_24", "bias_25", "bias_26", "bias_27", "bias_28", "bias_29", "bias_30", "bias_31", "bias_32", "bias_33", "bias_34", "bias_35", "bias_36", "bias_37", "bias_38", "bias_39", "bias_40", "bias_41", "bias_42", "bias_43", "bias_44", "bias_45", "bias_46", "bias_47", "bias_48", "bias_49", "materials"]⟩,  -- Bbrem.py:269,307,345,383,421,459,497,535,573,611,649,687,725,763,801,839,877,915,953,991,1029,1067,1105,1143,1181,1219,1257,1295,1333,1371,1409,1447,1485,1523,1561,1599,1637,1675,1713,1751,1789,1827,1865,1903,1941,1979,2017,2055,2093,2134
  ⟨Tab.Bflcl, ["numbers"]⟩,  -- Bflcl.py:70
  ⟨Tab.Bfld, ["suffix"]⟩,  -- Bfld.py:74
  ⟨Tab.C, ["suffix", "bounds"]⟩,  -- C.py:117,158
  ⟨Tab.Cell, ["geometry"]⟩,  -- Cell.py:237
  ⟨Tab.Cf, ["numbers"]⟩,  -- Cf.py:111
  ⟨Tab.Cm, ["multipliers"]⟩,  -- Cm.py:111
  ⟨Tab.Cosy, ["numbers"]⟩,  -- Cosy.py:70
  ⟨Tab.Cosyp, ["pre", "emaps"]⟩,  -- Cosyp.py:78,195
  ⟨Tab.Cut, ["designator"]⟩,  -- Cut.py:91
  ⟨Tab.Dd, ["diagnostics"]⟩,  -- Dd.py:107
  ⟨Tab.De, ["values"]⟩,  -- De.py:150
  ⟨Tab.Df_0, ["values"]⟩,  -- Df_0.py:150
  ⟨Tab.Df_1, ["options"]⟩,  -- Df_1.py:110
  ⟨Tab.Dm, ["suffix", "zaids"]⟩,  -- Dm.py:70,109
  ⟨Tab.Ds_0, ["js"]⟩,  -- Ds_0.py:150
  ⟨Tab.Ds_1, ["ijs"]⟩,  -- Ds_1.py:119
  ⟨Tab.Ds_2, ["vss"]⟩,  -- Ds_2.py:119
  ⟨Tab.Ds_3, ["distributions"]⟩,  -- Ds_3.py:118
  ⟨Tab.Dxc, ["designator", "probabilities"]⟩,  -- Dxc.py:109,150
  ⟨Tab.Dxt, ["designator", "spheres_1", "spheres_2", "spheres_3", "spheres_4", "spheres_5", "spheres_6", "spheres_7", "spheres_8", "spheres_9", "spheres_10", "cutoff_1", "cutoff_2", "weight"]⟩,  -- Dxt.py:124,160,196,232,268,304,340,376,412,448,484,522,560,598
  ⟨Tab.E, ["suffix", "bounds"]⟩,  -- E.py:76,117
  ⟨Tab.Elpt, ["cutoffs"]⟩,  -- Elpt.py:70
  ⟨Tab.Em, ["multipliers"]⟩,  -- Em.py:111
  ⟨Tab.Embdb, ["suffix", "bounds"]⟩,  -- Embdb.py:70,111
  ⟨Tab.Embdf, ["suffix", "multipliers"]⟩,  -- Embdf.py:70,111
  ⟨Tab.Embeb, ["suffix", "bounds"]⟩,  -- Embeb.py:70,111
  ⟨Tab.Embed, ["suffix"]⟩,  -- Embed.py:71
  ⟨Tab.Embee, ["suffix", "designator"]⟩,  -- Embee.py:74,110
  ⟨Tab.Embem, ["suffix", "multipliers"]⟩,  -- Embem.py:70,111
  ⟨Tab.Embtb, ["suffix", "bounds"]⟩,  -- Embtb.py:70,111
  ⟨Tab.Embtm, ["suffix", "multipliers"]⟩,  -- Embtm.py:70,111
  ⟨Tab.Esplt, ["designator"]⟩,  -- Esplt.py:231
  ⟨Tab.Ext, ["designator", "stretching"]⟩,  -- Ext.py:68,107
  ⟨Tab.F_0, ["problems"]⟩,  -- F_0.py:196
  ⟨Tab.F_1, ["spheres"]⟩,  -- F_1.py:190
  ⟨Tab.F_2, ["rings"]⟩,  -- F_2.py:245
  ⟨Tab.F_3, ["problems"]⟩,  -- F_3.py:196
  ⟨Tab.F_4, ["problems"]⟩,  -- F_4.py:194
  ⟨Tab.Fc, ["info"]⟩,  -- Fc.py:106
  ⟨Tab.Fcl, ["designator", "control"]⟩,  -- Fcl.py:68,109
  ⟨Tab.Fic, ["designator", "x1", "y1", "z1", "x2", "y2", "z2"]⟩,  -- Fic.py:153,191,229,267,343,381,419
  ⟨Tab.Files, ["creations"]⟩,  -- Files.py:69
  ⟨Tab.Fill, ["numbers"]⟩,  -- Fill.py:70
  ⟨Tab.Fip, ["designator", "x1", "y1", "z1", "x2", "y2", "z2"]⟩,  -- Fip.py:153,191,229,267,343,381,419
  ⟨Tab.Fir, ["x1", "y1", "z1", "x2", "y2", "z2", "f2"]⟩,  -- Fir.py:188,226,264,340,378,416,492
  ⟨Tab.Fm, ["bins"]⟩,  -- Fm.py:145
  ⟨Tab.Fmesh, ["designator"]⟩,  -- Fmesh.py:110
  ⟨Tab.Fmult, ["zaid"]⟩,  -- Fmult.py:69
  ⟨Tab.Fs, ["numbers"]⟩,  -- Fs.py:117
  ⟨Tab.Ft, ["treatments"]⟩,  -- Ft.py:106
  ⟨Tab.Fu, ["bounds"]⟩,  -- Fu.py:117
  ⟨Tab.Hsrc, ["x_minimum", "x_maximum", "y_minimum", "y_maximum", "z_minimum", "z_maximum"]⟩,  -- Hsrc.py:143,181,257,295,371,409
  ⟨Tab.Idum, ["intergers"]⟩,  -- Idum.py:70
  ⟨Tab.Imp, ["designator", "importances"]⟩,  -- Imp.py:68,109
  ⟨Tab.Ksen, ["sen"]⟩,  -- Ksen.py:110
  ⟨Tab.Ksrc, ["locations"]⟩,  -- Ksrc.py:69
  ⟨Tab.Lat, ["type"]⟩]  -- Lat.py:70

/-- Setters that refuse only `None`, part 1. -/
def needed1 : List NeedRow := [
  ⟨Tab.M_0, ["suffix", "substances"]⟩,  -- M_0.py:83,122
  ⟨Tab.M_1, ["suffix", "abx"]⟩,  -- M_1.py:70,106
  ⟨Tab.Mode, ["particles"]⟩,  -- Mode.py:68
  ⟨Tab.Mt, ["suffix", "identifiers"]⟩,  -- Mt.py:70,109
  ⟨Tab.Mx, ["suffix", "designator", "zaids"]⟩,  -- Mx.py:73,109,148
  ⟨Tab.Otfdb, ["zaids"]⟩,  -- Otfdb.py:68
  ⟨Tab.Pd, ["designator", "probabilities"]⟩,  -- Pd.py:109,150
  ⟨Tab.Pert, ["designator"]⟩,  -- Pert.py:110
  ⟨Tab.Phys_4, ["designator"]⟩,  -- Phys_4.py:111
  ⟨Tab.Pikmt, ["biases"]⟩,  -- Pikmt.py:69
  ⟨Tab.Pwt, ["weights"]⟩,  -- Pwt.py:70
  ⟨Tab.Rdum, ["floats"]⟩,  -- Rdum.py:70
  ⟨Tab.Sb_0, ["biases"]⟩,  -- Sb_0.py:150
  ⟨Tab.Sb_1, ["a"]⟩,  -- Sb_1.py:111
  ⟨Tab.Sc, ["comment"]⟩,  -- Sc.py:109
  ⟨Tab.Sd, ["information"]⟩,  -- Sd.py:111
  ⟨Tab.Sf, ["numbers"]⟩,  -- Sf.py:111
  ⟨Tab.Si_0, ["suffix", "information"]⟩,  -- Si_0.py:73,145
  ⟨Tab.Si_1, ["suffix", "information"]⟩,  -- Si_1.py:73,147
  ⟨Tab.Si_2, ["suffix", "information"]⟩,  -- Si_2.py:73,145
  ⟨Tab.Sp_0, ["probabilities"]⟩,  -- Sp_0.py:150
  ⟨Tab.Sp_1, ["a"]⟩,  -- Sp_1.py:111
  ⟨Tab.Spdtl, ["keyword"]⟩,  -- Spdtl.py:65
  ⟨Tab.Ssw, ["surfaces"]⟩,  -- Ssw.py:77
  ⟨Tab.Surface, ["option"]⟩,  -- Surface.py:246
  ⟨Tab.T_0, ["suffix", "bounds"]⟩,  -- T_0.py:76,117
  ⟨Tab.T_1, ["suffix", "options"]⟩,  -- T_1.py:71,110
  ⟨Tab.Thtme, ["times"]⟩,  -- Thtme.py:70
  ⟨Tab.Tm, ["multipliers"]⟩,  -- Tm.py:111
  ⟨Tab.Tmp, ["temperatures"]⟩,  -- Tmp.py:108
  ⟨Tab.Tr_0, ["x", "y", "z", "xx", "xy", "xz", "yx", "yy", "yz", "zx", "zy", "zz"]⟩,  -- Tr_0.py:203,241,279,317,355,393,431,469,507,545,583,621
  ⟨Tab.Tr_1, ["x", "y", "z", "xx", "xy", "xz", "yx", "yy", "yz"]⟩,  -- Tr_1.py:191,229,267,305,343,381,419,457,495
  ⟨Tab.Tr_2, ["x", "y", "z", "xx", "xy", "xz", "yx", "yy"]⟩,  -- Tr_2.py:187,225,263,301,339,377,415,453
  ⟨Tab.Tr_3, ["x", "y", "z", "xx", "xy", "xz"]⟩,  -- Tr_3.py:179,217,255,293,331,369
  ⟨Tab.Tr_4, ["x", "y", "z"]⟩,  -- Tr_4.py:166,204,242
  ⟨Tab.Tsplt, ["designator"]⟩,  -- Tsplt.py:231
  ⟨Tab.U, ["numbers"]⟩,  -- U.py:70
  ⟨Tab.Unc, ["designator", "settings"]⟩,  -- Unc.py:68,109
  ⟨Tab.Uran, ["transformations"]⟩,  -- Uran.py:69
  ⟨Tab.Vol, ["volumes"]⟩,  -- Vol.py:109
  ⟨Tab.Wwe, ["designator", "bounds"]⟩,  -- Wwe.py:68,109
  ⟨Tab.Wwg, ["lower"]⟩,  -- Wwg.py:154
  ⟨Tab.Wwge, ["designator", "bounds"]⟩,  -- Wwge.py:68,109
  ⟨Tab.Wwgt, ["designator", "bounds"]⟩,  -- Wwgt.py:68,109
  ⟨Tab.Wwn, ["designator", "bounds"]⟩,  -- Wwn.py:109,150
  ⟨Tab.Wwp, ["designator"]⟩,  -- Wwp.py:111
  ⟨Tab.Wwt, ["designator", "bounds"]⟩,  -- Wwt.py:68,109
  ⟨Tab.Xs, ["suffix", "weight_ratios"]⟩,  -- Xs.py:70,109
  ⟨Tab.act_Dgeb, ["biases"]⟩,  -- act/Dgeb.py:69
  ⟨Tab.act_Dneb, ["biases"]⟩,  -- act/Dneb.py:69
  ⟨Tab.act_Hlcut, ["cutoff"]⟩,  -- act/Hlcut.py:67
  ⟨Tab.act_Pecut, ["cutoff"]⟩,  -- act/Pecut.py:67
  ⟨Tab.act_dgeb_Bias, ["weight", "energy"]⟩,  -- act/dgeb/Bias.py:70,108
  ⟨Tab.act_dneb_Bias, ["weight", "energy"]⟩,  -- act/dneb/Bias.py:70,108
  ⟨Tab.bfld_Axs, ["vector"]⟩,  -- bfld/Axs.py:70
  ⟨Tab.bfld_Ffedges, ["numbers"]⟩,  -- bfld/Ffedges.py:70
  ⟨Tab.bfld_Field, ["strength_gradient"]⟩,  -- bfld/Field.py:67
  ⟨Tab.bfld_Maxdeflc, ["angle"]⟩,  -- bfld/Maxdeflc.py:67
  ⟨Tab.bfld_Maxstep, ["size"]⟩,  -- bfld/Maxstep.py:67
  ⟨Tab.bfld_Refpnt, ["point"]⟩]  -- bfld/Refpnt.py:70

/-- Setters that refuse only `None`, part 2. -/
def needed2 : List NeedRow := [
  ⟨Tab.bfld_Vec, ["vector"]⟩,  -- bfld/Vec.py:70
  ⟨Tab.cell_Dxc, ["suffix", "designator"]⟩,  -- cell/Dxc.py:73,109
  ⟨Tab.cell_Elpt, ["designator", "cutoff"]⟩,  -- cell/Elpt.py:68,106
  ⟨Tab.cell_Ext, ["designator", "stretch"]⟩,  -- cell/Ext.py:68,104
  ⟨Tab.cell_Fcl, ["designator"]⟩,  -- cell/Fcl.py:68
  ⟨Tab.cell_Fill_0, ["i", "j", "k", "universes"]⟩,  -- cell/Fill_0.py:124,160,196,237
  ⟨Tab.cell_Imp, ["designator", "importance"]⟩,  -- cell/Imp.py:68,106
  ⟨Tab.cell_Pd, ["suffix"]⟩,  -- cell/Pd.py:70
  ⟨Tab.cell_Pwt, ["weight"]⟩,  -- cell/Pwt.py:67
  ⟨Tab.cell_Trcl_1, ["transformation"]⟩,  -- cell/Trcl_1.py:104
  ⟨Tab.cell_Trcl_2, ["transformation"]⟩,  -- cell/Trcl_2.py:104
  ⟨Tab.cell_Trcl_3, ["transformation"]⟩,  -- cell/Trcl_3.py:104
  ⟨Tab.cell_Trcl_4, ["transformation"]⟩,  -- cell/Trcl_4.py:104
  ⟨Tab.cell_Trcl_5, ["transformation"]⟩,  -- cell/Trcl_5.py:104
  ⟨Tab.cell_Unc, ["designator"]⟩,  -- cell/Unc.py:68
  ⟨Tab.cell_Wwn, ["suffix", "designator"]⟩,  -- cell/Wwn.py:73,109
  ⟨Tab.dawwg_Points, ["count"]⟩,  -- dawwg/Points.py:67
  ⟨Tab.dawwg_Xsec, ["name"]⟩,  -- dawwg/Xsec.py:65
  ⟨Tab.dawwg_block_Asback, ["setting"]⟩,  -- dawwg/block/Asback.py:67
  ⟨Tab.dawwg_block_Asbott, ["setting"]⟩,  -- dawwg/block/Asbott.py:67
  ⟨Tab.dawwg_block_Asfrnt, ["setting"]⟩,  -- dawwg/block/Asfrnt.py:67
  ⟨Tab.dawwg_block_Asleft, ["setting"]⟩,  -- dawwg/block/Asleft.py:67
  ⟨Tab.dawwg_block_Asrite, ["setting"]⟩,  -- dawwg/block/Asrite.py:67
  ⟨Tab.dawwg_block_Astop, ["setting"]⟩,  -- dawwg/block/Astop.py:67
  ⟨Tab.dawwg_block_Diffsol, ["setting"]⟩,  -- dawwg/block/Diffsol.py:65
  ⟨Tab.dawwg_block_Epsi, ["setting"]⟩,  -- dawwg/block/Epsi.py:67
  ⟨Tab.dawwg_block_Fissneut, ["setting"]⟩,  -- dawwg/block/Fissneut.py:67
  ⟨Tab.dawwg_block_Ibb, ["setting"]⟩,  -- dawwg/block/Ibb.py:67
  ⟨Tab.dawwg_block_Ibback, ["setting"]⟩,  -- dawwg/block/Ibback.py:67
  ⟨Tab.dawwg_block_Ibfrnt, ["setting"]⟩,  -- dawwg/block/Ibfrnt.py:67
  ⟨Tab.dawwg_block_Ibl, ["setting"]⟩,  -- dawwg/block/Ibl.py:67
  ⟨Tab.dawwg_block_Ibr, ["setting"]⟩,  -- dawwg/block/Ibr.py:67
  ⟨Tab.dawwg_block_Ibt, ["setting"]⟩,  -- dawwg/block/Ibt.py:67
  ⟨Tab.dawwg_block_Isct, ["setting"]⟩,  -- dawwg/block/Isct.py:67
  ⟨Tab.dawwg_block_Isn, ["setting"]⟩,  -- dawwg/block/Isn.py:67
  ⟨Tab.dawwg_block_Lib, ["setting"]⟩,  -- dawwg/block/Lib.py:65
  ⟨Tab.dawwg_block_Libname, ["setting"]⟩,  -- dawwg/block/Libname.py:65
  ⟨Tab.dawwg_block_Lng, ["setting"]⟩,  -- dawwg/block/Lng.py:67
  ⟨Tab.dawwg_block_Mt, ["setting"]⟩,  -- dawwg/block/Mt.py:67
  ⟨Tab.dawwg_block_Ngroup, ["value"]⟩,  -- dawwg/block/Ngroup.py:67
  ⟨Tab.dawwg_block_Niso, ["setting"]⟩,  -- dawwg/block/Niso.py:67
  ⟨Tab.dawwg_block_Norm, ["setting"]⟩,  -- dawwg/block/Norm.py:67
  ⟨Tab.dawwg_block_Ntichi, ["setting"]⟩,  -- dawwg/block/Ntichi.py:67
  ⟨Tab.dawwg_block_Oitm, ["setting"]⟩,  -- dawwg/block/Oitm.py:67
  ⟨Tab.dawwg_block_Tsabeta, ["setting"]⟩,  -- dawwg/block/Tsabeta.py:67
  ⟨Tab.dawwg_block_Tsaepsi, ["setting"]⟩,  -- dawwg/block/Tsaepsi.py:67
  ⟨Tab.dawwg_block_Tsaits, ["setting"]⟩,  -- dawwg/block/Tsaits.py:67
  ⟨Tab.dawwg_block_Tsasn, ["setting"]⟩,  -- dawwg/block/Tsasn.py:67
  ⟨Tab.dd_Diagnostic, ["playing_setting", "printing_setting"]⟩,  -- dd/Diagnostic.py:70,108
  ⟨Tab.ds_1_Variables, ["independent", "dependent"]⟩,  -- ds_1/Variables.py:70,108
  ⟨Tab.ds_2_Variables, ["independent", "dependent"]⟩,  -- ds_2/Variables.py:68,106
  ⟨Tab.dxt_Shell, ["x", "y", "z", "inner_radius", "outer_radius"]⟩,  -- dxt/Shell.py:84,122,160,198,236
  ⟨Tab.embed_Gmvfile, ["filename"]⟩,  -- embed/Gmvfile.py:65
  ⟨Tab.embed_Matcell, ["pairs"]⟩,  -- embed/Matcell.py:69
  ⟨Tab.embed_Mcnpumfile, ["filename"]⟩,  -- embed/Mcnpumfile.py:65
  ⟨Tab.embed_Meein, ["filename"]⟩,  -- embed/Meein.py:65
  ⟨Tab.embed_Meeout, ["filename"]⟩,  -- embed/Meeout.py:65
  ⟨Tab.embed_Mgeoin, ["filename"]⟩,  -- embed/Mgeoin.py:65
  ⟨Tab.embee_Factor, ["constant"]⟩,  -- embee/Factor.py:67
  ⟨Tab.embee_List, ["reactions"]⟩]  -- embee/List.py:67

/-- Setters that refuse only `None`, part 3. -/
def needed3 : List NeedRow := [
  ⟨Tab.f_1_Sphere, ["x", "y", "z", "ro"]⟩,  -- f_1/Sphere.py:76,114,152,190
  ⟨Tab.f_2_Ring, ["distance", "radius", "ro"]⟩,  -- f_2/Ring.py:73,111,149
  ⟨Tab.files_File, ["unit", "filename"]⟩,  -- files/File.py:81,117
  ⟨Tab.fmesh_Axs, ["x", "y", "z"]⟩,  -- fmesh/Axs.py:73,111,149
  ⟨Tab.fmesh_Eints, ["count"]⟩,  -- fmesh/Eints.py:67
  ⟨Tab.fmesh_Emesh, ["energy"]⟩,  -- fmesh/Emesh.py:67
  ⟨Tab.fmesh_Factor, ["multiple"]⟩,  -- fmesh/Factor.py:67
  ⟨Tab.fmesh_Iints, ["count"]⟩,  -- fmesh/Iints.py:70
  ⟨Tab.fmesh_Imesh, ["locations"]⟩,  -- fmesh/Imesh.py:70
  ⟨Tab.fmesh_Inc, ["lower"]⟩,  -- fmesh/Inc.py:70
  ⟨Tab.fmesh_Jints, ["count"]⟩,  -- fmesh/Jints.py:70
  ⟨Tab.fmesh_Jmesh, ["locations"]⟩,  -- fmesh/Jmesh.py:70
  ⟨Tab.fmesh_Kclear, ["count"]⟩,  -- fmesh/Kclear.py:67
  ⟨Tab.fmesh_Kints, ["count"]⟩,  -- fmesh/Kints.py:70
  ⟨Tab.fmesh_Kmesh, ["locations"]⟩,  -- fmesh/Kmesh.py:70
  ⟨Tab.fmesh_Origin, ["x", "y", "z"]⟩,  -- fmesh/Origin.py:73,111,149
  ⟨Tab.fmesh_Tints, ["count"]⟩,  -- fmesh/Tints.py:67
  ⟨Tab.fmesh_Tmesh, ["time"]⟩,  -- fmesh/Tmesh.py:67
  ⟨Tab.fmesh_Vec, ["x", "y", "z"]⟩,  -- fmesh/Vec.py:73,111,149
  ⟨Tab.fmult_Sfnu, ["distribution"]⟩,  -- fmult/Sfnu.py:70
  ⟨Tab.fmult_Sfyield, ["fission_yield"]⟩,  -- fmult/Sfyield.py:67
  ⟨Tab.fmult_Watt, ["a", "b"]⟩,  -- fmult/Watt.py:70,108
  ⟨Tab.fmult_Width, ["width"]⟩,  -- fmult/Width.py:67
  ⟨Tab.kopts_Fmatncyc, ["fmat_ncyc"]⟩,  -- kopts/Fmatncyc.py:67
  ⟨Tab.kopts_Fmatnx, ["fmat_nx"]⟩,  -- kopts/Fmatnx.py:67
  ⟨Tab.kopts_Fmatny, ["fmat_ny"]⟩,  -- kopts/Fmatny.py:67
  ⟨Tab.kopts_Fmatnz, ["fmat_nz"]⟩,  -- kopts/Fmatnz.py:67
  ⟨Tab.kopts_Fmatskpt, ["fmat_skip"]⟩,  -- kopts/Fmatskpt.py:67
  ⟨Tab.kopts_Fmatspace, ["fmat_space"]⟩,  -- kopts/Fmatspace.py:67
  ⟨Tab.kpert_Cell, ["numbers"]⟩,  -- kpert/Cell.py:70
  ⟨Tab.kpert_Erg, ["energies"]⟩,  -- kpert/Erg.py:70
  ⟨Tab.kpert_Iso, ["zaids"]⟩,  -- kpert/Iso.py:68
  ⟨Tab.kpert_Mat, ["numbers"]⟩,  -- kpert/Mat.py:70
  ⟨Tab.kpert_Rho, ["densities"]⟩,  -- kpert/Rho.py:70
  ⟨Tab.kpert_Rxn, ["numbers"]⟩,  -- kpert/Rxn.py:70
  ⟨Tab.ksen_Cos, ["cosines"]⟩,  -- ksen/Cos.py:70
  ⟨Tab.ksen_Ein, ["energies"]⟩,  -- ksen/Ein.py:70
  ⟨Tab.ksen_Erg, ["energies"]⟩,  -- ksen/Erg.py:70
  ⟨Tab.ksen_Iso, ["zaids"]⟩,  -- ksen/Iso.py:68
  ⟨Tab.ksen_Legendre, ["number"]⟩,  -- ksen/Legendre.py:67
  ⟨Tab.ksen_Mt, ["numbers"]⟩,  -- ksen/Mt.py:70
  ⟨Tab.ksen_Rxn, ["numbers"]⟩,  -- ksen/Rxn.py:70
  ⟨Tab.ksrc_Location, ["x", "y", "z"]⟩,  -- ksrc/Location.py:73,111,149
  ⟨Tab.like_Dxc, ["suffix", "designator"]⟩,  -- like/Dxc.py:72,107
  ⟨Tab.like_Elpt, ["designator", "cutoff"]⟩,  -- like/Elpt.py:67,104
  ⟨Tab.like_Ext, ["designator", "stretch"]⟩,  -- like/Ext.py:67,102
  ⟨Tab.like_Fcl, ["designator"]⟩,  -- like/Fcl.py:67
  ⟨Tab.like_Fill_0, ["i", "j", "k", "universes"]⟩,  -- like/Fill_0.py:122,157,192,233
  ⟨Tab.like_Imp, ["designator", "importance"]⟩,  -- like/Imp.py:67,104
  ⟨Tab.like_Pd, ["suffix"]⟩,  -- like/Pd.py:69
  ⟨Tab.like_Pwt, ["weight"]⟩,  -- like/Pwt.py:66
  ⟨Tab.like_Rho, ["density"]⟩,  -- like/Rho.py:66
  ⟨Tab.like_Trcl_1, ["transformation"]⟩,  -- like/Trcl_1.py:102
  ⟨Tab.like_Trcl_2, ["transformation"]⟩,  -- like/Trcl_2.py:102
  ⟨Tab.like_Trcl_3, ["transformation"]⟩,  -- like/Trcl_3.py:102
  ⟨Tab.like_Trcl_4, ["transformation"]⟩,  -- like/Trcl_4.py:102
  ⟨Tab.like_Trcl_5, ["transformation"]⟩,  -- like/Trcl_5.py:102
  ⟨Tab.like_Unc, ["designator"]⟩,  -- like/Unc.py:67
  ⟨Tab.like_Wwn, ["suffix", "designator"]⟩,  -- like/Wwn.py:72,107
  ⟨Tab.m_0_Alib, ["abx"]⟩]  -- m_0/Alib.py:65

/-- Setters that refuse only `None`, part 4. -/
def needed4 : List NeedRow := [
  ⟨Tab.m_0_Cond, ["setting"]⟩,  -- m_0/Cond.py:67
  ⟨Tab.m_0_Dlib, ["abx"]⟩,  -- m_0/Dlib.py:65
  ⟨Tab.m_0_Elib, ["abx"]⟩,  -- m_0/Elib.py:65
  ⟨Tab.m_0_Hlib, ["abx"]⟩,  -- m_0/Hlib.py:65
  ⟨Tab.m_0_Nlib, ["abx"]⟩,  -- m_0/Nlib.py:65
  ⟨Tab.m_0_Plib, ["abx"]⟩,  -- m_0/Plib.py:65
  ⟨Tab.m_0_Pnlib, ["abx"]⟩,  -- m_0/Pnlib.py:65
  ⟨Tab.m_0_Refc, ["coefficents"]⟩,  -- m_0/Refc.py:70
  ⟨Tab.m_0_Refi, ["refractive_index"]⟩,  -- m_0/Refi.py:67
  ⟨Tab.m_0_Refs, ["coefficents"]⟩,  -- m_0/Refs.py:70
  ⟨Tab.m_0_Slib, ["abx"]⟩,  -- m_0/Slib.py:65
  ⟨Tab.m_0_Tlib, ["abx"]⟩,  -- m_0/Tlib.py:65
  ⟨Tab.mesh_Axs, ["vector"]⟩,  -- mesh/Axs.py:70
  ⟨Tab.mesh_Iints, ["number"]⟩,  -- mesh/Iints.py:70
  ⟨Tab.mesh_Imesh, ["vector"]⟩,  -- mesh/Imesh.py:70
  ⟨Tab.mesh_Jints, ["number"]⟩,  -- mesh/Jints.py:70
  ⟨Tab.mesh_Jmesh, ["vector"]⟩,  -- mesh/Jmesh.py:70
  ⟨Tab.mesh_Kints, ["number"]⟩,  -- mesh/Kints.py:70
  ⟨Tab.mesh_Kmesh, ["vector"]⟩,  -- mesh/Kmesh.py:70
  ⟨Tab.mesh_Origin, ["point"]⟩,  -- mesh/Origin.py:70
  ⟨Tab.mesh_Ref, ["point"]⟩,  -- mesh/Ref.py:70
  ⟨Tab.mesh_Vec, ["vector"]⟩,  -- mesh/Vec.py:70
  ⟨Tab.mplot_Contour, ["cmin", "cmax", "cstep"]⟩,  -- mplot/Contour.py:80,118,156
  ⟨Tab.mplot_Ebin, ["n"]⟩,  -- mplot/Ebin.py:67
  ⟨Tab.mplot_Factor, ["f"]⟩,  -- mplot/Factor.py:109
  ⟨Tab.mplot_Fixed, ["n"]⟩,  -- mplot/Fixed.py:106
  ⟨Tab.mplot_Fmesh, ["n"]⟩,  -- mplot/Fmesh.py:67
  ⟨Tab.mplot_Fmrelerr, ["n"]⟩,  -- mplot/Fmrelerr.py:67
  ⟨Tab.mplot_Freq, ["n"]⟩,  -- mplot/Freq.py:67
  ⟨Tab.mplot_Mt, ["n"]⟩,  -- mplot/Mt.py:67
  ⟨Tab.mplot_Par, ["particle"]⟩,  -- mplot/Par.py:65
  ⟨Tab.mplot_Rmctal, ["filename"]⟩,  -- mplot/Rmctal.py:65
  ⟨Tab.mplot_Runtpe, ["filename"]⟩,  -- mplot/Runtpe.py:68
  ⟨Tab.mplot_Set, ["f", "d", "u", "s", "m", "c", "e", "t"]⟩,  -- mplot/Set.py:101,139,177,215,253,291,329,367
  ⟨Tab.mplot_Subtitle, ["x", "y"]⟩,  -- mplot/Subtitle.py:73,111
  ⟨Tab.mplot_Tal, ["n"]⟩,  -- mplot/Tal.py:67
  ⟨Tab.mplot_Tbin, ["n"]⟩,  -- mplot/Tbin.py:67
  ⟨Tab.mplot_Tfc, ["x"]⟩,  -- mplot/Tfc.py:65
  ⟨Tab.mplot_Thick, ["x"]⟩,  -- mplot/Thick.py:67
  ⟨Tab.mplot_Wmctal, ["filename"]⟩,  -- mplot/Wmctal.py:65
  ⟨Tab.mplot_Xlims, ["lower"]⟩,  -- mplot/Xlims.py:73
  ⟨Tab.mplot_Xs_0, ["m"]⟩,  -- mplot/Xs_0.py:67
  ⟨Tab.mplot_Xs_1, ["m"]⟩,  -- mplot/Xs_1.py:65
  ⟨Tab.mplot_Ylims, ["lower"]⟩,  -- mplot/Ylims.py:73
  ⟨Tab.mplot_Zlev, ["n"]⟩,  -- mplot/Zlev.py:68
  ⟨Tab.pert_Cell, ["numbers"]⟩,  -- pert/Cell.py:70
  ⟨Tab.pert_Erg, ["energy_lower_bound", "energy_upper_bound"]⟩,  -- pert/Erg.py:70,108
  ⟨Tab.pert_Rho, ["density"]⟩,  -- pert/Rho.py:67
  ⟨Tab.pert_Rxn, ["numbers"]⟩,  -- pert/Rxn.py:70
  ⟨Tab.pikmt_Photonbias, ["zaid", "ipiki"]⟩,  -- pikmt/Photonbias.py:68,106
  ⟨Tab.ptrac_Cell, ["numbers"]⟩,  -- ptrac/Cell.py:70
  ⟨Tab.ptrac_Event, ["settings"]⟩,  -- ptrac/Event.py:68
  ⟨Tab.ptrac_Filter, ["variables"]⟩,  -- ptrac/Filter.py:69
  ⟨Tab.ptrac_Nps, ["particles"]⟩,  -- ptrac/Nps.py:70
  ⟨Tab.ptrac_Surface, ["numbers"]⟩,  -- ptrac/Surface.py:70
  ⟨Tab.ptrac_Tally, ["numbers"]⟩,  -- ptrac/Tally.py:70
  ⟨Tab.ptrac_Type, ["particles"]⟩,  -- ptrac/Type.py:68
  ⟨Tab.ptrac_Value, ["cutoff"]⟩,  -- ptrac/Value.py:67
  ⟨Tab.ptrac_filter_Entry, ["lower", "upper"]⟩,  -- ptrac/filter/Entry.py:83,154
  ⟨Tab.rand_Hist, ["hist"]⟩]  -- rand/Hist.py:67

/-- Setters that refuse only `None`, part 5. -/
def needed5 : List NeedRow := [
  ⟨Tab.rand_Stride, ["stride"]⟩,  -- rand/Stride.py:67
  ⟨Tab.sdef_Ara_0, ["area"]⟩,  -- sdef/Ara_0.py:67
  ⟨Tab.sdef_Ara_1, ["option"]⟩,  -- sdef/Ara_1.py:65
  ⟨Tab.sdef_Axs_0, ["x", "y", "z"]⟩,  -- sdef/Axs_0.py:73,111,149
  ⟨Tab.sdef_Axs_1, ["option"]⟩,  -- sdef/Axs_1.py:65
  ⟨Tab.sdef_Bap_0, ["ba1", "ba2", "u"]⟩,  -- sdef/Bap_0.py:73,111,149
  ⟨Tab.sdef_Bap_1, ["option"]⟩,  -- sdef/Bap_1.py:65
  ⟨Tab.sdef_Bem_0, ["exn", "eyn"]⟩,  -- sdef/Bem_0.py:73,111
  ⟨Tab.sdef_Bem_1, ["option"]⟩,  -- sdef/Bem_1.py:65
  ⟨Tab.sdef_Ccc_1, ["option"]⟩,  -- sdef/Ccc_1.py:65
  ⟨Tab.sdef_Cel_1, ["number"]⟩,  -- sdef/Cel_1.py:65
  ⟨Tab.sdef_Cel_2, ["option"]⟩,  -- sdef/Cel_2.py:65
  ⟨Tab.sdef_Dat_1, ["option"]⟩,  -- sdef/Dat_1.py:65
  ⟨Tab.sdef_Dir_1, ["cosine"]⟩,  -- sdef/Dir_1.py:65
  ⟨Tab.sdef_Dir_2, ["option"]⟩,  -- sdef/Dir_2.py:65
  ⟨Tab.sdef_Eff_0, ["criterion"]⟩,  -- sdef/Eff_0.py:67
  ⟨Tab.sdef_Eff_1, ["option"]⟩,  -- sdef/Eff_1.py:65
  ⟨Tab.sdef_Erg_0, ["energy"]⟩,  -- sdef/Erg_0.py:67
  ⟨Tab.sdef_Erg_1, ["energy"]⟩,  -- sdef/Erg_1.py:65
  ⟨Tab.sdef_Erg_2, ["option"]⟩,  -- sdef/Erg_2.py:65
  ⟨Tab.sdef_Ext_0, ["distance_cosine"]⟩,  -- sdef/Ext_0.py:67
  ⟨Tab.sdef_Ext_1, ["distance_cosine"]⟩,  -- sdef/Ext_1.py:65
  ⟨Tab.sdef_Ext_2, ["option"]⟩,  -- sdef/Ext_2.py:65
  ⟨Tab.sdef_Loc_1, ["option"]⟩,  -- sdef/Loc_1.py:65
  ⟨Tab.sdef_Nrm_0, ["sign"]⟩,  -- sdef/Nrm_0.py:67
  ⟨Tab.sdef_Nrm_1, ["option"]⟩,  -- sdef/Nrm_1.py:65
  ⟨Tab.sdef_Par_0, ["kind"]⟩,  -- sdef/Par_0.py:65
  ⟨Tab.sdef_Par_1, ["option"]⟩,  -- sdef/Par_1.py:65
  ⟨Tab.sdef_Pos_0, ["x", "y", "z"]⟩,  -- sdef/Pos_0.py:73,111,149
  ⟨Tab.sdef_Pos_1, ["vector"]⟩,  -- sdef/Pos_1.py:64
  ⟨Tab.sdef_Pos_2, ["option"]⟩,  -- sdef/Pos_2.py:65
  ⟨Tab.sdef_Rad_0, ["radial_distance"]⟩,  -- sdef/Rad_0.py:67
  ⟨Tab.sdef_Rad_1, ["radial_distance"]⟩,  -- sdef/Rad_1.py:65
  ⟨Tab.sdef_Rad_2, ["option"]⟩,  -- sdef/Rad_2.py:65
  ⟨Tab.sdef_Sur_1, ["option"]⟩,  -- sdef/Sur_1.py:65
  ⟨Tab.sdef_Tme_0, ["time"]⟩,  -- sdef/Tme_0.py:67
  ⟨Tab.sdef_Tme_1, ["time"]⟩,  -- sdef/Tme_1.py:65
  ⟨Tab.sdef_Tme_2, ["option"]⟩,  -- sdef/Tme_2.py:65
  ⟨Tab.sdef_Tr_0, ["number"]⟩,  -- sdef/Tr_0.py:67
  ⟨Tab.sdef_Tr_1, ["number"]⟩,  -- sdef/Tr_1.py:65
  ⟨Tab.sdef_Tr_2, ["option"]⟩,  -- sdef/Tr_2.py:65
  ⟨Tab.sdef_Vec_0, ["x", "y", "z"]⟩,  -- sdef/Vec_0.py:73,111,149
  ⟨Tab.sdef_Vec_1, ["option"]⟩,  -- sdef/Vec_1.py:65
  ⟨Tab.sdef_Wgt_0, ["weight"]⟩,  -- sdef/Wgt_0.py:67
  ⟨Tab.sdef_Wgt_1, ["option"]⟩,  -- sdef/Wgt_1.py:65
  ⟨Tab.sdef_X_0, ["position"]⟩,  -- sdef/X_0.py:67
  ⟨Tab.sdef_X_1, ["position"]⟩,  -- sdef/X_1.py:65
  ⟨Tab.sdef_X_2, ["option"]⟩,  -- sdef/X_2.py:65
  ⟨Tab.sdef_Y_0, ["position"]⟩,  -- sdef/Y_0.py:67
  ⟨Tab.sdef_Y_1, ["position"]⟩,  -- sdef/Y_1.py:65
  ⟨Tab.sdef_Y_2, ["option"]⟩,  -- sdef/Y_2.py:65
  ⟨Tab.sdef_Z_0, ["position"]⟩,  -- sdef/Z_0.py:67
  ⟨Tab.sdef_Z_1, ["position"]⟩,  -- sdef/Z_1.py:65
  ⟨Tab.sdef_Z_2, ["option"]⟩,  -- sdef/Z_2.py:65
  ⟨Tab.sdef_f_Fara, ["distribution"]⟩,  -- sdef/f/Fara.py:65
  ⟨Tab.sdef_f_Faxs, ["distribution"]⟩,  -- sdef/f/Faxs.py:65
  ⟨Tab.sdef_f_Fbap, ["distribution"]⟩,  -- sdef/f/Fbap.py:65
  ⟨Tab.sdef_f_Fbem, ["distribution"]⟩,  -- sdef/f/Fbem.py:65
  ⟨Tab.sdef_f_Fccc, ["distribution"]⟩,  -- sdef/f/Fccc.py:65
  ⟨Tab.sdef_f_Fcel, ["distribution"]⟩]  -- sdef/f/Fcel.py:65

/-- Setters that refuse only `None`, part 6. -/
def needed6 : List NeedRow := [
  ⟨Tab.sdef_f_Fdat, ["distribution"]⟩,  -- sdef/f/Fdat.py:65
  ⟨Tab.sdef_f_Fdir, ["distribution"]⟩,  -- sdef/f/Fdir.py:65
  ⟨Tab.sdef_f_Feff, ["distribution"]⟩,  -- sdef/f/Feff.py:65
  ⟨Tab.sdef_f_Ferg, ["distribution"]⟩,  -- sdef/f/Ferg.py:65
  ⟨Tab.sdef_f_Fext, ["distribution"]⟩,  -- sdef/f/Fext.py:65
  ⟨Tab.sdef_f_Floc, ["distribution"]⟩,  -- sdef/f/Floc.py:65
  ⟨Tab.sdef_f_Fnrm, ["distribution"]⟩,  -- sdef/f/Fnrm.py:65
  ⟨Tab.sdef_f_Fpar, ["distribution"]⟩,  -- sdef/f/Fpar.py:65
  ⟨Tab.sdef_f_Fpos, ["distribution"]⟩,  -- sdef/f/Fpos.py:65
  ⟨Tab.sdef_f_Frad, ["distribution"]⟩,  -- sdef/f/Frad.py:65
  ⟨Tab.sdef_f_Fsur, ["distribution"]⟩,  -- sdef/f/Fsur.py:65
  ⟨Tab.sdef_f_Ftme, ["distribution"]⟩,  -- sdef/f/Ftme.py:65
  ⟨Tab.sdef_f_Ftr, ["distribution"]⟩,  -- sdef/f/Ftr.py:65
  ⟨Tab.sdef_f_Fvec, ["distribution"]⟩,  -- sdef/f/Fvec.py:65
  ⟨Tab.sdef_f_Fwgt, ["distribution"]⟩,  -- sdef/f/Fwgt.py:65
  ⟨Tab.sdef_f_Fx, ["distribution"]⟩,  -- sdef/f/Fx.py:65
  ⟨Tab.sdef_f_Fy, ["distribution"]⟩,  -- sdef/f/Fy.py:65
  ⟨Tab.sdef_f_Fz, ["distribution"]⟩,  -- sdef/f/Fz.py:65
  ⟨Tab.ssr_Axs, ["cosines"]⟩,  -- ssr/Axs.py:70
  ⟨Tab.ssr_Bcw, ["radius"]⟩,  -- ssr/Bcw.py:73
  ⟨Tab.ssr_Cel, ["numbers"]⟩,  -- ssr/Cel.py:70
  ⟨Tab.ssr_Ext, ["number"]⟩,  -- ssr/Ext.py:65
  ⟨Tab.ssr_New, ["numbers"]⟩,  -- ssr/New.py:70
  ⟨Tab.ssr_Old, ["numbers"]⟩,  -- ssr/Old.py:70
  ⟨Tab.ssr_Poa, ["angle"]⟩,  -- ssr/Poa.py:67
  ⟨Tab.ssr_Pty, ["particles"]⟩,  -- ssr/Pty.py:68
  ⟨Tab.ssr_Tr_0, ["number"]⟩,  -- ssr/Tr_0.py:65
  ⟨Tab.ssr_Tr_1, ["number"]⟩,  -- ssr/Tr_1.py:67
  ⟨Tab.ssr_Wgt, ["constant"]⟩,  -- ssr/Wgt.py:67
  ⟨Tab.ssw_Cel, ["cfs"]⟩,  -- ssw/Cel.py:70
  ⟨Tab.ssw_Pty, ["tracks"]⟩,  -- ssw/Pty.py:68
  ⟨Tab.stop_Ctme, ["tme"]⟩,  -- stop/Ctme.py:67
  ⟨Tab.stop_F, ["e"]⟩,  -- stop/F.py:108
  ⟨Tab.stop_Nps, ["npp"]⟩,  -- stop/Nps.py:70
  ⟨Tab.surface_Arb, ["ax", "ay", "az", "bx", "by", "bz", "cx", "cy", "cz", "dx", "dy", "dz", "ex", "ey", "ez", "fx", "fy", "fz", "gx", "gy", "gz", "hx", "hy", "hz", "n1", "n2", "n3", "n4", "n5", "n6"]⟩,  -- surface/Arb.py:189,227,265,303,341,379,417,455,493,531,569,607,645,683,721,759,797,835,873,911,949,987,1025,1063,1101,1139,1177,1215,1253,1291
  ⟨Tab.surface_Box, ["vx", "vy", "vz", "a1x", "a1y", "a1z", "a2x", "a2y", "a2z", "a3x", "a3y", "a3z"]⟩,  -- surface/Box.py:120,158,196,234,272,310,348,386,424,462,500,538
  ⟨Tab.surface_C_x, ["y", "z", "r"]⟩,  -- surface/C_x.py:76,114,152
  ⟨Tab.surface_C_y, ["x", "z", "r"]⟩,  -- surface/C_y.py:76,114,152
  ⟨Tab.surface_C_z, ["x", "y", "r"]⟩,  -- surface/C_z.py:76,114,152
  ⟨Tab.surface_Cx, ["r"]⟩,  -- surface/Cx.py:70
  ⟨Tab.surface_Cy, ["r"]⟩,  -- surface/Cy.py:70
  ⟨Tab.surface_Cz, ["r"]⟩,  -- surface/Cz.py:68
  ⟨Tab.surface_Ell, ["v1x", "v1y", "v1z", "v2x", "v2y", "v2z", "rm"]⟩,  -- surface/Ell.py:100,138,176,214,252,290,328
  ⟨Tab.surface_Gq, ["a", "b", "c", "d", "e", "f", "g", "h", "j", "k"]⟩,  -- surface/Gq.py:109,147,185,223,261,299,337,375,413,451
  ⟨Tab.surface_K_x, ["x", "y", "z", "t_squared", "plusminus_1"]⟩,  -- surface/K_x.py:92,130,168,206,244
  ⟨Tab.surface_K_y, ["x", "y", "z", "t_squared", "plusminus_1"]⟩,  -- surface/K_y.py:92,130,168,206,244
  ⟨Tab.surface_K_z, ["x", "y", "z", "t_squared", "plusminus_1"]⟩,  -- surface/K_z.py:92,130,168,206,244
  ⟨Tab.surface_Kx, ["x", "t_squared", "plusminus_1"]⟩,  -- surface/Kx.py:76,114,152
  ⟨Tab.surface_Ky, ["y", "t_squared", "plusminus_1"]⟩,  -- surface/Ky.py:76,114,152
  ⟨Tab.surface_Kz, ["z", "t_squared", "plusminus_1"]⟩,  -- surface/Kz.py:76,114,152
  ⟨Tab.surface_P_0, ["a", "b", "c", "d"]⟩,  -- surface/P_0.py:77,115,153,191
  ⟨Tab.surface_Px, ["d"]⟩,  -- surface/Px.py:68
  ⟨Tab.surface_Py, ["d"]⟩,  -- surface/Py.py:68
  ⟨Tab.surface_Pz, ["d"]⟩,  -- surface/Pz.py:68
  ⟨Tab.surface_Rcc, ["vx", "vy", "vz", "hx", "hy", "hz", "r"]⟩,  -- surface/Rcc.py:100,138,176,214,252,290,328
  ⟨Tab.surface_Rec, ["vx", "vy", "vz", "hx", "hy", "hz", "v1x", "v1y", "v1z", "v2x"]⟩,  -- surface/Rec.py:120,158,196,234,272,310,348,386,424,462
  ⟨Tab.surface_Rhp, ["vx", "vy", "vz", "hx", "hy", "hz", "r1", "r2", "r3"]⟩,  -- surface/Rhp.py:133,171,209,247,285,323,361,399,437
  ⟨Tab.surface_Rpp, ["xmin", "xmax", "ymin", "ymax"]⟩,  -- surface/Rpp.py:94,132,170,208
  ⟨Tab.surface_S, ["x", "y", "z", "r"]⟩,  -- surface/S.py:79,117,155,193
  ⟨Tab.surface_So, ["r"]⟩]  -- surface/So.py:68

/-- Setters that refuse only `None`, part 7. -/
def needed7 : List NeedRow := [
  ⟨Tab.surface_Sph, ["vx", "vy", "vz", "r"]⟩,  -- surface/Sph.py:79,117,155,193
  ⟨Tab.surface_Sq, ["a", "b", "c", "d", "e", "f", "g", "x", "y", "z"]⟩,  -- surface/Sq.py:109,147,185,223,261,299,337,375,413,451
  ⟨Tab.surface_Sx, ["x", "r"]⟩,  -- surface/Sx.py:73,111
  ⟨Tab.surface_Sy, ["y", "r"]⟩,  -- surface/Sy.py:73,111
  ⟨Tab.surface_Sz, ["z", "r"]⟩,  -- surface/Sz.py:73,111
  ⟨Tab.surface_Trc, ["vx", "vy", "vz", "hx", "hy", "hz", "r1", "r2"]⟩,  -- surface/Trc.py:104,142,180,218,256,294,332,370
  ⟨Tab.surface_Tx, ["x", "y", "z", "a", "b", "c"]⟩,  -- surface/Tx.py:96,134,172,210,248,286
  ⟨Tab.surface_Ty, ["x", "y", "z", "a", "b", "c"]⟩,  -- surface/Ty.py:96,134,172,210,248,286
  ⟨Tab.surface_Tz, ["x", "y", "z", "a", "b", "c"]⟩,  -- surface/Tz.py:96,134,172,210,248,286
  ⟨Tab.surface_Wed, ["vx", "vy", "vz", "v1x", "v1y", "v1z", "v2x", "v2y", "v2z", "v3x", "v3y", "v3z"]⟩,  -- surface/Wed.py:120,158,196,234,272,310,348,386,424,462,500,538
  ⟨Tab.surface_X, ["x1", "r1"]⟩,  -- surface/X.py:93,131
  ⟨Tab.surface_Y, ["y1", "r1"]⟩,  -- surface/Y.py:93,131
  ⟨Tab.surface_Z, ["z1", "r1"]⟩,  -- surface/Z.py:93,131
  ⟨Tab.t_1_Cbeg, ["time"]⟩,  -- t_1/Cbeg.py:67
  ⟨Tab.t_1_Cend, ["time"]⟩,  -- t_1/Cend.py:67
  ⟨Tab.t_1_Cfrq, ["frequency"]⟩,  -- t_1/Cfrq.py:67
  ⟨Tab.t_1_Cofi, ["time"]⟩,  -- t_1/Cofi.py:67
  ⟨Tab.t_1_Coni, ["time"]⟩,  -- t_1/Coni.py:67
  ⟨Tab.t_1_Csub, ["count"]⟩,  -- t_1/Csub.py:67
  ⟨Tab.uran_Stochastic, ["maximum_x", "maximum_y", "maximum_z"]⟩]  -- uran/Stochastic.py:114,152,190

/-- Setters that refuse only `None`. -/
def needed : List NeedRow := needed0 ++ needed1 ++ needed2 ++ needed3 ++ needed4 ++ needed5 ++ needed6 ++ needed7

end Inp.Ranges
