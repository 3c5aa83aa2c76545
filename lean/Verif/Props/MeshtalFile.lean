import Verif.Props.Meshtal
import Verif.Meshtal.HeaderLemmas
import Verif.Props.Lazy
/-! # C60: MESHTAL files -/
namespace Props
open Py Types Ptrac Meshtal

/-- A text of one line, not empty. -/
def OneLine (s : Str) : Prop := s ≠ [] ∧ '\n' ∉ s

/-- The values of a header fit into the places MCNP gives them. -/
structure HeadOk (h : Meshtal.Header) : Prop where
  code : h.code.length = 7 ∧ '\n' ∉ h.code
  version : h.version.length = 6 ∧ '\n' ∉ h.version
  ld : h.ld.length = 10 ∧ '\n' ∉ h.ld
  probid : h.probid.length = 20 ∧ '\n' ∉ h.probid
  title : OneLine h.title
  histories : ∃ n : Int, h.histories = .num n ∧ (intStr n).length ≤ 14 ∧ n.natAbs ≤ 2 ^ 53
  number : ∃ n : Int, h.number = .num n ∧ (intStr n).length ≤ 10
  particle : h.particle.length = 8 ∧ '\n' ∉ h.particle
  columns : OneLine h.columns
  bins : ∀ s, some s ∈ [h.bx, h.by', h.bz, h.time, h.energy] → OneLine s
  some_bins : ∃ s, some s ∈ [h.bx, h.by', h.bz, h.time, h.energy]

theorem rjust_exact {w : Nat} {s : Str} (h : s.length = w) : rjust w s = s := by
  simp [rjust, h]

theorem bin_names (h : Meshtal.Header) (p) (hp : p ∈ binPairs h) : ((∃ c cs, p.1 = c :: cs ∧ isSpace c = false) ∧ ∀ c ∈ p.1, c ≠ '\n' ∧ c ≠ ':') ∧
    some p.2 ∈ [h.bx, h.by', h.bz, h.time, h.energy] := by
  unfold binPairs at hp
  obtain ⟨⟨k, o⟩, hq, e⟩ := List.mem_filterMap.1 hp
  simp only [List.mem_cons, List.not_mem_nil, or_false, Prod.mk.injEq] at hq
  simp only at e
  rcases hq with ⟨rfl, rfl⟩ | ⟨rfl, rfl⟩ | ⟨rfl, rfl⟩ | ⟨rfl, rfl⟩ | ⟨rfl, rfl⟩ <;>
    (obtain ⟨v, hv, rfl⟩ := Option.map_eq_some_iff.1 e; exact ⟨⟨⟨_, _, rfl, by decide⟩, by simp only; decide⟩, by simp [hv]⟩)

theorem head_fit {h : Meshtal.Header} (ok : HeadOk h) {n m : Int} (h1 : h.histories = .num n) (h2 : h.number = .num m) (g : Bool) :
    Fit (headVals h (rjust 17 (intStr n ++ c!".00")) (rjust 10 (intStr m))) (headItems g) := by
  obtain ⟨n', e1, l1, -⟩ := ok.histories
  obtain ⟨m', e2, l2⟩ := ok.number
  rw [h1] at e1; cases e1
  rw [h2] at e2; cases e2
  have nl : ∀ n : Int, '\n' ∉ intStr n := fun n => (plain_int n).nl
  intro i hi
  simp only [headItems, List.mem_cons, List.not_mem_nil, or_false] at hi
  rcases hi with rfl | rfl | rfl | rfl | rfl | rfl | rfl | rfl | rfl | rfl | rfl | rfl | rfl | rfl | rfl | rfl | rfl | rfl | rfl | rfl | rfl | rfl | rfl
  case _ => exact ⟨rjust_length (Nat.le_of_eq ok.code.1), rjust_nl ok.code.2⟩
  case _ => trivial
  case _ => exact ⟨rjust_length (Nat.le_of_eq ok.version.1), rjust_nl ok.version.2⟩
  case _ => trivial
  case _ => exact ⟨rjust_length (Nat.le_of_eq ok.ld.1), rjust_nl ok.ld.2⟩
  case _ => trivial
  case _ => exact ⟨rjust_length (Nat.le_of_eq ok.probid.1), rjust_nl ok.probid.2⟩
  case _ => trivial
  case _ => trivial
  case _ => exact ⟨h.title, ok.title.1, ok.title.2, rfl⟩
  case _ => trivial
  case _ => trivial
  case _ =>
    refine ⟨rjust_length (by simp; omega), rjust_nl ?_⟩
    simp only [List.mem_append, not_or]
    exact ⟨nl _, by decide⟩
  case _ => trivial
  case _ => trivial
  case _ => trivial
  case _ => exact ⟨rjust_length l2, rjust_nl (nl _)⟩
  case _ => trivial
  case _ => trivial
  case _ => exact ⟨rjust_length (Nat.le_of_eq ok.particle.1), rjust_nl ok.particle.2⟩
  case _ => trivial
  case _ =>
    refine ⟨_, words_bins (binPairs h) ?_ ?_, rfl⟩
    · obtain ⟨s, hs⟩ := ok.some_bins
      intro e
      unfold binPairs at e
      rw [List.filterMap_eq_nil_iff] at e
      simp only [List.mem_cons, List.not_mem_nil, or_false, forall_eq_or_imp, Option.map_eq_none_iff, forall_eq] at e hs
      rcases hs with hs | hs | hs | hs | hs <;> simp [← hs] at e
    · intro p hp
      obtain ⟨⟨-, h1⟩, h2⟩ := bin_names h p hp
      exact ⟨fun hc => (h1 _ hc).1 rfl, (ok.bins _ h2).2⟩
  case _ => exact ⟨h.columns, ok.columns.1, ok.columns.2, rfl⟩

theorem head_str {h : Meshtal.Header} (ok : HeadOk h) {n m : Int} (h1 : h.histories = .num n) (h2 : h.number = .num m) (g : Bool) :
    h.str = .ok (tmplText (headVals h (rjust 17 (intStr n ++ c!".00")) (rjust 10 (intStr m))) (headItems g)) := by
  obtain ⟨n', e1, l1, b⟩ := ok.histories
  rw [h1] at e1; cases e1
  rw [head_text h _ _ (by
    intro o ho e
    exact (ok.bins [] (e ▸ ho)).1 rfl)]
  unfold Meshtal.Header.str
  rw [h1, h2, fmtF, if_pos b]
  rfl

/-- **C60** (mesh tally headers): a header whose values fit reads back as itself. -/
theorem C60_header_roundtrip {h : Meshtal.Header} (ok : HeadOk h) : ∃ s, h.str = .ok s ∧ headParse s = .ok h := by
  obtain ⟨n, e1, l1, b⟩ := ok.histories
  obtain ⟨m, e2, l2⟩ := ok.number
  refine ⟨_, head_str ok e1 e2 true, ?_⟩
  unfold headParse headRe
  rw [tmpl_match (head_fit ok e1 e2 true)]
  have t : ∀ i ∈ [1, 2, 3, 4, 5, 6, 7, 8, 9, 10], ∀ s, tok ((0, s) :: tmplCaps (headVals h (rjust 17 (intStr n ++ c!".00")) (rjust 10 (intStr m))) (headItems true)) i =
      headVals h (rjust 17 (intStr n ++ c!".00")) (rjust 10 (intStr m)) i := by
    intro i hi s
    unfold tok
    rw [cap_tmpl (by
      simp only [headItems, List.filterMap_cons, Item.group, if_true, List.filterMap_nil]
      exact hi) s (by rintro rfl; simp at hi)]
    rfl
  simp only
  rw [t 1 (by decide), t 2 (by decide), t 3 (by decide), t 4 (by decide), t 5 (by decide), t 6 (by decide), t 7 (by decide), t 8 (by decide),
    t 9 (by decide), t 10 (by decide)]
  simp only [headVals]
  have p2 := plain_int m
  rw [findBins_text _ (fun p hp => ⟨(bin_names h p hp).1, (ok.bins _ (bin_names h p hp).2)⟩), readBins_pairs,
    show rjust 17 (intStr n ++ c!".00") = List.replicate (17 - (intStr n ++ c!".00").length) ' ' ++ (intStr n ++ c!".00") from rfl, intParse_dec,
    show rjust 10 (intStr m) = List.replicate (10 - (intStr m).length) ' ' ++ intStr m from rfl, intParse_pad _ _ p2.ch p2.chain p2.head, int_str,
    rjust_exact ok.code.1, rjust_exact ok.version.1, rjust_exact ok.ld.1, rjust_exact ok.probid.1, rjust_exact ok.particle.1]
  obtain ⟨_, _, _, _, _, _, _, _, _, _, _, _, _, _⟩ := h
  simp only at e1 e2
  rw [← e1, ← e2]
  rfl

/-- How a file is read that begins with a header that fits. -/
theorem file_parse {h : Meshtal.Header} (ok : HeadOk h) (body : Str) (hb : body ≠ []) : ∃ t, h.str = .ok t ∧
    Meshtal.fileParse (t ++ body) = .ok ⟨h, .new ((finditer rowBody body).map rowParse)⟩ := by
  obtain ⟨t, ht, hp⟩ := C60_header_roundtrip ok
  refine ⟨t, ht, ?_⟩
  obtain ⟨n, e1, l1, b⟩ := ok.histories
  obtain ⟨m, e2, l2⟩ := ok.number
  have ht2 := head_str ok e1 e2 false
  rw [ht] at ht2
  have hr := runsTo_tmpl (head_fit ok e1 e2 false)
  rw [← Except.ok.inj ht2] at hr
  have hcaps : tmplCaps (headVals h (rjust 17 (intStr n ++ c!".00")) (rjust 10 (intStr m))) (headItems false) = [] := by
    simp [headItems, tmplCaps, Item.group]
  rw [hcaps] at hr
  have hm : reMatch Meshtal.fileRe (t ++ body) = some [(0, t ++ body), (2, body), (1, t)] := by
    unfold reMatch Meshtal.fileRe
    rw [run_seq, run_bos, if_pos rfl, run_seq, run_grp, hr]
    simp only [take_consumed]
    obtain ⟨c, cs, rfl⟩ := List.exists_cons_of_ne_nil hb
    rw [run_seq, run_grp, Re.plus, run_seq, Re.any, run_cls_cons, if_pos rfl]
    have := run_star_cls_full (fun _ => true) cs [] (c :: (t.reverse ++ [])) [(1, t)] (fun st' : St =>
      run .eos { st' with caps := (2, (c :: cs).take ((c :: cs).length - st'.rest.length)) :: st'.caps } fun st =>
        some ((0, (t ++ c :: cs).take ((t ++ c :: cs).length - st.rest.length)) :: st.caps))
      [(0, t ++ c :: cs), (2, c :: cs), (1, t)] (by simp) (by simp) (by
        rw [run_eos, if_pos rfl]
        simp only [List.length_nil, Nat.sub_zero, List.take_length])
    simp only [List.append_nil] at this ⊢
    exact this
  unfold Meshtal.fileParse
  rw [hm]
  have t1 : tok [(0, t ++ body), (2, body), (1, t)] 1 = t := rfl
  have t2 : tok [(0, t ++ body), (2, body), (1, t)] 2 = body := rfl
  simp only [t1, t2]
  rw [hp]
  rfl

/-- The combinations of columns a row in a file is read with. -/
def readableInFile : List (List Bool) :=
  [[true, true, true, true, true], [true, true, true, true, false], [true, true, true, false, false],
   [true, true, false, false, false], [true, false, true, false, false], [true, false, false, false, false],
   [false, false, false, false, false]]

theorem presence_find : ∀ a b c d e : Bool, [a, b, c, d, e] ∈ readableInFile →
    choose (fun L => decide (24 ≤ L)) widths (wsum widths [a, b, c, d, e] + 24) = some [a, b, c, d, e] ∧ [a, b, c, d, e] ∈ readable := by
  decide +kernel

/-- The lines of a file, each with its line end except the last. -/
def rowWords : List Row → List Str
  | [] => []
  | [t] => [t.str]
  | t :: ts => (t.str ++ ['\n']) :: rowWords ts

theorem rowWords_flatten : ∀ rows : List Row, (rowWords rows).flatten = joinNl (rows.map Row.str)
  | [] => rfl
  | [t] => by simp [rowWords, joinNl]
  | t :: u :: ts => by
    have := rowWords_flatten (u :: ts)
    simp only [rowWords, joinNl, List.map_cons, List.flatten_cons, List.append_assoc, List.cons_append, List.nil_append] at this ⊢
    rw [this]

theorem row_finds {t : Row} (ok : RowOk t) (hp : presence t ∈ readableInFile) : ∃ caps, ∀ prev R : Str, (R = [] ∨ ∃ u, R = '\n' :: u) →
    run rowBody ⟨prev, t.str ++ R, []⟩ (findK (t.str ++ R).length) = some ⟨(R.take 1).reverse ++ (t.str.reverse ++ prev), R.drop 1, caps⟩ := by
  rw [row_str]
  obtain ⟨h1, h2⟩ := presence_find _ _ _ _ _ hp
  have hc : choose (fun L => decide (24 ≤ L)) widths (rowText t).length = some (presence t) := by rw [row_length ok]; exact h1
  refine ⟨(7, ((cut widths (presence t) (rowText t)).2.drop 12).take 12) :: (6, (cut widths (presence t) (rowText t)).2.take 12) ::
    optCaps 1 (cut widths (presence t) (rowText t)).1 [], fun prev R hR => ?_⟩
  have h := row_find prev (rowText t) R (row_line ok.line) hR _ hc (by
    rw [cut_row ok]
    simp [ok.result, ok.error])
  simpa using h

theorem rows_lex : ∀ rows : List Row, (∀ t ∈ rows, RowOk t ∧ presence t ∈ readableInFile) →
    ∃ ws, LexesC rowBody ws ∧ ws.map (·.1) = rowWords rows
  | [], _ => ⟨[], trivial, rfl⟩
  | [t], h => by
    obtain ⟨h1, h2⟩ := h t (by simp)
    obtain ⟨caps, h3⟩ := row_finds h1 h2
    refine ⟨[(t.str, caps)], ⟨by simp [row_str], ?_, trivial⟩, rfl⟩
    intro prev
    exact h3 prev [] (.inl rfl)
  | t :: u :: ts, h => by
    obtain ⟨h1, h2⟩ := h t (by simp)
    obtain ⟨caps, h3⟩ := row_finds h1 h2
    obtain ⟨ws, h4, h5⟩ := rows_lex (u :: ts) (fun x hx => h x (List.mem_cons_of_mem _ hx))
    refine ⟨(t.str ++ ['\n'], caps) :: ws, ⟨by simp, ?_, h4⟩, by rw [List.map_cons, h5]; rfl⟩
    intro prev
    have := h3 prev ('\n' :: (ws.map (·.1)).flatten) (.inr ⟨_, rfl⟩)
    simp only [List.append_assoc, List.singleton_append, List.reverse_append] at this ⊢
    exact this

/-- **C60** (MESHTAL files): a file printed from a header that fits and rows with one of seven combinations of columns reads
back as the same header and the same rows. Missing: rows with other columns and files of several meshes, for which the claim
is false (`C60_total_row_violated`, `C60_second_mesh_violated`). -/
theorem C60_file_roundtrip_partial {h : Meshtal.Header} {rows : List Row} (ok : HeadOk h) (h0 : rows ≠ [])
    (hr : ∀ t ∈ rows, RowOk t ∧ presence t ∈ readableInFile) :
    ∃ s, Meshtal.fileStr h rows = .ok s ∧ Meshtal.fileParse s = .ok ⟨h, .new (rows.map .ok)⟩ := by
  have hb : joinNl (rows.map Row.str) ≠ [] := by
    match rows, h0 with
    | [t], _ => simp [joinNl, Row.str]
    | t :: u :: ts, _ => simp [joinNl]
  obtain ⟨t, ht, hp⟩ := file_parse ok _ hb
  refine ⟨t ++ joinNl (rows.map Row.str), ?_, ?_⟩
  · unfold Meshtal.fileStr
    rw [ht]; rfl
  · rw [hp]
    congr 3
    obtain ⟨ws, h1, h2⟩ := rows_lex rows hr
    have h3 := finditer_lexesC _ _ h1
    rw [h2, rowWords_flatten] at h3
    rw [h3]
    have one : ∀ t ∈ rows, rowParse t.str = .ok t ∧ rowParse (t.str ++ ['\n']) = .ok t := by
      intro t ht
      obtain ⟨h1, h2⟩ := hr t ht
      have h3 := (C59_row_columns_partial h1).2 (presence_find _ _ _ _ _ h2).2
      refine ⟨h3, ?_⟩
      have e1 := row_read (rowText t) [] (row_line h1.line) (.inl rfl)
      have e2 := row_read (rowText t) ['\n'] (row_line h1.line) (.inr rfl)
      rw [List.append_nil, ← row_str, h3] at e1
      rw [← List.cons_append, ← List.cons_append, ← row_str] at e2
      rw [e2, ← e1]
    clear hr hb hp h1 h2 h3 h0 ws
    induction rows with
    | nil => rfl
    | cons t ts ih =>
      cases ts with
      | nil => simp [rowWords, (one t (by simp)).1]
      | cons u us =>
        have := ih (fun x hx => one x (List.mem_cons_of_mem _ hx))
        rw [rowWords, List.map_cons, (one t (by simp)).2, this]
        · rfl
        · simp

/-- The rows of a file never raise an exception when they are read. -/
theorem C60_rows_never_raise {s : Str} {f : Meshtal.File} (h : Meshtal.fileParse s = .ok f) :
    ∃ rows : List Row, f.tallies = .new (rows.map .ok) := by
  unfold Meshtal.fileParse at h
  split at h
  · cases h
  · rename_i m hm
    cases hp : headParse (tok m 1) with
    | error e => rw [hp] at h; cases h
    | ok hd =>
      rw [hp] at h
      have hf : f = ⟨hd, .new ((finditer rowBody (tok m 2)).map rowParse)⟩ := (Except.ok.inj h).symm
      subst hf
      have free : rowBody.free = true := by
        have : ∀ ws n r, (optFields n ws r).free = r.free := by
          intro ws
          induction ws with
          | nil => intro n r; rfl
          | cons w ws ih => intro n r; simp [optFields, Re.free, ih, free_rep]
        simp [rowBody, Re.free, this, fieldsRe, free_rep, Re.chr]
      have all : ∀ p ∈ finditer rowBody (tok m 2), ∃ t, rowParse p = .ok t := by
        intro p hp
        obtain ⟨st, st', hs, rfl⟩ := finditer_mem hp
        obtain ⟨w, e, hm, e1, -, -⟩ := Step.mt hs free
        have : st.rest.take (st.rest.length - st'.rest.length) = w := by rw [e1]; exact take_consumed _ _
        rw [this]
        have := (full_iff _ free w).2 ⟨_, hm⟩
        unfold rowParse
        obtain ⟨m', hm'⟩ := Option.isSome_iff_exists.1 this
        rw [show rowRe = .seq .bos (.seq rowBody .eos) from rfl, hm']
        exact ⟨_, rfl⟩
      revert all
      generalize finditer rowBody (tok m 2) = ps
      intro all
      have : ∃ rows : List Row, ps.map rowParse = rows.map .ok := by
        induction ps with
        | nil => exact ⟨[], rfl⟩
        | cons p ps ih =>
          obtain ⟨rows, h1⟩ := ih (fun q hq => all q (by simp [hq]))
          obtain ⟨t, h2⟩ := all p (by simp)
          exact ⟨t :: rows, by rw [List.map_cons, h1, h2]; rfl⟩
      obtain ⟨rows, h1⟩ := this
      exact ⟨rows, by simp only [h1]⟩

/-- The header of files/meshtal/valid_39.meshtal in the repository, with shorter bins. -/
def sampleHead : Meshtal.Header where
  code := c!"mcnp   "
  version := c!"6     "
  ld := c!"02/20/18  "
  probid := c!"  11/01/24 16:53:25 "
  title := c!"Isotropic neutron source over lunar regolith with two gamma detectors"
  histories := .num 1000000
  number := .num 4
  particle := c!"neutron "
  columns := c!"      Time         X         Y         Z     Result     Rel Error"
  bx := some c!"   -100.00    -80.00    -60.00"
  by' := some c!"   -100.00    -80.00    -60.00"
  bz := some c!"   -150.00   -149.00   -148.00"
  energy := some c!" 0.00E+00 1.00E+36"
  time := some c!"  -1.00E+36 2.00E+00 3.00E+00"

theorem sample_ok : HeadOk sampleHead where
  code := by decide
  version := by decide
  ld := by decide
  probid := by decide
  title := ⟨by decide, by decide⟩
  histories := ⟨1000000, rfl, by decide +kernel, by decide⟩
  number := ⟨4, rfl, by decide +kernel⟩
  particle := by decide
  columns := ⟨by decide, by decide⟩
  bins := by
    intro s hs
    simp only [sampleHead, List.mem_cons, List.not_mem_nil, or_false, Option.some.injEq] at hs
    rcases hs with rfl | rfl | rfl | rfl | rfl <;> exact ⟨by decide, by decide⟩
  some_bins := ⟨_, List.mem_cons_self⟩

/-- The hypotheses of the file theorem are met, by the rows of files/meshtal/valid_40.meshtal. -/
example : ∃ s, Meshtal.fileStr sampleHead
      [⟨some c!"3.000E+00", some c!"  2.000E+00", some c!"  -75.000", some c!"   -75.000", some c!"  -137.500", c!" 0.00000E+00", c!" 0.00000E+00"⟩,
       ⟨some c!"3.000E+00", some c!"  2.000E+00", some c!"  -75.000", some c!"   -75.000", some c!"   -62.500", c!" 3.83250E-02", c!" 8.18377E-02"⟩] = .ok s ∧
    Meshtal.fileParse s = .ok ⟨sampleHead, .new (List.map .ok
      [⟨some c!"3.000E+00", some c!"  2.000E+00", some c!"  -75.000", some c!"   -75.000", some c!"  -137.500", c!" 0.00000E+00", c!" 0.00000E+00"⟩,
       ⟨some c!"3.000E+00", some c!"  2.000E+00", some c!"  -75.000", some c!"   -75.000", some c!"   -62.500", c!" 3.83250E-02", c!" 8.18377E-02"⟩])⟩ := by
  refine C60_file_roundtrip_partial sample_ok (by simp) ?_
  intro t ht
  simp only [List.mem_cons, List.not_mem_nil, or_false] at ht
  rcases ht with rfl | rfl <;>
    exact ⟨⟨by simp, by simp, by simp, by simp, by simp, by simp, by simp, by simp [Row.str, orBlank]⟩, by decide⟩

/-- A row of files/meshtal/valid_39.meshtal. -/
def totalRow : Str := c!"    Total      -90.000   -90.000  -149.500 2.39849E+00 1.03047E-01"

/-- A row of a file in the repository loses the last digit of its error when the file is read: the exponent `E-01` becomes
`E-0`. -/
theorem C60_total_row_violated : ∃ t f r, sampleHead.str = .ok t ∧ Meshtal.fileParse (t ++ totalRow) = .ok f ∧
    f.tallies = .new [.ok r] ∧ r.error = c!"0 1.03047E-0" ∧ r.str ≠ totalRow := by
  obtain ⟨t, ht, hp⟩ := file_parse sample_ok totalRow (by decide)
  refine ⟨t, _, ⟨some c!"  Total  ", some c!"    -90.000", some c!"   -90.00", some c!"0  -149.50", none, c!"0 2.39849E+0", c!"0 1.03047E-0"⟩,
    ht, hp, ?_, rfl, by decide +kernel⟩
  simp only
  congr 1

/-- The end of a file with a second mesh. -/
def secondMesh : Str := c!"\n Mesh Tally Number        14\n neutron  mesh tally.\n\n Tally bin boundaries:\n    X direction:   -100.00    -80.00\n"

/-- A line of the header of a second mesh is read as a row of the first. -/
theorem C60_second_mesh_violated : ∃ t f r, sampleHead.str = .ok t ∧ Meshtal.fileParse (t ++ secondMesh) = .ok f ∧
    f.tallies = .new [.ok r] ∧ r.energy = some c!"  X direc" := by
  obtain ⟨t, ht, hp⟩ := file_parse sample_ok secondMesh (by decide)
  refine ⟨t, _, ⟨some c!"  X direc", none, none, none, none, c!"tion:   -100", c!".00    -80.0"⟩, ht, hp, ?_, rfl⟩
  simp only
  congr 1

end Props
