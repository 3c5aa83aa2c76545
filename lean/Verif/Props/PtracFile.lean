import Verif.Ptrac.FileLemmas
import Verif.Props.PtracEvent
/-!
# Properties of PTRAC files (C58)
-/
namespace Props
open Py Types Ptrac

/-! ## C58: headers -/

/-- A keyword value as a file holds it: zero with four decimals, or five significant digits and an exponent of at
most two digits. -/
def Exact4 (d : Dec) : Prop :=
  (d.coeff = 0 ∧ d.exp = -4) ∨ (10 ^ 4 ≤ d.coeff ∧ d.coeff < 10 ^ 5 ∧ -100 < d.adjusted ∧ d.adjusted < 100)

theorem Exact4.printed {d : Dec} (h : Exact4 d) : printed 4 0 d = d := by
  rcases h with ⟨h, h'⟩ | ⟨h1, h2, -⟩
  · unfold Ptrac.printed
    rw [if_pos h]
    cases d
    simp_all
  · exact (kept_printed 4 0 d).exact (by omega) h2 (by decide)

/-- A header whose texts fill their columns and whose blocks have lengths that can be read. -/
structure HeaderFits (h : Header) : Prop where
  texts : h.code.length = 8 ∧ h.version.length = 25 ∧ h.codeDate.length = 9 ∧ h.runDate.length = 18 ∧ h.title.length = 80
  lines : '\n' ∉ h.code ∧ '\n' ∉ h.version ∧ '\n' ∉ h.codeDate ∧ '\n' ∉ h.runDate ∧ '\n' ∉ h.title
  v : ∃ ds : List Dec, h.v = ds.map (fun d => .num (.fin d)) ∧ ds ≠ [] ∧ ds.length % 10 = 0 ∧ ∀ d ∈ ds, Exact4 d
  n : ∃ ns : List Int, h.n = ns.map .num ∧ ns.length = 20 ∧ ∀ n ∈ ns, (intStr n).length ≤ 5
  l : ∃ ns : List Int, h.l = ns.map .num ∧ ns.length % 30 ≠ 0 ∧ ∀ n ∈ ns, (intStr n).length ≤ 3

theorem HeaderFits.text {h : Header} (f : HeaderFits h) : ∃ t : HeadLines, t.Ok ∧ h.str = .ok t.text ∧ headerParse t.text = .ok h := by
  obtain ⟨⟨t1, t2, t3, t4, t5⟩, ⟨l1, l2, l3, l4, l5⟩, ⟨ds, v1, v2, v3, v4⟩, ⟨ns, n1, n2, n3⟩, ⟨ls, i1, i2, i3⟩⟩ := f
  obtain ⟨vl, v5, v6, v7⟩ := vblock_lines ds v2 v3 (fun d hd => by
    rcases v4 d hd with h | h
    · exact .inl h.1
    · exact .inr ⟨h.1, by omega⟩)
  obtain ⟨nl, n4, n5⟩ := nblock_line ns n2 n3
  obtain ⟨ll, i4, i5, i6⟩ := lblock_lines ls i3 i2
  have hj : ∀ (w : Nat) (s : Str), s.length = w → ljust w s = s := by
    intro w s h
    simp [ljust, h]
  obtain ⟨t, ht⟩ : ∃ t : HeadLines, t = ⟨[h.code, h.version, h.codeDate, h.runDate], h.title, vl, nl, ll⟩ := ⟨_, rfl⟩
  have hok : t.Ok := by
    subst ht
    refine ⟨by simp [t1, t2, t3, t4], ?_, t5, l5, v6, v7, n5, i5, i6⟩
    intro x hx
    simp only [List.mem_cons, List.not_mem_nil, or_false] at hx
    rcases hx with rfl | rfl | rfl | rfl <;> assumption
  refine ⟨t, hok, ?_, ?_⟩
  · rw [Header.str, v1, v5]
    show Except.ok _ = _
    rw [hj 8 _ t1, hj 25 _ t2, hj 9 _ t3, hj 18 _ t4, hj 80 _ t5, n1, n4, i1, i4, ht]
    simp [HeadLines.text]
  · obtain ⟨m, m0, m1, m5, m6, m7, m8⟩ := header_match t hok
    have hf1 := m1 0 (by decide)
    have hf2 := m1 1 (by decide)
    have hf3 := m1 2 (by decide)
    have hf4 := m1 3 (by decide)
    subst ht
    simp only [List.getElem_cons_zero, List.getElem_cons_succ, Nat.zero_add] at hf1 hf2 hf3 hf4
    rw [headerParse, m0]
    simp only [hf1, hf2, hf3, hf4, m5, m6, m7, m8]
    obtain ⟨s, s1, s2⟩ := vblock_round ds v2 v3 (fun d hd => by
      rcases v4 d hd with h | h
      · exact .inl h.1
      · exact .inr (by omega))
    rw [v5] at s1
    have s1 := Except.ok.inj s1
    rw [← s1] at s2
    have hp : ds.map (printed 4 0) = ds := by
      conv => rhs; rw [← List.map_id ds]
      exact List.map_congr_left (fun d hd => (v4 d hd).printed)
    rw [hp] at s2
    have s3 := nline_round ns n2 n3
    rw [n4] at s3
    have s4 := lline_round ls i3 i2
    rw [i4] at s4
    rw [s2]
    show (nParse _).bind _ = _
    rw [s3]
    show (lParse _).bind _ = _
    rw [s4, ← v1, ← n1, ← i1]
    rfl

/-- C58 for headers. A header is printed and read back as the same header.  Missing: texts that do not fill their
columns (`C58_padding_violated`), blocks of other lengths (C40). -/
theorem C58_header_partial (h : Header) (f : HeaderFits h) : ∃ s, h.str = .ok s ∧ headerParse s = .ok h := by
  obtain ⟨t, -, h1, h2⟩ := f.text
  exact ⟨_, h1, h2⟩

/-- A header with ten keyword values and 46 ids. -/
def exampleHeader : Header :=
  ⟨c!"mcnp    ", c!"6                        ", c!"05/08/13 ", c!"07/14/25 11:39:04 ",
   c!"Sample Problem Input Deck" ++ List.replicate 55 ' ', List.replicate 10 (.num (.fin ⟨false, 14000, -3⟩)),
   List.replicate 20 (.num 3), List.replicate 46 (.num 17)⟩

theorem exampleHeader_fits : HeaderFits exampleHeader :=
  ⟨by decide +kernel, by decide +kernel, ⟨List.replicate 10 ⟨false, 14000, -3⟩, by decide +kernel, by decide, by decide, fun d hd => by
      rw [List.eq_of_mem_replicate hd]; exact .inr (by decide +kernel)⟩,
    ⟨List.replicate 20 3, by decide +kernel, by decide, by decide +kernel⟩, ⟨List.replicate 46 17, by decide +kernel, by decide, by decide +kernel⟩⟩

example : HeaderFits exampleHeader := exampleHeader_fits

/-! ## C58: files -/

/-- C58 for files. A file of any number of histories whose P lines hold positions only is printed and read back as
the same file.  Missing: P lines of nine values (`C58_nine_violated`, `C58_swallow_violated`), files without
histories, and what is missing of headers and histories. -/
theorem C58_file_partial (f : File) (hh : HeaderFits f.header) (hne : f.histories ≠ [])
    (hs : ∀ h ∈ f.histories, HistoryOk h ∧ ∀ e ∈ h.events, e.p.layout = 0) :
    ∃ s, f.str = .ok s ∧ fileParse s = .ok f := by
  obtain ⟨t, ok, h1, h2⟩ := hh.text
  have hall : ∀ hs : List History, (∀ h ∈ hs, HistoryOk h ∧ ∀ e ∈ h.events, e.p.layout = 0) →
      ∃ xs : List HistLines, xs.length = hs.length ∧ (∀ x ∈ xs, x.Ok ∧ ∀ y ∈ x.es, Shape [39] y.2) ∧
        each History.str hs = .ok (xs.map HistLines.text) ∧ each histParse (xs.map HistLines.text) = .ok hs := by
    intro hs
    induction hs with
    | nil => intro _; exact ⟨[], rfl, by simp, rfl, rfl⟩
    | cons h hs ih =>
      intro hall
      obtain ⟨xs, a1, a2, a3, a4⟩ := ih (fun x hx => hall x (by simp [hx]))
      obtain ⟨ho, hp⟩ := hall h (by simp)
      obtain ⟨ti, es, b1, b2, b3, b4, b5, b6, b7⟩ := historyOk_lines ho
      refine ⟨⟨ti, es⟩ :: xs, by simp [a1], ?_, ?_, ?_⟩
      · intro x hx
        rcases List.mem_cons.1 hx with rfl | hx
        · refine ⟨⟨iParse_shape b3, b4, b5, b6⟩, ?_⟩
          intro y hy
          obtain ⟨c, u, e, h1, h2, -⟩ := (b6 y hy).2
          have := b7 hp y hy
          rw [e, List.length_cons] at this
          exact ⟨c, u, e, h1, h2, by simp; omega⟩
        · exact a2 x hx
      · rw [each, b1]
        show (each History.str hs).bind _ = _
        rw [a3]; rfl
      · rw [List.map_cons, each]
        show (histParse (ti ++ '\n' :: (es.map evText).flatten)).bind _ = _
        rw [b2]
        show (each histParse (xs.map HistLines.text)).bind _ = _
        rw [a4]; rfl
  obtain ⟨xs, a1, a2, a3, a4⟩ := hall f.histories hs
  refine ⟨t.text ++ (xs.map HistLines.text).flatten, ?_, ?_⟩
  · rw [File.str, h1]
    show (each History.str f.histories).bind _ = _
    rw [a3]; rfl
  · rw [fileParse, file_match t ok xs (by
      rintro rfl
      exact hne (List.length_eq_zero_iff.1 a1.symm)) (fun x hx => (a2 x hx).1) (fun x hx => (a2 x hx).2)]
    show (headerParse t.text).bind _ = _
    rw [h2]
    show (each histParse (finditer historyBody (xs.map HistLines.text).flatten)).bind _ = _
    rw [hist_lex xs (fun x hx => (a2 x hx).1), a4]
    show (each History.str f.histories).bind _ = _
    rw [a3]; rfl

/-- A file of two histories with two events each. -/
def exampleFile : File :=
  ⟨exampleHeader, List.replicate 2 ⟨⟨.num 17, ⟨64, by decide⟩, none, none⟩, [exampleEvent, exampleEvent]⟩⟩

/-- The hypotheses of `C58_file_partial` hold of `exampleFile`. -/
example : HeaderFits exampleFile.header ∧ exampleFile.histories ≠ [] ∧
    ∀ h ∈ exampleFile.histories, HistoryOk h ∧ ∀ e ∈ h.events, e.p.layout = 0 := by
  refine ⟨exampleHeader_fits, by simp [exampleFile], ?_⟩
  intro h hh
  have hh : h ∈ List.replicate 2 _ := hh
  rw [List.eq_of_mem_replicate hh]
  have hE : EventOk exampleEvent := ⟨.int (by decide) (.int (by decide) (.int (by decide) (.int (by decide) (.int (by decide) (.int (by decide) .nil))))),
    ⟨[⟨true, 12345, -2⟩, ⟨false, 0, -5⟩, ⟨false, 10000, -50⟩], rfl, rfl, by unfold Exact5; decide⟩⟩
  have he : ∀ e ∈ [exampleEvent, exampleEvent], e = exampleEvent := by
    intro e he
    simpa using he
  refine ⟨⟨⟨⟨17, rfl, by decide⟩, ⟨none, rfl, by simp⟩, ⟨none, rfl, by simp⟩⟩, by simp, ?_⟩, ?_⟩
  · intro e h
    rw [he e h]
    exact ⟨hE, rfl⟩
  · intro e h
    rw [he e h]
    rfl

/-- An event with position, direction, energy, weight and time. -/
def nineEvent : Event := ⟨exampleEvent.j, ⟨1, List.replicate 9 (.num (.fin ⟨false, 12345, -4⟩))⟩⟩

set_option maxRecDepth 100000 in
/-- C58 fails for a file of one event with a P line of nine values: it is read back without any history and with the
I line among the ids of the header. -/
theorem C58_swallow_violated : ∃ s f, File.str ⟨exampleHeader, [⟨⟨.num 17, ⟨64, by decide⟩, none, none⟩, [nineEvent]⟩]⟩ = .ok s ∧
    fileParse s = .ok f ∧ f.histories = [] ∧ f.header.l = exampleHeader.l ++ [.num 17, .num 4000] := by
  refine ⟨_, ⟨⟨exampleHeader.code, exampleHeader.version, exampleHeader.codeDate, exampleHeader.runDate, exampleHeader.title,
    exampleHeader.v, exampleHeader.n, exampleHeader.l ++ [.num 17, .num 4000]⟩, []⟩, rfl, ?_, rfl, rfl⟩
  decide +kernel

set_option maxRecDepth 100000 in
/-- C58 fails for a file of two such histories: it is refused. -/
theorem C58_nine_violated : ∃ s, File.str ⟨exampleHeader, List.replicate 2 ⟨⟨.num 17, ⟨64, by decide⟩, none, none⟩, [nineEvent]⟩⟩ = .ok s ∧
    fileParse s = .error .ptrac := by
  refine ⟨_, rfl, ?_⟩
  decide +kernel

set_option maxRecDepth 100000 in
/-- C58 fails for header texts that do not fill their columns: blanks are added. -/
theorem C58_padding_violated : ∃ s h', Header.str { exampleHeader with code := c!"mcnp" } = .ok s ∧
    headerParse s = .ok h' ∧ h'.code = c!"mcnp    " := by
  refine ⟨_, exampleHeader, rfl, ?_, rfl⟩
  decide +kernel

end Props
