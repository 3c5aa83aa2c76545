import Verif.Inp.FilterRead
/-!
# C107: filters of particle track files
-/
set_option maxRecDepth 100000
namespace Props
open Py Types Inp

/-- **C107, reading:** any text with arbitrary spacing and continuation lines whose words are the keyword and entries `lower,variable,upper`
is read entry by entry: the first part is the lower bound, the second the variable, the third the upper bound. -/
theorem C107_read (rs : List FilterRow) (hne : rs ≠ []) (hr : ∀ r ∈ rs, r.Ok) (g0 w0 : Str) (l : List (Gap × Str)) (g1 : Str)
    (ht : Spaced g0 w0 l g1) (hrd : readHead ⟨.no, c!"filter", .no, .no⟩ w0 = some []) (he : entries l = rs.map FilterRow.text) :
    unionParse [Tab.ptrac_Filter] (g0 ++ (w0 ++ (body l ++ g1))) = readFilters rs := by
  obtain ⟨-, hp, hw⟩ := spaced_prep ht
  rw [he] at hp hw
  exact union_one hp (filter_words rs hne hr hw hrd)

theorem mapM_refused {α β : Type} {f : α → Res β} : ∀ {l : List α}, (∃ a ∈ l, ∃ e, f a = .error e) → ∃ e, l.mapM f = .error e
  | [], h => by obtain ⟨a, ha, -⟩ := h; cases ha
  | a :: l, h => by
    rw [List.mapM_cons]
    cases ha : f a with
    | error e => exact ⟨e, rfl⟩
    | ok x =>
      obtain ⟨b, hb, e, he⟩ := h
      rcases List.mem_cons.1 hb with rfl | hb
      · rw [ha] at he; cases he
      · obtain ⟨e, h⟩ := mapM_refused ⟨b, hb, e, he⟩
        rw [h]; exact ⟨e, rfl⟩

/-- **C107 fails for entries with one value, all of them:** an option in which some entry is `value,variable` is refused, although the class
matches such entries and prints them. -/
theorem C107_single_refused (rs : List FilterRow) (hr : ∀ r ∈ rs, r.Ok) (hs : ∃ r ∈ rs, r.c = none) (g0 w0 : Str) (l : List (Gap × Str))
    (g1 : Str) (ht : Spaced g0 w0 l g1) (hrd : readHead ⟨.no, c!"filter", .no, .no⟩ w0 = some []) (he : entries l = rs.map FilterRow.text) :
    ∃ e, unionParse [Tab.ptrac_Filter] (g0 ++ (w0 ++ (body l ++ g1))) = .error e := by
  obtain ⟨r, hr', hn⟩ := hs
  rw [C107_read rs (by rintro rfl; cases hr') hr g0 w0 l g1 ht hrd he]
  have : ∃ e, rs.mapM FilterRow.read = .error e := mapM_refused ⟨r, hr', by
    unfold FilterRow.read readFilter
    rw [hn]
    cases realParse r.a <;> exact ⟨_, rfl⟩⟩
  obtain ⟨e, h⟩ := this
  exact ⟨e, by unfold readFilters; rw [h]⟩

/-- An entry of a filter as the user builds it: bounds and the name of a variable. -/
def filterEntry (x : Dec) (b : Str) (y : Dec) : Val :=
  .obj Tab.ptrac_filter_Entry.info [.sc (.real (.num (.fin x))), .sc (.str b), .sc (.real (.num (.fin y)))]

/-- Names of variables that can be written. -/
def VarName (b : Str) : Prop := b ≠ [] ∧ ∀ c ∈ b, isSpace c = false ∧ c ∉ c!",&=$"

def filterRow (p : Dec × Str × Dec) : FilterRow := ⟨p.1.str, p.2.1, some p.2.2.str⟩

theorem dec_part (d : Dec) : CommaPart d.str :=
  ⟨Dec.str_ne_nil d, fun c hc => ⟨(numCh_facts (Dec.str_chars d c hc)).1, by rintro rfl; exact absurd (Dec.str_chars d _ hc) (by decide)⟩⟩

theorem short_comma {w : Str} (h : ',' ∈ w) : lower w ∉ shorthand := by
  intro hs
  have h1 : ',' ∈ lower w := List.mem_map.2 ⟨',', h, by decide⟩
  have h2 : ∀ w ∈ shorthand, ',' ∉ w := by decide
  exact h2 _ hs h1

theorem filter_row_ok (p : Dec × Str × Dec) (hb : VarName p.2.1) : (filterRow p).Ok := by
  obtain ⟨x, b, y⟩ := p
  obtain ⟨hne, hb⟩ := hb
  have sx := plain_num (Dec.str_ne_nil x) (Dec.str_chars x)
  have sy := plain_num (Dec.str_ne_nil y) (Dec.str_chars y)
  have ht : (filterRow (x, b, y)).text = x.str ++ ',' :: (b ++ ',' :: y.str) := rfl
  have hbc : ∀ c ∈ c!",&=$", c ∉ b := fun c hc h => (hb c h).2 hc
  refine ⟨dec_part x, ⟨hne, fun c hc => ⟨(hb c hc).1, by rintro rfl; exact (hb _ hc).2 (by decide)⟩⟩, by intro d hd; cases hd; exact dec_part y, ?_⟩
  rw [ht]
  have no : ∀ k ∈ c!"&=$", k ∉ x.str → k ∉ y.str → k ∉ x.str ++ ',' :: (b ++ ',' :: y.str) := by
    intro k hk h1 h2
    have h3 : k ≠ ',' := by rintro rfl; revert hk; decide
    have h4 : k ∉ b := hbc k (List.mem_cons_of_mem _ hk)
    simp [h1, h2, h3, h4]
  have hmem : ',' ∈ x.str ++ ',' :: (b ++ ',' :: y.str) := by simp
  refine ⟨⟨by simp, ?_, no '&' (by decide) sx.entry.amp sy.entry.amp, no '=' (by decide) sx.entry.eq sy.entry.eq,
    no '$' (by decide) sx.entry.dl sy.entry.dl, ?_, ?_⟩, fun h => absurd h (short_comma hmem), ?_⟩
  · intro c hc
    simp only [List.mem_append, List.mem_cons] at hc
    rcases hc with hc | rfl | hc | rfl | hc
    · exact sx.entry.sp c hc
    · decide
    · exact (hb c hc).1
    · decide
    · exact sy.entry.sp c hc
  · have e : x.str ++ ',' :: (b ++ ',' :: y.str) = (x.str ++ ',' :: (b ++ [','])) ++ y.str := by simp
    rw [e, List.getLast?_append]
    have := sy.entry.op
    cases hy : y.str.getLast? with
    | none => exact absurd (List.getLast?_eq_none_iff.1 hy) sy.entry.ne
    | some c => rw [hy] at this; simpa using this
  · have := sx.entry.cl
    cases hx : x.str with
    | nil => exact absurd hx sx.entry.ne
    | cons c t => rw [hx] at this; simpa using this
  · unfold countedEntry
    rw [if_neg]
    rintro ⟨-, h⟩
    refine short_comma ?_ h
    have hd := List.takeWhile_append_dropWhile (p := isDigit) (l := x.str ++ ',' :: (b ++ ',' :: y.str))
    rw [← hd] at hmem
    rcases List.mem_append.1 hmem with h | h
    · have : isDigit ',' = true := by
        have hall := List.all_takeWhile (p := isDigit) (l := x.str ++ ',' :: (b ++ ',' :: y.str))
        exact List.all_eq_true.1 hall _ h
      exact absurd this (by decide)
    · exact h

theorem filter_row_read (p : Dec × Str × Dec) : (filterRow p).read = .ok (filterEntry p.1 p.2.1 p.2.2) := by
  obtain ⟨x, b, y⟩ := p
  have h1 : realParse x.str = .ok (.num (.fin x)) := C01_real_roundtrip x
  have h2 : realParse y.str = .ok (.num (.fin y)) := C01_real_roundtrip y
  show readFilter x.str b (some y.str) = _
  unfold readFilter
  rw [h1]
  dsimp only
  rw [h2]
  rfl

theorem filter_rows_read (ps : List (Dec × Str × Dec)) :
    (ps.map filterRow).mapM FilterRow.read = .ok (ps.map (fun p => filterEntry p.1 p.2.1 p.2.2)) := by
  induction ps with
  | nil => rw [List.map_nil, List.mapM_nil]; rfl
  | cons p ps ih => rw [List.map_cons, List.mapM_cons, filter_row_read, ih]; rfl

/-- **C107, printing:** an option built from bounds and names of variables is printed as a text that is read as the same option.  Missing:
entries with one value, which are refused, and entries without a name (`C107_unnamed_violated`). -/
theorem C107_roundtrip_partial (ps : List (Dec × Str × Dec)) (hne : ps ≠ []) (hb : ∀ p ∈ ps, VarName p.2.1) :
    let v := Val.obj Tab.ptrac_Filter.info [.tuple (ps.map (fun p => filterEntry p.1 p.2.1 p.2.2))]
    v.str = c!"filter " ++ join [' '] (ps.map (fun p => p.1.str ++ ',' :: (p.2.1 ++ ',' :: p.2.2.str))) ∧
      unionParse [Tab.ptrac_Filter] v.str = .ok v := by
  intro v
  have hok : ∀ r ∈ ps.map filterRow, r.Ok := by
    intro r hr
    obtain ⟨p, hp, rfl⟩ := List.mem_map.1 hr
    exact filter_row_ok p (hb p hp)
  have hstr : v.str = c!"filter " ++ join [' '] (ps.map (fun p => p.1.str ++ ',' :: (p.2.1 ++ ',' :: p.2.2.str))) := by
    have e : (Val.parts (ps.map (fun p => filterEntry p.1 p.2.1 p.2.2))).map orNil = ps.map (fun p => p.1.str ++ ',' :: (p.2.1 ++ ',' :: p.2.2.str)) := by
      rw [Val.parts_eq, List.map_map, List.map_map]
      rfl
    rw [← e]
    rfl
  refine ⟨hstr, ?_⟩
  have ht : ps.map (fun p => p.1.str ++ ',' :: (p.2.1 ++ ',' :: p.2.2.str)) = (ps.map filterRow).map FilterRow.text := by
    rw [List.map_map]; rfl
  obtain ⟨s1, s2⟩ := spaced_single c!"filter" ((ps.map filterRow).map FilterRow.text) [] (by constructor <;> decide) (by
    intro w hw
    obtain ⟨r, hr, rfl⟩ := List.mem_map.1 hw
    exact (hok r hr).st) .nil
  have h := C107_read (ps.map filterRow) (by simpa using hne) hok [] c!"filter" _ [] s1 (by decide +kernel) s2
  rw [single_body] at h
  have e : v.str = [] ++ (c!"filter" ++ (enc ((ps.map filterRow).map FilterRow.text) ++ [])) := by
    rw [hstr, ht]
    cases hq : (ps.map filterRow).map FilterRow.text with
    | nil => simp at hq; exact absurd hq hne
    | cons w ws => rw [join_enc]; simp
  rw [e, h]
  unfold readFilters
  rw [filter_rows_read]
  rfl

/-- An entry built without the name of a variable is printed with the name `None`, and read as an entry with that name. -/
theorem C107_unnamed_violated :
    let e := Val.obj Tab.ptrac_filter_Entry.info [.sc (.real (.num (.fin ⟨false, 1, 0⟩))), .none, .sc (.real (.num (.fin ⟨false, 2, 0⟩)))]
    Tab.ptrac_filter_Entry.mk' [.sc (.real (.num (.fin ⟨false, 1, 0⟩))), .none, .sc (.real (.num (.fin ⟨false, 2, 0⟩)))] = .ok e ∧
      e.str = c!"1,None,2" ∧ unionParse [Tab.ptrac_filter_Entry] e.str = .ok (filterEntry ⟨false, 1, 0⟩ c!"None" ⟨false, 2, 0⟩) := by
  decide +kernel

/-- The form of the manual for one value. -/
theorem C107_single_violated : unionParse [Tab.ptrac_Filter] c!"filter=2,icl" = .error .inp := by decide +kernel

/-! ## Cases -/

example : unionParse [Tab.ptrac_Filter] c!"filter=0,erg,14.5 -1,x,1" = .ok (.obj Tab.ptrac_Filter.info [.tuple
    [filterEntry ⟨false, 0, 0⟩ c!"erg" ⟨false, 145, -1⟩, filterEntry ⟨true, 1, 0⟩ c!"x" ⟨false, 1, 0⟩]]) := by decide +kernel

example : ∀ p ∈ [((⟨false, 0, 0⟩, c!"erg", ⟨false, 145, -1⟩) : Dec × Str × Dec), (⟨true, 1, 0⟩, c!"x", ⟨false, 1, 0⟩)], VarName p.2.1 := by
  intro p hp
  simp only [List.mem_cons, List.not_mem_nil, or_false] at hp
  rcases hp with rfl | rfl <;> exact ⟨by decide, by decide⟩

/-- An entry with one value. -/
theorem exSingle_ok : (⟨c!"2", c!"icl", none⟩ : FilterRow).Ok :=
  ⟨⟨by decide, by decide⟩, ⟨by decide, by decide⟩, by simp, ⟨by constructor <;> decide, by intro h; revert h; decide, by decide +kernel⟩⟩

example : ∃ l, Spaced [] c!"filter" l [] ∧ entries l = [(⟨c!"2", c!"icl", none⟩ : FilterRow)].map FilterRow.text := by
  obtain ⟨h1, h2⟩ := spaced_single c!"filter" [c!"2,icl"] [] (by constructor <;> decide) (by
    intro w hw; simp only [List.mem_singleton] at hw; subst hw; exact exSingle_ok.st) .nil
  exact ⟨_, h1, h2⟩

end Props
