import Verif.Inp.LatticeRead
import Verif.Inp.DeepRound
import Verif.Props.Scalar
/-!
# C106 – lattices

`readLattice`, `latticeObj`, `SpanWord` and `originWords` are specified in `Verif/Inp/LatticeSpec.lean`, `FillWord` in `Verif/Inp/DeepSpec.lean`.
-/
set_option maxRecDepth 100000
namespace Props
open Py Types Inp

/-- **C106, reading:** the option of a lattice that is read on its own, among all options of a cell or of a cell made like another, is read
as the option that holds its star, its three ranges, all its universes in their order, and its origin, whatever blank space and line breaks separate the
entries.  What is no whole number or no range of whole numbers is refused with the error of that entry. -/
theorem C106_read (like star : Bool) (g0 w0 : Str) (l : List (Gap × Str)) (g1 : Str) (hs : Spaced g0 w0 l g1) (hw : FillWord star w0)
    (i j k : Str) (us : List Str) (m : Option Str) (he : entries l = i :: j :: k :: (us ++ originWords m))
    (hi : SpanWord i) (hj : SpanWord j) (hk : SpanWord k) (hne : us ≠ []) (hu : ∀ u ∈ us, unitOk (.ty (.base .int)) u = true)
    (hm : ∀ x ∈ m, unitOk (.ty (.base .int)) x = true) :
    unionParse (optionsOf like) (g0 ++ (w0 ++ (body l ++ g1))) = readLattice like star i j k us m := by
  obtain ⟨-, hp, hws⟩ := spaced_prep hs
  rw [he] at hp hws
  obtain ⟨M, h1, h2⟩ := lattice_first like hws hw hi hj hk hne (fun u h => int_full (hu u h)) (fun x h => int_full (hm x h))
  unfold unionParse
  rw [hp, h1]
  exact h2

/-- `*FILL 0:1  0:0 -2:3 7 &⏎ 8 9 (4)`. -/
example : unionParse cellOptions c!"*FILL 0:1  0:0 -2:3 7 &\n 8 9 (4)" =
    .ok (latticeObj false true ⟨0, 1⟩ ⟨0, 0⟩ ⟨-2, 3⟩ [.num 7, .num 8, .num 9] (some (.num 4))) := by
  have := C106_read false true [] c!"*FILL" [(.ws c!" ", c!"0:1"), (.ws c!"  ", c!"0:0"), (.ws c!" ", c!"-2:3"), (.ws c!" ", c!"7"), (.ws c!" &\n ", c!"8"),
    (.ws c!" ", c!"9"), (.ws c!" ", c!"(4)")] [] ⟨.nil, by decide, by
      intro x hx
      simp only [List.mem_cons, List.not_mem_nil, or_false] at hx
      rcases hx with rfl | rfl | rfl | rfl | rfl | rfl | rfl
      · exact ⟨⟨.sp .nil, by simp⟩, by decide⟩
      · exact ⟨⟨.sp (.sp .nil), by simp⟩, by decide⟩
      · exact ⟨⟨.sp .nil, by simp⟩, by decide⟩
      · exact ⟨⟨.sp .nil, by simp⟩, by decide⟩
      · exact ⟨⟨.sp (.amp 0 (.sp .nil)), by simp⟩, by decide⟩
      · exact ⟨⟨.sp .nil, by simp⟩, by decide⟩
      · exact ⟨⟨.sp .nil, by simp⟩, by decide⟩, .nil, by decide, by decide, by decide⟩
    ⟨c!"FILL", by decide, rfl⟩ c!"0:1" c!"0:0" c!"-2:3" [c!"7", c!"8", c!"9"] (some c!"4") (by decide +kernel)
    ⟨c!"0", c!"1", by decide, by decide, rfl⟩ ⟨c!"0", c!"0", by decide, by decide, rfl⟩ ⟨c!"-2", c!"3", by decide, by decide, rfl⟩ (by decide)
    (by decide +kernel) (by decide +kernel)
  exact this.trans (by decide +kernel)

/-- The words of a printed lattice. -/
def latticeText (i j k : Index) (us : List Int) : List Str := Index.str i :: Index.str j :: Index.str k :: us.map intStr

theorem join_words (ws : List Str) (w : Str) : join [' '] (w :: ws) = w ++ enc ws := join_enc w ws

theorem lattice_str (like star : Bool) (i j k : Index) (us : List Int) (hne : us ≠ []) (m : Option Int) :
    (latticeObj like star i j k (us.map .num) (m.map .num)).str = fillWord0 star ++ enc (latticeText i j k (us ++ m.toList)) := by
  have ht : (Val.tuple ((us.map IntVal.num).map (fun n => Val.sc (.int n)))).text = some (join [' '] (us.map intStr)) := by
    show some (join [' '] ((Val.parts ((us.map IntVal.num).map (fun n => Val.sc (.int n)))).map _)) = _
    rw [Val.parts_eq]
    simp only [List.map_map]
    rfl
  have hi : (latticeCls like).info = ⟨"Fill_0", .option, c!"fill", ["prefix", "i", "j", "k", "universes", "m"]⟩ := by cases like <;> rfl
  obtain ⟨u, us, rfl⟩ := List.exists_cons_of_ne_nil hne
  unfold latticeObj
  rw [hi, obj_str]
  simp only [Val.parts, ht]
  have hj : join [' '] ((u :: us).map intStr) = intStr u ++ enc (us.map intStr) := by rw [List.map_cons, join_enc]
  rw [hj]
  cases m with
  | none =>
    have : objStr ⟨"Fill_0", .option, c!"fill", ["prefix", "i", "j", "k", "universes", "m"]⟩ [(if star then Val.sc (.str ['*']) else .none).text, (Val.sc (.index i)).text,
        (Val.sc (.index j)).text, (Val.sc (.index k)).text, some (intStr u ++ enc (us.map intStr)), Val.none.text] =
        fillWord0 star ++ ' ' :: (Index.str i ++ ' ' :: (Index.str j ++ ' ' :: (Index.str k ++ ' ' :: (intStr u ++ enc (us.map intStr))))) := by
      cases star <;> simp [objStr, headStr, bodyStr, part, special, join, fillWord0, Val.text, Sc.text, orNil]
    refine this.trans ?_
    simp [latticeText, enc_cons]
  | some m =>
    have : objStr ⟨"Fill_0", .option, c!"fill", ["prefix", "i", "j", "k", "universes", "m"]⟩ [(if star then Val.sc (.str ['*']) else .none).text, (Val.sc (.index i)).text,
        (Val.sc (.index j)).text, (Val.sc (.index k)).text, some (intStr u ++ enc (us.map intStr)), (Val.sc (.int (.num m))).text] =
        fillWord0 star ++ ' ' :: (Index.str i ++ ' ' :: (Index.str j ++ ' ' :: (Index.str k ++ ' ' :: ((intStr u ++ enc (us.map intStr)) ++ ' ' :: intStr m)))) := by
      cases star <;> simp [objStr, headStr, bodyStr, part, special, join, fillWord0, Val.text, Sc.text, orNil, IntVal.str]
    refine this.trans ?_
    simp [latticeText, enc_cons, enc_append, enc]

theorem readUnis_ints (us : List Int) : readUnis (us.map intStr) = .ok (us.map .num) := by
  induction us with
  | nil => rfl
  | cons u us ih =>
    have h : intParse (intStr u) = .ok (.num u) := C02_integer_roundtrip u
    simp only [List.map_cons, readUnis, h, ih]

theorem index_stable (x : Index) : Stable (Index.str x) := by
  have hc : ∀ c ∈ Index.str x, numCh c = true ∨ c = ':' := by
    intro c hc
    unfold Index.str at hc
    rcases List.mem_append.1 hc with hc | hc
    · rcases intStr_chars _ c hc with h | rfl
      · exact .inl (numCh_digit h)
      · exact .inl (by decide)
    · rcases List.mem_cons.1 hc with rfl | hc
      · exact .inr rfl
      · rcases intStr_chars _ c hc with h | rfl
        · exact .inl (numCh_digit h)
        · exact .inl (by decide)
  have hmem : ':' ∈ Index.str x := by unfold Index.str; simp
  have hsh : ∀ w : Str, ':' ∈ w → lower w ∉ shorthand := by
    intro w hw hl
    have h1 : ':' ∈ lower w := List.mem_map.2 ⟨':', hw, rfl⟩
    have h2 : ∀ v ∈ shorthand, ':' ∉ v := by decide
    exact h2 _ hl h1
  have facts : ∀ c ∈ Index.str x, isSpace c = false ∧ c ≠ '&' ∧ c ≠ '=' ∧ c ≠ '$' ∧ c ≠ '(' ∧ c ≠ ')' := by
    intro c h
    rcases hc c h with h | rfl
    · obtain ⟨a1, a2, a3, a4, a5, a6, -⟩ := numCh_facts h
      exact ⟨a1, a2, a3, a4, a5, a6⟩
    · decide
  refine ⟨⟨fun h => (by rw [h] at hmem; cases hmem), fun c h => (facts c h).1, fun h => (facts _ h).2.1 rfl, fun h => (facts _ h).2.2.1 rfl,
    fun h => (facts _ h).2.2.2.1 rfl, fun h => (facts _ (List.mem_of_getLast? h)).2.2.2.2.1 rfl,
    fun h => (facts _ (List.mem_of_mem_head? h)).2.2.2.2.2 rfl⟩, fun h => absurd h (hsh _ hmem), ?_⟩
  unfold countedEntry
  rw [if_neg]
  rintro ⟨-, h⟩
  refine hsh _ ?_ h
  have : Index.str x = (Index.str x).takeWhile isDigit ++ (Index.str x).dropWhile isDigit := List.takeWhile_append_dropWhile.symm
  rw [this] at hmem
  rcases List.mem_append.1 hmem with h | h
  · have := List.all_eq_true.1 (List.all_takeWhile (p := isDigit) (l := Index.str x)) _ h
    exact absurd this (by decide)
  · exact h

/-- The words of a printed lattice are read as its parts. -/
theorem lattice_text_read (like star : Bool) (i j k : Index) (us : List Int) (hne : us ≠ []) :
    unionParse (optionsOf like) (fillWord0 star ++ enc (latticeText i j k us)) = .ok (latticeObj like star i j k (us.map .num) none) := by
  have hidx : ∀ x : Index, Stable (Index.str x) ∧ SpanWord (Index.str x) := by
    intro x
    refine ⟨index_stable x, intStr x.lower, intStr x.upper, ?_, ?_, rfl⟩
    · exact (plain_int _).entry.ne
    · exact (plain_int _).entry.ne
  have hst : ∀ w ∈ latticeText i j k us, Stable w := by
    intro w hw
    simp only [latticeText, List.mem_cons, List.mem_map] at hw
    rcases hw with rfl | rfl | rfl | ⟨u, -, rfl⟩
    · exact (hidx i).1
    · exact (hidx j).1
    · exact (hidx k).1
    · exact plain_int u
  obtain ⟨h1, h2⟩ := spaced_single (fillWord0 star) (latticeText i j k us) [] (by cases star <;> decide) hst .nil
  have := C106_read like star [] (fillWord0 star) _ [] h1 ⟨c!"fill", by decide, rfl⟩ (Index.str i) (Index.str j) (Index.str k) (us.map intStr) none
    (by rw [h2]; simp [latticeText, originWords]) (hidx i).2 (hidx j).2 (hidx k).2 (by simpa using hne)
    (by
      intro w hw
      obtain ⟨u, -, rfl⟩ := List.mem_map.1 hw
      exact sc_unit (k := .int) (s := .int (.num u)) trivial)
    (by intro x hx; cases hx)
  rw [single_body] at this
  simp only [List.nil_append, List.append_nil] at this
  rw [this]
  have hx : ∀ x : Index, indexParse (Index.str x) = .ok x := fun x => C10_index_roundtrip x.lower x.upper
  simp only [readLattice, hx, readUnis_ints]

/-- **C106, round trip:** a lattice without origin is printed as a text that is read back as the same lattice: star, ranges and all universes. Missing: lattices with an
origin, for which the claim is false (`C106_origin_lost`), and universes given by shorthand. -/
theorem C106_roundtrip_partial (like star : Bool) (i j k : Index) (us : List Int) (hne : us ≠ []) :
    unionParse (optionsOf like) (latticeObj like star i j k (us.map .num) none).str = .ok (latticeObj like star i j k (us.map .num) none) := by
  have := lattice_str like star i j k us hne none
  simp only [Option.map_none, Option.toList_none, List.append_nil] at this
  rw [this]
  exact lattice_text_read like star i j k us hne

example : (latticeObj false true ⟨0, 1⟩ ⟨0, 0⟩ ⟨-2, 3⟩ ([7, 8, 9].map .num) none).str = c!"*fill 0:1 0:0 -2:3 7 8 9" := by decide +kernel

/-- **C106, the origin is not read back:** it is printed without its parentheses and read back as one more universe, for every lattice that has one. -/
theorem C106_origin_lost (like star : Bool) (i j k : Index) (us : List Int) (hne : us ≠ []) (m : Int) :
    unionParse (optionsOf like) (latticeObj like star i j k (us.map .num) (some (.num m))).str =
      .ok (latticeObj like star i j k ((us ++ [m]).map .num) none) := by
  have := lattice_str like star i j k us hne (some m)
  simp only [Option.map_some, Option.toList_some] at this
  rw [this]
  exact lattice_text_read like star i j k (us ++ [m]) (by simp)

end Props
