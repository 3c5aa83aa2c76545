import Verif.Inp.RowOption
import Verif.Props.Grouped
/-!
# C92: rows of entries in cards and in options
-/
set_option maxRecDepth 100000
namespace Props
open Py Types Inp

/-- **C92, options with rows:** the biases of delayed neutrons and photons and the materials of meshes are printed as a text that is read
back with all their rows.  Missing: rows with shorthand that has a count. -/
theorem C92_option_rows_partial (r : RowCard) (hr : r ∈ rowOptions) (xs : List Val) (hne : xs ≠ [])
    (hx : ∀ x ∈ xs, RowItemVal r.item x) (v : Val) (hmk : r.c.mk' [.tuple xs] = .ok v) : unionParse [r.c] v.str = .ok v := by
  refine rows_option hr [] xs ?_ hne hx v hmk
  simp only [rowOptions, List.mem_cons, List.not_mem_nil, or_false] at hr
  rcases hr with rfl | rfl | rfl <;> exact ⟨[], [], [], rfl, rfl, rfl, rfl⟩

def exBias (a b : Nat) : Val := .obj Tab.act_dneb_Bias.info [.sc (.real (.num (.fin ⟨false, a, 0⟩))), .sc (.real (.num (.fin ⟨false, b, -1⟩)))]

theorem exBias_ok (a b : Nat) : RowItemVal (.entry Tab.act_dneb_Bias [.real, .real]) (exBias a b) :=
  ⟨[.sc (.real (.num (.fin ⟨false, a, 0⟩))), .sc (.real (.num (.fin ⟨false, b, -1⟩)))],
    ⟨⟨rfl, .real, rfl, trivial⟩, ⟨rfl, .real, rfl, trivial⟩, trivial⟩, by simp, rfl⟩

/-- Two biases of delayed neutrons. -/
example : (Val.obj Tab.act_Dneb.info [.tuple [exBias 3 25, exBias 4 15]]).str = c!"dneb 3 2.5 4 1.5" ∧
    unionParse [Tab.act_Dneb] (Val.obj Tab.act_Dneb.info [.tuple [exBias 3 25, exBias 4 15]]).str =
      .ok (Val.obj Tab.act_Dneb.info [.tuple [exBias 3 25, exBias 4 15]]) := by
  refine ⟨by decide +kernel, C92_option_rows_partial _ List.mem_cons_self [exBias 3 25, exBias 4 15] (by simp) ?_ _ rfl⟩
  intro x hx
  simp only [List.mem_cons, List.not_mem_nil, or_false] at hx
  rcases hx with rfl | rfl <;> exact exBias_ok _ _

/-- **C92, reading rows in cards:** any text with arbitrary spacing, continuation lines and shorthand whose words are a first word of the
card and rows of entries is read row by row: every element comes from its own row. -/
theorem C92_rows_read (r : RowCard) (hr : r ∈ rowCards) (g0 w0 : Str) (l : List (Gap × Str)) (g1 : Str) (ht : Spaced g0 w0 l g1)
    (hv : List (Option Str)) (hd : readHead r.h w0 = some hv) (rows : List (List Str)) (hne : rows ≠ []) (he : entries l = rows.flatten)
    (hx : ∀ y ∈ rows, All2 r.item.ps y) : cardParse r.c (g0 ++ (w0 ++ (body l ++ g1))) = (r.read hv rows).map (fun v => (v, [])) := by
  obtain ⟨hp, -, hw⟩ := spaced_prep ht
  rw [he] at hp hw
  have h := rows_words (rowCards_ok r hr) hw hd hne hx
  unfold cardParse
  rw [hp]
  simp only
  rw [← h]
  cases reMatch r.c.re (w0 ++ enc rows.flatten) with
  | none => rfl
  | some m =>
    simp only
    cases r.c.build m <;> rfl

/-- **C92, reading rows in options:** as for cards. -/
theorem C92_option_rows_read (r : RowCard) (hr : r ∈ rowOptions) (g0 w0 : Str) (l : List (Gap × Str)) (g1 : Str) (ht : Spaced g0 w0 l g1)
    (hv : List (Option Str)) (hd : readHead r.h w0 = some hv) (rows : List (List Str)) (hne : rows ≠ []) (he : entries l = rows.flatten)
    (hx : ∀ y ∈ rows, All2 r.item.ps y) : unionParse [r.c] (g0 ++ (w0 ++ (body l ++ g1))) = r.read hv rows := by
  obtain ⟨-, hp, hw⟩ := spaced_prep ht
  rw [he] at hp hw
  exact union_one hp (rows_words (rowOptions_ok r hr) hw hd hne hx)

/-- **C92, rows that are not complete are refused:** a text in which the number of words is not a multiple of the length of a row, or that
has none, raises the documented error. -/
theorem C92_rows_refused (r : RowCard) (hr : r ∈ rowCards ∨ r ∈ rowOptions) (g0 w0 : Str) (l : List (Gap × Str)) (g1 : Str)
    (ht : Spaced g0 w0 l g1) (hb : entries l = [] ∨ (entries l).length % r.item.width ≠ 0) :
    cardParse r.c (g0 ++ (w0 ++ (body l ++ g1))) = .error .inp ∧ unionParse [r.c] (g0 ++ (w0 ++ (body l ++ g1))) = .error .inp := by
  obtain ⟨hp, hq, hw⟩ := spaced_prep ht
  have ok : r.Ok := hr.elim (rowCards_ok r) (rowOptions_ok r)
  have hm : reMatch r.c.re (w0 ++ enc (entries l)) = none := by
    cases hm : reMatch r.c.re (w0 ++ enc (entries l)) with
    | none => rfl
    | some m =>
      obtain ⟨h1, h2⟩ := rows_whole ok hw hm
      rcases hb with hb | hb
      · exact absurd hb h1
      · exact absurd h2 hb
  refine ⟨?_, union_one hq (by rw [hm])⟩
  unfold cardParse
  rw [hp, hm]

/-- Two points on two lines. -/
def exLine : List (Gap × Str) := [(.ws c!"  ", c!"0"), (.ws c!" ", c!"0"), (.ws c!" &\n ", c!"2.5"), (.ws c!" ", c!"1"), (.ws c!" ", c!"j"), (.ws c!" ", c!"0")]

theorem exLine_spaced : Spaced [] c!"KSRC" exLine [] where
  first := .nil
  word := by decide
  words := by
    intro x hx
    simp only [exLine, List.mem_cons, List.not_mem_nil, or_false] at hx
    rcases hx with rfl | rfl | rfl | rfl | rfl | rfl
    · exact ⟨⟨.sp (.sp .nil), by decide⟩, by decide⟩
    · exact ⟨⟨.sp .nil, by decide⟩, by decide⟩
    · exact ⟨⟨.sp (.amp 0 (.sp .nil)), by decide⟩, by decide⟩
    · exact ⟨⟨.sp .nil, by decide⟩, by decide⟩
    · exact ⟨⟨.sp .nil, by decide⟩, by decide⟩
    · exact ⟨⟨.sp .nil, by decide⟩, by decide⟩
  last := .nil
  low := by decide
  pos := by decide
  adj := by decide

example : cardParse Tab.Ksrc c!"KSRC  0 0 &\n 2.5 1 j 0" = .ok (exPoints, []) := by
  have h := C92_rows_read _ exRow [] c!"KSRC" exLine [] exLine_spaced [] (by decide) [[c!"0", c!"0", c!"2.5"], [c!"1", c!"j", c!"0"]] (by simp)
    (by decide) (by
      intro y hy
      have k : ∀ w, unitOk (.ty (.base .int)) w = true → Full numRe w := fun w h => int_full h
      simp only [List.mem_cons, List.not_mem_nil, or_false] at hy
      rcases hy with rfl | rfl <;> exact ⟨k _ (by decide +kernel), k _ (by decide +kernel), k _ (by decide +kernel), trivial⟩)
  rw [show [] ++ (c!"KSRC" ++ (body exLine ++ [])) = c!"KSRC  0 0 &\n 2.5 1 j 0" by decide] at h
  rw [h]
  decide +kernel

/-- A point that is not complete, a bias without its energy. -/
example : cardParse Tab.Ksrc c!"KSRC  0 0 &\n 2.5 1" = .error .inp ∧ unionParse [Tab.act_Dneb] c!"dneb 3 2.5 4" = .error .inp := by
  decide +kernel

end Props
