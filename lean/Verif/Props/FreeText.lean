import Verif.Props.Whole
/-!
# Comments, multipliers and treatments of tallies: C95
-/
set_option maxRecDepth 100000
namespace Props
open Py Types Inp State

/-! ## C95 – cards that end in a text -/

/-- **C95, reading:** a comment, multiplier or treatment of a tally is read as the parts of its first word and the text of all other words,
whatever blank space and line breaks separate them; it is refused if the first word is wrong, if no words follow, or if an attribute is refused.  Missing:
text in which `=` or `$` or the number of blanks matters (`C95_violated`). -/
theorem C95_read_partial (r : FreeCard) (hr : r ∈ freeCards) (g0 w0 : Str) (l : List (Gap × Str)) (g1 : Str) (ht : Spaced g0 w0 l g1) :
    cardParse r.c (g0 ++ (w0 ++ (body l ++ g1))) = (readFree r w0 (entries l)).map (fun v => (v, [])) := by
  obtain ⟨hpre, -, hw⟩ := spaced_prep ht
  unfold cardParse
  rw [hpre, ← free_read (freeCards_ok r hr) w0 _ hw]
  cases reMatch r.c.re (w0 ++ enc (entries l)) with
  | none => rfl
  | some m =>
    simp only
    cases r.c.build m <;> rfl

/-- **C95, printing and reading back:** a comment, multiplier or treatment of a tally made of words keeps its number, its sign and its text, and
is found among all data cards.  Missing: as above, and words that are shorthand with a count. -/
theorem C95_roundtrip_partial (r : FreeCard) (hr : r ∈ freeCards) (hv : List Val) (ws : List Str) (hh : HeadOk r.h hv) (hne : ws ≠ [])
    (hx : ∀ w ∈ ws, Stable w) (v : Val) (hmk : r.c.mk' (hv ++ [.sc (.str (join [' '] ws))]) = .ok v) :
    cardParse r.c v.str = .ok (v, []) ∧ cardUnion dataCards v.str = .ok (v, []) := by
  obtain ⟨hd, he, hstr, hp, hrd, hw⟩ := free_round hr hv ws hh hne hx v hmk
  have hf := List.all_eq_true.1 free_first r hr
  simp only [Bool.and_eq_true, bne_iff_ne, ne_eq] at hf
  exact ⟨hp, C70_later r.c (free_data hr) v.str (v, []) hp (first_unclaimed (by simpa using hf.1))⟩

def exMulti : FreeCard := ⟨Tab.Fm, ⟨.plusStar, c!"fm", .req, .no⟩, Tab.Fm.attrs.take 2, ⟨"bins", (.base .str), false, (some .isNone)⟩⟩

theorem exMulti_mem : exMulti ∈ freeCards := by simp [freeCards, exMulti]

/-- The text `+FM4  (1 2 &⏎ -6)`. -/
example : cardParse Tab.Fm c!"+FM4  (1 2 &\n -6)" = .ok (.obj Tab.Fm.info [.sc (.str c!"+"), .sc (.int (.num 4)), .sc (.str c!"(1 2 -6)")], []) := by
  have h : Spaced [] c!"+FM4" [(.ws c!"  ", c!"(1"), (.ws c!" ", c!"2"), (.ws c!" &\n ", c!"-6)")] [] := {
    first := .nil
    word := by decide
    words := by
      intro x hx
      simp only [List.mem_cons, List.not_mem_nil, or_false] at hx
      rcases hx with rfl | rfl | rfl
      · exact ⟨⟨.sp (.sp .nil), by decide⟩, by decide⟩
      · exact ⟨⟨.sp .nil, by decide⟩, by decide⟩
      · exact ⟨⟨.sp (.amp 0 (.sp .nil)), by decide⟩, by decide⟩
    last := .nil
    low := by decide
    pos := by decide +kernel
    adj := by decide }
  have := C95_read_partial exMulti exMulti_mem [] _ _ [] h
  refine Eq.trans ?_ (this.trans ?_) <;> decide +kernel

/-- A number without words after it is refused, and so is a number that is too large. -/
example : readFree exMulti c!"fm4" [] = .error .inp ∧ readFree exMulti c!"fm100000000" [c!"1"] = .error .inp := by decide +kernel

def exMemo : Val := .obj Tab.Fc.info [.sc (.int (.num 14)), .sc (.str c!"dose in the core")]

/-- A comment on a tally. -/
example : exMemo.str = c!"fc14 dose in the core" ∧ cardUnion dataCards exMemo.str = .ok (exMemo, []) := by
  refine ⟨by decide +kernel, (C95_roundtrip_partial ⟨Tab.Fc, ⟨.no, c!"fc", .req, .no⟩, Tab.Fc.attrs.take 1, ⟨"info", (.base .str), false, (some .isNone)⟩⟩
    List.mem_cons_self [.sc (.int (.num 14))] [c!"dose", c!"in", c!"the", c!"core"] ⟨[], [.sc (.int (.num 14))], [], rfl, rfl, ⟨14, rfl⟩, rfl⟩ (by simp) ?_
    exMemo (by decide +kernel)).2⟩
  intro w hw
  simp only [List.mem_cons, List.not_mem_nil, or_false] at hw
  rcases hw with rfl | rfl | rfl | rfl <;>
    exact ⟨⟨by decide, by decide, by decide, by decide, by decide, by decide, by decide⟩, by intro h; revert h; decide +kernel, by decide +kernel⟩

/-- **The text is not kept in general:** equals signs become blanks, several blanks become one, everything after a dollar sign is lost, and
words that look like shorthand are written out. -/
theorem C95_violated :
    (cardUnion dataCards c!"fc4 a=b").map (·.1.str) = .ok c!"fc4 a b" ∧
    (cardUnion dataCards c!"fc4 a   b").map (·.1.str) = .ok c!"fc4 a b" ∧
    (cardUnion dataCards c!"fc4 cost $5").map (·.1.str) = .ok c!"fc4 cost" ∧
    (cardUnion dataCards c!"fc4 run 2r").map (·.1) = .ok (.obj Tab.Fc.info [.sc (.int (.num 4)), .sc (.str c!"run r r")]) := by
  decide +kernel

end Props
