import Verif.Inp.CellsUnion
import Verif.Props.TallyCells
import Verif.Props.DataCard
/-!
# C54: chains of cells on tally cards of whole files
-/
set_option maxRecDepth 100000
namespace Props
open Py Types Inp

/-- The classes of data cards with the keyword `f`. -/
theorem f_cards : dataCards.filter (fun d => d.word == Tab.F_4.word) = [Tab.F_0, Tab.F_1, Tab.F_2, Tab.F_3, Tab.F_4] := rfl

/-- **C54 fails in whole files:** when at least one bin is a chain of two or more cells, the data block reads the card as a tally over repeated
structures (no class before it takes the card), so that all bins of the card are merged into one, the chain of all cells of all bins. -/
theorem C54_file_merged (g0 w0 : Str) (l : List (Gap × Str)) (g1 : Str) (ht : Spaced g0 w0 l g1)
    (bs : List (List Str)) (tl : List Str) (he : entries l = bs.map (join ['<']) ++ tl) (h2 : ∃ b ∈ bs, 2 ≤ b.length)
    (hi : ∀ b ∈ bs, b ≠ [] ∧ ∀ n ∈ b, IsInt n)
    (hf : tl = [] ∨ ∃ c, tl = [[c]] ∧ lowerC c = 't') (v : Val) (cs : List Str)
    (hv : cardParse Tab.F_4 (g0 ++ (w0 ++ (body l ++ g1))) = .ok (v, cs)) :
    cardUnion dataCards (g0 ++ (w0 ++ (body l ++ g1))) = .ok (v, cs) ∧
    ∃ p s d t x, v = .obj Tab.F_4.info [p, s, d, .tuple [.sc (.lat x)], t] ∧ x.str = join ['<'] bs.flatten := by
  obtain ⟨b, hb, hbl⟩ := h2
  constructor
  · obtain ⟨hp, -, hw⟩ := spaced_prep ht
    have hlt : '<' ∈ enc (entries l) := by
      rw [he, enc_append]
      refine List.mem_append.2 (.inl ?_)
      simp only [enc, List.mem_flatMap, List.mem_map]
      refine ⟨_, ⟨b, hb, rfl⟩, List.mem_cons_of_mem _ ?_⟩
      match b, hbl with
      | x :: y :: r, _ => simp [join]
    have hm : ∃ m, reMatch Tab.F_4.re (w0 ++ enc (entries l)) = some m := by
      unfold cardParse at hv
      rw [hp] at hv
      cases hm : reMatch Tab.F_4.re (w0 ++ enc (entries l)) with
      | none => rw [hm] at hv; cases hv
      | some m => exact ⟨m, rfl⟩
    obtain ⟨m, hm⟩ := hm
    have none_err : ∀ c : Cls, reMatch c.re (w0 ++ enc (entries l)) = none →
        ∃ e : Err, cardParse c (g0 ++ (w0 ++ (body l ++ g1))) = .error e ∧ e.isLibrary = true := by
      intro c hc
      refine ⟨.inp, ?_, rfl⟩
      unfold cardParse
      rw [hp, hc]
    have hd := det_refuse hw hm
    refine C70_later Tab.F_4 (by simp [dataCards]) _ _ hv ?_
    intro c hc hcw
    have : c = Tab.F_0 ∨ c = Tab.F_1 ∨ c = Tab.F_2 ∨ c = Tab.F_3 := by
      have hm : c ∈ dataCards.filter (fun d => d.word == Tab.F_4.word) := List.mem_filter.2 ⟨mem_takeWhile hc, (by simpa using hcw : (c.word == Tab.F_4.word) = true)⟩
      rw [f_cards] at hm
      simp only [List.mem_cons, List.not_mem_nil, or_false] at hm
      rcases hm with h | h | h | h | rfl
      · exact .inl h
      · exact .inr (.inl h)
      · exact .inr (.inr (.inl h))
      · exact .inr (.inr (.inr h))
      · have := List.all_eq_true.1 (List.all_takeWhile (p := (fun d : Cls => d.info.name != Tab.F_4.info.name)) (l := dataCards)) _ hc
        simp at this
    rcases this with rfl | rfl | rfl | rfl
    · exact none_err _ (plain_refuse (ds := ['1', '2', '3', '4', '6', '7']) (by simp [tallyCards]) hw hlt)
    · exact none_err _ hd.1
    · exact none_err _ hd.2
    · exact none_err _ (plain_refuse (ds := ['8']) (by simp [tallyCards]) hw hlt)
  · obtain ⟨p, s, d, t, x, h1, h2, -⟩ := C54_cards_merged g0 w0 l g1 ht bs tl he (by rintro rfl; cases hb) hi hf v cs hv
    exact ⟨p, s, d, t, x, h1, h2⟩

/-- **C54 for cards with one bin:** a tally over repeated structures with a single chain of cells keeps it, cell by cell. Missing: cards with
several bins, for which the claim is false (`C54_cards_merged`), and bins with parentheses or ranges. -/
theorem C54_one_bin_partial (g0 w0 : Str) (l : List (Gap × Str)) (g1 : Str) (ht : Spaced g0 w0 l g1)
    (b : List Str) (tl : List Str) (he : entries l = join ['<'] b :: tl) (hb : b ≠ []) (hi : ∀ n ∈ b, IsInt n)
    (hf : tl = [] ∨ ∃ c, tl = [[c]] ∧ lowerC c = 't') (v : Val) (cs : List Str)
    (hv : cardParse Tab.F_4 (g0 ++ (w0 ++ (body l ++ g1))) = .ok (v, cs)) :
    ∃ p s d t x, v = .obj Tab.F_4.info [p, s, d, .tuple [.sc (.lat x)], t] ∧ x.str = join ['<'] b ∧
      (t = if tl = [] then .none else .sc (.str (join [' '] tl))) := by
  obtain ⟨p, s, d, t, x, h1, h2, h3⟩ := C54_cards_merged g0 w0 l g1 ht [b] tl (by simpa using he) (by simp)
    (by intro y hy; rw [List.mem_singleton.1 hy]; exact ⟨hb, hi⟩) hf v cs hv
  exact ⟨p, s, d, t, x, h1, by simpa using h2, h3⟩

/-- The card `*f14:n,p 2<-3 T`. -/
example : Spaced [] c!"*f14:n,p" [(.ws c!" ", c!"2<-3"), (.ws c!" ", c!"T")] [] ∧ c!"2<-3" = join ['<'] [c!"2", c!"-3"] ∧ IsInt c!"-3" ∧
    (cardParse Tab.F_4 c!"*f14:n,p 2<-3 T").map (fun r => r.1.str) = .ok c!"*f14:n,p 2<-3 T" := by
  refine ⟨⟨.nil, by decide, ?_, .nil, by decide, by decide, by decide⟩, by decide, ?_, by decide +kernel⟩
  · intro x hx
    simp only [List.mem_cons, List.not_mem_nil, or_false] at hx
    rcases hx with rfl | rfl <;> exact ⟨⟨.sp .nil, by decide⟩, by decide⟩
  · exact ⟨['-'], ['3'], .inr (.inr rfl), by simp, by intro c hc; rw [List.mem_singleton.1 hc]; decide, rfl⟩

/-- The card `f4:n 1 2<3 4 t` in the data block of a file, with three bins and a total: it is read and printed with one bin. -/
example : (∃ b ∈ [[c!"1"], [c!"2", c!"3"], [c!"4"]], 2 ≤ b.length) ∧
    Spaced [] c!"f4:n" [(.ws c!" ", c!"1"), (.ws c!" ", c!"2<3"), (.ws c!" ", c!"4"), (.ws c!" ", c!"t")] [] ∧
    (cardParse Tab.F_4 c!"f4:n 1 2<3 4 t").map (fun r => r.1.str) = .ok c!"f4:n 1<2<3<4 t" ∧
    (cardUnion dataCards c!"f4:n 1 2<3 4 t").map (fun r => r.1.str) = .ok c!"f4:n 1<2<3<4 t" := by
  refine ⟨⟨[c!"2", c!"3"], by simp, by simp⟩, ⟨.nil, by decide, ?_, .nil, by decide, by decide, by decide⟩, by decide +kernel, by decide +kernel⟩
  intro x hx
  simp only [List.mem_cons, List.not_mem_nil, or_false] at hx
  rcases hx with rfl | rfl | rfl | rfl <;> exact ⟨⟨.sp .nil, by decide⟩, by decide⟩

end Props
