import Verif.Inp.CellsRead
import Verif.Props.Card
/-!
# C54: lists of cells on tally cards
-/
set_option maxRecDepth 100000
namespace Props
open Py Types Inp

/-- **C54 fails for every list of bins:** a tally card that is accepted by the class of tallies over repeated structures and lists bins, each a
chain of cells `a<b<…` (or one cell), with any spacing and continuation lines and with or without the flag for the total, has one bin only: the
chain of all cells of all bins. -/
theorem C54_cards_merged (g0 w0 : Str) (l : List (Gap × Str)) (g1 : Str) (ht : Spaced g0 w0 l g1)
    (bs : List (List Str)) (tl : List Str) (he : entries l = bs.map (join ['<']) ++ tl) (hne : bs ≠ [])
    (hi : ∀ b ∈ bs, b ≠ [] ∧ ∀ n ∈ b, IsInt n)
    (hf : tl = [] ∨ ∃ c, tl = [[c]] ∧ lowerC c = 't') (v : Val) (cs : List Str)
    (hv : cardParse Tab.F_4 (g0 ++ (w0 ++ (body l ++ g1))) = .ok (v, cs)) :
    ∃ p s d t x, v = .obj Tab.F_4.info [p, s, d, .tuple [.sc (.lat x)], t] ∧ x.str = join ['<'] bs.flatten ∧
      (t = if tl = [] then .none else .sc (.str (join [' '] tl))) := by
  obtain ⟨hp, -, hw⟩ := spaced_prep ht
  obtain ⟨ns, hns⟩ : ∃ ns, ns = bs.map (join ['<']) := ⟨_, rfl⟩
  rw [← hns] at he
  have hnn : ns ≠ [] := by rw [hns]; simpa using hne
  have hch : ∀ n ∈ ns, ∀ c ∈ n, latChar c = true := by
    intro n hn c hc
    rw [hns] at hn
    obtain ⟨b, hb, rfl⟩ := List.mem_map.1 hn
    exact (bin_chars b (hi b hb).2 c hc).1
  rw [he] at hp hw
  unfold cardParse at hv
  rw [hp] at hv
  simp only at hv
  cases hm : reMatch Tab.F_4.re (w0 ++ enc (ns ++ tl)) with
  | none => rw [hm] at hv; cases hv
  | some m =>
    rw [hm] at hv
    obtain ⟨h4, h5⟩ := f4_caps hw hch hf hm
    have hst : ∀ ws : List Str, ws ≠ [] → Words ws → strip (enc ws) = join [' '] ws := by
      intro ws hn hws
      cases ws with
      | nil => exact absurd rfl hn
      | cons w ws => rw [strip_enc w ws hws, join_enc]
    have hen : ∀ ws : List Str, ws ≠ [] → ∃ d t, enc ws = d :: t := by
      intro ws hn
      cases ws with
      | nil => exact absurd rfl hn
      | cons w ws => exact ⟨_, _, enc_cons w ws⟩
    obtain ⟨a0, a1, a2, a3, a4, hca, p3, p4⟩ : ∃ a0 a1 a2 a3 a4 : Attr, Tab.F_4.attrs = [a0, a1, a2, a3, a4] ∧
        (a3.ty = .base .lat ∧ a3.many = true) ∧ (a4.ty = .base .str ∧ a4.many = false) :=
      ⟨_, _, _, _, _, rfl, ⟨rfl, rfl⟩, ⟨rfl, rfl⟩⟩
    have v3 : attrVal Tab.F_4.pat.ng m 3 a3 = .ok (.tuple [.sc (.lat (chains bs))]) := by
      unfold attrVal
      rw [if_neg (by decide +kernel), h4]
      obtain ⟨d, t, hdt⟩ := hen ns hnn
      have hs := hst ns hnn (fun x hx => hw x (by simp [hx]))
      rw [hdt] at hs ⊢
      simp only
      rw [hs]
      unfold Attr.parse tupleParse
      rw [if_pos p3.2, p3.1]
      have hl := lat_lexes_one (listPieces bs) (list_ok bs hi) (by
        intro e
        have := list_ne hne hi
        rw [e] at this
        exact this rfl) 1
      rw [list_texts, ← hns] at hl
      show (List.mapM (m := Except Err) (Ty.parse (.base .lat)) (finditer (Kind.re 1 .lat) (join [' '] ns))).map Val.tuple = _
      rw [hl]
      have hp : Ty.parse (.base .lat) (join [' '] ns) = .ok (.sc (.lat (chains bs))) := by
        show (latParse _).map _ = _
        rw [hns, list_parse bs hne hi]; rfl
      simp only [List.mapM_cons, List.mapM_nil, hp]
      rfl
    have v4 : attrVal Tab.F_4.pat.ng m 4 a4 = .ok (if tl = [] then .none else .sc (.str (join [' '] tl))) := by
      unfold attrVal
      rw [if_neg (by decide +kernel), h5]
      by_cases htl : tl = []
      · rw [if_pos htl, if_pos htl]
      · rw [if_neg htl, if_neg htl]
        obtain ⟨d, t, hdt⟩ := hen tl htl
        have hs := hst tl htl (fun x hx => hw x (by simp [hx]))
        rw [hdt] at hs ⊢
        simp only
        rw [hs]
        unfold Attr.parse
        rw [if_neg (by rw [p4.2]; simp), p4.1]
        rfl
    simp only [Cls.build, hca, attrVals] at hv
    rw [v3, v4] at hv
    cases h0 : attrVal Tab.F_4.pat.ng m 0 a0 with
    | error e => rw [h0] at hv; cases hv
    | ok x0 =>
      rw [h0] at hv
      cases h1 : attrVal Tab.F_4.pat.ng m (0 + 1) a1 with
      | error e => rw [h1] at hv; cases hv
      | ok x1 =>
        rw [h1] at hv
        cases h2 : attrVal Tab.F_4.pat.ng m (0 + 1 + 1) a2 with
        | error e => rw [h2] at hv; cases hv
        | ok x2 =>
          rw [h2] at hv
          simp only at hv
          split at hv
          · cases hv
          · rename_i u hu
            simp only [Except.ok.injEq, Prod.mk.injEq] at hv
            exact ⟨x0, x1, x2, _, chains bs, by rw [← hv.1, mk_obj hu], chains_str bs hne (fun b hb => (hi b hb).1), rfl⟩

/-- The card `f4:n 1 2<3 4 t`, with three bins and a total: it is accepted and printed with one bin. -/
example : Spaced [] c!"f4:n" [(.ws c!" ", c!"1"), (.ws c!" ", c!"2<3"), (.ws c!" ", c!"4"), (.ws c!" ", c!"t")] [] ∧
    [c!"1", c!"2<3", c!"4"] = [[c!"1"], [c!"2", c!"3"], [c!"4"]].map (join ['<']) ∧
    (∀ b ∈ [[c!"1"], [c!"2", c!"3"], [c!"4"]], b ≠ [] ∧ ∀ n ∈ b, IsInt n) ∧
    (cardParse Tab.F_4 c!"f4:n 1 2<3 4 t").map (fun r => r.1.str) = .ok c!"f4:n 1<2<3<4 t" := by
  have hd : ∀ c ∈ c!"1234", IsInt [c] := by
    intro c hc
    refine ⟨[], [c], .inl rfl, by simp, ?_, rfl⟩
    intro x hx
    rw [List.mem_singleton.1 hx]
    exact (by decide : ∀ c ∈ c!"1234", isDigit c = true) c hc
  refine ⟨⟨.nil, by decide, ?_, .nil, by decide, by decide, by decide⟩, by decide, ?_, by decide +kernel⟩
  · intro x hx
    simp only [List.mem_cons, List.not_mem_nil, or_false] at hx
    rcases hx with rfl | rfl | rfl | rfl <;> exact ⟨⟨.sp .nil, by decide⟩, by decide⟩
  · intro b hb
    simp only [List.mem_cons, List.not_mem_nil, or_false] at hb
    rcases hb with rfl | rfl | rfl <;> refine ⟨by simp, ?_⟩ <;> intro n hn <;>
      simp only [List.mem_cons, List.not_mem_nil, or_false] at hn
    · subst hn; exact hd '1' (by decide)
    · rcases hn with rfl | rfl
      · exact hd '2' (by decide)
      · exact hd '3' (by decide)
    · subst hn; exact hd '4' (by decide)

end Props
