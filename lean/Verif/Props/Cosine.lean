import Verif.Inp.CosineRead
import Verif.Props.Card
/-!
# C26: cosine bins
-/
set_option maxRecDepth 100000
namespace Props
open Py Types Inp

/-- **C26, cosine cards:** a card `c` with any spacing and continuation lines is read word by word, like the other cards of bins. -/
theorem C26_cosine_read (g0 w0 : Str) (l : List (Gap × Str)) (g1 : Str) (ht : Spaced g0 w0 l g1) :
    cardParse Tab.C (g0 ++ (w0 ++ (body l ++ g1))) = (readWords Tab.C cosHead cosFields w0 (entries l)).map (fun v => (v, [])) := by
  obtain ⟨hp, -, hw⟩ := spaced_prep ht
  have h := cos_read w0 _ hw
  unfold cardParse
  rw [hp]
  simp only
  rw [← h]
  cases reMatch Tab.C.re (w0 ++ enc (entries l)) with
  | none => rfl
  | some m =>
    simp only
    cases Tab.C.build m <;> rfl

/-- **C26 fails for cosine cards, all of them:** with at least three entries the last two are always taken as the flags, whatever they are. -/
theorem C26_cosine_last_two (g0 w0 : Str) (l : List (Gap × Str)) (g1 : Str)
    (ht : Spaced g0 w0 l g1) (w : Str) (bs : List Str) (a b : Str) (he : entries l = w :: (bs ++ [a, b]))
    (hb : ∀ x ∈ w :: bs, unitOk (.ty (.base .real)) x = true) (v : Val) (cs : List Str)
    (hv : cardParse Tab.C (g0 ++ (w0 ++ (body l ++ g1))) = .ok (v, cs)) :
    ∃ star s bounds, v = .obj Tab.C.info [star, s, .tuple bounds, .sc (.str a), .sc (.str b)] ∧
      (w :: bs).mapM (Kind.parse .real) = .ok bounds := by
  have hW := (spaced_prep ht).2.2
  have hany : ∀ x ∈ [a, b], unitOk (.ty (.base .str)) x = true := by
    intro x hx
    obtain ⟨h1, h2⟩ := hW x (by
      rw [he]
      simp only [List.mem_cons, List.mem_append, List.not_mem_nil, or_false] at hx ⊢
      exact .inr (.inr (.inr hx)))
    exact (unitOk_iff (.ty (.base .str)) rfl 1 x).2 ⟨[], mt_plus_cls.2 ⟨h2, fun c hc => by simp [h1 c hc], rfl⟩⟩
  have hasg := list_flags (unitOk (.ty (.base .real))) (unitOk (.ty (.base .str))) (unitOk (.ty (.base .str))) w bs a b hb
    (hany a (by simp)) (hany b (by simp))
  rw [C26_cosine_read g0 w0 l g1 ht, he] at hv
  unfold readWords at hv
  simp only [List.map_cons, List.map_nil, Field.spec] at hv
  rw [hasg] at hv
  cases hr : readHead cosHead w0 with
  | none => rw [hr] at hv; cases hv
  | some hh =>
    obtain ⟨x, y, rfl⟩ := cos_head_two hr (hW w0 (by simp)).1
    obtain ⟨a0, a1, a2, a3, a4, hca, p2, p3, p4⟩ : ∃ a0 a1 a2 a3 a4 : Attr, Tab.C.attrs = [a0, a1, a2, a3, a4] ∧ (a2.ty = .base .real ∧ a2.many = true) ∧
        (a3.ty = .base .str ∧ a3.many = false) ∧ (a4.ty = .base .str ∧ a4.many = false) :=
      ⟨_, _, _, _, _, rfl, ⟨rfl, rfl⟩, ⟨rfl, rfl⟩, ⟨rfl, rfl⟩⟩
    rw [hr, hca] at hv
    have r2 : readVal a2 (some (w :: bs)) = ((w :: bs).mapM (Kind.parse .real)).map .tuple := by
      simp only [readVal, p2.1, p2.2, if_true]; rfl
    have r3 : readVal a3 (some [a]) = .ok (.sc (.str a)) := by
      simp only [readVal, p3.1, p3.2]; rfl
    have r4 : readVal a4 (some [b]) = .ok (.sc (.str b)) := by
      simp only [readVal, p4.1, p4.2]; rfl
    simp only [List.map_cons, List.map_nil, List.cons_append, List.nil_append, readVals, r2, r3, r4] at hv
    cases h0 : readVal a0 (x.map ([·])) with
    | error e => rw [h0] at hv; cases hv
    | ok s0 =>
      rw [h0] at hv
      cases h1 : readVal a1 ((some y).map ([·])) with
      | error e => simp only [Option.map_some] at h1 hv; rw [h1] at hv; cases hv
      | ok s =>
        simp only [Option.map_some] at h1 hv
        rw [h1] at hv
        cases h2 : (w :: bs).mapM (Kind.parse .real) with
        | error e => rw [h2] at hv; cases hv
        | ok bounds =>
          rw [h2] at hv
          simp only [Except.map] at hv
          cases hm : Tab.C.mk' [s0, s, .tuple bounds, .sc (.str a), .sc (.str b)] with
          | error e => rw [hm] at hv; cases hv
          | ok u =>
            rw [hm] at hv
            simp only [Except.ok.injEq, Prod.mk.injEq] at hv
            exact ⟨s0, s, bounds, by rw [← hv.1, mk_obj hm], rfl⟩

/-- The card `*c14 -1 0 0.5 1`: its last two bounds are read as flags. -/
example : Spaced [] c!"*c14" [(.ws c!" ", c!"-1"), (.ws c!" ", c!"0"), (.ws c!" ", c!"0.5"), (.ws c!" ", c!"1")] [] ∧
    attrsOf (cardParse Tab.C c!"*c14 -1 0 0.5 1") = some [.sc (.str ['*']), .sc (.int (.num 14)),
      .tuple [.sc (.real (.num (.fin ⟨true, 1, 0⟩))), .sc (.real (.num (.fin ⟨false, 0, 0⟩)))], .sc (.str c!"0.5"), .sc (.str ['1'])] := by
  refine ⟨⟨.nil, by decide, ?_, .nil, by decide, by decide, by decide⟩, by decide +kernel⟩
  intro x hx
  simp only [List.mem_cons, List.not_mem_nil, or_false] at hx
  rcases hx with rfl | rfl | rfl | rfl <;> exact ⟨⟨.sp .nil, by decide⟩, by decide⟩

end Props
