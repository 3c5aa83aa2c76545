import Verif.Inp.Refuse
import Verif.Inp.CommentSpec
import Verif.Inp.DataUnion
/-! Helper lemmas: comment cards. -/
set_option maxRecDepth 100000
namespace Inp
open Py Types

theorem comment_re : Tab.Comment.re = anchored (.seq (litRe c!"c") (.opt true (.seq (litRe c!" ") (.grp 1 (.star true (.cls (CC.dot.test))))))) := rfl

theorem comment_match (c0 : Char) (h0 : lowerC c0 = 'c') (t : Str) :
    reMatch Tab.Comment.re [c0] = some [(0, [c0])] ∧
    ('\n' ∉ t → reMatch Tab.Comment.re (c0 :: ' ' :: t) = some [(0, c0 :: ' ' :: t), (1, t)]) := by
  have hl : lower [c0] = lower c!"c" := by simp only [lower, List.map_cons, List.map_nil, h0]; decide
  have h : ∀ s, reMatch Tab.Comment.re s = run (.seq (litRe c!"c") (.opt true (.seq (litRe c!" ") (.grp 1 (.star true (.cls (CC.dot.test))))))) ⟨[], s, []⟩ (finish s) := by
    intro s
    unfold reMatch
    rw [comment_re]
    unfold anchored
    rw [run_seq, run_bos, if_pos rfl, run_seq]
    rfl
  refine ⟨?_, fun hn => ?_⟩
  · rw [h, run_seq, show ([c0] : Str) = [c0] ++ [] from rfl, run_lit_ok c!"c" [c0] hl, run_opt_greedy, finish_end]
    rfl
  · rw [h, run_seq, show (c0 :: ' ' :: t) = [c0] ++ ([' '] ++ t) from rfl, run_lit_ok c!"c" [c0] hl, run_opt_greedy, run_seq,
      run_lit_ok c!" " [' '] (by decide), run_grp]
    have := run_star_cls_greedy CC.dot.test t [] [] ([' '].reverse ++ ([c0].reverse ++ [])) []
      (fun st' => finish ([c0] ++ ([' '] ++ t)) { st' with caps := (1, t.take (t.length - st'.rest.length)) :: st'.caps })
      [(0, c0 :: ' ' :: t), (1, t)] (by
        intro c hc
        have : c ≠ '\n' := fun e => hn (e ▸ hc)
        simpa [CC.test] using this) (by simp) (by simp) (by
        simp only [List.append_nil]
        rw [finish_end]
        simp) (by
        intro a b ha hb
        have := (List.append_eq_nil_iff.1 hb.symm).1
        exact absurd this ha)
    simp only [List.append_nil] at this ⊢
    rw [this]
    rfl

/-- A comment is read from its words. -/
theorem comment_parse (s : Str) (c0 : Char) (h0 : lowerC c0 = 'c') (ws : List Str) (cm : List Str)
    (hp : cardPreprocess s = (c0 :: enc ws, cm)) (hw : Words ws) :
    cardParse Tab.Comment s = .ok (readComment ws, cm) := by
  unfold cardParse
  rw [hp]
  simp only
  cases ws with
  | nil =>
    rw [enc_nil, (comment_match c0 h0 []).1]
    rfl
  | cons w ws =>
    have hnl : '\n' ∉ w ++ enc ws := by
      intro hc
      rcases List.mem_append.1 hc with hc | hc
      · exact absurd ((hw w (by simp)).1 _ hc) (by decide)
      · rcases enc_mem hc with hc | ⟨x, hx, hc⟩
        · cases hc
        · exact absurd ((hw x (by simp [hx])).1 _ hc) (by decide)
    rw [enc_cons, (comment_match c0 h0 (w ++ enc ws)).2 hnl]
    simp only
    have hst : strip (w ++ enc ws) = w ++ enc ws := by
      have := strip_enc w ws hw
      rwa [enc_cons, strip_space_cons] at this
    have hne : w ++ enc ws ≠ [] := by
      have := (hw w (by simp)).2
      simp [this]
    have ha : attrVal Tab.Comment.pat.ng [(0, c0 :: ' ' :: (w ++ enc ws)), (1, w ++ enc ws)] 0 Tab.Comment.attrs[0] =
        .ok (.sc (.str (w ++ enc ws))) := by
      unfold attrVal
      rw [if_neg (by decide +kernel)]
      have : cap [(0, c0 :: ' ' :: (w ++ enc ws)), (1, w ++ enc ws)] (0 + 1) = some (w ++ enc ws) := rfl
      rw [this]
      cases ht : w ++ enc ws with
      | nil => exact absurd ht hne
      | cons x t =>
        simp only
        rw [← ht, hst]
        rfl
    have hat : Tab.Comment.attrs = [Tab.Comment.attrs[0]] := rfl
    unfold Cls.build
    rw [hat]
    simp only [attrVals, ha]
    rw [readComment, join_enc_cons]
    rfl

end Inp
