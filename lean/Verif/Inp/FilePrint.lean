import Verif.Inp.FileRound
/-! Helper lemmas: printed cards as entries and spaces. -/
namespace Inp
open Py Types

/-- The words of a printed card: the first one is an entry that fits on the line, the others are
entries or empty (missing parts print as empty words). -/
def CardWords : List Str → Prop
  | [] => False
  | w0 :: ws => Start w0 ∧ w0.length ≤ 78 ∧ ∀ w ∈ ws, w = [] ∨ Entry w

/-- The words of a card as `Card._postprocess` joins them (_card.py:109-120). -/
def printWords (ws : List Str) : Str := join [' '] (wrapWords 0 ws)

/-- The words that are not empty. -/
def filled (ws : List Str) : List Str := ws.filter (fun w => !w.isEmpty)

theorem filled_cons_nil (ws : List Str) : filled ([] :: ws) = filled ws := rfl
theorem filled_cons {w : Str} (h : w ≠ []) (ws : List Str) : filled (w :: ws) = w :: filled ws := by
  cases w with
  | nil => exact absurd rfl h
  | cons => rfl

theorem join_enc' (w : Str) (ws : List Str) : join [' '] (w :: ws) = w ++ enc ws := join_enc w ws

theorem brk_ig : Ig (' ' :: (brk ++ [' '])) := .sp (.amp (Ig.blanks 6))

theorem wrap_gaps (n : Nat) (ws : List Str) (h : ∀ w ∈ ws, w = [] ∨ Entry w) (g : Str) (hg : Ig g) :
    ∃ l e, g ++ enc (wrapWords n ws) = ib l ++ e ∧ (∀ x ∈ l, InG x.1 ∧ Entry x.2) ∧ Ig e ∧
      l.map (·.2) = filled ws := by
  induction ws generalizing n g with
  | nil => exact ⟨[], g, by simp [wrapWords, ib], by simp, hg, rfl⟩
  | cons w ws ih =>
    have hs := fun x hx => h x (List.mem_cons_of_mem _ hx)
    have key : ∀ g2 n2, Ig g2 → g2 ≠ [] → ∃ l e, g2 ++ (w ++ enc (wrapWords n2 ws)) = ib l ++ e ∧
        (∀ x ∈ l, InG x.1 ∧ Entry x.2) ∧ Ig e ∧ l.map (·.2) = filled (w :: ws) := by
      intro g2 n2 h1 h2
      rcases h w (by simp) with rfl | hw
      · obtain ⟨l, e, e1, k1, k2, k3⟩ := ih n2 hs g2 h1
        exact ⟨l, e, by simpa using e1, k1, k2, by rw [k3, filled_cons_nil]⟩
      · obtain ⟨l, e, e1, k1, k2, k3⟩ := ih n2 hs [] .nil
        refine ⟨(g2, w) :: l, e, ?_, ?_, k2, by rw [List.map_cons, k3, filled_cons hw.ne]⟩
        · rw [List.nil_append] at e1
          rw [e1]; simp [ib]
        · intro x hx
          rcases List.mem_cons.1 hx with rfl | hx
          · exact ⟨⟨h1, h2⟩, hw⟩
          · exact k1 x hx
    rw [wrap_cons]
    split
    · obtain ⟨l, e, e1, k⟩ := key (g ++ ' ' :: (brk ++ [' '])) (5 + (w.length + 1)) (hg.append brk_ig) (by simp)
      exact ⟨l, e, by rw [← e1]; simp, k⟩
    · obtain ⟨l, e, e1, k⟩ := key (g ++ [' ']) (n + (w.length + 1)) (hg.append (.sp .nil)) (by simp)
      exact ⟨l, e, by rw [← e1]; simp, k⟩

theorem card_gaps (ws : List Str) (h : CardWords ws) :
    ∃ c : Cd, c.Ok ∧ c.text = printWords ws ∧ c.w0 :: c.rest.map (·.2) = filled ws := by
  cases ws with
  | nil => exact h.elim
  | cons w0 ws =>
    obtain ⟨h0, hl, hw⟩ := h
    obtain ⟨l, e, e1, k1, k2, k3⟩ := wrap_gaps (0 + (w0.length + 1)) ws hw [] .nil
    refine ⟨⟨w0, l, e⟩, ⟨h0, k1, k2⟩, ?_, by rw [filled_cons h0.1.ne, ← k3]⟩
    rw [printWords, wrap_cons, if_neg (by omega), join_enc]
    rw [List.nil_append] at e1
    rw [e1]; rfl

theorem ib_ws (l : List (Str × Str)) (hl : ∀ x ∈ l, InG x.1 ∧ Entry x.2) :
    ib l = body (l.map (fun x => (.ws x.1, x.2))) := by
  induction l with
  | nil => rfl
  | cons x l ih =>
    obtain ⟨g, w⟩ := x
    rw [ib, ih (fun x hx => hl x (List.mem_cons_of_mem _ hx))]; rfl

/-- The text of a card and its line in the file read the same. -/
theorem card_same (c : Cd) (h : c.Ok) (l : Str) (hl : l = c.flat ∨ l = c.line) :
    cardPreprocess l = cardPreprocess c.text := by
  have hd : '$' ∉ c.flat := by
    intro hc
    rcases List.mem_append.1 hc with hc | hc
    · exact h.1.1.dl hc
    · rcases enc_mem hc with e | ⟨w, hw, hc⟩
      · exact absurd e (by decide)
      · obtain ⟨x, hx, rfl⟩ := List.mem_map.1 hw
        exact (h.2.1 x hx).2.dl hc
  have r1 := read_spaced [] c.w0 (c.rest.map (fun x => (.ws x.1, x.2))) c.e .nil h.1.1 (by
    intro y hy
    obtain ⟨x, hx, rfl⟩ := List.mem_map.1 hy
    exact ⟨⟨(h.2.1 x hx).1.1.ws, (h.2.1 x hx).1.2⟩, (h.2.1 x hx).2⟩) h.2.2.ws
  rw [← ib_ws _ h.2.1, List.map_map] at r1
  have r2 : ∀ b, cardPreprocess (c.flat ++ pad b) = (expandAll (collapseAll c.flat), []) := by
    intro b
    have := read_spaced [] c.w0 (c.rest.map (fun x => (.ws [' '], x.2))) (pad b) .nil h.1.1 (by
      intro y hy
      obtain ⟨x, hx, rfl⟩ := List.mem_map.1 hy
      exact ⟨⟨.sp .nil, by simp⟩, (h.2.1 x hx).2⟩) (by cases b; exact .sp .nil; exact .nil)
    have e : body (c.rest.map (fun x => (Gap.ws [' '], x.2))) = enc (c.rest.map (·.2)) := by
      generalize c.rest = l
      induction l with
      | nil => rfl
      | cons x l ih => rw [List.map_cons, body, ih]; simp [Gap.text]
    rw [e, List.map_map] at this
    have e2 : (fun x : Gap × Str => x.2) ∘ (fun x : Str × Str => (Gap.ws [' '], x.2)) = (·.2) := rfl
    rw [e2] at this
    have e3 : c.flat ++ pad b = [] ++ (c.w0 ++ (enc (c.rest.map (·.2)) ++ pad b)) := by simp [Cd.flat]
    rw [e3, this]; rfl
  have r3 : cardPreprocess c.text = (expandAll (collapseAll c.flat), []) := r1
  rw [r3]
  rcases hl with rfl | rfl
  · have := r2 true
    simpa [pad] using this
  · exact r2 _

theorem linesS_get (cs : List Cd) : ∀ i (h : i < cs.length), ∃ l, (linesS cs)[i]? = some l ∧ (l = cs[i].flat ∨ l = cs[i].line) := by
  induction cs with
  | nil => intro i h; simp at h
  | cons c cs ih =>
    cases cs with
    | nil =>
      intro i h
      have : i = 0 := by simp at h; omega
      subst this
      exact ⟨c.flat, rfl, .inl rfl⟩
    | cons d ds =>
      intro i h
      cases i with
      | zero => exact ⟨c.line, rfl, .inr rfl⟩
      | succ i => simpa [linesS] using ih i (by simpa using h)

theorem linesS_pre (cs : List Cd) (h : ∀ c ∈ cs, c.Ok) :
    (linesS cs).map cardPreprocess = cs.map (fun c => cardPreprocess c.text) := by
  induction cs with
  | nil => rfl
  | cons c cs ih =>
    cases cs with
    | nil => simp only [linesS, List.map_cons, List.map_nil]; rw [card_same c (h c (by simp)) _ (.inl rfl)]
    | cons d ds =>
      rw [linesS, List.map_cons, ih (fun x hx => h x (List.mem_cons_of_mem _ hx)), card_same c (h c (by simp)) _ (.inr rfl)]
      rfl

theorem cards_gaps (cards : List (List Str)) (h : ∀ ws ∈ cards, CardWords ws) :
    ∃ cs : List Cd, (∀ c ∈ cs, c.Ok) ∧ cs.map Cd.text = cards.map printWords ∧
      cs.map (fun c => c.w0 :: c.rest.map (·.2)) = cards.map filled := by
  induction cards with
  | nil => exact ⟨[], by simp, rfl, rfl⟩
  | cons ws cards ih =>
    obtain ⟨c, h1, h2, h3⟩ := card_gaps ws (h ws (by simp))
    obtain ⟨cs, k1, k2, k3⟩ := ih (fun x hx => h x (List.mem_cons_of_mem _ hx))
    refine ⟨c :: cs, ?_, by simp [h2, k2], by simp only [List.map_cons, h3, k3]⟩
    intro x hx
    rcases List.mem_cons.1 hx with rfl | hx
    · exact h1
    · exact k1 x hx

end Inp
