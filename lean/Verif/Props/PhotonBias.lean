import Verif.Inp.BiasRead
/-!
# C92: biases of photon production
-/
set_option maxRecDepth 100000
namespace Props
open Py Types Inp

theorem rows_biased : ∀ rs : List BiasRow, (∀ r ∈ rs, r.Ok) →
    (rs.map (fun r => [r.nuclide, r.w])).mapM (fun y => unionParse [Tab.pikmt_Photonbias] (join [' '] y)) = rs.mapM BiasRow.shifted := by
  intro rs
  induction rs with
  | nil => intro _; rw [List.map_nil, List.mapM_nil, List.mapM_nil]
  | cons r rs ih =>
    intro hr
    rw [List.map_cons, List.mapM_cons, List.mapM_cons, ih (fun r h => hr r (by simp [h])), bias_shift (hr r (by simp))]

/-- **C92 fails for the biases of photon production, all such cards:** the biases are never read.  Whatever they are, the atomic number of
each nuclide is read in their place. -/
theorem C92_photon_bias_lost (rs : List BiasRow) (hne : rs ≠ []) (hr : ∀ r ∈ rs, r.Ok) (g0 w0 : Str) (l : List (Gap × Str)) (g1 : Str)
    (ht : Spaced g0 w0 l g1) (hrd : readHead ⟨.no, c!"pikmt", .no, .no⟩ w0 = some []) (he : entries l = (rs.map (fun r => [r.nuclide, r.w])).flatten) :
    cardParse Tab.Pikmt (g0 ++ (w0 ++ (body l ++ g1))) = (readBiases rs).map (fun v => (v, [])) := by
  obtain ⟨hp, -, hw⟩ := spaced_prep ht
  rw [he] at hp hw
  have h := rows_read Tab.Pikmt ⟨.no, c!"pikmt", .no, .no⟩ (.ty Tab.T_pikmt_Photonbias) ⟨"biases", Tab.T_pikmt_Photonbias, true, some .isNone⟩ [] rfl
    (by decide +kernel) rfl rfl (by simp) rfl (row_bias 2) (bias_groups 2) (row_bias 1) w0 [] (rs.map (fun r => [r.nuclide, r.w])) hw hrd
    (by simpa using hne) (by
      intro y hy
      obtain ⟨r, hr', rfl⟩ := List.mem_map.1 hy
      exact bias_all (hr r hr') 2) (by
      intro y hy
      obtain ⟨r, hr', rfl⟩ := List.mem_map.1 hy
      exact bias_all (hr r hr') 1)
  have hpp : Tab.T_pikmt_Photonbias.parse = unionParse [Tab.pikmt_Photonbias] := by
    unfold Tab.T_pikmt_Photonbias
    rw [asTy_parse]
  simp only [hpp] at h
  rw [rows_biased rs hr] at h
  have e : (match reMatch Tab.Pikmt.re (w0 ++ enc (rs.map (fun r => [r.nuclide, r.w])).flatten) with
      | none => (.error .inp : Res Val) | some m => Tab.Pikmt.build m) = readBiases rs := by
    refine h.trans ?_
    unfold readBiases
    cases rs.mapM BiasRow.shifted <;> rfl
  unfold cardParse
  rw [hp]
  simp only
  rw [← e]
  cases reMatch Tab.Pikmt.re (w0 ++ enc (rs.map (fun r => [r.nuclide, r.w])).flatten) with
  | none => rfl
  | some m =>
    simp only
    cases Tab.Pikmt.build m <;> rfl

/-- **What the user sees:** two cards whose biases differ are read as the same card. -/
theorem C92_photon_bias_ignored (rs rs' : List BiasRow) (hne : rs ≠ []) (hr : ∀ r ∈ rs, r.Ok) (hr' : ∀ r ∈ rs', r.Ok)
    (same : rs.map (fun r => (r.u, r.v, r.x)) = rs'.map (fun r => (r.u, r.v, r.x))) (g0 w0 : Str) (l l' : List (Gap × Str)) (g1 : Str)
    (ht : Spaced g0 w0 l g1) (ht' : Spaced g0 w0 l' g1) (hrd : readHead ⟨.no, c!"pikmt", .no, .no⟩ w0 = some [])
    (he : entries l = (rs.map (fun r => [r.nuclide, r.w])).flatten) (he' : entries l' = (rs'.map (fun r => [r.nuclide, r.w])).flatten) :
    cardParse Tab.Pikmt (g0 ++ (w0 ++ (body l ++ g1))) = cardParse Tab.Pikmt (g0 ++ (w0 ++ (body l' ++ g1))) := by
  have hne' : rs' ≠ [] := by
    intro e; subst e
    simp at same
    exact hne same
  rw [C92_photon_bias_lost rs hne hr g0 w0 l g1 ht hrd he, C92_photon_bias_lost rs' hne' hr' g0 w0 l' g1 ht' hrd he']
  have : rs.mapM BiasRow.shifted = rs'.mapM BiasRow.shifted := by
    have key : ∀ qs : List BiasRow, qs.mapM BiasRow.shifted =
        (qs.map (fun r => (r.u, r.v, r.x))).mapM (fun p => BiasRow.shifted ⟨p.1, p.2.1, p.2.2, []⟩) := by
      intro qs
      induction qs with
      | nil => rw [List.map_nil, List.mapM_nil, List.mapM_nil]
      | cons q qs ih => rw [List.map_cons, List.mapM_cons, List.mapM_cons, ih]; rfl
    rw [key, key, same]
  unfold readBiases
  rw [this]

/-! ## Cases -/

def exPhoton (w : Str) : BiasRow := ⟨c!"26", c!"056", some c!"80c", w⟩

theorem exPhoton_ok : (exPhoton c!"9").Ok where
  ud := by decide
  ul := by decide
  vd := by decide
  vl := rfl
  xl := by intro t ht; cases ht; exact ⟨by decide, by decide⟩
  bias := int_full (by decide +kernel)
  nst := ⟨by decide, by decide, by decide +kernel⟩
  wst := ⟨by decide, by decide, by decide +kernel⟩

example : readBiases [exPhoton c!"9"] = .ok (.obj Tab.Pikmt.info [.tuple [.obj Tab.pikmt_Photonbias.info
    [.sc (.zaid ⟨26, 56, some c!"80c"⟩), .sc (.int (.num 26))]]]) := by decide +kernel

example : readHead ⟨.no, c!"pikmt", .no, .no⟩ c!"PIKMT" = some [] := by decide +kernel

example : cardParse Tab.Pikmt c!"pikmt 26056.80c 9" = .ok (.obj Tab.Pikmt.info [.tuple [.obj Tab.pikmt_Photonbias.info
    [.sc (.zaid ⟨26, 56, some c!"80c"⟩), .sc (.int (.num 26))]]], []) := by decide +kernel

/-- The hypotheses hold for `pikmt 26056.80c 9`. -/
example : ∃ l, Spaced [] c!"pikmt" l [] ∧ entries l = ([exPhoton c!"9"].map (fun r => [r.nuclide, r.w])).flatten ∧
    cardParse Tab.Pikmt ([] ++ (c!"pikmt" ++ (body l ++ []))) = (readBiases [exPhoton c!"9"]).map (fun v => (v, [])) := by
  obtain ⟨h1, h2⟩ := spaced_single c!"pikmt" [c!"26056.80c", c!"9"] [] (by constructor <;> decide) (by
    intro w hw
    simp only [List.mem_cons, List.not_mem_nil, or_false] at hw
    rcases hw with rfl | rfl
    · exact exPhoton_ok.nst
    · exact exPhoton_ok.wst) .nil
  exact ⟨_, h1, h2, C92_photon_bias_lost [exPhoton c!"9"] (by simp) (by intro r hr; simp only [List.mem_singleton] at hr; subst hr; exact exPhoton_ok)
    [] _ _ [] h1 (by decide +kernel) h2⟩

end Props
