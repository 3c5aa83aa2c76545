import Verif.Inp.OptionLost
import Verif.Props.OptionCard
/-!
# C68 – lists in options
-/
set_option maxRecDepth 100000
namespace Props
open Py Types Inp

/-- The entries after those that an option is found with are lost without an error: the card is read as if they were not
there, whatever blank space and line breaks separate the entries. -/
theorem C68_lists_lost (r : OptRow) (hr : r ∈ optRows) (g0 w0 : Str) (l : List (Gap × Str)) (g1 : Str) (h : Spaced g0 w0 l g1)
    (gws : List Str) (os : List Long) (he : entries l = gws ++ longWords os) (hg : gws.length = r.gs.length)
    (hne : r.mode = .many → os ≠ []) (ho : OwnedLong r.plain os) :
    cardParse r.c (g0 ++ (w0 ++ (body l ++ g1))) = (readOwnedCard r.c r.h r.gs w0 gws (cutShort os)).map (fun v => (v, [])) := by
  obtain ⟨h1, -, hw⟩ := spaced_prep h
  have hst := entries_stable h
  rw [he] at h1 hw hst
  exact long_parse hr _ w0 gws os h1 (hw w0 (by simp)) hst hg hne ho

/-- No option of any card begins with a character of a plain number. -/
theorem numbers_quiet : ∀ r ∈ optRows, ∀ a ∈ c!"0123456789.+-", quiet r.plain a = true := by
  have : optRows.all (fun r => c!"0123456789.+-".all (quiet r.plain)) = true := by decide +kernel
  intro r hr a ha
  exact List.all_eq_true.1 (List.all_eq_true.1 this r hr) a ha

/-- The same for the cards whose options differ in their keywords and further entries that are plain numbers. -/
theorem C68_keyword_lost (r : OptRow) (hr : r ∈ keywordRows) (g0 w0 : Str) (l : List (Gap × Str)) (g1 : Str) (h : Spaced g0 w0 l g1)
    (gws : List Str) (os : List Long) (he : entries l = gws ++ longWords os) (hg : gws.length = r.gs.length)
    (hne : r.mode = .many → os ≠ []) (ho : TakenLong r.plain os) :
    cardParse r.c (g0 ++ (w0 ++ (body l ++ g1))) = (readOwnedCard r.c r.h r.gs w0 gws (cutShort os)).map (fun v => (v, [])) := by
  refine C68_lists_lost r (keywordRows_sub r hr) g0 w0 l g1 h gws os he hg hne ?_
  have hk := keywordRows_plain r hr
  clear he hne
  induction os with
  | nil => trivial
  | cons o os ih =>
    obtain ⟨c, ⟨hd, ws⟩, ex⟩ := o
    obtain ⟨h1, h2, h3, h4, h5⟩ := ho
    exact ⟨h1, keyworded_owns hk h1 h2, h3, fun w hw a ha => numbers_quiet r (keywordRows_sub r hr) a (h4 w hw a ha), ih h5⟩

/-- `fmesh14:n imesh 10 20 iints 5 10 20 jmesh 7` is read as `fmesh14:n imesh 10 iints 5 jmesh 7`. -/
example : cardParse Tab.Fmesh c!"fmesh14:n imesh 10 20 iints 5 10 20 jmesh 7" =
    (readOwnedCard Tab.Fmesh rowFmesh.h rowFmesh.gs c!"fmesh14:n" [] [(Tab.fmesh_Imesh, (c!"imesh", [c!"10"])), (Tab.fmesh_Iints, (c!"iints", [c!"5"])),
      (Tab.fmesh_Jmesh, (c!"jmesh", [c!"7"]))]).map (fun v => (v, [])) := by
  have hsp := spaced_single c!"fmesh14:n" [c!"imesh", c!"10", c!"20", c!"iints", c!"5", c!"10", c!"20", c!"jmesh", c!"7"] [] (by decide +kernel)
    (by
      intro w hw
      simp only [List.mem_cons, List.not_mem_nil, or_false] at hw
      rcases hw with rfl | rfl | rfl | rfl | rfl | rfl | rfl | rfl | rfl <;> exact ⟨by decide +kernel, by decide +kernel, by decide +kernel⟩) .nil
  exact C68_keyword_lost rowFmesh (by simp [keywordRows]) [] c!"fmesh14:n" _ [] hsp.1 []
    [(Tab.fmesh_Imesh, (c!"imesh", [c!"10"]), [c!"20"]), (Tab.fmesh_Iints, (c!"iints", [c!"5"]), [c!"10", c!"20"]),
      (Tab.fmesh_Jmesh, (c!"jmesh", [c!"7"]), [])] hsp.2 rfl (by intro h; cases h)
    ⟨mem_plain Tab.fmesh_Imesh (by simp [rowFmesh]), by decide +kernel, by decide +kernel, by decide +kernel,
      mem_plain Tab.fmesh_Iints (by simp [rowFmesh]), by decide +kernel, by decide +kernel, by decide +kernel,
      mem_plain Tab.fmesh_Jmesh (by simp [rowFmesh]), by decide +kernel, by decide +kernel, by decide +kernel, trivial⟩

/-- An option made of a keyword and a list. -/
def isList (c : Cls) : Bool :=
  c.isPlain && match c.shape with
    | .flat _ [f] => f.mode == .many && unitTok f.unit
    | _ => false

/-- How many there are, card by card: 40 in all. -/
theorem list_options : (keywordRows.map (fun r => (r.nm, (r.plain.filter isList).length))).filter (·.2 != 0) =
    [("bfld.BfldOption", 4), ("fmesh.FmeshOption", 6), ("kpert.KpertOption", 6), ("ksen.KsenOption", 6), ("mesh.MeshOption", 10),
      ("pert.PertOption", 2), ("ptrac.PtracOption", 6)] := by
  decide +kernel

theorem list_long {c : Cls} (hl : isList c = true) (hd w : Str) (ex : List Str) (nx : Option Str)
    (ha : ∀ v ∈ w :: ex, c.accepts hd [v] = true) : c.takes hd [w] nx = true ∧ c.accepts hd (w :: ex) = true := by
  unfold isList at hl
  rw [Bool.and_eq_true] at hl
  obtain ⟨hp, hl⟩ := hl
  unfold Cls.takes Cls.accepts
  split at hl
  · rename_i h f hs
    simp only [Bool.and_eq_true, beq_iff_eq] at hl
    obtain ⟨hm, ht⟩ := hl
    have hone : ∀ v ∈ w :: ex, (readHead h hd).isSome = true ∧ unitOk f.unit v = true := by
      intro v hv
      have := ha v hv
      unfold Cls.accepts at this
      rw [hs] at this
      simp only [List.map_cons, List.map_nil, Field.spec, hm, Bool.and_eq_true] at this
      refine ⟨this.1, ?_⟩
      have h2 := this.2
      cases hu : unitOk f.unit v with
      | true => rfl
      | false => simp [assign, takeMany, hu] at h2
    have hmany : assign [(unitOk f.unit, .many)] (Assign.flat [some (w :: ex)]) = some [some (w :: ex)] :=
      assign_canon _ _ ⟨by simp, fun v hv => (hone v hv).2, by simp, trivial⟩ (by simp [Canon])
    rw [hs, hp]
    simp only [List.all_cons, List.all_nil, ht, startsReq, hm, placed, List.map_cons, List.map_nil, Field.spec, (hone w (by simp)).1, (hone w (by simp)).2]
    have e : Assign.flat [some (w :: ex)] = w :: ex := by simp [Assign.flat]
    rw [e] at hmany
    rw [hmany]
    exact ⟨by simp, rfl⟩
  · cases hl

/-- Of every list in an option only the first entry is kept, in every card whose options differ in their keywords; the others
are lost without an error. -/
theorem C68_list_first (r : OptRow) (hr : r ∈ keywordRows) (g0 w0 : Str) (l : List (Gap × Str)) (g1 : Str) (h : Spaced g0 w0 l g1)
    (gws : List Str) (hg : gws.length = r.gs.length) (c : Cls) (hc : c ∈ r.plain) (hl : isList c = true)
    (hd w : Str) (ex : List Str) (he : entries l = gws ++ (hd :: w :: ex))
    (ha : ∀ v ∈ w :: ex, c.accepts hd [v] = true) (hex : ∀ v ∈ ex, ∀ x ∈ v, x ∈ c!"0123456789.+-") :
    cardParse r.c (g0 ++ (w0 ++ (body l ++ g1))) = (readOwnedCard r.c r.h r.gs w0 gws [(c, hd, [w])]).map (fun v => (v, [])) := by
  obtain ⟨h1, h2⟩ := list_long hl hd w ex (ex ++ longWords []).head? ha
  exact C68_keyword_lost r hr g0 w0 l g1 h gws [(c, (hd, [w]), ex)] (by rw [he]; simp [longWords]) hg (fun _ => by simp) ⟨hc, h1, h2, hex, trivial⟩

/-- `pert1:n cell 1 2 3` is read as `pert1:n cell 1`. -/
example : (cardParse Tab.Pert c!"pert1:n cell 1 2 3").map (·.1.str) = .ok c!"pert1:n cell 1" := by
  have hsp := spaced_single c!"pert1:n" [c!"cell", c!"1", c!"2", c!"3"] [] (by decide +kernel)
    (by
      intro w hw
      simp only [List.mem_cons, List.not_mem_nil, or_false] at hw
      rcases hw with rfl | rfl | rfl | rfl <;> exact ⟨by decide +kernel, by decide +kernel, by decide +kernel⟩) .nil
  have := C68_list_first rowPert (by simp [keywordRows]) [] c!"pert1:n" _ [] hsp.1 [] rfl Tab.pert_Cell (mem_plain Tab.pert_Cell (by simp [rowPert]))
    (by decide +kernel) c!"cell" c!"1" [c!"2", c!"3"] hsp.2 (by decide +kernel) (by decide +kernel)
  have e : (c!"pert1:n cell 1 2 3" : Str) = [] ++ (c!"pert1:n" ++ (body (single [c!"cell", c!"1", c!"2", c!"3"]) ++ [])) := by decide +kernel
  rw [e]
  have e2 : Tab.Pert = rowPert.c := rfl
  rw [e2, this]
  decide +kernel

end Props
