import Verif.Inp.DataRead
import Verif.Props.Card
/-!
# Data cards are told apart by their keywords: C70

`dataCards` (the union of src/pymcnp/Inp.py:12-165), `Cls.word` and `Cls.recognises` are specified in
`Verif/Inp/DataUnion.lean`.
-/
set_option maxRecDepth 100000
namespace Props
open Py Types Inp

/-! ## C70 – every data card is read by a class with its keyword -/

/-- No text is a card of two classes with different keywords: when one class finds its card, the other raises its own
error. -/
theorem C70_keyword (c d : Cls) (hc : c ∈ dataCards) (hd : d ∈ dataCards) (hw : c.word ≠ d.word) (s : Str)
    (hr : c.recognises s = true) : cardParse d s = .error .inp :=
  words_refuse data_begun data_apart hc hd hw hr

/-- Reading a data card is reading it with the classes of its keyword: the other classes of the union, before or after
them, have no say. -/
theorem C70_union (c : Cls) (hc : c ∈ dataCards) (s : Str) (hr : c.recognises s = true) :
    cardUnion dataCards s = cardUnion (dataCards.filter (fun d => d.word == c.word)) s := by
  refine union_filter _ s _ (fun d hd hp => ?_)
  exact C70_keyword c d hc hd (fun e => by simp [e] at hp) s hr

/-- What the union returns was read by a class that has the keyword of every class that finds a card in the text. -/
theorem C70_result (c : Cls) (hc : c ∈ dataCards) (s : Str) (hr : c.recognises s = true) (r : Val × List Str)
    (h : cardUnion dataCards s = .ok r) : ∃ d ∈ dataCards, d.word = c.word ∧ cardParse d s = .ok r := by
  obtain ⟨b, d, a, he, h1, -⟩ := (C48_card_union _ _ _).1 h
  have hd : d ∈ dataCards := by rw [he]; simp
  refine ⟨d, hd, ?_, h1⟩
  by_cases hw : d.word = c.word
  · exact hw
  · have := C70_keyword c d hc hd (Ne.symm hw) s hr
    rw [h1] at this; cases this

/-- The first class of a keyword reads its cards through the union. -/
theorem C70_first (c : Cls) (hf : dataCards.find? (fun d => d.word == c.word) = some c) (s : Str) (r : Val × List Str)
    (h : cardParse c s = .ok r) : cardUnion dataCards s = .ok r := by
  have hc := List.mem_of_find?_eq_some hf
  rw [C70_union c hc s (recognises_of_ok h)]
  have : ∃ l, dataCards.filter (fun d => d.word == c.word) = c :: l := by
    clear hc
    generalize dataCards = cs at hf
    induction cs with
    | nil => cases hf
    | cons d cs ih =>
      rw [List.find?_cons] at hf
      rw [List.filter_cons]
      cases hd : (d.word == c.word) with
      | true => simp only [hd] at hf; cases hf; exact ⟨_, rfl⟩
      | false => simp only [hd] at hf; exact ih hf
  obtain ⟨l, hl⟩ := this
  rw [hl]
  unfold cardUnion
  rw [h]

/-- A later class of a keyword reads its cards through the union when the earlier ones refuse them. -/
theorem C70_later (c : Cls) (hc : c ∈ dataCards) (s : Str) (r : Val × List Str) (h : cardParse c s = .ok r)
    (hb : ∀ d ∈ dataCards.takeWhile (·.info.name != c.info.name), d.word = c.word →
      ∃ e : Err, cardParse d s = .error e ∧ e.isLibrary = true) : cardUnion dataCards s = .ok r := by
  rw [C48_card_union]
  have hd : dataCards = dataCards.takeWhile (·.info.name != c.info.name) ++ dataCards.dropWhile (·.info.name != c.info.name) :=
    List.takeWhile_append_dropWhile.symm
  have hn : (dataCards.map (·.info.name)).Nodup := by decide +kernel
  have hdrop : ∃ l, dataCards.dropWhile (·.info.name != c.info.name) = c :: l := by
    clear hb hd
    generalize dataCards = cs at hc hn
    induction cs with
    | nil => cases hc
    | cons d cs ih =>
      rw [List.dropWhile_cons]
      by_cases hdn : d.info.name = c.info.name
      · rw [if_neg (by simp [hdn])]
        rcases List.mem_cons.1 hc with rfl | hc
        · exact ⟨_, rfl⟩
        · rw [List.map_cons, List.nodup_cons] at hn
          exact absurd (List.mem_map.2 ⟨c, hc, hdn.symm⟩) hn.1
      · rw [if_pos (by simpa using hdn)]
        rcases List.mem_cons.1 hc with rfl | hc
        · exact absurd rfl hdn
        · exact ih hc (List.nodup_cons.1 hn).2
  obtain ⟨l, hl⟩ := hdrop
  refine ⟨_, c, l, by rw [hl] at hd; exact hd, h, fun d hd' => ?_⟩
  by_cases hw : d.word = c.word
  · exact hb d hd' hw
  · exact ⟨.inp, C70_keyword c d hc (mem_takeWhile hd') (Ne.symm hw) s (recognises_of_ok h), rfl⟩

/-- A class that is alone with its keyword decides: its card, its error if it is none of the library's, and otherwise the
error of the union. -/
theorem C70_alone (c : Cls) (hf : (dataCards.filter (fun d => d.word == c.word)).map (·.info.name) = [c.info.name]) (hc : c ∈ dataCards)
    (s : Str) (hr : c.recognises s = true) :
    cardUnion dataCards s = match cardParse c s with
      | .ok r => .ok r
      | .error e => if e.isLibrary then .error .types else .error e := by
  have hl : dataCards.filter (fun d => d.word == c.word) = [c] := by
    have hm : c ∈ dataCards.filter (fun d => d.word == c.word) := List.mem_filter.2 ⟨hc, by simp⟩
    generalize dataCards.filter (fun d => d.word == c.word) = l at hf hm
    match l with
    | [] => cases hm
    | [d] => simp at hm; rw [hm]
    | d :: e :: l => simp at hf
  rw [C70_union c hc s hr, hl]
  simp only [cardUnion]
  cases cardParse c s <;> rfl

/-- A card built from readable entries is read back by the union of all data cards, when its class is the first of its
keyword (`C23_card_partial` for the class alone). Missing: later classes of a keyword, for which the claim is false
(`C70_violated`) unless the earlier ones refuse the card (`C70_later`). -/
theorem C70_roundtrip_partial (c : Cls) (hf : dataCards.find? (fun d => d.word == c.word) = some c) (h : Head) (fs : List Field)
    (hs : c.shape = .flat h fs) (hst : c.std h fs = true) (hn : nativeFields (c.attrs.drop h.ng) fs = true)
    (hc : c.info.style = .card) (hv fv : List Val) (ho : HeadOk h hv) (hr : ReadVals (c.attrs.drop h.ng) fv)
    (hp : Present (fs.map (·.mode)) fv) (hcan : Canon (fs.map (·.mode)) (fv.map Val.words)) (v : Val)
    (hmk : c.mk' (hv ++ fv) = .ok v) : cardUnion dataCards v.str = .ok (v, []) :=
  C70_first c hf _ _ (C23_card_partial c h fs hs hst hn hc hv fv ho hr hp hcan v hmk)

example : cardUnion dataCards (Val.obj Tab.Cut.info [.sc (.desig ['n']), .sc (.real (.num (.fin ⟨false, 25, -1⟩))),
      .sc (.real (.hor (.jump none))), .none, .none, .none]).str =
    .ok (.obj Tab.Cut.info [.sc (.desig ['n']), .sc (.real (.num (.fin ⟨false, 25, -1⟩))),
      .sc (.real (.hor (.jump none))), .none, .none, .none], []) := by
  refine C70_roundtrip_partial Tab.Cut rfl ⟨.no, c!"cut", .no, .req⟩ _ rfl (by decide +kernel) (by decide +kernel) rfl
    [.sc (.desig ['n'])] [.sc (.real (.num (.fin ⟨false, 25, -1⟩))), .sc (.real (.hor (.jump none))), .none, .none, .none]
    ⟨[], [], [.sc (.desig ['n'])], rfl, rfl, rfl, ['n'], rfl, by decide +kernel, by decide, by decide, by decide⟩ ?_ ?_ ?_ _ (by decide +kernel)
  · exact ⟨⟨rfl, .real, rfl, trivial⟩, ⟨rfl, .real, rfl, rfl⟩, trivial, trivial, trivial, trivial⟩
  · exact ⟨.inl rfl, .inl rfl, .inl rfl, .inl rfl, .inl rfl, trivial⟩
  · intro v hv
    revert hv; simp [Val.words]

/-- The class that read a card. -/
def readBy : Res (Val × List Str) → Option String
  | .ok (.obj i _, _) => some i.name
  | _ => none

/-- Classes of one keyword do compete.  A source distribution given by a function (`sp1 -21 1`) is read as a table of
probabilities: the class for functions has no card number.  A card for neutrons built from the class for all particles is
read as the card of the class for neutrons. -/
theorem C70_violated :
    readBy (cardUnion dataCards c!"sp1 -21 1") = some "Sp_0" ∧ Tab.Sp_1.recognises c!"sp1 -21 1" = false ∧
    readBy (cardParse Tab.Phys_4 c!"phys:n 100") = some "Phys_4" ∧ readBy (cardUnion dataCards c!"phys:n 100") = some "Phys_0" := by
  decide +kernel

example : Tab.Cf ∈ dataCards ∧ Tab.C ∈ dataCards ∧ Tab.Cf.word ≠ Tab.C.word ∧ Tab.Cf.recognises c!"CF4 1 2" = true := by
  refine ⟨by simp [dataCards], by simp [dataCards], ?_⟩
  decide +kernel

example : dataCards.find? (fun d => d.word == Tab.Fmesh.word) = some Tab.Fmesh := rfl

example : readBy (cardUnion dataCards c!"Fmesh4:n geom=xyz") = some "Fmesh" ∧ readBy (cardUnion dataCards c!"c fmesh4:n") = some "Comment" := by
  decide +kernel

example : (dataCards.filter (fun d => d.word == Tab.Nps.word)).map (·.info.name) = ["Nps"] ∧
    cardUnion dataCards c!"nps j" = .error .typeErr ∧ Tab.Nps.recognises c!"nps j" = true := by decide +kernel

example : readBy (cardUnion dataCards c!"tr5 1 2 3") = some "Tr_4" ∧
    (dataCards.takeWhile (·.info.name != "Tr_4")).all (fun d => d.word != c!"tr" ||
      match cardParse d c!"tr5 1 2 3" with | .error e => e.isLibrary | .ok _ => false) = true := by decide +kernel

end Props
