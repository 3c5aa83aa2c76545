import Verif.Inp.OptionBare
import Verif.Inp.OptionApart
import Verif.Inp.SurfaceRead
import Verif.Props.Card
/-!
# Printing and reading back cards with options
-/
namespace Inp
open Py Types

/-- The value `o` is an option of class `d` made of readable values that its fields accept, filled from the left, with at
least one entry, and prints as the words of `i`. -/
structure OptVal (d : Cls) (o : Val) (i : Opt) : Prop where
  made : ∃ h fs hv fv, d.shape = .flat h fs ∧ d.std h fs = true ∧
    (nativeFields (d.attrs.drop h.ng) fs = true ∨ Fits (fs.map Field.spec) (fv.map Val.words)) ∧
    d.info.style = .option ∧ HeadOk h hv ∧ ReadVals (d.attrs.drop h.ng) fv ∧ Present (fs.map (·.mode)) fv ∧
    Canon (fs.map (·.mode)) (fv.map Val.words) ∧ d.mk' (hv ++ fv) = .ok o ∧ i.2 = Assign.flat (fv.map Val.words)
  some : i.2 ≠ []
  text : o.str = i.1 ++ enc i.2
  first : Stable i.1

theorem optval_facts {d o i} (h : OptVal d o i) :
    o.text = some (i.1 ++ enc i.2) ∧ (∀ w ∈ i.2, Stable w) ∧ d.readW i.1 i.2 = .ok o := by
  obtain ⟨⟨h, fs, hv, fv, hs, hst, hn, hc, ho, hr, hp, hcan, hmk, hi⟩, hne, htx, -⟩ := h
  obtain ⟨hd, he, hst', hh, hb, hrd, hw, hrv, hl⟩ := std_facts d h fs hst hv fv ho hr
  have hobj := Props.mk_obj hmk
  have hstr : o.text = .some (hd ++ enc i.2) := by
    subst hobj
    simp only [Val.text, objStr, hc, hh, hb, ← hi]
    cases hi2 : i.2 with
    | nil => exact absurd hi2 hne
    | cons w ws => rw [join_enc]; simp
  have hhd : hd = i.1 := by
    have : o.str = hd ++ enc i.2 := by unfold Val.str; rw [hstr]; rfl
    rw [this] at htx
    exact List.append_cancel_right htx
  subst hhd
  refine ⟨hstr, by rw [hi]; exact hst', ?_⟩
  unfold Cls.readW
  rw [hs]
  simp only
  rw [hi, readWords_iff d h fs hst hv fv i.1 hrd hw hrv hl o hmk]
  exact assign_canon _ _ (hn.elim (fun hn => fits_vals _ _ _ (std_fields hst) hn hr hp) id) (by rw [List.map_map]; exact hcan)

theorem join_options (l : List Opt) : join [' '] (l.map (fun i => i.1 ++ enc i.2)) = join [' '] (optWords l) := by
  cases l with
  | nil => rfl
  | cons i l =>
    have : ∀ l : List Opt, enc (l.map (fun i => i.1 ++ enc i.2)) = enc (optWords l) := by
      intro l
      induction l with
      | nil => rfl
      | cons i l ih =>
        simp only [List.map_cons, optWords, List.flatMap_cons, Opt.words, List.cons_append] at ih ⊢
        simp only [enc_cons, ih, enc_append, List.append_assoc]
    simp only [List.map_cons, optWords, List.flatMap_cons, Opt.words, List.cons_append]
    rw [join_enc, join_enc, this, enc_append, List.append_assoc]
    rfl

/-- The card without its options. -/
def OptRow.front (r : OptRow) : Cls :=
  { r.c with shape := .flat r.h r.gs, attrs := r.c.attrs.dropLast, info := { r.c.info with attrs := r.c.info.attrs.dropLast } }

/-- The card with words in place of its options. -/
def OptRow.wordy (r : OptRow) : Cls :=
  { r.c with shape := .flat r.h (r.gs ++ [⟨.grp (.ty (.base .str)), .manyOpt⟩]),
             attrs := r.c.attrs.dropLast ++ [⟨"options", .base .str, true, none⟩] }

def OptRow.printed (r : OptRow) : Bool :=
  r.front.std r.h r.gs && nativeFields (r.front.attrs.drop r.h.ng) r.gs &&
  r.wordy.std r.h (r.gs ++ [⟨.grp (.ty (.base .str)), .manyOpt⟩]) && r.c.info.style == .card

theorem rows_printed : optRows.all OptRow.printed = true := by decide +kernel

/-- A text whose entries are those of the card and its options. -/
theorem optcard_parse {r : OptRow} (hr : r ∈ optRows) (s w0 : Str) (gws : List Str) (os : List (Cls × Opt))
    (h1 : cardPreprocess s = (w0 ++ enc (gws ++ optWords (os.map (·.2))), []))
    (hw : Words (w0 :: (gws ++ optWords (os.map (·.2))))) (hst : ∀ w ∈ gws ++ optWords (os.map (·.2)), Stable w)
    (hg : gws.length = r.gs.length) (hne : r.mode = .many → os ≠ []) (ho : Owned r.plain os) :
    cardParse r.c s = (readOwnedCard r.c r.h r.gs w0 gws os).map (fun v => (v, [])) := by
  obtain ⟨as, a, oc, hdl⟩ := row_plain_ok r hr
  obtain ⟨n1, n2⟩ := plain_names r hr
  obtain ⟨s1, s2⟩ := owned_splits oc.good n1 n2 os ho (fun x hx => hw x (by simp [hx]))
  have hmem : ∀ i ∈ os.map (·.2), ∀ w ∈ i.1 :: i.2, Stable w := by
    intro i hi w hw'
    exact hst w (List.mem_append_right _ (List.mem_flatMap.2 ⟨i, hi, hw'⟩))
  have := optcard_read oc w0 gws (os.map (·.2)) hg hw (by
    intro hm h0
    exact hne hm (List.map_eq_nil_iff.1 h0)) s1
    (fun i hi => ⟨(hmem i hi i.1 (by simp)).entry, fun w hw' => hmem i hi w (by simp [hw'])⟩)
  have hattrs : r.plainly.c.attrs.dropLast = r.c.attrs.dropLast := by rw [oc.attrs, hdl]; simp
  have hmk : ∀ vs, r.plainly.c.mk' vs = r.c.mk' vs := fun vs => ((row_rel r hr).mk' vs).symm
  have hrd : readOptCard r.plainly.c r.h r.gs r.plain w0 gws (os.map (·.2)) = readOwnedCard r.c r.h r.gs w0 gws os := by
    unfold readOptCard readOwnedCard
    cases readHead r.h w0 with
    | none => rfl
    | some hv =>
      cases assign (r.gs.map Field.spec) gws with
      | none => rfl
      | some vs =>
        simp only
        rw [hattrs]
        cases readVals r.c.attrs.dropLast (hv.map (·.map ([·])) ++ vs) with
        | error e => rfl
        | ok xs =>
          cases os with
          | nil => exact hmk _
          | cons o os =>
            simp only [List.map_cons, hmk] at s2 ⊢
            rw [s2]
  rw [hrd] at this
  rw [(row_rel r hr).card]
  unfold cardParse
  rw [h1]
  simp only
  rw [← this]
  cases reMatch r.plainly.c.re (w0 ++ enc (gws ++ optWords (os.map (·.2)))) with
  | none => rfl
  | some m =>
    simp only
    cases r.plainly.c.build m <;> rfl

theorem readOwned_vals : ∀ (os : List (Cls × Val × Opt)), (∀ x ∈ os, OptVal x.1 x.2.1 x.2.2) →
    readOwned (os.map (fun x => (x.1, x.2.2))) = .ok (os.map (·.2.1)) := by
  intro os
  induction os with
  | nil => intro _; rfl
  | cons x os ih =>
    intro h
    obtain ⟨d, o, hd, ws⟩ := x
    have := (optval_facts (h (d, o, hd, ws) (by simp))).2.2
    simp only [List.map_cons, readOwned] at this ⊢
    rw [this, ih (fun y hy => h y (by simp [hy]))]

/-- The attribute of the options. -/
def optsVal : List Val → Val
  | [] => .none
  | l => .tuple l

theorem optsVal_text (os : List (Cls × Val × Opt)) (h : ∀ x ∈ os, OptVal x.1 x.2.1 x.2.2) :
    (optsVal (os.map (·.2.1))).text = (optsVal ((optWords (os.map (·.2.2))).map (fun w => .sc (.str w)))).text := by
  cases os with
  | nil => rfl
  | cons x os =>
    have e1 : (Val.parts ((x :: os).map (·.2.1))).map orNil = ((x :: os).map (·.2.2)).map (fun i => i.1 ++ enc i.2) := by
      rw [Val.parts_eq, List.map_map, List.map_map, List.map_map]
      refine List.map_congr_left (fun y hy => ?_)
      simp only [Function.comp, (optval_facts (h y hy)).1]
      rfl
    have e2 : ∀ l : List Str, (Val.parts (l.map (fun w => Val.sc (.str w)))).map orNil = l := by
      intro l
      rw [Val.parts_eq, List.map_map, List.map_map]
      exact (List.map_congr_left (fun y _ => rfl)).trans (List.map_id l)
    have l1 : (optsVal ((x :: os).map (·.2.1))) = .tuple ((x :: os).map (·.2.1)) := rfl
    have l2 : (optsVal ((optWords ((x :: os).map (·.2.2))).map (fun w => .sc (.str w)))) =
      .tuple ((optWords ((x :: os).map (·.2.2))).map (fun w => .sc (.str w))) := rfl
    rw [l1, l2]
    simp only [Val.text]
    rw [e1, e2, join_options]

theorem readVals_append {as bs vs ws} (h : ReadVals as vs) (h' : ReadVals bs ws) : ReadVals (as ++ bs) (vs ++ ws) := by
  induction as generalizing vs with
  | nil => cases vs with
    | nil => exact h'
    | cons v vs => cases h
  | cons a as ih => cases vs with
    | nil => cases h
    | cons v vs => exact ⟨h.1, ih h.2⟩

theorem canon_req {gs : List Field} (hr : gs.all (fun f => f.mode == .req && f.unit.ng == 0) = true) :
    ∀ {gv : List Val}, Fits (gs.map Field.spec) (gv.map Val.words) →
      Canon ((gs.map Field.spec).map (·.2)) (gv.map Val.words) ∧ (Assign.flat (gv.map Val.words)).length = gs.length := by
  induction gs with
  | nil => intro gv h; cases gv with
    | nil => exact ⟨trivial, rfl⟩
    | cons v vs => cases h
  | cons g gs ih =>
    intro gv h
    simp only [List.all_cons, Bool.and_eq_true, beq_iff_eq] at hr
    cases gv with
    | nil => cases h
    | cons v vs =>
      have hsp : g.spec = (unitOk g.unit, .req) := by simp [Field.spec, hr.1.1]
      simp only [List.map_cons, hsp] at h ⊢
      cases hv : v.words with
      | none => rw [hv] at h; exact absurd h.1 (by simp)
      | some ws =>
        rw [hv] at h
        obtain ⟨w, rfl⟩ := List.length_eq_one_iff.1 (h.2.2.1 (.inl rfl))
        obtain ⟨i1, i2⟩ := ih hr.2 h.2.2.2
        refine ⟨i1, ?_⟩
        have : Assign.flat (some [w] :: vs.map Val.words) = w :: Assign.flat (vs.map Val.words) := rfl
        rw [this, List.length_cons, i2, List.length_cons]

end Inp
