import Verif.Inp.OptionTable
import Verif.Inp.Bare
/-!
# Cards whose options capture without their blank
-/
set_option maxRecDepth 100000
namespace Inp
open Py Types

theorem field_good {p : Pat} {f : Field} (h : p.field? = some f) (hp : p.Good) : f.pat.Good := by
  unfold Pat.field? at h
  split at h
  · split at h
    · cases h; exact hp
    · cases h
  · split at h
    · cases h; exact hp
    · cases h
  · split at h
    · cases h; exact hp
    · cases h
  · cases h

theorem fields_good : ∀ (p : Pat) (fs : List Field), p.fields? = some fs → p.Good → (Pat.cat (fs.map Field.pat)).Good := by
  intro p
  induction p with
  | seq a b _ ihb =>
    intro fs h hp
    simp only [Pat.fields?] at h
    split at h
    · rename_i f fs' hf hfs
      cases h
      exact ⟨field_good hf hp.1, ihb fs' hfs hp.2⟩
    · cases h
  | _ =>
    intro fs h hp
    simp only [Pat.fields?] at h
    split at h
    · rename_i f hf
      cases h
      exact ⟨field_good hf hp, trivial⟩
    · cases h

theorem plainly_good {c : Cls} (hc : c.pat.Good) : c.plainly.pat.Good := by
  unfold Cls.plainly
  split
  · exact hc
  · rename_i p hp
    split
    · rename_i h fs hb
      have hpg : p.Good := by
        have : c.pat = p := by unfold Cls.pat; rw [hp]; rfl
        rw [← this]; exact hc
      unfold Pat.bare? at hb
      split at hb
      · split at hb
        · rename_i hq
          cases hb
          exact ⟨trivial, trivial, fields_good _ _ hq hpg.2.2⟩
        · cases hb
      · split at hb
        · rename_i hq
          cases hb
          exact ⟨trivial, fields_good _ _ hq hpg.2⟩
        · cases hb
      · cases hb
    · exact hc

/-- The option classes of a card, with the usual patterns. -/
def OptRow.plain (r : OptRow) : List Cls := r.cs.map Cls.plainly

theorem mem_plain {r : OptRow} (c : Cls) (h : c ∈ r.cs) : c.plainly ∈ r.plain := List.mem_map.2 ⟨c, h, rfl⟩

/-- The card with these option classes. -/
def OptRow.plainly (r : OptRow) : OptRow :=
  { r with
    cs := r.plain
    c := { r.c with
      shape := .flat r.h (r.gs ++ [⟨.ngrp (.ty (unionTy r.nm r.plain)), r.mode⟩])
      attrs := r.c.attrs.dropLast ++ r.c.attrs.getLast?.toList.map (fun a => { a with ty := unionTy r.nm r.plain }) } }

theorem rows_nb : optRows.all (fun r => r.plain.all (·.pat.nb)) = true := by decide +kernel

theorem row_plain_ok : ∀ r ∈ optRows, ∃ as a, OptCard r.plainly.c r.h r.gs r.nm r.plain r.mode as a ∧ r.c.attrs.dropLast = as := by
  intro r hr
  obtain ⟨as, a, oc⟩ := optRows_ok r hr
  have e1 : r.c.attrs.dropLast = as := by rw [oc.attrs]; simp
  have e2 : r.c.attrs.getLast?.toList = [a] := by rw [oc.attrs]; simp
  refine ⟨as, { a with ty := unionTy r.nm r.plain }, ⟨rfl, oc.mode, ?_, rfl, oc.many, oc.plain, oc.req, ?_, ?_⟩, e1⟩
  · simp only [OptRow.plainly, e1, e2]; rfl
  · intro d hd
    obtain ⟨c, hc, rfl⟩ := List.mem_map.1 hd
    exact plainly_good (oc.good c hc)
  · exact List.all_eq_true.1 (List.all_eq_true.1 rows_nb r hr)

theorem plain_names : ∀ r ∈ optRows, (r.plain.map (·.info.name)).Nodup ∧ ((sortLen r.plain).map (·.info.name)).Nodup := by
  intro r hr
  obtain ⟨h1, h2⟩ := optRows_names r hr
  have : ∀ cs : List Cls, (cs.map Cls.plainly).map (·.info.name) = cs.map (·.info.name) := by
    intro cs
    rw [List.map_map]
    exact List.map_congr_left (fun c _ => by simp only [Function.comp, (c.plainly_info).1])
  refine ⟨by unfold OptRow.plain; rw [this]; exact h1, ?_⟩
  unfold OptRow.plain
  rw [sort_plainly, this]
  exact h2

theorem cat_sim : ∀ (ps : List Pat) (p q : Pat), (∀ n, Sim 0 (p.re n) (q.re n)) → p.ng = q.ng → 
    (∀ n, Sim 0 ((Pat.cat (ps ++ [p])).re n) ((Pat.cat (ps ++ [q])).re n)) ∧ (Pat.cat (ps ++ [p])).ng = (Pat.cat (ps ++ [q])).ng
  | [], p, q, h, hn => ⟨fun n => Sim.seq (h n) (Sim.refl _), by simp only [List.nil_append, Pat.cat, Pat.ng, hn]⟩
  | p' :: ps, p, q, h, hn => by
    obtain ⟨i1, i2⟩ := cat_sim ps p q h hn
    exact ⟨fun n => Sim.seq (Sim.refl _) (i1 _), by simp only [List.cons_append, Pat.cat, Pat.ng, i2]⟩

theorem field_rel {t u : Ty} (h : TyRel t u) (mode : Mode) :
    (∀ n, Sim 0 ((Field.pat ⟨.ngrp (.ty t), mode⟩).re n) ((Field.pat ⟨.ngrp (.ty u), mode⟩).re n)) ∧
    (Field.pat ⟨.ngrp (.ty t), mode⟩).ng = (Field.pat ⟨.ngrp (.ty u), mode⟩).ng := by
  have hu : ∀ n, Sim 0 (.seq (litRe c!" ") (t.re n)) (.seq (litRe c!" ") (u.re n)) := fun n => Sim.seq (Sim.refl _) (h.sim n)
  have hp : ∀ g n, Sim 0 (Re.plus g (.seq (litRe c!" ") (t.re n))) (Re.plus g (.seq (litRe c!" ") (u.re n))) :=
    fun g n => Sim.seq (hu n) (Sim.star (hu n))
  cases mode
  · exact ⟨fun n => Sim.grp (hu _), by simp [Field.pat, Pat.ng, h.ng]⟩
  · exact ⟨fun n => Sim.opt (Sim.grp (hu _)), by simp [Field.pat, Pat.ng, h.ng]⟩
  · exact ⟨fun n => Sim.grp (hp _ _), by simp [Field.pat, Pat.ng, h.ng]⟩
  · exact ⟨fun n => Sim.grp (hp _ _), by simp [Field.pat, Pat.ng, h.ng]⟩
  · exact ⟨fun n => Sim.opt (Sim.grp (hp _ _)), by simp [Field.pat, Pat.ng, h.ng]⟩

theorem attrs_snoc : ∀ (as : List Attr) (a b : Attr), SlotRel a b → SlotsRel (as ++ [a]) (as ++ [b])
  | [], _, _, h => ⟨h, trivial⟩
  | c :: as, a, b, h => ⟨SlotRel.refl c, attrs_snoc as a b h⟩

/-- The card reads every text like the card whose options have the usual patterns. -/
theorem row_rel (r : OptRow) (hr : r ∈ optRows) : ClsRel r.c r.plainly.c := by
  obtain ⟨as, a, oc⟩ := optRows_ok r hr
  obtain ⟨as', a', oc', e⟩ := row_plain_ok r hr
  have e1 : r.c.attrs.dropLast = as := by rw [oc.attrs]; simp
  have e2 : r.c.attrs.getLast?.toList = [a] := by rw [oc.attrs]; simp
  have hty := unionTy_rel r.nm r.cs
  have hpat : r.c.pat = Pat.cat ((r.h.pats ++ r.gs.map Field.pat) ++ [Field.pat ⟨.ngrp (.ty (unionTy r.nm r.cs)), r.mode⟩]) := by
    unfold Cls.pat; rw [oc.shape]; simp [Shape.pat]
  have hpat' : r.plainly.c.pat = Pat.cat ((r.h.pats ++ r.gs.map Field.pat) ++ [Field.pat ⟨.ngrp (.ty (unionTy r.nm r.plain)), r.mode⟩]) := by
    unfold Cls.pat; rw [oc'.shape]; simp [Shape.pat]
  obtain ⟨f1, f2⟩ := field_rel hty r.mode
  obtain ⟨c1, c2⟩ := cat_sim (r.h.pats ++ r.gs.map Field.pat) _ _ f1 f2
  refine ⟨rfl, rfl, ?_, ?_, ?_⟩
  · have : r.plainly.c.attrs = as ++ [{ a with ty := unionTy r.nm r.plain }] := by
      simp only [OptRow.plainly, e1, e2]; rfl
    rw [this, oc.attrs]
    refine attrs_snoc as _ _ ⟨rfl, rfl, fun s => ?_⟩
    unfold Attr.parse
    rw [oc.many, oc.ty]
    exact tuple_rel hty s
  · intro n; rw [hpat, hpat']; exact c1 n
  · rw [hpat, hpat']; exact c2

theorem keywordRows_plain : ∀ r ∈ keywordRows, keyworded r.plain = true := by
  have : keywordRows.all (fun r => keyworded r.plain) = true := by decide +kernel
  exact fun r hr => List.all_eq_true.1 this r hr

end Inp
