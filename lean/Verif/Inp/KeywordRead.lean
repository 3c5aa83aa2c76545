import Verif.Inp.KeywordSpec
import Verif.Inp.ApartLemmas
import Verif.Inp.FitsLemmas
import Verif.Inp.RoundTrip
import Verif.Inp.TokLemmas
import Verif.Inp.DataUnion
/-!
# Reading cards with a keyword before their list
-/
set_option maxRecDepth 100000
namespace Inp
open Py Types

theorem list_assign {ok : Str → Bool} {ws : List Str} (hne : ws ≠ []) (h : ∀ w ∈ ws, ok w = true) :
    assign [(ok, .many)] ws = some [some ws] := by
  have := assign_apart [(ok, .many)] [some ws] ⟨hne, h, by simp, trivial⟩
    ⟨(by intro _ w _ f hf; cases hf), (by rintro (h | h) <;> cases h), trivial⟩
  simpa [Assign.flat] using this

/-- Without a keyword the first entry must not look like one, unless it is the only entry. -/
theorem bare_assign {a b : Str → Bool} {ws : List Str} (hne : ws ≠ []) (h : ∀ w ∈ ws, b w = true) :
    assign [(a, .opt), (b, .many)] ws = some [none, some ws] ↔ (ws.length = 1 ∨ ∀ w ∈ ws.head?, a w = false) := by
  cases ws with
  | nil => exact absurd rfl hne
  | cons w l =>
    have h1 := list_assign hne h
    unfold assign
    rw [h1]
    simp only [takeOne]
    cases hw : a w with
    | false => simp [hw]
    | true =>
      cases l with
      | nil =>
        have : assign [(b, Mode.many)] [] = none := by simp [assign, takeMany]
        simp [this]
      | cons x l =>
        rw [list_assign (ok := b) (by simp) (fun y hy => h y (by simp [hy]))]
        simp [hw]

theorem keyword_assign {a b : Str → Bool} {k : Str} {ws : List Str} (hne : ws ≠ []) (hk : a k = true) (h : ∀ w ∈ ws, b w = true) :
    assign [(a, .opt), (b, .many)] (k :: ws) = some [some [k], some ws] := by
  unfold assign
  simp [takeOne, hk, list_assign hne h]

/-- Everything about a card of the table. -/
structure KwCard.Ok (r : KwCard) : Prop where
  shape : r.c.shape = .flat r.h [⟨r.p, .opt⟩, ⟨.ty (.base r.k), .many⟩]
  std : r.c.std r.h [⟨r.p, .opt⟩, ⟨.ty (.base r.k), .many⟩] = true
  style : r.c.info.style = .card
  ng : r.h.ng = 1
  attrs : ∃ a b, r.c.attrs.drop 1 = [a, b] ∧ a.many = false ∧ a.ty = .base .str ∧ b.many = true ∧ b.ty = .base r.k
  data : r.c ∈ dataCards
  kw : ∀ w, unitOk r.p w = true ↔ lower w ∈ r.kws
  low : ∀ k ∈ r.kws, lower k = k ∧ Stable k

theorem kw_log {w : Str} : unitOk (.ngrp (.alt (.lits c!"log") (.lits c!"lin"))) w = true ↔ lower w ∈ [c!"log", c!"lin"] := by
  rw [unitOk_iff _ (by decide +kernel) 1]
  show (∃ e, Mt (.alt (litRe c!"log") (litRe c!"lin")) w e) ↔ _
  simp only [mt_alt, mt_lit, show lower c!"log" = c!"log" by decide, show lower c!"lin" = c!"lin" by decide, List.mem_cons,
    List.not_mem_nil, or_false]
  constructor
  · rintro ⟨e, h | h⟩
    · exact .inl h.1
    · exact .inr h.1
  · rintro (h | h)
    · exact ⟨[], .inl ⟨h, rfl⟩⟩
    · exact ⟨[], .inr ⟨h, rfl⟩⟩

theorem kw_chars {l : List Char} (hl : ∀ c ∈ l, lowerC c = c) (hp : (Pat.cls (.set false (l.map .ch))).word = true) {w : Str} :
    unitOk (.cls (.set false (l.map .ch))) w = true ↔ lower w ∈ l.map ([·]) := by
  rw [unitOk_iff _ hp 1]
  show (∃ e, Mt (.cls (CC.test (.set false (l.map .ch)))) w e) ↔ _
  simp only [mt_cls]
  constructor
  · rintro ⟨e, c, h, rfl, -⟩
    simp only [CC.test, List.any_map, bne_iff_ne, ne_eq, Bool.not_eq_false, List.any_eq_true, Function.comp, CI.test, beq_iff_eq] at h
    obtain ⟨x, hx, h⟩ := h
    rw [List.mem_map]
    exact ⟨x, hx, by simp [lower, h, hl x hx]⟩
  · intro h
    obtain ⟨x, hx, h⟩ := List.mem_map.1 h
    cases w with
    | nil => simp [lower] at h
    | cons c w =>
      cases w with
      | cons d w => simp [lower] at h
      | nil =>
        refine ⟨[], c, ?_, rfl, rfl⟩
        simp only [CC.test, List.any_map, bne_iff_ne, ne_eq, Bool.not_eq_false, List.any_eq_true, Function.comp, CI.test, beq_iff_eq]
        refine ⟨x, hx, ?_⟩
        simp [lower] at h
        rw [← h, hl x hx]

theorem kwCards_ok : ∀ r ∈ kwCards, r.Ok := by
  have hl : ∀ k ∈ [c!"log", c!"lin", c!"h", c!"l", c!"s", c!"d", c!"c", c!"v", c!"w", c!"a"], lower k = k ∧ Stable k := by
    intro k hk
    simp only [List.mem_cons, List.not_mem_nil, or_false] at hk
    rcases hk with rfl | rfl | rfl | rfl | rfl | rfl | rfl | rfl | rfl | rfl <;>
      exact ⟨by decide, ⟨by decide, by decide, by decide, by decide, by decide, by decide, by decide⟩, by intro h; revert h; decide +kernel, by decide +kernel⟩
  intro r hr
  simp only [kwCards, List.mem_cons, List.not_mem_nil, or_false] at hr
  rcases hr with rfl | rfl | rfl | rfl | rfl | rfl | rfl | rfl
  · exact ⟨rfl, by decide +kernel, rfl, rfl, ⟨_, _, rfl, rfl, rfl, rfl, rfl⟩, by simp [dataCards], fun w => kw_log, fun k hk => hl k (by simp at hk ⊢; grind)⟩
  · exact ⟨rfl, by decide +kernel, rfl, rfl, ⟨_, _, rfl, rfl, rfl, rfl, rfl⟩, by simp [dataCards], fun w => kw_log, fun k hk => hl k (by simp at hk ⊢; grind)⟩
  · exact ⟨rfl, by decide +kernel, rfl, rfl, ⟨_, _, rfl, rfl, rfl, rfl, rfl⟩, by simp [dataCards],
      fun w => kw_chars (l := ['h', 'l', 's']) (by decide) (by decide), fun k hk => hl k (by simp at hk ⊢; grind)⟩
  · exact ⟨rfl, by decide +kernel, rfl, rfl, ⟨_, _, rfl, rfl, rfl, rfl, rfl⟩, by simp [dataCards],
      fun w => kw_chars (l := ['d', 'c', 'v', 'w']) (by decide) (by decide), fun k hk => hl k (by simp at hk ⊢; grind)⟩
  · exact ⟨rfl, by decide +kernel, rfl, rfl, ⟨_, _, rfl, rfl, rfl, rfl, rfl⟩, by simp [dataCards],
      fun w => kw_chars (l := ['d', 'c', 'v', 'w']) (by decide) (by decide), fun k hk => hl k (by simp at hk ⊢; grind)⟩
  · exact ⟨rfl, by decide +kernel, rfl, rfl, ⟨_, _, rfl, rfl, rfl, rfl, rfl⟩, by simp [dataCards],
      fun w => kw_chars (l := ['h', 'l', 'a', 's']) (by decide) (by decide), fun k hk => hl k (by simp at hk ⊢; grind)⟩
  · exact ⟨rfl, by decide +kernel, rfl, rfl, ⟨_, _, rfl, rfl, rfl, rfl, rfl⟩, by simp [dataCards],
      fun w => kw_chars (l := ['h', 'l', 'a', 's']) (by decide) (by decide), fun k hk => hl k (by simp at hk ⊢; grind)⟩
  · exact ⟨rfl, by decide +kernel, rfl, rfl, ⟨_, _, rfl, rfl, rfl, rfl, rfl⟩, by simp [dataCards],
      fun w => kw_chars (l := ['h', 'l', 'a', 's']) (by decide) (by decide), fun k hk => hl k (by simp at hk ⊢; grind)⟩

/-- The values of such a card can be written. -/
theorem kw_vals {r : KwCard} (hk : r.Ok) {o : Option Str} (ho : ∀ w ∈ o, w ∈ r.kws) {xs : List Val} (hne : xs ≠ [])
    (hx : ∀ x ∈ xs, ∃ s, x = .sc s ∧ ReadSc r.k s) :
    ReadVals (r.c.attrs.drop r.h.ng) [o.elim .none (fun w => .sc (.str w)), .tuple xs] := by
  obtain ⟨a, b, hab, a1, a2, b1, b2⟩ := hk.attrs
  rw [hk.ng, hab]
  refine ⟨?_, ⟨b1, hne, r.k, b2, hx⟩, trivial⟩
  cases o with
  | none => trivial
  | some w => exact ⟨a1, .str, a2, (hk.low w (ho w rfl)).2⟩

/-- When the entries are assigned to the fields they come from. -/
theorem kw_assigned {r : KwCard} (hk : r.Ok) {o : Option Str} (ho : ∀ w ∈ o, w ∈ r.kws) {xs : List Val} (hne : xs ≠ [])
    (hx : ∀ x ∈ xs, ∃ s, x = .sc s ∧ ReadSc r.k s) :
    assign ([⟨r.p, .opt⟩, ⟨.ty (.base r.k), .many⟩].map Field.spec)
        (Assign.flat ([o.elim .none (fun w => .sc (.str w)), .tuple xs].map Val.words)) =
      some ([o.elim .none (fun w => .sc (.str w)), .tuple xs].map Val.words) ↔
    (o = none → xs.length = 1 ∨ ∀ x ∈ xs.head?, lower x.str ∉ r.kws) := by
  have hu : ∀ w ∈ xs.map Val.str, unitOk (.ty (.base r.k)) w = true := by
    intro w hw
    obtain ⟨x, hx', rfl⟩ := List.mem_map.1 hw
    obtain ⟨s, rfl, hs⟩ := hx x hx'
    exact sc_unit hs
  have hne' : xs.map Val.str ≠ [] := by simpa using hne
  cases o with
  | none =>
    have e := bare_assign (a := unitOk r.p) hne' hu
    simp only [Option.elim_none, List.map_cons, List.map_nil, Val.words, Assign.flat, List.flatMap_cons, List.flatMap_nil, Option.getD_none,
      Option.getD_some, List.nil_append, List.append_nil, Field.spec, true_imp_iff]
    rw [e]
    simp only [List.length_map, List.head?_map, Option.mem_def, Option.map_eq_some_iff, forall_exists_index, and_imp,
      forall_apply_eq_imp_iff₂]
    constructor
    · rintro (h | h)
      · exact .inl h
      · refine .inr fun x hx h' => ?_
        rw [← hk.kw, h x hx] at h'; cases h'
    · rintro (h | h)
      · exact .inl h
      · refine .inr fun x hx => ?_
        have := h x hx
        rw [← hk.kw] at this
        simpa using this
  | some w =>
    have hw := ho w rfl
    have e := keyword_assign (a := unitOk r.p) hne' ((hk.kw w).2 (by rw [(hk.low w hw).1]; exact hw)) hu
    simp only [Option.elim_some, List.map_cons, List.map_nil, Val.words, Assign.flat, List.flatMap_cons, List.flatMap_nil,
      Option.getD_some, List.append_nil, Field.spec, reduceCtorEq, false_imp_iff, iff_true]
    exact e

end Inp
