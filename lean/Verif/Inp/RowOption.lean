import Verif.Inp.RowRound
import Verif.Inp.FillRead
/-!
# Options whose lists are made of several entries each
-/
set_option maxRecDepth 100000
namespace Inp
open Py Types

/-- Biases of delayed neutrons and photons, materials of the cells of a mesh (src/pymcnp/inp/act/Dneb.py:14-20, act/Dgeb.py:14-20,
embed/Matcell.py:14-20). -/
def rowOptions : List RowCard := [
  ⟨Tab.act_Dneb, ⟨.no, c!"dneb", .no, .no⟩, .ty Tab.T_act_dneb_Bias, [],
    ⟨"biases", Tab.T_act_dneb_Bias, true, some .isNone⟩, .entry Tab.act_dneb_Bias [.real, .real]⟩,
  ⟨Tab.act_Dgeb, ⟨.no, c!"dgeb", .no, .no⟩, .ty Tab.T_act_dgeb_Bias, [],
    ⟨"biases", Tab.T_act_dgeb_Bias, true, some .isNone⟩, .entry Tab.act_dgeb_Bias [.real, .real]⟩,
  ⟨Tab.embed_Matcell, ⟨.no, c!"matcell", .no, .no⟩, .ty Tab.T_embed_matcell_Entry, [],
    ⟨"pairs", Tab.T_embed_matcell_Entry, true, some .isNone⟩, .entry Tab.embed_matcell_Entry [.int, .int]⟩]

theorem rowOptions_printed : rowOptions.all (fun r => r.front.std r.h [] && r.wordy.std r.h [⟨.ty (.base .str), .many⟩] &&
    r.c.info.style == .option) = true := by decide +kernel

theorem rowOptions_ok : ∀ r ∈ rowOptions, r.Ok := by
  intro r hr
  simp only [rowOptions, List.mem_cons, List.not_mem_nil, or_false] at hr
  rcases hr with rfl | rfl | rfl
  · have e : RowEntry Tab.act_dneb_Bias [.real, .real] := ⟨rfl, rfl, by simp [Tab.act_dneb_Bias], rfl, rfl, by simp⟩
    have f := rowPat_row [.real] .real rfl
    exact ⟨rfl, by decide +kernel, rfl, by decide +kernel, by simp, rfl, ⟨_, _, (f _).1, fun x h => h⟩, (f _).2.2.1,
      ⟨_, _, (f _).1, fun x h => h⟩, item_entry e⟩
  · have e : RowEntry Tab.act_dgeb_Bias [.real, .real] := ⟨rfl, rfl, by simp [Tab.act_dgeb_Bias], rfl, rfl, by simp⟩
    have f := rowPat_row [.real] .real rfl
    exact ⟨rfl, by decide +kernel, rfl, by decide +kernel, by simp, rfl, ⟨_, _, (f _).1, fun x h => h⟩, (f _).2.2.1,
      ⟨_, _, (f _).1, fun x h => h⟩, item_entry e⟩
  · have e : RowEntry Tab.embed_matcell_Entry [.int, .int] := ⟨rfl, rfl, by simp [Tab.embed_matcell_Entry], rfl, rfl, by simp⟩
    have f := rowPat_row [.int] .int rfl
    exact ⟨rfl, by decide +kernel, rfl, by decide +kernel, by simp, rfl, ⟨_, _, (f _).1, fun x h => h⟩, (f _).2.2.1,
      ⟨_, _, (f _).1, fun x h => h⟩, item_entry e⟩

/-- What the rows of a text are read as: the first word gives the attributes before the list, every row gives one element. -/
def RowCard.read (r : RowCard) (hv : List (Option Str)) (rows : List (List Str)) : Res Val :=
  match readVals r.as (hv.map (·.map ([·]))) with
  | .error e => .error e
  | .ok xs => match rows.mapM (fun y => r.a.ty.parse (join [' '] y)) with
    | .error e => .error e
    | .ok ys => r.c.mk' (xs ++ [Val.tuple ys])

/-- Reading rows of words. -/
theorem rows_words {r : RowCard} (ok : r.Ok) {hd : Str} {hv : List (Option Str)} {rows : List (List Str)} (hw : Words (hd :: rows.flatten))
    (hr : readHead r.h hd = some hv) (hne : rows ≠ []) (hx : ∀ y ∈ rows, All2 r.item.ps y) :
    (match reMatch r.c.re (hd ++ enc rows.flatten) with | none => (.error .inp : Res Val) | some m => r.c.build m) = r.read hv rows := by
  obtain ⟨p, ps, u1, u2⟩ := ok.unit
  obtain ⟨q, qs, t1, t2⟩ := ok.elem
  exact rows_read r.c r.h r.u r.a r.as ok.shape ok.head ok.attrs ok.len ok.one ok.many u1 ok.groups t1 hd hv rows hw hr hne
    (fun x h => u2 x (hx x h)) (fun x h => t2 x (hx x h))

/-- A class alone reads what its pattern matches. -/
theorem union_one {c : Cls} {s t : Str} {r : Res Val} (hp : preprocess s = t)
    (h : (match reMatch c.re t with | none => (.error .inp : Res Val) | some m => c.build m) = r) : unionParse [c] s = r := by
  unfold unionParse
  rw [hp]
  unfold firstMatch
  cases hm : reMatch c.re t with
  | none => rw [hm] at h; simpa [firstMatch] using h
  | some m =>
    rw [hm] at h
    simp only at h
    have : cap m 0 = some t := anchored_whole hm
    simp only [this, if_true]
    exact h

/-- Printing and reading back. -/
theorem rows_option {r : RowCard} (hr : r ∈ rowOptions) (hv xs : List Val) (hh : HeadOk r.h hv) (hne : xs ≠ [])
    (hx : ∀ x ∈ xs, RowItemVal r.item x) (v : Val) (hmk : r.c.mk' (hv ++ [.tuple xs]) = .ok v) : unionParse [r.c] v.str = .ok v := by
  have hpr := List.all_eq_true.1 rowOptions_printed r hr
  simp only [Bool.and_eq_true, beq_iff_eq] at hpr
  obtain ⟨⟨hfr, hwo⟩, hsty⟩ := hpr
  obtain ⟨hd, ws, he, hst, hws, hobj, h1, h2, hread, -, -⟩ := rows_core (rowOptions_ok r hr) hfr hwo hv xs hh hne hx v hmk
  have hstr : v.str = hd ++ ' ' :: join [' '] ws := by
    rw [hobj, obj_str]
    unfold objStr
    simp only [hsty]
    rw [h1, h2]
  refine union_one ?_ hread
  rw [hstr]
  cases ws with
  | nil =>
    obtain ⟨s1, s2⟩ := spaced_single hd [] [' '] he hst (.sp .nil)
    have := (spaced_prep s1).2.1
    rw [single_body, s2] at this
    simpa [join, enc] using this
  | cons w ws =>
    obtain ⟨s1, s2⟩ := spaced_single hd (w :: ws) [] he hst .nil
    have := (spaced_prep s1).2.1
    rw [single_body, s2] at this
    rw [join_enc, ← enc_cons]
    simpa using this

/-- The number of words of an element. -/
def RowItem.width : RowItem → Nat
  | .subst => 2
  | .entry _ ks => ks.length

theorem item_words (i : RowItem) : ∃ x, All2 i.ps x := by
  cases i with
  | subst => exact ⟨[c!"1", c!"1"], full_nonspace.2 ⟨by decide, by decide⟩, full_nonspace.2 ⟨by decide, by decide⟩, trivial⟩
  | entry d ks =>
    have one : Full numRe c!"1" := int_full (sc_unit (k := .int) (s := .int (.num 1)) trivial)
    refine ⟨ks.map (fun _ => c!"1"), ?_⟩
    show All2 (ks.map (fun _ => Full numRe)) _
    induction ks with
    | nil => trivial
    | cons k ks ih => exact ⟨one, ih⟩

theorem item_width (i : RowItem) : i.ps.length = i.width := by cases i <;> simp [RowItem.ps, RowItem.width]

/-- What a card of rows matches consists of whole rows. -/
theorem rows_whole {r : RowCard} (ok : r.Ok) {hd : Str} {ws : List Str} (hw : Words (hd :: ws)) {m}
    (h : reMatch r.c.re (hd ++ enc ws) = some m) : ws ≠ [] ∧ ws.length % r.item.width = 0 := by
  obtain ⟨p, ps, u1, u2⟩ := ok.unit
  have hlen : (p :: ps).length = r.item.width := by
    obtain ⟨x, hx⟩ := item_words r.item
    rw [← (u2 x hx).length, hx.length, item_width]
  have hhw := (Pat.cat r.h.pats).facts (r.h.word ok.head) 1
  have hre : r.c.pat.re 1 = (Pat.cat (r.h.pats ++ [Field.pat ⟨r.u, .many⟩])).re 1 := by simp [Cls.pat, ok.shape, Shape.pat]
  have hn : (1 + (Pat.cat r.h.pats).ng) + 1 + Pat.ng (.lits c!" ") = r.h.ng + 2 := by
    show 1 + r.h.ng + 1 + 0 = _; omega
  have hlist : (Pat.cat [Field.pat ⟨r.u, .many⟩]).re (1 + (Pat.cat r.h.pats).ng) =
      .seq (.grp (1 + r.h.ng) (Re.plus false (.seq (litRe c!" ") (r.u.re (r.h.ng + 2))))) .eps := by
    show Re.seq (.grp (1 + r.h.ng) (Re.plus false (.seq (litRe c!" ") (r.u.re ((1 + (Pat.cat r.h.pats).ng) + 1 + Pat.ng (.lits c!" ")))))) .eps = _
    rw [hn]
  have hfree : ((Pat.cat (r.h.pats ++ [Field.pat ⟨r.u, .many⟩])).re 1).free = true := by
    rw [free_cat, hhw.1, hlist]
    simp only [Re.free, Re.plus, blank_lit.free, u1.free, Bool.and_self]
  have hfull : Full (r.c.pat.re 1) (hd ++ enc ws) :=
    (full_iff _ (by rw [hre]; exact hfree) _).1 (by rw [Option.isSome_iff_exists]; exact ⟨m, h⟩)
  rw [hre] at hfull
  obtain ⟨e, he⟩ := hfull
  rw [mt_cat_append, hlist] at he
  obtain ⟨u, v, x, y, m1, m2, heq, -⟩ := he
  obtain ⟨v, t, x', y', m3, m4, rfl, -⟩ := mt_seq.1 m2
  obtain ⟨rfl, -⟩ := mt_eps.1 m4
  obtain ⟨z, m5, -⟩ := mt_grp.1 m3
  obtain ⟨rows, hne, hrows, rfl⟩ := mt_plus_rows blank_lit u1 m5
  rw [List.append_nil] at heq
  have bnd : ∀ l : List Str, Bnd (enc l) := by
    intro l c hc
    cases l with
    | nil => simp [enc] at hc
    | cons => simp at hc; subst hc; decide
  obtain ⟨-, he2⟩ := words_eq (hw hd (by simp)).1 (noSp_mt hhw.2.1 _ _ m1) (bnd ws) (bnd _) heq
  have hok : ∀ w ∈ rows.flatten, NoSpace w := by
    intro w hw
    obtain ⟨y, hy, hwy⟩ := List.mem_flatten.1 hw
    exact ((hrows y hy).words u1.ok w hwy).1
  have := enc_inj (fun w h => (hw w (by simp [h])).1) hok he2
  subst this
  constructor
  · cases rows with
    | nil => exact absurd rfl hne
    | cons y l =>
      have := (hrows y (by simp)).length
      intro e
      simp only [List.flatten_cons, List.append_eq_nil_iff] at e
      rw [e.1] at this
      simp at this
  · have : ∀ rows : List (List Str), (∀ x ∈ rows, All2 (p :: ps) x) → rows.flatten.length = rows.length * r.item.width := by
      intro rows
      induction rows with
      | nil => intro _; simp
      | cons y l ih =>
        intro h
        rw [List.flatten_cons, List.length_append, (h y (by simp)).length, hlen, ih (fun x hx => h x (by simp [hx])), List.length_cons,
          Nat.add_mul, Nat.one_mul, Nat.add_comm]
    rw [this rows hrows]
    exact Nat.mul_mod_left _ _

end Inp
