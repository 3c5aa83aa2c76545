import Verif.Inp.RowRead
import Verif.Inp.RowSpec
import Verif.Inp.Whole
/-!
# Printing and reading back cards whose lists are made of rows
-/
set_option maxRecDepth 100000
namespace Inp
open Py Types

/-- The conditions of the words of an element. -/
def RowItem.ps : RowItem → List (Str → Prop)
  | .subst => [Full (.plus true .nonspace), Full (.plus true .nonspace)]
  | .entry _ ks => ks.map (fun _ => Full numRe)

theorem full_nonspace {w : Str} : Full (Re.plus true .nonspace) w ↔ w ≠ [] ∧ NoSpace w := by
  constructor
  · rintro ⟨e, h⟩
    obtain ⟨h1, h2, -⟩ := mt_plus_cls.1 h
    exact ⟨h1, fun c hc => by have := h2 c hc; simpa using this⟩
  · rintro ⟨h1, h2⟩
    exact ⟨[], mt_plus_cls.2 ⟨h1, fun c hc => by simp [h2 c hc], rfl⟩⟩

theorem row_nonspace : Row (.plus true .nonspace) [Full (.plus true .nonspace)] :=
  row_one rfl (by
    intro w e h
    exact (full_nonspace.1 ⟨e, h⟩).2) (by
    intro e h
    exact (full_nonspace.1 ⟨e, h⟩).1 rfl) (tok_plus_cls (by intro c hc; simp [hc]))

theorem row_subst (n : Nat) : Row (Kind.re n .subst) (RowItem.ps .subst) :=
  row_cons (row_grp row_nonspace n) blank_chr (row_grp row_nonspace (n + 1))

theorem subst_groups (n : Nat) : (Kind.re n .subst).groupsIn n (n + 2) :=
  ⟨⟨Nat.le_refl _, by omega, trivial, trivial⟩, trivial, ⟨by omega, by omega, trivial, trivial⟩⟩

/-- Everything about a card of the table. -/
structure RowCard.Ok (r : RowCard) : Prop where
  shape : r.c.shape = .flat r.h [⟨r.u, .many⟩]
  head : r.h.ok = true
  attrs : r.c.attrs = r.as ++ [r.a]
  len : r.as.length = r.h.ng
  one : ∀ b ∈ r.as, b.many = false
  many : r.a.many = true
  unit : ∃ p ps, Row (r.u.re (r.h.ng + 2)) (p :: ps) ∧ ∀ x, All2 r.item.ps x → All2 (p :: ps) x
  groups : (r.u.re (r.h.ng + 2)).groupsIn (r.h.ng + 2) (r.h.ng + 2 + r.u.ng)
  elem : ∃ q qs, Row (r.a.ty.re 1) (q :: qs) ∧ ∀ x, All2 r.item.ps x → All2 (q :: qs) x
  item : ∀ x, RowItemVal r.item x → ∃ ws, All2 r.item.ps ws ∧ (∀ w ∈ ws, Stable w) ∧ x.text = some (join [' '] ws) ∧
    r.a.ty.parse (join [' '] ws) = .ok x

/-- The card without its list. -/
def RowCard.front (r : RowCard) : Cls :=
  { r.c with shape := .flat r.h [], attrs := r.as, info := { r.c.info with attrs := r.c.info.attrs.dropLast } }

/-- The card with words in place of its list. -/
def RowCard.wordy (r : RowCard) : Cls :=
  { r.c with shape := .flat r.h [⟨.ty (.base .str), .many⟩], attrs := r.as ++ [⟨r.a.name, .base .str, true, none⟩] }

def RowCard.printed (r : RowCard) : Bool :=
  r.front.std r.h [] && r.wordy.std r.h [⟨.ty (.base .str), .many⟩] && r.c.info.style == .card

theorem rowCards_printed : rowCards.all RowCard.printed = true := by decide +kernel

theorem item_entry {d : Cls} {ks : List Kind} {nm : String} (h : RowEntry d ks) (x : Val) (hx : RowItemVal (.entry d ks) x) :
    ∃ ws, All2 (RowItem.ps (.entry d ks)) ws ∧ (∀ w ∈ ws, Stable w) ∧ x.text = some (join [' '] ws) ∧
      (d.asTy nm).parse (join [' '] ws) = .ok x := by
  obtain ⟨vs, h1, h2, h3⟩ := hx
  obtain ⟨e1, e2, e3, e4⟩ := entry_item h h1 h2 h3
  exact ⟨_, e1, e2, e3, e4⟩

theorem item_subst (x : Val) (hx : RowItemVal .subst x) :
    ∃ ws, All2 (RowItem.ps .subst) ws ∧ (∀ w ∈ ws, Stable w) ∧ x.text = some (join [' '] ws) ∧
      (Ty.base .subst).parse (join [' '] ws) = .ok x := by
  obtain ⟨z, d, rfl, hz⟩ := hx
  have h1 := (sc_round hz).1
  have h2 := (sc_round (k := .real) (s := .real (.num (.fin d))) trivial).1
  refine ⟨[z.str, (Sc.real (.num (.fin d))).text], ⟨?_, ?_, trivial⟩, ?_, ?_, ?_⟩
  · exact full_nonspace.2 ⟨h1.entry.ne, h1.entry.sp⟩
  · exact full_nonspace.2 ⟨h2.entry.ne, h2.entry.sp⟩
  · intro w hw
    simp only [List.mem_cons, List.not_mem_nil, or_false] at hw
    rcases hw with rfl | rfl
    · exact h1
    · exact h2
  · simp [Val.text, Sc.text, Substance.str, join]
  · obtain ⟨q1, q2, q3, q4⟩ := hz
    have := Props.C51_substance_roundtrip z.z z.a z.abx d q1 q2 (fun t ht => q3 t ht)
    show (substParse _).map _ = _
    have e : join [' '] [z.str, (Sc.real (.num (.fin d))).text] = Substance.str ⟨⟨z.z, z.a, z.abx⟩, .num (.fin d)⟩ := by
      simp [Sc.text, Substance.str, join]
    rw [e, this]
    rfl

theorem rowCards_ok : ∀ r ∈ rowCards, r.Ok := by
  intro r hr
  simp only [rowCards, List.mem_cons, List.not_mem_nil, or_false] at hr
  have one1 : ∀ (a : Attr), a.many = false → ∀ b ∈ [a], b.many = false := by
    intro a ha b hb; simp only [List.mem_singleton] at hb; subst hb; exact ha
  rcases hr with rfl | rfl | rfl | rfl | rfl
  · have e : RowEntry Tab.ksrc_Location [.real, .real, .real] := ⟨rfl, rfl, by simp [Tab.ksrc_Location], rfl, rfl, by simp⟩
    have f := rowPat_row [.real, .real] .real rfl
    exact ⟨rfl, by decide +kernel, rfl, by decide +kernel, by simp, rfl, ⟨_, _, (f _).1, fun x h => h⟩, (f _).2.2.1,
      ⟨_, _, (f _).1, fun x h => h⟩, item_entry e⟩
  · have e : RowEntry Tab.dd_Diagnostic [.real, .real] := ⟨rfl, rfl, by simp [Tab.dd_Diagnostic], rfl, rfl, by simp⟩
    have f := rowPat_row [.real] .real rfl
    exact ⟨rfl, by decide +kernel, rfl, by decide +kernel, one1 _ rfl, rfl, ⟨_, _, (f _).1, fun x h => h⟩, (f _).2.2.1,
      ⟨_, _, (f _).1, fun x h => h⟩, item_entry e⟩
  · have e : RowEntry Tab.uran_Stochastic [.int, .real, .real, .real] := ⟨rfl, rfl, by simp [Tab.uran_Stochastic], rfl, rfl, by simp⟩
    have f := rowPat_row [.real, .real, .real] .int rfl
    have g : Row (.plus true .nonspace) [Full (.plus true .nonspace)] := row_nonspace
    have g4 := row_cons g blank_lit (row_cons g blank_lit (row_cons g blank_lit g))
    have k : ∀ w, Full numRe w → Full (.plus true .nonspace) w := fun w hw =>
      full_nonspace.2 ⟨(row_num.ok _ (by simp) w hw).2, (row_num.ok _ (by simp) w hw).1⟩
    refine ⟨rfl, by decide +kernel, rfl, by decide +kernel, by simp, rfl, ⟨_, _, g4, ?_⟩, ?_,
      ⟨_, _, (f _).1, fun x h => h⟩, item_entry e⟩
    · intro x hx
      rcases x with _ | ⟨a, _ | ⟨b, _ | ⟨c, _ | ⟨d, _ | ⟨e, x⟩⟩⟩⟩⟩
      · exact hx.elim
      · exact hx.2.elim
      · exact hx.2.2.elim
      · exact hx.2.2.2.elim
      · exact ⟨k _ hx.1, k _ hx.2.1, k _ hx.2.2.1, k _ hx.2.2.2.1, trivial⟩
      · exact hx.2.2.2.2.elim
    · exact ⟨⟨trivial, trivial⟩, blank_lit.groups _ _, ⟨trivial, trivial⟩, blank_lit.groups _ _, ⟨trivial, trivial⟩, blank_lit.groups _ _,
        trivial, trivial⟩
  · exact ⟨rfl, by decide +kernel, rfl, by decide +kernel, one1 _ rfl, rfl, ⟨_, _, row_subst _, fun x h => h⟩, subst_groups _,
      ⟨_, _, row_subst _, fun x h => h⟩, item_subst⟩
  · exact ⟨rfl, by decide +kernel, rfl, by decide +kernel, by simp, rfl, ⟨_, _, row_subst _, fun x h => h⟩, subst_groups _,
      ⟨_, _, row_subst _, fun x h => h⟩, item_subst⟩

/-- The words of the elements. -/
theorem items_words {r : RowCard} (ok : r.Ok) : ∀ (xs : List Val), (∀ x ∈ xs, RowItemVal r.item x) →
    ∃ rows : List (List Str), rows.length = xs.length ∧ (∀ y ∈ rows, All2 r.item.ps y) ∧ (∀ w ∈ rows.flatten, Stable w) ∧
      xs.map Val.text = rows.map (fun y => some (join [' '] y)) ∧ rows.mapM (fun y => r.a.ty.parse (join [' '] y)) = .ok xs := by
  intro xs
  induction xs with
  | nil => intro _; exact ⟨[], rfl, by simp, by simp, rfl, rfl⟩
  | cons x xs ih =>
    intro h
    obtain ⟨rows, r1, r2, r3, r4, r5⟩ := ih (fun y hy => h y (by simp [hy]))
    obtain ⟨ws, w1, w2, w3, w4⟩ := ok.item x (h x (by simp))
    refine ⟨ws :: rows, by simp [r1], ?_, ?_, by simp [r4, w3], ?_⟩
    · intro y hy
      rcases List.mem_cons.1 hy with rfl | hy
      · exact w1
      · exact r2 y hy
    · intro w hw
      rw [List.flatten_cons, List.mem_append] at hw
      rcases hw with hw | hw
      · exact w2 w hw
      · exact r3 w hw
    · rw [List.mapM_cons, w4, r5]; rfl

theorem join_rows (rows : List (List Str)) (h : ∀ x ∈ rows, x ≠ []) : join [' '] (rows.map (join [' '])) = join [' '] rows.flatten := by
  have e := enc_rows rows h
  cases rows with
  | nil => rfl
  | cons x xs =>
    cases x with
    | nil => exact absurd rfl (h [] (by simp))
    | cons w ws =>
      simp only [List.map_cons, List.flatten_cons, List.cons_append, enc_cons] at e ⊢
      simp only [join_enc] at e ⊢
      simpa using e

/-- The words of a card with a list, and reading them. -/
theorem rows_core {r : RowCard} (ok : r.Ok) (hfr : r.front.std r.h [] = true) (hwo : r.wordy.std r.h [⟨.ty (.base .str), .many⟩] = true)
    (hv xs : List Val) (hh : HeadOk r.h hv) (hne : xs ≠ []) (hx : ∀ x ∈ xs, RowItemVal r.item x) (v : Val)
    (hmk : r.c.mk' (hv ++ [.tuple xs]) = .ok v) :
    ∃ hd ws, Entry hd ∧ (∀ w ∈ ws, Stable w) ∧ Words (hd :: ws) ∧ v = .obj r.c.info (hv ++ [.tuple xs]) ∧
      headStr r.c.info.kw (r.c.info.attrs.zip (Val.parts (hv ++ [.tuple xs]))) = hd ∧
      bodyStr (r.c.info.attrs.zip (Val.parts (hv ++ [.tuple xs]))) = join [' '] ws ∧
      (match reMatch r.c.re (hd ++ enc ws) with | none => (.error .inp : Res Val) | some m => r.c.build m) = .ok v ∧
      readHead r.h hd = some (hv.map Val.text) ∧ v.headWord = hd := by
  obtain ⟨rows, r1, r2, r3, r4, r5⟩ := items_words ok xs hx
  obtain ⟨p, ps, u1, u2⟩ := ok.unit
  obtain ⟨q, qs, t1, t2⟩ := ok.elem
  have hrne : rows ≠ [] := by
    intro e; subst e
    cases xs with
    | nil => exact hne rfl
    | cons => simp at r1
  have hxne : ∀ x ∈ rows, x ≠ [] := by
    intro x hx e; subst e
    exact u2 _ (r2 _ hx)
  have hfne : rows.flatten ≠ [] := by
    cases rows with
    | nil => exact absurd rfl hrne
    | cons x l =>
      have := hxne x (by simp)
      simp [this]
  have hdrop : r.wordy.attrs.drop r.h.ng = [⟨r.a.name, .base .str, true, none⟩] := by
    show (r.as ++ _).drop r.h.ng = _
    rw [← ok.len]; simp
  obtain ⟨hd, he, hst', h1, h2, hrd, hw, -, hl⟩ := std_facts r.wordy r.h _ hwo hv
    [.tuple (rows.flatten.map (fun w => .sc (.str w)))] hh (by
      rw [hdrop]
      refine ⟨⟨rfl, by simpa using hfne, .str, rfl, ?_⟩, trivial⟩
      intro v hv
      obtain ⟨w, hw, rfl⟩ := List.mem_map.1 hv
      exact ⟨_, rfl, r3 w hw⟩)
  have hfl : Assign.flat ([Val.tuple (rows.flatten.map (fun w => .sc (.str w)))].map Val.words) = rows.flatten := by
    have : (rows.flatten.map (fun w => Val.sc (.str w))).map Val.str = rows.flatten := by
      rw [List.map_map]; exact (List.map_congr_left (fun y _ => rfl)).trans (List.map_id _)
    simp only [List.map_cons, List.map_nil, Val.words, this, Assign.flat, List.flatMap_cons, List.flatMap_nil, Option.getD_some,
      List.append_nil]
  rw [hfl] at h2 hst'
  rw [show r.wordy.info = r.c.info from rfl] at h1 h2
  have hdrop' : r.front.attrs.drop r.h.ng = [] := by
    show r.as.drop r.h.ng = _
    rw [← ok.len]; simp
  obtain ⟨hd', -, -, -, -, hrd', hw', hrv, -⟩ := std_facts r.front r.h [] hfr hv [] hh (by rw [hdrop']; trivial)
  have hparts : Val.parts (hv ++ [.tuple xs]) = Val.parts (hv ++ [.tuple (rows.flatten.map (fun w => .sc (.str w)))]) := by
    rw [Val.parts_eq, Val.parts_eq, List.map_append, List.map_append]
    congr 1
    have e1 : (Val.parts xs).map orNil = rows.map (join [' ']) := by
      rw [Val.parts_eq, r4, List.map_map]; rfl
    have e2 : (Val.parts (rows.flatten.map (fun w => Val.sc (.str w)))).map orNil = rows.flatten := by
      rw [Val.parts_eq, List.map_map, List.map_map]
      exact (List.map_congr_left (fun y _ => rfl)).trans (List.map_id _)
    simp only [List.map_cons, List.map_nil, Val.text, e1, e2]
    rw [join_rows rows hxne]
  have hws : Words (hd :: rows.flatten) := by
    intro w hw
    rcases List.mem_cons.1 hw with rfl | hw
    · exact ⟨he.sp, he.ne⟩
    · exact ⟨(hst' w hw).entry.sp, (hst' w hw).entry.ne⟩
  have hobj := Props.mk_obj hmk
  have hread := rows_read r.c r.h r.u r.a r.as ok.shape ok.head ok.attrs ok.len ok.one ok.many u1 ok.groups t1 hd _ rows hws hrd hrne
    (fun x hx => u2 x (r2 x hx)) (fun x hx => t2 x (r2 x hx))
  have hv1 : readVals r.as ((hv.map Val.text).map (·.map ([·]))) = .ok hv := by
    rw [← hw]
    simpa [RowCard.front] using hrv
  rw [hv1, r5] at hread
  simp only at hread
  rw [hmk] at hread
  refine ⟨hd, rows.flatten, he, hst', hws, hobj, by rw [hparts]; exact h1, by rw [hparts]; exact h2, hread, hrd, ?_⟩
  rw [hobj]
  simp only [Val.headWord, hparts]
  exact h1

/-- Printing and reading back. -/
theorem rows_round {r : RowCard} (hr : r ∈ rowCards) (hv xs : List Val) (hh : HeadOk r.h hv) (hne : xs ≠ [])
    (hx : ∀ x ∈ xs, RowItemVal r.item x) (v : Val) (hmk : r.c.mk' (hv ++ [.tuple xs]) = .ok v) :
    ∃ hd ws, Entry hd ∧ (∀ w ∈ ws, Stable w) ∧ v.str = postprocess (join [' '] (hd :: ws)) ∧ cardParse r.c v.str = .ok (v, []) ∧
      readHead r.h hd = some (hv.map Val.text) ∧ v.headWord = hd := by
  have hpr := List.all_eq_true.1 rowCards_printed r hr
  simp only [RowCard.printed, Bool.and_eq_true, beq_iff_eq] at hpr
  obtain ⟨⟨hfr, hwo⟩, hsty⟩ := hpr
  obtain ⟨hd, ws, he, hst, hws, hobj, h1, h2, hread, hrd, hw⟩ := rows_core (rowCards_ok r hr) hfr hwo hv xs hh hne hx v hmk
  have hstr : v.str = postprocess (join [' '] (hd :: ws)) := by
    rw [hobj, obj_str]
    unfold objStr
    simp only [hsty]
    rw [h1, h2, strip_text hd _ hws]
  refine ⟨hd, ws, he, hst, hstr, ?_, hrd, hw⟩
  rw [hstr]
  unfold cardParse
  rw [Props.C18_wrap_roundtrip hd _ (fun w hw => by
    rcases List.mem_cons.1 hw with rfl | hw
    · exact he
    · exact (hst w hw).entry) (fun w hw => (hst w hw).low) (fun w hw => (hst w hw).cnt), join_enc]
  simp only
  cases hm : reMatch r.c.re (hd ++ enc ws) with
  | none => rw [hm] at hread; cases hread
  | some m =>
    rw [hm] at hread
    simp only at hread ⊢
    rw [hread]

end Inp
