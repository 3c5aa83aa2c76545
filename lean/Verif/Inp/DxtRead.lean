import Verif.Inp.RowOption
/-!
# Reading cards of DXTRAN spheres
-/
set_option maxRecDepth 100000
namespace Inp
open Py Types

/-- Rows of words, each with its conditions. -/
def Rows2 : List (List (Str → Prop)) → List (List Str) → Prop
  | [], [] => True
  | ps :: pss, r :: rs => All2 ps r ∧ Rows2 pss rs
  | _, _ => False

theorem Rows2.length : ∀ {pss rs}, Rows2 pss rs → rs.length = pss.length
  | [], [], _ => rfl
  | _ :: _, _ :: _, h => by simp [h.2.length]
  | [], _ :: _, h => h.elim
  | _ :: _, [], h => h.elim

/-- A field that is a row of words. -/
structure ReqRow (f : Field) (ps : List (Str → Prop)) : Prop where
  mode : f.mode = .req
  ng : f.unit.ng = 0
  row : ∀ n, Row (f.unit.re n) ps
  groups : ∀ n, (f.unit.re n).groupsIn n n
  ne : ps ≠ []

/-- Fields with their conditions. -/
def ReqRows : List Field → List (List (Str → Prop)) → Prop
  | [], [] => True
  | f :: fs, ps :: pss => ReqRow f ps ∧ ReqRows fs pss
  | _, _ => False

theorem req_re {f : Field} {ps} (h : ReqRow f ps) (n : Nat) : f.pat.re n = .grp n (.seq (litRe c!" ") (f.unit.re (n + 1))) := by
  rw [Field.re_eq, h.mode]; rfl

theorem req_ng {f : Field} {ps} (h : ReqRow f ps) : f.pat.ng = 1 := by rw [f.ng_pat, h.ng]

theorem Rows2.words : ∀ {fs pss rs}, ReqRows fs pss → Rows2 pss rs → Words rs.flatten
  | [], [], [], _, _ => by intro x hx; cases hx
  | f :: fs, ps :: pss, r :: rs, hf, h => by
    intro x hx
    rw [List.flatten_cons] at hx
    rcases List.mem_append.1 hx with hx | hx
    · exact h.1.words (hf.1.row 0).ok x hx
    · exact Rows2.words hf.2 h.2 x hx
  | [], _ :: _, _, h, _ => h.elim
  | _ :: _, [], _, h, _ => h.elim
  | _, [], _ :: _, _, h => h.elim
  | _, _ :: _, [], _, h => h.elim

theorem rows2_each : ∀ {fs pss rs}, ReqRows fs pss → Rows2 pss rs → ∀ r ∈ rs, r ≠ [] ∧ Words r
  | [], [], [], _, _ => by intro r hr; cases hr
  | f :: fs, ps :: pss, r :: rs, hf, h => by
    intro x hx
    rcases List.mem_cons.1 hx with rfl | hx
    · refine ⟨?_, h.1.words (hf.1.row 0).ok⟩
      rintro rfl
      exact hf.1.ne (List.length_eq_zero_iff.1 h.1.length.symm)
    · exact rows2_each hf.2 h.2 x hx
  | [], _ :: _, _, h, _ => h.elim
  | _ :: _, [], _, h, _ => h.elim
  | _, [], _ :: _, _, h => h.elim
  | _, _ :: _, [], _, h => h.elim

/-- What such fields match. -/
theorem mt_req : ∀ {fs pss}, ReqRows fs pss → ∀ {n w e}, Mt (fieldsRe fs n) w e →
    ∃ rs, Rows2 pss rs ∧ w = enc rs.flatten ∧ Caps e n (rs.map (fun r => some (enc r)))
  | [], [], _, n, w, e, h => by
    obtain ⟨rfl, rfl⟩ := mt_eps.1 h
    exact ⟨[], trivial, rfl, Caps.nil n⟩
  | f :: fs, ps :: pss, hf, n, w, e, h => by
    rw [fieldsRe_cons, req_re hf.1, req_ng hf.1] at h
    obtain ⟨u, v, x, y, h1, h2, rfl, rfl⟩ := mt_seq.1 h
    obtain ⟨z, k1, rfl⟩ := mt_grp.1 h1
    have hz : z = [] := by
      cases z with
      | nil => rfl
      | cons a z =>
        have := k1.groups (lo := n + 1) (hi := n + 1) ⟨blank_lit.groups _ _, hf.1.groups _⟩ a (by simp)
        omega
    subst hz
    obtain ⟨b, t, _, _, k2, k3, rfl, -⟩ := mt_seq.1 k1
    obtain ⟨rfl, -⟩ := (blank_lit.mt _ _).1 k2
    obtain ⟨a, ws, q1, rfl⟩ := (hf.1.row (n + 1)).mt _ _ k3
    obtain ⟨rs, q2, rfl, q3⟩ := mt_req hf.2 h2
    refine ⟨(a :: ws) :: rs, ⟨q1, q2⟩, by simp [enc_append], ?_⟩
    have := (Caps.one n (enc (a :: ws))).append q3
    simpa using this
  | [], _ :: _, h, _, _, _, _ => h.elim
  | _ :: _, [], h, _, _, _, _ => h.elim

theorem full_req : ∀ {fs pss}, ReqRows fs pss → ∀ {rs}, Rows2 pss rs → ∀ n, Full (fieldsRe fs n) (enc rs.flatten)
  | [], [], _, [], _, n => ⟨[], .eps⟩
  | f :: fs, ps :: pss, hf, r :: rs, h, n => by
    rw [fieldsRe_cons, req_re hf.1, req_ng hf.1]
    obtain ⟨e, he⟩ := full_req hf.2 h.2 (n + 1)
    cases r with
    | nil =>
      cases ps with
      | nil => exact absurd rfl hf.1.ne
      | cons => exact h.1.elim
    | cons a ws =>
      obtain ⟨e', he'⟩ := (hf.1.row (n + 1)).full a ws h.1
      refine ⟨_, mt_seq.2 ⟨enc (a :: ws), enc rs.flatten, _, _, mt_grp.2 ⟨_, mt_seq.2 ⟨[' '], a ++ enc ws, [], e', (blank_lit.mt _ _).2 ⟨rfl, rfl⟩, he', by simp, rfl⟩, rfl⟩,
        he, by simp [enc_append], rfl⟩⟩
  | [], _ :: _, h, _, _, _ => h.elim
  | _ :: _, [], h, _, _, _ => h.elim
  | _, [], _, _ :: _, h, _ => h.elim
  | _, _ :: _, _, [], h, _ => h.elim

theorem req_free : ∀ {fs pss}, ReqRows fs pss → ∀ n, (fieldsRe fs n).free = true
  | [], [], _, _ => rfl
  | f :: fs, ps :: pss, hf, n => by
    rw [fieldsRe_cons, req_re hf.1]
    simp only [Re.free, blank_lit.free, (hf.1.row _).free, req_free hf.2, Bool.and_self]
  | [], _ :: _, h, _ => h.elim
  | _ :: _, [], h, _ => h.elim

/-- Rows of the same widths in one list of words are the same rows. -/
theorem rows2_inj : ∀ {pss rs rs'}, Rows2 pss rs → Rows2 pss rs' → rs.flatten = rs'.flatten → rs = rs'
  | [], [], [], _, _, _ => rfl
  | ps :: pss, r :: rs, r' :: rs', h, h', e => by
    rw [List.flatten_cons, List.flatten_cons] at e
    obtain ⟨e1, e2⟩ := List.append_inj e (h.1.length.trans h'.1.length.symm)
    rw [e1, rows2_inj h.2 h'.2 e2]
  | [], _ :: _, _, h, _, _ => h.elim
  | [], [], _ :: _, _, h, _ => h.elim
  | _ :: _, [], _, h, _, _ => h.elim
  | _ :: _, _ :: _, [], _, h, _ => h.elim

/-- A card of such fields: it is read exactly if the first word is read and the entries are rows of the right words. -/
theorem req_match (c : Cls) (h : Head) (fs : List Field) (hs : c.shape = .flat h fs) (hok : h.ok = true) {pss} (hf : ReqRows fs pss)
    (hd : Str) (ws : List Str) (hw : Words (hd :: ws)) :
    (∀ m, reMatch c.re (hd ++ enc ws) = some m → ∃ hv rs, readHead h hd = some hv ∧ ws = rs.flatten ∧ Rows2 pss rs ∧ hv.length = h.ng ∧
      (∀ i v, hv[i]? = some v → cap m (1 + i) = v) ∧ (∀ i r, rs[i]? = some r → cap m (1 + h.ng + i) = some (enc r))) ∧
    (∀ hv rs, readHead h hd = some hv → ws = rs.flatten → Rows2 pss rs → (reMatch c.re (hd ++ enc ws)).isSome = true) := by
  have hre : c.re = anchored ((Pat.cat (h.pats ++ fs.map Field.pat)).re 1) := by simp [Cls.re, Cls.pat, hs, Shape.pat]
  have hhw := (Pat.cat h.pats).facts (h.word hok) 1
  have hng : (Pat.cat h.pats).ng = h.ng := rfl
  have hfree : ((Pat.cat (h.pats ++ fs.map Field.pat)).re 1).free = true := by
    rw [free_cat, hhw.1]
    exact req_free hf _
  rw [hre]
  constructor
  · intro m hm
    obtain ⟨e, he, rfl⟩ := full_match hfree hm
    obtain ⟨u, v, x, y, h1, h2, e1, rfl⟩ := (mt_cat_append _ _ _ _ _).1 he
    obtain ⟨rs, r1, rfl, r3⟩ := mt_req hf h2
    have hrw : Words rs.flatten := r1.words hf
    have eu : u = hd ∧ enc rs.flatten = enc ws := by
      obtain ⟨q, q1, q2⟩ := prefix_word (noSp_mt hhw.2.1 _ _ h1) (enc_bnd ws) e1
      cases q with
      | nil => exact ⟨by simpa using q1.symm, by simpa using q2⟩
      | cons c q =>
        have := enc_bnd rs.flatten c (by rw [q2]; simp)
        have h3 := (hw hd (by simp)).1 c (by rw [q1]; simp)
        rw [h3] at this; cases this
    obtain ⟨rfl, e2⟩ := eu
    have e3 := enc_inj (fun w h => (hrw w h).1) (fun w h => (hw.tail w h).1) e2
    obtain ⟨hv, hc, hl, hr⟩ := head_mt hok h1
    have hall := hc.append (by rw [hl, ← hng]; exact r3)
    refine ⟨hv, rs, hr, e3.symm, r1, hl, ?_, ?_⟩
    · intro i v hi
      unfold cap
      have : (1 + i == 0) = false := by simp
      rw [List.lookup, this]
      exact hall.get i v (by
        rw [List.getElem?_append_left (List.getElem?_eq_some_iff.1 hi).1]; exact hi)
    · intro i r hi
      unfold cap
      have : (1 + h.ng + i == 0) = false := by simp
      rw [List.lookup, this, show 1 + h.ng + i = 1 + (h.ng + i) by omega]
      exact hall.get (h.ng + i) (some (enc r)) (by
        rw [List.getElem?_append_right (by omega), hl, show h.ng + i - h.ng = i by omega, List.getElem?_map, hi]; rfl)
  · rintro hv rs hr rfl r1
    refine (full_iff _ hfree _).2 ?_
    obtain ⟨e, he⟩ := head_full hr (hw hd (by simp)).1 1
    obtain ⟨e', he'⟩ := full_req hf r1 (1 + h.ng)
    exact ⟨_, (mt_cat_append _ _ _ _ _).2 ⟨hd, enc rs.flatten, e, e', he, he', rfl, rfl⟩⟩

theorem attr_rows (ng : Nat) (m) : ∀ (as : List Attr) (rs : List (List Str)) (i : Nat), as.length = rs.length → (∀ a ∈ as, a.many = false) →
    (∀ r ∈ rs, r ≠ [] ∧ Words r) → (∀ j r, rs[j]? = some r → cap m (i + 1 + j) = some (enc r)) → i + rs.length ≤ ng →
    attrVals ng m i as = readVals as (rs.map some)
  | [], [], _, _, _, _, _, _ => rfl
  | a :: as, r :: rs, i, hl, hm, hr, hc, hng => by
    simp only [List.length_cons] at hng hl
    have e1 : attrVal ng m i a = readVal a (some r) := by
      have := hc 0 r rfl
      simp only [Nat.add_zero] at this
      unfold attrVal
      rw [if_neg (by omega), this]
      obtain ⟨h1, h2⟩ := hr r (by simp)
      cases r with
      | nil => exact absurd rfl h1
      | cons w ws =>
        have hst := strip_enc w ws h2
        rw [enc_cons] at hst ⊢
        simp only [Attr.parse, hm a (by simp), readVal, hst, join_enc]
        rfl
    have e2 := attr_rows ng m as rs (i + 1) (by omega) (fun b hb => hm b (by simp [hb])) (fun b hb => hr b (by simp [hb])) (by
      intro j r' hj
      rw [← hc (j + 1) r' (by simpa using hj)]; congr 1; omega) (by omega)
    simp only [attrVals, List.map_cons, readVals, e1, e2]
    cases readVal a (some r) with
    | error => rfl
    | ok x => cases readVals as (rs.map some) <;> rfl
  | [], _ :: _, _, hl, _, _, _, _ => by simp at hl
  | _ :: _, [], _, hl, _, _, _, _ => by simp at hl

/-! ## The card -/

abbrev dxtHead : Head := ⟨.no, c!"dxt", .no, .req⟩

/-- Five words (src/pymcnp/inp/Dxt.py:34). -/
abbrev shellPat : Pat := .seq (.plus true (.cls (.one .S))) (.seq (.lits c!" ") (.seq (.plus true (.cls (.one .S))) (.seq (.lits c!" ") (.seq (.plus true (.cls (.one .S)))
  (.seq (.lits c!" ") (.seq (.plus true (.cls (.one .S))) (.seq (.lits c!" ") (.plus true (.cls (.one .S))))))))))

abbrev dxtFields : List Field := List.replicate 10 ⟨shellPat, .req⟩ ++ List.replicate 3 ⟨.ty (.base .real), .req⟩

theorem dxt_shape : Tab.Dxt.shape = .flat dxtHead dxtFields := rfl

abbrev IsWord (w : Str) : Prop := NoSpace w ∧ w ≠ []

theorem row_word : Row ((Pat.plus true (.cls (.one .S))).re 0) [IsWord] := by
  have h := row_one (r := (Pat.plus true (.cls (.one .S))).re 0) rfl (by
    intro w e h c hc
    have := (mt_plus_cls.1 h).2.1 c hc
    simpa [CC.test, CI.test] using this) (by
    intro e h
    exact (mt_plus_cls.1 h).1 rfl) (tok_plus_cls (by intro c hc; simp [CC.test, CI.test, hc]))
  have : Full ((Pat.plus true (.cls (.one .S))).re 0) = IsWord := by
    funext w
    apply propext
    constructor
    · rintro ⟨e, h⟩
      exact ⟨fun c hc => by simpa [CC.test, CI.test] using (mt_plus_cls.1 h).2.1 c hc, (mt_plus_cls.1 h).1⟩
    · rintro ⟨h1, h2⟩
      exact ⟨[], mt_plus_cls.2 ⟨h2, fun c hc => by simp [CC.test, CI.test, h1 c hc], rfl⟩⟩
  rw [← this]
  exact h

theorem req_shell : ReqRow ⟨shellPat, .req⟩ (List.replicate 5 IsWord) where
  mode := rfl
  ng := rfl
  row := fun _ => row_cons row_word blank_lit (row_cons row_word blank_lit (row_cons row_word blank_lit (row_cons row_word blank_lit row_word)))
  groups := fun _ => by simp [Pat.re, Re.groupsIn, litRe, Re.plus, Re.chrI]
  ne := by simp

theorem req_real : ReqRow ⟨.ty (.base .real), .req⟩ [Full numRe] where
  mode := rfl
  ng := rfl
  row := fun _ => row_num
  groups := fun n => by
    have := (Pat.ty (.base .real)).facts rfl n
    exact this.2.2
  ne := by simp

abbrev dxtRows : List (List (Str → Prop)) := List.replicate 10 (List.replicate 5 IsWord) ++ List.replicate 3 [Full numRe]

theorem dxt_req : ReqRows dxtFields dxtRows :=
  ⟨req_shell, req_shell, req_shell, req_shell, req_shell, req_shell, req_shell, req_shell, req_shell, req_shell, req_real, req_real, req_real, trivial⟩

/-- Entries cut into rows of given widths. -/
def cut : List Nat → List Str → List (List Str)
  | [], _ => []
  | k :: ks, ws => ws.take k :: cut ks (ws.drop k)

theorem cut_rows : ∀ {pss rs}, Rows2 pss rs → cut (pss.map List.length) rs.flatten = rs
  | [], [], _ => rfl
  | ps :: pss, r :: rs, h => by
    simp only [List.map_cons, List.flatten_cons, cut]
    rw [← h.1.length, List.take_left, List.drop_left, cut_rows h.2]
  | [], _ :: _, h => h.elim
  | _ :: _, [], h => h.elim

theorem all2_words : ∀ {k : Nat} {ws : List Str}, Words ws → ws.length = k → All2 (List.replicate k IsWord) ws
  | 0, [], _, _ => trivial
  | k + 1, w :: ws, hw, hl => ⟨hw w (by simp), all2_words hw.tail (by simpa using hl)⟩
  | 0, _ :: _, _, h => by simp at h
  | _ + 1, [], _, h => by simp at h

theorem cut_block (k : Nat) (qss : List (List (Str → Prop))) : ∀ (n : Nat) (ws : List Str), Words ws → n * k ≤ ws.length →
    Rows2 qss (cut (qss.map List.length) (ws.drop (n * k))) →
    Rows2 (List.replicate n (List.replicate k IsWord) ++ qss) (cut ((List.replicate n (List.replicate k IsWord) ++ qss).map List.length) ws) ∧
      (cut ((List.replicate n (List.replicate k IsWord) ++ qss).map List.length) ws).flatten = ws.take (n * k) ++ (cut (qss.map List.length) (ws.drop (n * k))).flatten
  | 0, ws, _, _, h => by simpa using h
  | n + 1, ws, hw, hl, h => by
    have e : (n + 1) * k = k + n * k := by rw [Nat.add_mul]; omega
    rw [e] at hl h ⊢
    rw [← List.drop_drop] at h
    obtain ⟨i1, i2⟩ := cut_block k qss n (ws.drop k) (fun w h => hw w (List.mem_of_mem_drop h)) (by rw [List.length_drop]; omega) h
    simp only [List.replicate_succ, List.cons_append, List.map_cons, cut, List.length_replicate, List.flatten_cons]
    refine ⟨⟨all2_words (fun w h => hw w (List.mem_of_mem_take h)) (by rw [List.length_take]; omega), i1⟩, ?_⟩
    rw [i2, List.drop_drop, ← List.append_assoc, List.take_add]

/-- The rows of a card are its entries, five at a time, and three numbers. -/
theorem dxt_rows {ws : List Str} (hw : Words ws) : (∃ rs, ws = rs.flatten ∧ Rows2 dxtRows rs) ↔ ws.length = 53 ∧ ∀ w ∈ ws.drop 50, Full numRe w := by
  constructor
  · rintro ⟨rs, rfl, h⟩
    match rs, h with
    | [a1, a2, a3, a4, a5, a6, a7, a8, a9, a10, [x], [y], [z]], h =>
      obtain ⟨h1, h2, h3, h4, h5, h6, h7, h8, h9, h10, h11, h12, h13, -⟩ := h
      have l1 := h1.length; have l2 := h2.length; have l3 := h3.length; have l4 := h4.length; have l5 := h5.length
      have l6 := h6.length; have l7 := h7.length; have l8 := h8.length; have l9 := h9.length; have l10 := h10.length
      simp only [List.length_replicate] at l1 l2 l3 l4 l5 l6 l7 l8 l9 l10
      have e : [a1, a2, a3, a4, a5, a6, a7, a8, a9, a10, [x], [y], [z]].flatten = (a1 ++ (a2 ++ (a3 ++ (a4 ++ (a5 ++ (a6 ++ (a7 ++ (a8 ++ (a9 ++ a10))))))))) ++ [x, y, z] := by
        simp
      have el : (a1 ++ (a2 ++ (a3 ++ (a4 ++ (a5 ++ (a6 ++ (a7 ++ (a8 ++ (a9 ++ a10))))))))).length = 50 := by
        simp only [List.length_append]; omega
      rw [e, List.drop_left' el]
      refine ⟨by rw [List.length_append, el]; rfl, ?_⟩
      intro w hw
      simp only [List.mem_cons, List.not_mem_nil, or_false] at hw
      rcases hw with rfl | rfl | rfl
      · exact h11.1
      · exact h12.1
      · exact h13.1
  · rintro ⟨hl, h⟩
    obtain ⟨x, y, z, hx⟩ : ∃ x y z, ws.drop 50 = [x, y, z] := by
      have : (ws.drop 50).length = 3 := by rw [List.length_drop]; omega
      match ws.drop 50, this with
      | [x, y, z], _ => exact ⟨x, y, z, rfl⟩
    obtain ⟨b1, b2⟩ := cut_block 5 (List.replicate 3 [Full numRe]) 10 ws hw (by omega) (by
      rw [show 10 * 5 = 50 from rfl, hx]
      rw [hx] at h
      exact ⟨⟨h x (by simp), trivial⟩, ⟨h y (by simp), trivial⟩, ⟨h z (by simp), trivial⟩, trivial⟩)
    refine ⟨_, ?_, b1⟩
    rw [b2, show 10 * 5 = 50 from rfl, hx]
    conv => lhs; rw [← List.take_append_drop 50 ws, hx]
    rfl

/-- How many words each attribute takes. -/
def dxtWidths : List Nat := List.replicate 10 5 ++ List.replicate 3 1

/-- Reading a card: exactly ten spheres of five words and three numbers. -/
def readDxt (w0 : Str) (ws : List Str) : Res Val :=
  match readHead dxtHead w0 with
  | none => .error .inp
  | some hv =>
    if ws.length = 53 ∧ (ws.drop 50).all (unitOk (.ty (.base .real))) = true then
      match readVals Tab.Dxt.attrs (hv.map (·.map ([·])) ++ (cut dxtWidths ws).map some) with
      | .error e => .error e
      | .ok l => Tab.Dxt.mk' l
    else .error .inp

theorem real_full {w : Str} : unitOk (.ty (.base .real)) w = true ↔ Full numRe w := by
  rw [unitOk_iff (.ty (.base .real)) rfl 1]; rfl

theorem dxt_words {w0 : Str} {ws : List Str} (hw : Words (w0 :: ws)) :
    (match reMatch Tab.Dxt.re (w0 ++ enc ws) with | none => (.error .inp : Res Val) | some m => Tab.Dxt.build m) = readDxt w0 ws := by
  obtain ⟨m1, m2⟩ := req_match Tab.Dxt dxtHead dxtFields dxt_shape rfl dxt_req w0 ws hw
  have hcond : (ws.length = 53 ∧ (ws.drop 50).all (unitOk (.ty (.base .real))) = true) ↔ ∃ rs, ws = rs.flatten ∧ Rows2 dxtRows rs := by
    rw [dxt_rows hw.tail, List.all_eq_true]
    simp only [real_full]
  unfold readDxt
  cases hm : reMatch Tab.Dxt.re (w0 ++ enc ws) with
  | none =>
    cases hr : readHead dxtHead w0 with
    | none => rfl
    | some hv =>
      simp only
      rw [if_neg]
      rw [hcond]
      rintro ⟨rs, h1, h2⟩
      have := m2 hv rs hr h1 h2
      rw [hm] at this; cases this
  | some m =>
    obtain ⟨hv, rs, hr, h1, h2, hl, c1, c2⟩ := m1 m hm
    rw [hr]
    simp only
    rw [if_pos (hcond.2 ⟨rs, h1, h2⟩)]
    have hcut : cut dxtWidths ws = rs := by
      have := cut_rows h2
      rw [← h1] at this
      exact this
    rw [hcut]
    have hwd := readHead_words hr (hw w0 (by simp)).1
    have hlen : hv.length = 1 := hl
    have hrl : rs.length = 13 := h2.length
    have hrw : ∀ r ∈ rs, r ≠ [] ∧ Words r :=
      rows2_each dxt_req h2
    have hat : attrVals Tab.Dxt.pat.ng m (0 + hv.length) (Tab.Dxt.attrs.drop 1) = readVals (Tab.Dxt.attrs.drop 1) (rs.map some) := by
      rw [hlen]
      refine attr_rows _ m _ rs 1 (by rw [hrl]; rfl) (by decide +kernel) hrw ?_ (by rw [hrl]; decide +kernel)
      intro j r hj
      exact c2 j r hj
    have hall := attrs_head Tab.Dxt.pat.ng m hv (Tab.Dxt.attrs.take 1) (Tab.Dxt.attrs.drop 1) (rs.map some) 0 (by rw [hlen]; rfl) (by decide +kernel) hwd
      (by intro j v hj; have := c1 j v hj; simpa using this) (by rw [hlen]; decide +kernel) hat
    rw [List.take_append_drop] at hall
    show Tab.Dxt.build m = _
    unfold Cls.build
    rw [hall]
    cases readVals Tab.Dxt.attrs (hv.map (·.map ([·])) ++ rs.map some) <;> rfl

end Inp
