import Verif.Inp.DxtRead
import Verif.Props.Card
/-!
# C109: DXTRAN spheres
-/
set_option maxRecDepth 100000
namespace Props
open Py Types Inp

/-- **C109, reading:** a card with any spacing and continuation lines is read as ten spheres of five entries each and three numbers; any other
number of entries is refused. -/
theorem C109_read (g0 w0 : Str) (l : List (Gap × Str)) (g1 : Str) (ht : Spaced g0 w0 l g1) :
    cardParse Tab.Dxt (g0 ++ (w0 ++ (body l ++ g1))) = (readDxt w0 (entries l)).map (fun v => (v, [])) := by
  obtain ⟨hp, -, hw⟩ := spaced_prep ht
  have h := dxt_words hw
  unfold cardParse
  rw [hp]
  simp only
  rw [← h]
  cases reMatch Tab.Dxt.re (w0 ++ enc (entries l)) with
  | none => rfl
  | some m =>
    simp only
    cases Tab.Dxt.build m <;> rfl

/-- **C109 fails for every card with fewer than ten spheres:** whatever is written, a card with other than 53 entries is refused, so cards with
one to nine spheres (with or without the three numbers at the end) and cards with ten spheres that leave out a number cannot be read. -/
theorem C109_refused (g0 w0 : Str) (l : List (Gap × Str)) (g1 : Str) (ht : Spaced g0 w0 l g1) (hl : (entries l).length ≠ 53) :
    cardParse Tab.Dxt (g0 ++ (w0 ++ (body l ++ g1))) = .error .inp := by
  rw [C109_read g0 w0 l g1 ht]
  unfold readDxt
  cases readHead dxtHead w0 with
  | none => rfl
  | some hv =>
    simp only
    rw [if_neg (fun h => hl h.1)]
    rfl

/-- The text `dxt:n 0 0 0 1 2`, a card with one sphere: the hypotheses of both theorems are met. -/
example : Spaced [] c!"dxt:n" [(.ws c!" ", c!"0"), (.ws c!" ", c!"0"), (.ws c!" ", c!"0"), (.ws c!" ", c!"1"), (.ws c!" ", c!"2")] [] ∧
    (entries [(.ws c!" ", c!"0"), (.ws c!" ", c!"0"), (.ws c!" ", c!"0"), (.ws c!" ", c!"1"), (.ws c!" ", c!"2")]).length ≠ 53 := by
  refine ⟨⟨.nil, by decide, ?_, .nil, by decide, by decide, by decide⟩, by decide⟩
  intro x hx
  simp only [List.mem_cons, List.not_mem_nil, or_false] at hx
  rcases hx with rfl | rfl | rfl | rfl | rfl <;> exact ⟨⟨.sp .nil, by decide⟩, by decide⟩

/-- A sphere as the user builds it: five numbers, all set. -/
def IsShell (x : Val) : Prop := ∃ vs, ReadVals Tab.dxt_Shell.attrs vs ∧ (∀ v ∈ vs, v ≠ .none) ∧ Tab.dxt_Shell.mk' vs = .ok x

theorem shell_entry : RowEntry Tab.dxt_Shell [.real, .real, .real, .int, .int] := ⟨rfl, rfl, by simp [Tab.dxt_Shell], rfl, rfl, by simp⟩

theorem shell_words (x : Val) (hx : IsShell x) : ∃ ws, ws.length = 5 ∧ (∀ w ∈ ws, Stable w) ∧ x.text = some (join [' '] ws) ∧
    Tab.T_dxt_Shell.parse (join [' '] ws) = .ok x := by
  obtain ⟨ws, h1, h2, h3, h4⟩ := item_entry (nm := "dxt.Shell") shell_entry x hx
  exact ⟨ws, h1.length, h2, h3, h4⟩

theorem shells_words : ∀ xs : List Val, (∀ x ∈ xs, IsShell x) → ∃ rs : List (List Str), rs.length = xs.length ∧ (∀ r ∈ rs, r.length = 5) ∧
    (∀ w ∈ rs.flatten, Stable w) ∧ xs.map Val.text = rs.map (fun r => some (join [' '] r)) ∧
    ∀ as : List Attr, as.length = xs.length → (∀ a ∈ as, a.ty = Tab.T_dxt_Shell ∧ a.many = false) → readVals as (rs.map some) = .ok xs
  | [], _ => ⟨[], rfl, by simp, by simp, rfl, by intro as h _; rw [List.length_eq_zero_iff.1 h]; rfl⟩
  | x :: xs, h => by
    obtain ⟨rs, r1, r2, r3, r4, r5⟩ := shells_words xs (fun y hy => h y (by simp [hy]))
    obtain ⟨ws, w1, w2, w3, w4⟩ := shell_words x (h x (by simp))
    refine ⟨ws :: rs, by simp [r1], ?_, ?_, by simp [r4, w3], ?_⟩
    · intro r hr
      rcases List.mem_cons.1 hr with rfl | hr
      · exact w1
      · exact r2 r hr
    · intro w hw
      rw [List.flatten_cons, List.mem_append] at hw
      rcases hw with hw | hw
      · exact w2 w hw
      · exact r3 w hw
    · intro as hl ha
      cases as with
      | nil => simp at hl
      | cons a as =>
        have e := r5 as (by simpa using hl) (fun b hb => ha b (by simp [hb]))
        obtain ⟨a1, a2⟩ := ha a (by simp)
        have e1 : readVal a (some ws) = .ok x := by
          show (if a.many = true then (ws.mapM a.ty.parse).map Val.tuple else a.ty.parse (join [' '] ws)) = _
          rw [if_neg (by rw [a2]; simp), a1, w4]
        simp only [List.map_cons, readVals, e1, e]

theorem readVals_two : ∀ {as bs : List Attr} {us vs : Assign} {xs ys}, as.length = us.length → readVals as us = .ok xs → readVals bs vs = .ok ys →
    readVals (as ++ bs) (us ++ vs) = .ok (xs ++ ys)
  | [], bs, [], vs, xs, ys, _, h1, h2 => by
    have : xs = [] := by simpa [readVals] using h1.symm
    subst this; exact h2
  | a :: as, bs, u :: us, vs, xs, ys, hl, h1, h2 => by
    simp only [readVals] at h1
    cases e1 : readVal a u with
    | error => rw [e1] at h1; cases h1
    | ok x =>
      rw [e1] at h1
      cases e2 : readVals as us with
      | error => rw [e2] at h1; cases h1
      | ok xs' =>
        rw [e2] at h1
        simp only [Except.ok.injEq] at h1
        subst h1
        simp only [List.cons_append, readVals, e1, readVals_two (by simpa using hl) e2 h2]
  | [], _, _ :: _, _, _, _, hl, _, _ => by simp at hl
  | _ :: _, _, [], _, _, _, hl, _, _ => by simp at hl

/-- The card with words in place of its spheres. -/
def dxtWordy : Cls :=
  { Tab.Dxt with
    shape := .flat dxtHead (List.replicate 10 ⟨.ty (.base .str), .many⟩ ++ List.replicate 3 ⟨.ty (.base .real), .req⟩)
    attrs := Tab.Dxt.attrs.map (fun a => if a.ty.kind?.isNone then ⟨a.name, .base .str, true, none⟩ else a) }

theorem dxtWordy_std : dxtWordy.std dxtHead (List.replicate 10 ⟨.ty (.base .str), .many⟩ ++ List.replicate 3 ⟨.ty (.base .real), .req⟩) = true := by
  decide +kernel

theorem dxt_attrs : Tab.Dxt.attrs = [⟨"designator", .base .desig, false, some .isNone⟩] ++ ((Tab.Dxt.attrs.drop 1).take 10 ++ Tab.Dxt.attrs.drop 11) := rfl

theorem dxtWordy_drop : dxtWordy.attrs.drop dxtHead.ng = ((Tab.Dxt.attrs.drop 1).take 10).map (fun a => ⟨a.name, .base .str, true, none⟩) ++ Tab.Dxt.attrs.drop 11 := rfl

theorem words_read (f : Attr → Attr) (hf : ∀ a, f a = ⟨a.name, .base .str, true, none⟩) : ∀ (as : List Attr) (rs : List (List Str)), as.length = rs.length →
    (∀ r ∈ rs, r ≠ []) → (∀ w ∈ rs.flatten, Stable w) → ReadVals (as.map f) (rs.map (fun r => .tuple (r.map (fun w => .sc (.str w)))))
  | [], [], _, _, _ => trivial
  | a :: as, r :: rs, hl, hn, hs => by
    refine ⟨?_, words_read f hf as rs (by simpa using hl) (fun x hx => hn x (by simp [hx])) (fun w hw => hs w (by rw [List.flatten_cons]; simp [hw]))⟩
    rw [hf]
    refine ⟨rfl, by simpa using hn r (by simp), .str, rfl, ?_⟩
    intro v hv
    obtain ⟨w, hw, rfl⟩ := List.mem_map.1 hv
    exact ⟨_, rfl, hs w (by rw [List.flatten_cons]; simp [hw])⟩
  | [], _ :: _, hl, _, _ => by simp at hl
  | _ :: _, [], hl, _, _ => by simp at hl

theorem tuple_words (r : List Str) : Val.words (.tuple (r.map (fun w => .sc (.str w)))) = some r := by
  have : (r.map (fun w => Val.sc (.str w))).map Val.str = r := by
    rw [List.map_map]; exact (List.map_congr_left (fun y _ => rfl)).trans (List.map_id _)
  simp only [Val.words, this]

theorem tuple_text (r : List Str) : Val.text (.tuple (r.map (fun w => .sc (.str w)))) = some (join [' '] r) := by
  have e2 : (Val.parts (r.map (fun w => Val.sc (.str w)))).map orNil = r := by
    rw [Val.parts_eq, List.map_map, List.map_map]
    exact (List.map_congr_left (fun y _ => rfl)).trans (List.map_id _)
  simp only [Val.text, e2]

/-- **C109, round trip:** a card with ten spheres and three numbers is printed as a text that is read as the same card.  Missing: cards with fewer
spheres, which the class cannot hold and `C109_refused` shows to be refused. -/
theorem C109_roundtrip_partial (d : Val) (xs ys : List Val) (hd : HeadOk dxtHead [d]) (hxl : xs.length = 10) (hx : ∀ x ∈ xs, IsShell x)
    (hy : ReadVals (Tab.Dxt.attrs.drop 11) ys) (hyn : ∀ y ∈ ys, y ≠ .none) (v : Val) (hmk : Tab.Dxt.mk' ([d] ++ (xs ++ ys)) = .ok v) :
    cardParse Tab.Dxt v.str = .ok (v, []) := by
  obtain ⟨rs, r1, r2, r3, r4, r5⟩ := shells_words xs hx
  have hrne : ∀ r ∈ rs, r ≠ [] := by
    intro r hr e; have := r2 r hr; rw [e] at this; cases this
  obtain ⟨y1, y2, y3, rfl⟩ : ∃ y1 y2 y3, ys = [y1, y2, y3] := by
    match ys, hy with
    | [y1, y2, y3], _ => exact ⟨y1, y2, y3, rfl⟩
  obtain ⟨q1, q2, q3, q4⟩ := row_vals (ks := [.real, .real, .real]) (as := Tab.Dxt.attrs.drop 11) rfl (by decide +kernel) rfl hy hyn
  obtain ⟨hw0, he, hst, h1, h2, hrd, hw, hrv, -⟩ := std_facts dxtWordy dxtHead _ dxtWordy_std [d] (rs.map (fun r => .tuple (r.map (fun w => .sc (.str w)))) ++ [y1, y2, y3]) hd (by
    rw [dxtWordy_drop]
    exact readVals_append (words_read _ (fun _ => rfl) _ rs (by rw [r1, hxl]; rfl) hrne r3) hy)
  have hwords : (rs.map (fun r => Val.tuple (r.map (fun w => Val.sc (.str w)))) ++ [y1, y2, y3]).map Val.words = rs.map some ++ [y1, y2, y3].map (fun y => some [y.str]) := by
    rw [List.map_append, q2, List.map_map, List.map_map]
    congr 1
    exact List.map_congr_left (fun r _ => tuple_words r)
  have hflat : Assign.flat ((rs.map (fun r => Val.tuple (r.map (fun w => Val.sc (.str w)))) ++ [y1, y2, y3]).map Val.words) = rs.flatten ++ [y1.str, y2.str, y3.str] := by
    rw [hwords]
    unfold Assign.flat
    rw [List.flatMap_append]
    congr 1
    rw [List.flatMap_map]
    simp [List.flatMap_def]
  have hparts : Val.parts ([d] ++ (xs ++ [y1, y2, y3])) = Val.parts ([d] ++ (rs.map (fun r => .tuple (r.map (fun w => .sc (.str w)))) ++ [y1, y2, y3])) := by
    simp only [Val.parts_eq, List.map_append, r4, List.map_map]
    congr 2
    exact List.map_congr_left (fun r _ => (tuple_text r).symm)
  rw [hflat] at hst h2
  rw [show dxtWordy.info = Tab.Dxt.info from rfl, ← hparts] at h1 h2
  have hobj := mk_obj hmk
  have hws : Words (hw0 :: (rs.flatten ++ [y1.str, y2.str, y3.str])) := by
    intro w hw
    rcases List.mem_cons.1 hw with rfl | hw
    · exact ⟨he.sp, he.ne⟩
    · exact ⟨(hst w hw).entry.sp, (hst w hw).entry.ne⟩
  have hstr : v.str = postprocess (join [' '] (hw0 :: (rs.flatten ++ [y1.str, y2.str, y3.str]))) := by
    have hs : Tab.Dxt.info.style = .card := rfl
    rw [hobj, obj_str]
    unfold objStr
    simp only [hs]
    rw [h1, h2, strip_text hw0 _ hws]
  have hlen : rs.flatten.length = 50 := by
    rw [List.length_flatten, List.map_congr_left r2, List.map_const', r1, hxl]; rfl
  have hread : readDxt hw0 (rs.flatten ++ [y1.str, y2.str, y3.str]) = .ok v := by
    unfold readDxt
    rw [hrd]
    simp only
    rw [if_pos ⟨by rw [List.length_append, hlen]; rfl, by
      rw [List.drop_left' hlen, List.all_eq_true]
      intro w hw
      rw [real_full]
      simp only [List.mem_cons, List.not_mem_nil, or_false] at hw
      rcases hw with rfl | rfl | rfl
      · exact q1.1
      · exact q1.2.1
      · exact q1.2.2.1⟩]
    have hrows : Rows2 dxtRows (rs ++ [[y1.str], [y2.str], [y3.str]]) := by
      have hk : ∀ r ∈ rs, All2 (List.replicate 5 IsWord) r := by
        intro r hr
        refine all2_words ?_ (r2 r hr)
        intro w hw
        have := r3 w (List.mem_flatten.2 ⟨r, hr, hw⟩)
        exact ⟨this.entry.sp, this.entry.ne⟩
      have key : ∀ rs : List (List Str), rs.length = 10 → (∀ r ∈ rs, All2 (List.replicate 5 IsWord) r) → Rows2 dxtRows (rs ++ [[y1.str], [y2.str], [y3.str]])
        | [a1, a2, a3, a4, a5, a6, a7, a8, a9, a10], _, hk =>
          ⟨hk _ (by simp), hk _ (by simp), hk _ (by simp), hk _ (by simp), hk _ (by simp), hk _ (by simp), hk _ (by simp), hk _ (by simp),
          hk _ (by simp), hk _ (by simp), ⟨q1.1, trivial⟩, ⟨q1.2.1, trivial⟩, ⟨q1.2.2.1, trivial⟩, trivial⟩
      exact key rs (r1.trans hxl) hk
    have hcut : cut dxtWidths (rs.flatten ++ [y1.str, y2.str, y3.str]) = rs ++ [[y1.str], [y2.str], [y3.str]] := by
      have := cut_rows hrows
      rw [show (rs ++ [[y1.str], [y2.str], [y3.str]]).flatten = rs.flatten ++ [y1.str, y2.str, y3.str] by simp] at this
      exact this
    rw [hcut, ← hw]
    have hd1 : readVals [⟨"designator", .base .desig, false, some .isNone⟩] ([d].map Val.words) = .ok [d] := by
      have hh : readVals dxtWordy.attrs _ = _ := hrv
      simp only [List.map_cons, List.map_nil, List.cons_append, List.nil_append] at hh ⊢
      rw [show dxtWordy.attrs = ⟨"designator", .base .desig, false, some .isNone⟩ :: dxtWordy.attrs.drop 1 from rfl] at hh
      simp only [readVals] at hh ⊢
      generalize readVals (dxtWordy.attrs.drop 1) _ = R at hh
      cases e1 : readVal ⟨"designator", .base .desig, false, some .isNone⟩ d.words with
      | error => rw [e1] at hh; cases hh
      | ok x =>
        rw [e1] at hh
        cases R with
        | error => cases hh
        | ok l =>
          simp only [Except.ok.injEq, List.cons.injEq] at hh
          simp only [hh.1]
    have hv1 : readVals (Tab.Dxt.attrs.drop 11) ([y1, y2, y3].map Val.words) = .ok [y1, y2, y3] := (vals_round hy).1
    rw [q2] at hv1
    have hshell : ∀ a ∈ (Tab.Dxt.attrs.drop 1).take 10, a.ty = Tab.T_dxt_Shell ∧ a.many = false := by
      intro a ha
      simp only [Tab.Dxt, List.drop_succ_cons, List.drop_zero, List.take_succ_cons, List.take_zero, List.mem_cons, List.not_mem_nil, or_false] at ha
      rcases ha with rfl | rfl | rfl | rfl | rfl | rfl | rfl | rfl | rfl | rfl <;> exact ⟨rfl, rfl⟩
    have hall := readVals_two (by simp) hd1 (readVals_two (by rw [List.length_map, r1, hxl]; rfl) (r5 _ (by rw [hxl]; rfl) hshell) hv1)
    rw [← dxt_attrs] at hall
    rw [List.map_append]
    rw [show [[y1.str], [y2.str], [y3.str]].map some = ([y1, y2, y3].map Val.str).map (fun w => some [w]) from rfl]
    rw [hall]
    exact hmk
  have h := dxt_words hws
  rw [hread] at h
  rw [hstr]
  unfold cardParse
  rw [C18_wrap_roundtrip hw0 _ (fun w hw => by
    rcases List.mem_cons.1 hw with rfl | hw
    · exact he
    · exact (hst w hw).entry) (fun w hw => (hst w hw).low) (fun w hw => (hst w hw).cnt), join_enc]
  simp only
  cases hm : reMatch Tab.Dxt.re (hw0 ++ enc (rs.flatten ++ [y1.str, y2.str, y3.str])) with
  | none => rw [hm] at h; cases h
  | some m =>
    rw [hm] at h
    simp only at h ⊢
    rw [h]

def oneReal (n : Nat) : Val := .sc (.real (.num (.fin ⟨false, n, 0⟩)))

/-- A sphere around the origin. -/
def oneShell (n : Nat) : Val := .obj Tab.dxt_Shell.info [oneReal 0, oneReal 0, oneReal 0, .sc (.int (.num n)), .sc (.int (.num (n + 1)))]

theorem oneShell_ok (n : Nat) : IsShell (oneShell n) :=
  ⟨[oneReal 0, oneReal 0, oneReal 0, .sc (.int (.num n)), .sc (.int (.num (n + 1)))], ⟨⟨rfl, .real, rfl, trivial⟩, ⟨rfl, .real, rfl, trivial⟩, ⟨rfl, .real, rfl, trivial⟩,
    ⟨rfl, .int, rfl, trivial⟩, ⟨rfl, .int, rfl, trivial⟩, trivial⟩, by simp [oneReal], rfl⟩

/-- A card for neutrons with ten spheres. -/
example : cardParse Tab.Dxt (Val.obj Tab.Dxt.info ([.sc (.desig ['n'])] ++ ((List.range 10).map oneShell ++ [oneReal 1, oneReal 2, oneReal 3]))).str =
    .ok (.obj Tab.Dxt.info ([.sc (.desig ['n'])] ++ ((List.range 10).map oneShell ++ [oneReal 1, oneReal 2, oneReal 3])), []) :=
  C109_roundtrip_partial (.sc (.desig ['n'])) ((List.range 10).map oneShell) [oneReal 1, oneReal 2, oneReal 3] ⟨[], [], [.sc (.desig ['n'])], rfl, rfl, rfl, _, rfl, by decide +kernel, ⟨by decide, by decide, by decide⟩⟩ rfl (by
    intro x hx
    obtain ⟨n, -, rfl⟩ := List.mem_map.1 hx
    exact oneShell_ok n) ⟨⟨rfl, .real, rfl, trivial⟩, ⟨rfl, .real, rfl, trivial⟩, ⟨rfl, .real, rfl, trivial⟩, trivial⟩ (by simp [oneReal]) _ rfl

/-- **C109 fails for radii that are not whole:** a sphere of radii 0.5 and 2.75 is read without an error as one of radii 0 and 2. -/
theorem C109_radius_violated : unionParse [Tab.dxt_Shell] c!"0 0 0 0.5 2.75" =
    .ok (.obj Tab.dxt_Shell.info [oneReal 0, oneReal 0, oneReal 0, .sc (.int (.num 0)), .sc (.int (.num 2))]) := by
  decide +kernel

end Props
