import Verif.Inp.OptionRead
import Verif.Py.TmplLemmas
import Verif.Inp.RoundTrip
/-!
# Lists whose elements are several entries long

`m1 1001 2 8016 1`, `ksrc 0 0 0 1 1 1`, `f5 0 0 1 0`: patterns whose repeated part spans several blank-separated words.
-/
namespace Inp
open Py Types

/-- Each word meets the condition in its place. -/
def All2 : List (Str → Prop) → List Str → Prop
  | [], [] => True
  | p :: ps, w :: ws => p w ∧ All2 ps ws
  | _, _ => False

theorem All2.length {ps : List (Str → Prop)} {ws : List Str} (h : All2 ps ws) : ws.length = ps.length := by
  induction ps generalizing ws with
  | nil => cases ws with
    | nil => rfl
    | cons => exact h.elim
  | cons p ps ih => cases ws with
    | nil => exact h.elim
    | cons w ws => simp [ih h.2]

theorem All2.words {ps : List (Str → Prop)} (ok : ∀ p ∈ ps, ∀ w, p w → NoSpace w ∧ w ≠ []) {ws : List Str} (h : All2 ps ws) :
    Words ws := by
  induction ps generalizing ws with
  | nil => cases ws with
    | nil => intro w hw; cases hw
    | cons => exact h.elim
  | cons p ps ih => cases ws with
    | nil => exact h.elim
    | cons w ws =>
      intro x hx
      rcases List.mem_cons.1 hx with rfl | hx
      · exact ok p (by simp) _ h.1
      · exact ih (fun q hq => ok q (by simp [hq])) h.2 x hx

/-- A pattern whose matches are rows of words. -/
structure Row (r : Re) (ps : List (Str → Prop)) : Prop where
  free : r.free = true
  mt : ∀ w e, Mt r w e → ∃ x ws, All2 ps (x :: ws) ∧ w = x ++ enc ws
  full : ∀ x ws, All2 ps (x :: ws) → Full r (x ++ enc ws)
  tok : Tok r
  ok : ∀ p ∈ ps, ∀ w, p w → NoSpace w ∧ w ≠ []

/-- A pattern of one blank. -/
structure Blank (s : Re) : Prop where
  free : s.free = true
  mt : ∀ w e, Mt s w e ↔ w = [' '] ∧ e = []
  run : ∀ (prev t : Str) (caps) (k : St → Option St), run s ⟨prev, ' ' :: t, caps⟩ k = k ⟨' ' :: prev, t, caps⟩
  groups : ∀ lo hi, s.groupsIn lo hi

theorem lower_blank {w : Str} (h : lower w = lower c!" ") : w = [' '] := by
  cases w with
  | nil => simp [lower] at h
  | cons a w =>
    cases w with
    | nil =>
      simp only [lower, List.map_cons, List.map_nil, List.cons.injEq, and_true] at h
      rw [lower_space.1 h]
    | cons b w => simp [lower] at h

theorem blank_lit : Blank (litRe c!" ") where
  free := rfl
  mt := by
    intro w e
    rw [mt_lit]
    constructor
    · rintro ⟨h, rfl⟩; exact ⟨lower_blank h, rfl⟩
    · rintro ⟨rfl, rfl⟩; exact ⟨rfl, rfl⟩
  run := by intro prev t caps k; simp [litRe, run_seq, Re.chrI, run_cls_cons, run_eps]
  groups := fun _ _ => ⟨trivial, trivial⟩

theorem blank_chr : Blank (Re.chr ' ') where
  free := rfl
  mt := by
    intro w e
    rw [Re.chr, mt_cls]
    constructor
    · rintro ⟨c, hc, rfl, rfl⟩; simp only [beq_iff_eq] at hc; subst hc; exact ⟨rfl, rfl⟩
    · rintro ⟨rfl, rfl⟩; exact ⟨' ', by simp, rfl, rfl⟩
  run := by intro prev t caps k; simp [Re.chr, run_cls_cons]
  groups := fun _ _ => trivial

theorem tok_grp {r : Re} (h : Tok r) (n : Nat) : Tok (.grp n r) := by
  intro w hw rest hr prev caps k hk
  rw [run_grp]
  obtain ⟨x, hx⟩ := hw
  obtain ⟨y, hy, -⟩ := mt_grp.1 hx
  obtain ⟨e, he⟩ := h w ⟨y, hy⟩ rest hr prev caps (fun st' => k ⟨st'.prev, st'.rest,
    (n, (w ++ rest).take ((w ++ rest).length - st'.rest.length)) :: st'.caps⟩) (fun e => hk _)
  exact ⟨_, he⟩

theorem row_one {r : Re} (hf : r.free = true) (hs : NoSp r) (hn : ∀ e, ¬ Mt r [] e) (ht : Tok r) : Row r [Full r] where
  free := hf
  mt := fun w e h => ⟨w, [], ⟨⟨e, h⟩, trivial⟩, by simp⟩
  full := by
    intro x ws h
    cases ws with
    | nil => simpa using h.1
    | cons => exact h.2.elim
  tok := ht
  ok := by
    intro p hp w hw
    simp only [List.mem_singleton] at hp
    subst hp
    obtain ⟨e, he⟩ := hw
    exact ⟨hs w e he, fun h => hn e (h ▸ he)⟩

theorem row_grp {r : Re} {ps} (h : Row r ps) (n : Nat) : Row (.grp n r) ps where
  free := h.free
  mt := by
    intro w e hm
    obtain ⟨x, hx, -⟩ := mt_grp.1 hm
    exact h.mt w x hx
  full := by
    intro x ws ha
    obtain ⟨e, he⟩ := h.full x ws ha
    exact ⟨_, mt_grp.2 ⟨e, he, rfl⟩⟩
  tok := tok_grp h.tok n
  ok := h.ok

theorem row_cons {a s b : Re} {p q ps} (ha : Row a [p]) (hs : Blank s) (hb : Row b (q :: ps)) : Row (.seq a (.seq s b)) (p :: q :: ps) where
  free := by simp [Re.free, ha.free, hs.free, hb.free]
  mt := by
    intro w e h
    obtain ⟨u, v, x, y, h1, h2, rfl, -⟩ := mt_seq.1 h
    obtain ⟨b1, b2, x', y', h3, h4, rfl, -⟩ := mt_seq.1 h2
    obtain ⟨rfl, -⟩ := (hs.mt _ _).1 h3
    obtain ⟨z, zs, a1, rfl⟩ := ha.mt _ _ h1
    obtain ⟨z', zs', a2, rfl⟩ := hb.mt _ _ h4
    cases zs with
    | nil => exact ⟨z, z' :: zs', ⟨a1.1, a2⟩, by simp⟩
    | cons => exact a1.2.elim
  full := by
    intro x ws h
    cases ws with
    | nil => exact h.2.elim
    | cons y ys =>
      obtain ⟨e1, h1⟩ := ha.full x [] ⟨h.1, trivial⟩
      obtain ⟨e2, h2⟩ := hb.full y ys h.2
      refine ⟨_, mt_seq.2 ⟨x, enc (y :: ys), e1, _, by simpa using h1, mt_seq.2 ⟨[' '], y ++ enc ys, [], e2, (hs.mt _ _).2 ⟨rfl, rfl⟩, h2, by simp, rfl⟩, rfl, rfl⟩⟩
  tok := by
    intro w hw rest hr prev caps k hk
    obtain ⟨e, h⟩ := hw
    obtain ⟨u, v, x, y, h1, h2, rfl, -⟩ := mt_seq.1 h
    obtain ⟨b1, t, x', y', h3, h4, rfl, -⟩ := mt_seq.1 h2
    obtain ⟨rfl, -⟩ := (hs.mt _ _).1 h3
    rw [run_seq]
    have inner : ∀ e, ∃ f, run (.seq s b) ⟨u.reverse ++ prev, ' ' :: (t ++ rest), e⟩ k = k ⟨t.reverse ++ (' ' :: (u.reverse ++ prev)), rest, f⟩ := by
      intro e
      rw [run_seq, hs.run]
      exact hb.tok t ⟨_, h4⟩ rest hr _ e k (by intro e'; simpa using hk e')
    obtain ⟨e1, he1⟩ := ha.tok u ⟨_, h1⟩ (' ' :: (t ++ rest)) (by intro c hc; simp at hc; subst hc; decide) prev caps
      (fun st => run (.seq s b) st k) (by
        intro e
        obtain ⟨f, hf⟩ := inner e
        rw [hf]
        simpa using hk f)
    obtain ⟨f, hf⟩ := inner e1
    refine ⟨f, ?_⟩
    have : u ++ ([' '] ++ t) ++ rest = u ++ ' ' :: (t ++ rest) := by simp
    rw [this, he1, hf]
    simp
  ok := by
    intro r hr
    rcases List.mem_cons.1 hr with rfl | hr
    · exact ha.ok r (by simp)
    · exact hb.ok r hr

/-! ## Repetition -/

theorem mt_star_rows {g : Bool} {s r : Re} {ps} (hs : Blank s) (hr : Row r ps) {w e} (h : Mt (.star g (.seq s r)) w e) :
    ∃ rows : List (List Str), (∀ x ∈ rows, All2 ps x) ∧ w = enc rows.flatten := by
  generalize hq : Re.star g (.seq s r) = q at h
  induction h with
  | starNil => exact ⟨[], by simp, rfl⟩
  | @starCons g' a' u v x y hu h1 h2 _ ih2 =>
    simp only [Re.star.injEq] at hq
    obtain ⟨rfl, rfl⟩ := hq
    obtain ⟨b, t, x', y', h3, h4, rfl, -⟩ := mt_seq.1 h1
    obtain ⟨rfl, -⟩ := (hs.mt _ _).1 h3
    obtain ⟨z, zs, a1, rfl⟩ := hr.mt _ _ h4
    obtain ⟨rows, hrows, rfl⟩ := ih2 rfl
    refine ⟨(z :: zs) :: rows, ?_, by simp⟩
    intro x hx
    rcases List.mem_cons.1 hx with rfl | hx
    · exact a1
    · exact hrows x hx
  | _ => cases hq

theorem mt_plus_rows {g : Bool} {s r : Re} {ps} (hs : Blank s) (hr : Row r ps) {w e} (h : Mt (Re.plus g (.seq s r)) w e) :
    ∃ rows : List (List Str), rows ≠ [] ∧ (∀ x ∈ rows, All2 ps x) ∧ w = enc rows.flatten := by
  unfold Re.plus at h
  obtain ⟨u, v, x, y, h1, h2, rfl, -⟩ := mt_seq.1 h
  obtain ⟨b, t, x', y', h3, h4, rfl, -⟩ := mt_seq.1 h1
  obtain ⟨rfl, -⟩ := (hs.mt _ _).1 h3
  obtain ⟨z, zs, a1, rfl⟩ := hr.mt _ _ h4
  obtain ⟨rows, hrows, rfl⟩ := mt_star_rows hs hr h2
  refine ⟨(z :: zs) :: rows, by simp, ?_, by simp⟩
  intro x hx
  rcases List.mem_cons.1 hx with rfl | hx
  · exact a1
  · exact hrows x hx

theorem Row.one {s r : Re} {p ps} (hs : Blank s) (hr : Row r (p :: ps)) {x : List Str} (h : All2 (p :: ps) x) :
    ∃ e, Mt (.seq s r) (enc x) e := by
  cases x with
  | nil => exact h.elim
  | cons w ws =>
    obtain ⟨e, he⟩ := hr.full w ws h
    exact ⟨_, mt_seq.2 ⟨[' '], w ++ enc ws, [], e, (hs.mt _ _).2 ⟨rfl, rfl⟩, he, by simp, rfl⟩⟩

theorem enc_ne {p : Str → Prop} {ps} {x : List Str} (h : All2 (p :: ps) x) : enc x ≠ [] := by
  cases x with
  | nil => exact h.elim
  | cons w ws => simp

theorem full_star_rows (g : Bool) {s r : Re} {p ps} (hs : Blank s) (hr : Row r (p :: ps)) (rows : List (List Str))
    (h : ∀ x ∈ rows, All2 (p :: ps) x) : Full (.star g (.seq s r)) (enc rows.flatten) := by
  induction rows with
  | nil => exact ⟨[], .starNil⟩
  | cons x rows ih =>
    obtain ⟨f, hf⟩ := ih (fun y hy => h y (by simp [hy]))
    obtain ⟨e, he⟩ := hr.one hs (h x (by simp))
    refine ⟨f ++ e, ?_⟩
    rw [List.flatten_cons, enc_append]
    exact .starCons (enc_ne (h x (by simp))) he hf

theorem full_plus_rows (g : Bool) {s r : Re} {p ps} (hs : Blank s) (hr : Row r (p :: ps)) (rows : List (List Str)) (hne : rows ≠ [])
    (h : ∀ x ∈ rows, All2 (p :: ps) x) : Full (Re.plus g (.seq s r)) (enc rows.flatten) := by
  cases rows with
  | nil => exact absurd rfl hne
  | cons x rows =>
    obtain ⟨f, hf⟩ := full_star_rows g hs hr rows (fun y hy => h y (by simp [hy]))
    obtain ⟨e, he⟩ := hr.one hs (h x (by simp))
    refine ⟨f ++ e, ?_⟩
    rw [List.flatten_cons, enc_append]
    exact mt_seq.2 ⟨_, _, _, _, he, hf, rfl, rfl⟩

/-- A list of words at the start of another. -/
theorem enc_prefix : ∀ {a b : List Str} {t : Str}, Words a → Words b → (∀ c ∈ t.head?, c = ' ') → enc a ++ t = enc b →
    ∃ c, b = a ++ c ∧ t = enc c
  | [], b, t, _, _, _, h => ⟨b, rfl, by simpa using h⟩
  | x :: a, [], t, _, _, _, h => by simp at h
  | x :: a, y :: b, t, ha, hb, ht, h => by
    simp only [enc_cons, List.cons_append, List.append_assoc, List.cons.injEq, true_and] at h
    have bl : ∀ (l : List Str) (t : Str), (∀ c ∈ t.head?, c = ' ') → Bnd (enc l ++ t) := by
      intro l t ht c hc
      cases l with
      | nil =>
        have := ht c (by simpa using hc)
        subst this; decide
      | cons => simp at hc; subst hc; decide
    have e : x = y ∧ enc a ++ t = enc b := by
      obtain ⟨v, h1, h2⟩ := prefix_word (hb y (by simp)).1 (bl a t ht) h
      cases v with
      | nil => exact ⟨by simpa using h1, by simpa using h2.symm⟩
      | cons c v =>
        have : Bnd (enc b) := enc_bnd b
        have := this c (by rw [h2]; simp)
        have h3 := (ha x (by simp)).1 c (by rw [h1]; simp)
        rw [h3] at this; cases this
    obtain ⟨rfl, e2⟩ := e
    obtain ⟨c, rfl, rfl⟩ := enc_prefix ha.tail hb.tail ht e2
    exact ⟨c, rfl, rfl⟩

/-! ## A first word, a list of rows and what follows -/

/-- How a pattern of three parts is read: a first word, rows, and a rest that starts with a blank. -/
theorem rows_match {R H s r T : Re} {p ps} {g lo : Nat} {b : Bool}
    (hR : ∀ w e, Mt R w e ↔ ∃ u v t x y z, Mt H u x ∧ Mt (Re.plus b (.seq s r)) v y ∧ Mt T t z ∧ w = u ++ (v ++ t) ∧ e = z ++ ((g, v) :: y ++ x))
    (hf : R.free = true) (hH : NoSp H) (hs : Blank s) (hr : Row r (p :: ps)) (hT : ∀ t z, Mt T t z → ∀ c ∈ t.head?, c = ' ')
    (gH : H.groupsIn 1 g) (gr : r.groupsIn (g + 1) lo) (gT : ∃ hi, T.groupsIn lo hi) (hg : 1 ≤ g) (hlo : g < lo)
    (hd : Str) (ws tl : List Str) (rows : List (List Str)) (hw : Words (hd :: ws)) (e : ws = rows.flatten ++ tl)
    (h1 : Full H hd) (hne : rows ≠ []) (h2 : ∀ x ∈ rows, All2 (p :: ps) x) (h3 : Full T (enc tl))
    (hu : ∀ rows' tl', rows' ≠ [] → (∀ x ∈ rows', All2 (p :: ps) x) → Full T (enc tl') → ws = rows'.flatten ++ tl' → tl' = tl) :
    ∃ m x y z, reMatch (anchored R) (hd ++ enc ws) = some m ∧ Mt H hd x ∧ Mt (Re.plus b (.seq s r)) (enc rows.flatten) y ∧ Mt T (enc tl) z ∧
      (∀ i, 1 ≤ i → i < g → cap m i = x.lookup i) ∧ cap m g = some (enc rows.flatten) ∧
      (∀ i, g < i → i < lo → cap m i = y.lookup i) ∧ (∀ i, lo ≤ i → cap m i = z.lookup i) := by
  obtain ⟨x1, m1⟩ := h1
  obtain ⟨y1, m2⟩ := full_plus_rows b hs hr rows hne h2
  obtain ⟨z1, m3⟩ := h3
  have full : Full R (hd ++ enc ws) := ⟨_, (hR _ _).2 ⟨hd, enc rows.flatten, enc tl, x1, y1, z1, m1, m2, m3, by rw [e]; simp, rfl⟩⟩
  have := (full_iff R hf (hd ++ enc ws)).2 full
  obtain ⟨m, hm⟩ := Option.isSome_iff_exists.1 this
  obtain ⟨c, hc, rfl⟩ := full_match hf hm
  obtain ⟨u, v, t, x, y, z, n1, n2, n3, e1, rfl⟩ := (hR _ _).1 hc
  -- the parts are where they have to be
  obtain ⟨rows', k1, k2, rfl⟩ := mt_plus_rows hs hr n2
  have bt : Bnd (enc rows'.flatten ++ t) := by
    cases rows' with
    | nil => exact absurd rfl k1
    | cons a rows' =>
      have := k2 a (by simp)
      cases a with
      | nil => exact this.elim
      | cons w a => intro c hc; simp at hc; subst hc; decide
  have hw' : Words rows'.flatten := by
    intro w h
    obtain ⟨a, ha, hwa⟩ := List.mem_flatten.1 h
    exact (k2 a ha).words hr.ok w hwa
  have eu : u = hd ∧ enc rows'.flatten ++ t = enc ws := by
    obtain ⟨q, q1, q2⟩ := prefix_word (hH _ _ n1) (enc_bnd ws) e1
    cases q with
    | nil => exact ⟨by simpa using q1.symm, by simpa using q2⟩
    | cons c q =>
      have := bt c (by rw [q2]; simp)
      have h3 := (hw hd (by simp)).1 c (by rw [q1]; simp)
      rw [h3] at this; cases this
  obtain ⟨rfl, e2⟩ := eu
  obtain ⟨tl', q1, rfl⟩ := enc_prefix hw' hw.tail (hT _ _ n3) e2
  have q2 := hu rows' tl' k1 k2 ⟨_, n3⟩ q1
  subst q2
  have q3 : rows'.flatten = rows.flatten := List.append_cancel_right (q1.symm.trans e)
  rw [q3] at n2
  refine ⟨_, x, y, z, hm, n1, n2, n3, ?_, ?_, ?_, ?_⟩
  all_goals
    obtain ⟨hi, gT⟩ := gT
    have gx := n1.groups gH
    have gy : ∀ a ∈ y, g + 1 ≤ a.1 ∧ a.1 < lo := n2.groups (by
      have : (Re.seq s r).groupsIn (g + 1) lo := ⟨hs.groups _ _, gr⟩
      exact ⟨this, this⟩)
    have gz := n3.groups gT
  · intro i i1 i2
    unfold cap
    have : (i == 0) = false := by simp; omega
    have hg : (i == g) = false := by simp; omega
    rw [List.lookup, this, lookup_append, lookup_none (e := z) (by intro a ha; have := gz a ha; omega), Option.none_or]
    rw [List.cons_append, List.lookup, hg, lookup_append, lookup_none (e := y) (by intro a ha; have := gy a ha; omega), Option.none_or]
  · unfold cap
    have : (g == 0) = false := by simp; omega
    rw [List.lookup, this, lookup_append, lookup_none (e := z) (by intro a ha; have := gz a ha; omega), Option.none_or]
    rw [List.cons_append, List.lookup]
    simp [q3]
  · intro i i1 i2
    unfold cap
    have : (i == 0) = false := by simp; omega
    have hg : (i == g) = false := by simp; omega
    rw [List.lookup, this, lookup_append, lookup_none (e := z) (by intro a ha; have := gz a ha; omega), Option.none_or]
    rw [List.cons_append, List.lookup, hg, lookup_append, lookup_none (e := x) (by intro a ha; have := gx a ha; omega), Option.or_none]
  · intro i i1
    unfold cap
    have : (i == 0) = false := by simp; omega
    rw [List.lookup, this, lookup_append, lookup_none (e := (g, enc rows'.flatten) :: y ++ x) ?_, Option.or_none]
    intro a ha
    rcases List.mem_append.1 ha with ha | ha
    · rcases List.mem_cons.1 ha with rfl | ha
      · show g ≠ i; omega
      · have := gy a ha; omega
    · have := gx a ha; omega

/-! ## Splitting the list -/

/-- Splitting a list of texts, each matched as a whole. -/
theorem finditer_items (r : Re) (ht : Tok r) (hf : r.free = true) (hs : ∀ w e, Mt r w e → w.head? ≠ some ' ') (w : Str) (ws : List Str)
    (hw : ∀ v ∈ w :: ws, v ≠ []) (hfull : ∀ v ∈ w :: ws, Full r v) : finditer r (w ++ enc ws) = w :: ws := by
  -- from any position, with any sufficient fuel
  have hit : ∀ (ws : List Str) (w : Str), (∀ v ∈ w :: ws, v ≠ []) → (∀ v ∈ w :: ws, Full r v) → ∀ (prev : Str) (n : Nat),
      (w ++ enc ws).length ≤ n →
      (finditerAux r n prev (w ++ enc ws)).filterMap (fun | .inl _ => none | .inr (t, _) => some t) = w :: ws := by
    intro ws
    induction ws with
    | nil =>
      intro w hw hfull prev n hn
      have hne := hw w (by simp)
      obtain ⟨c, t, rfl⟩ : ∃ c t, w = c :: t := by
        cases w with
        | nil => exact absurd rfl hne
        | cons c t => exact ⟨c, t, rfl⟩
      cases n with
      | zero => simp at hn
      | succ n =>
        obtain ⟨e, he⟩ := ht (c :: t) (hfull _ (by simp)) (enc []) (enc_bnd []) prev [] (findK (c :: t ++ enc []).length)
          (by intro e; simp [findK])
        rw [findK_ok (by simp)] at he
        rw [List.cons_append] at he ⊢
        rw [finditerAux]
        unfold findK at he
        rw [he]
        simp only [List.filterMap_cons, enc_nil, List.append_nil]
        have : finditerAux r n ((c :: t).reverse ++ prev) [] = [] := by cases n <;> rfl
        rw [this]; simp
    | cons v vs ih =>
      intro w hw hfull prev n hn
      have hne := hw w (by simp)
      obtain ⟨c, t, rfl⟩ : ∃ c t, w = c :: t := by
        cases w with
        | nil => exact absurd rfl hne
        | cons c t => exact ⟨c, t, rfl⟩
      cases n with
      | zero => simp at hn
      | succ n =>
        obtain ⟨e, he⟩ := ht (c :: t) (hfull _ (by simp)) (enc (v :: vs)) (enc_bnd _) prev [] (findK (c :: t ++ enc (v :: vs)).length)
          (by intro e; simp [findK]; omega)
        rw [findK_ok (by simp; omega)] at he
        rw [List.cons_append] at he ⊢
        rw [finditerAux]
        unfold findK at he
        rw [he]
        simp only [List.filterMap_cons]
        have htake : (c :: (t ++ enc (v :: vs))).take ((c :: (t ++ enc (v :: vs))).length - (enc (v :: vs)).length) = c :: t := by
          have := take_consumed (c :: t) (enc (v :: vs))
          exact this
        rw [htake]
        congr 1
        cases n with
        | zero => simp at hn
        | succ n =>
          rw [enc_cons, finditerAux]
          have : run r ⟨(c :: t).reverse ++ prev, ' ' :: (v ++ enc vs), []⟩
              (fun st => if st.rest.length < (' ' :: (v ++ enc vs)).length then some st else none) = none := by
            apply run_none
            intro st' hst
            obtain ⟨u, e', h1, h2, h3, h4⟩ := hst.mt hf
            cases u with
            | nil =>
              simp only [List.nil_append] at h2
              rw [← h2]; simp
            | cons a u =>
              simp only [List.cons_append, List.cons.injEq] at h2
              exact absurd (by rw [h2.1]; rfl) (hs _ _ h1)
          rw [this]
          simp only [List.filterMap_cons]
          refine ih v (fun x hx => hw x (by simp [hx])) (fun x hx => hfull x (by simp [hx])) _ n ?_
          simp only [enc_cons, List.length_append, List.length_cons] at hn ⊢
          omega
  exact hit ws w hw hfull [] _ (Nat.le_refl _)

theorem Row.head {r : Re} {ps} (h : Row r ps) {w e} (hm : Mt r w e) : w.head? ≠ some ' ' ∧ w ≠ [] := by
  obtain ⟨x, ws, ha, rfl⟩ := h.mt w e hm
  obtain ⟨h1, h2⟩ := ha.words h.ok x (by simp)
  cases x with
  | nil => exact absurd rfl h2
  | cons c x =>
    refine ⟨?_, by simp⟩
    simp only [List.cons_append, List.head?_cons, ne_eq, Option.some.injEq]
    rintro rfl
    have := h1 ' ' (by simp)
    exact absurd this (by decide)

theorem enc_rows (rows : List (List Str)) (h : ∀ x ∈ rows, x ≠ []) : enc (rows.map (join [' '])) = enc rows.flatten := by
  induction rows with
  | nil => rfl
  | cons x rows ih =>
    have hx := h x (by simp)
    cases x with
    | nil => exact absurd rfl hx
    | cons w ws =>
      rw [List.map_cons, enc_cons, List.flatten_cons, enc_append, ih (fun y hy => h y (by simp [hy])), join_enc]
      simp

/-- The elements of a list of rows. -/
theorem finditer_rows {r : Re} {p ps} (h : Row r (p :: ps)) (rows : List (List Str)) (hne : rows ≠ [])
    (hr : ∀ x ∈ rows, All2 (p :: ps) x) : finditer r (strip (enc rows.flatten)) = rows.map (join [' ']) := by
  have ne : ∀ x ∈ rows, x ≠ [] := by
    intro x hx e
    subst e
    exact hr _ hx
  have full : ∀ x ∈ rows, Full r (join [' '] x) := by
    intro x hx
    have := hr x hx
    cases x with
    | nil => exact this.elim
    | cons w ws => rw [join_enc]; exact h.full w ws this
  have hws : Words rows.flatten := by
    intro w hw
    obtain ⟨a, ha, hwa⟩ := List.mem_flatten.1 hw
    exact (hr a ha).words h.ok w hwa
  cases rows with
  | nil => exact absurd rfl hne
  | cons x rows =>
    have e : strip (enc (x :: rows).flatten) = join [' '] x ++ enc (rows.map (join [' '])) := by
      rw [enc_rows rows (fun y hy => ne y (by simp [hy]))]
      cases x with
      | nil => exact absurd rfl (ne [] (by simp))
      | cons w ws =>
        simp only [List.flatten_cons, List.cons_append] at hws ⊢
        rw [strip_enc _ _ hws, join_enc]
        simp
    rw [e, List.map_cons]
    apply finditer_items r h.tok h.free (fun w e hm => (h.head hm).1)
    · intro v hv
      obtain ⟨y, hy, rfl⟩ := List.mem_map.1 (by simpa using hv : v ∈ (x :: rows).map (join [' ']))
      obtain ⟨e', he'⟩ := full y hy
      exact (h.head he').2
    · intro v hv
      obtain ⟨y, hy, rfl⟩ := List.mem_map.1 (by simpa using hv : v ∈ (x :: rows).map (join [' ']))
      exact full y hy

end Inp
