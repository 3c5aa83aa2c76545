import Verif.Inp.PhysRead
import Verif.Props.Card
/-!
# C104 – electron physics cards

`phys:e` is the one physics card with a place for the two words `j j` (src/pymcnp/inp/Phys_2.py:15-36).
-/
set_option maxRecDepth 100000
namespace Props
open Py Types Inp

/-- However an electron physics card is spaced and broken over lines, its attributes are read from the words put into
their places by `slots`; it is refused exactly when there is no way to place its words or an attribute refuses its text. -/
theorem C104_read (g0 w0 : Str) (l : List (Gap × Str)) (g1 : Str) (ht : Spaced g0 w0 l g1) :
    cardParse Tab.Phys_2 (g0 ++ (w0 ++ (body l ++ g1))) = (electronRead w0 (entries l)).map (fun v => (v, [])) := by
  obtain ⟨hpre, -, hw⟩ := spaced_prep ht
  rw [electron_rel.card]
  unfold cardParse
  rw [hpre, ← electron_read w0 _ hw]
  cases reMatch Electron.re (w0 ++ enc (entries l)) with
  | none => rfl
  | some m => simp only; cases Electron.build m <;> rfl

/-- Nothing is lost and nothing is reordered: the words in the places, from left to right, are the words of the card;
there is one place for each of the fifteen attributes. -/
theorem C104_all (ws : List Str) (vs : Assign) (h : slots electronSlots ws = some vs) :
    Assign.flat vs = ws ∧ vs.length = 15 := by
  obtain ⟨h1, h2, -⟩ := slots_filled _ _ _ h
  exact ⟨h2, h1⟩

theorem slots_none : ∀ s : List Slot, slots s [] = some (List.replicate s.length none)
  | [] => rfl
  | .word :: s => by simp only [slots, slots_none s]; rfl
  | .pair :: s => by simp only [slots, slots_none s]; rfl

theorem slots_fill (s : List Slot) : ∀ (xs ys : List Str) (vs : Assign), slots s ys = some vs →
    slots (List.replicate xs.length .word ++ s) (xs ++ ys) = some (xs.map (fun w => some [w]) ++ vs)
  | [], _, _, h => h
  | x :: xs, ys, vs, h => by
    have := slots_fill s xs ys vs h
    simp only [List.length_cons, List.replicate_succ, List.cons_append, slots, this, List.map_cons]
    rfl

theorem slots_short (s : List Slot) (n : Nat) (ws : List Str) (h : ws.length ≤ n) :
    slots (List.replicate n .word ++ s) ws =
      some (ws.map (fun w => some [w]) ++ List.replicate (n - ws.length + s.length) none) := by
  obtain ⟨d, rfl⟩ := Nat.exists_eq_add_of_le h
  have := slots_fill (List.replicate d .word ++ s) ws [] _ (slots_none _)
  rw [List.append_nil, ← List.append_assoc, List.replicate_append_replicate] at this
  rw [this]
  simp

/-- Up to eleven entries are the first attributes, in order. -/
theorem C104_first (ws : List Str) (h : ws.length ≤ 11) :
    slots electronSlots ws = some (ws.map (fun w => some [w]) ++ List.replicate (15 - ws.length) none) := by
  unfold electronSlots
  rw [slots_short _ _ _ h]
  congr 3
  simp only [List.length_cons, List.length_replicate]
  omega

/-- Eleven entries, `j j` in any case, and up to three more: all in their own places. -/
theorem C104_pair (a : List Str) (x y : Str) (b : List Str) (ha : a.length = 11) (hx : isJ x = true) (hy : isJ y = true)
    (hb : b.length ≤ 3) :
    slots electronSlots (a ++ x :: y :: b) =
      some (a.map (fun w => some [w]) ++ some [x, y] :: (b.map (fun w => some [w]) ++ List.replicate (3 - b.length) none)) := by
  unfold electronSlots
  rw [← ha]
  apply slots_fill
  have := slots_short [] 3 b hb
  simp only [List.append_nil, List.length_nil, Nat.add_zero] at this
  simp only [slots, hx, hy, Bool.and_self, if_true, this]
  rfl

/-- Twelve to fourteen entries whose twelfth and thirteenth are not `j j`: the twelfth is already the first attribute
after the place of `j j`. -/
theorem C104_rest (a b : List Str) (ha : a.length = 11) (hb : b.length ≤ 3)
    (hj : ∀ x y r, b = x :: y :: r → (isJ x && isJ y) = false) :
    slots electronSlots (a ++ b) =
      some (a.map (fun w => some [w]) ++ none :: (b.map (fun w => some [w]) ++ List.replicate (3 - b.length) none)) := by
  unfold electronSlots
  rw [← ha]
  apply slots_fill
  have := slots_short [] 3 b hb
  simp only [List.append_nil, List.length_nil, Nat.add_zero] at this
  cases b with
  | nil => simp only [slots, this]; rfl
  | cons x b => cases b with
    | nil => simp only [slots, this]; rfl
    | cons y b => simp only [slots, hj x y b rfl, this]; rfl

/-- How many words the places can hold. -/
def width : Slot → Nat
  | .word => 1
  | .pair => 2

/-- Every filled place holds as many words as it has room for. -/
def Widths : List Slot → Assign → Prop
  | [], [] => True
  | x :: s, v :: vs => (∀ t ∈ v, t.length = width x) ∧ Widths s vs
  | _, _ => False

theorem slots_width : ∀ (s : List Slot) (ws : List Str) (vs : Assign), slots s ws = some vs →
    Widths s vs := by
  intro s
  induction s with
  | nil => intro ws vs h; cases ws with
    | nil => cases h; exact True.intro
    | cons => cases h
  | cons x s ih =>
    intro ws vs h
    have skip : ∀ vs, (slots s ws).map (none :: ·) = some vs →
        Widths (x :: s) vs := by
      intro vs h
      obtain ⟨vs', h1, rfl⟩ := Option.map_eq_some_iff.1 h
      exact ⟨fun t ht => (by cases ht), ih ws vs' h1⟩
    have fill : ∀ (t r : List Str) vs, t.length = width x → (slots s r).map (some t :: ·) = some vs →
        Widths (x :: s) vs := by
      intro t r vs ht h
      obtain ⟨vs', h1, rfl⟩ := Option.map_eq_some_iff.1 h
      exact ⟨fun u hu => by cases hu; exact ht, ih r vs' h1⟩
    cases x with
    | word =>
      cases ws with
      | nil => exact skip vs h
      | cons w ws =>
        simp only [slots] at h
        cases h1 : (slots s ws).map (some [w] :: ·) with
        | none => rw [h1, Option.none_or] at h; exact skip vs h
        | some vs' =>
          rw [h1] at h
          simp only [Option.some_or, Option.some.injEq] at h
          subst h
          exact fill [w] ws vs' rfl h1
    | pair =>
      cases ws with
      | nil => exact skip vs h
      | cons a ws =>
        cases ws with
        | nil => exact skip vs h
        | cons b r =>
          simp only [slots] at h
          split at h
          · cases h1 : (slots s r).map (some [a, b] :: ·) with
            | none => rw [h1, Option.none_or] at h; exact skip vs h
            | some vs' =>
              rw [h1] at h
              simp only [Option.some_or, Option.some.injEq] at h
              subst h
              exact fill [a, b] r vs' rfl h1
          · rw [Option.none_or] at h; exact skip vs h

theorem width_bound : ∀ (s : List Slot) (vs : Assign), Widths s vs → (Assign.flat vs).length ≤ (s.map width).sum
  | [], [], _ => Nat.le_refl _
  | [], _ :: _, h => h.elim
  | _ :: _, [], h => h.elim
  | x :: s, v :: vs, h => by
    have ih := width_bound s vs h.2
    rw [List.map_cons, List.sum_cons]
    cases v with
    | none => exact Nat.le_trans ih (Nat.le_add_left _ _)
    | some t =>
      rw [flat_cons_some, List.length_append, h.1 t rfl]
      omega

/-- More than sixteen entries are refused. -/
theorem C104_long (hd : Str) (ws : List Str) (h : 16 < ws.length) : electronRead hd ws = .error .inp := by
  unfold electronRead
  split
  · cases hs : slots electronSlots ws with
    | none => rfl
    | some vs =>
      have h1 := width_bound _ _ (slots_width _ _ _ hs)
      rw [(C104_all _ _ hs).1] at h1
      have h2 : (electronSlots.map width).sum = 16 := by decide
      omega
  · rfl

/-! ## Printing and reading back -/

/-- The printed words of the value in the place of `j j`. -/
def pairWords : Val → Option (List Str)
  | .none => none
  | _ => some [c!"j", c!"j"]

/-- The printed words of the fifteen attributes: `a` are the first eleven, `j` the twelfth, `b` the others. -/
def physWords (a : List Val) (j : Val) (b : List Val) : Assign := a.map Val.words ++ pairWords j :: b.map Val.words

theorem physflat (u v : Assign) : Assign.flat (u ++ v) = Assign.flat u ++ Assign.flat v := by
  unfold Assign.flat; exact List.flatMap_append

theorem join_app (a b : List Str) (ha : a ≠ []) (hb : b ≠ []) : join [' '] (a ++ b) = join [' '] a ++ ' ' :: join [' '] b := by
  induction a with
  | nil => exact absurd rfl ha
  | cons x a ih =>
    cases a with
    | nil => rw [List.singleton_append, join_cons _ _ _ hb]; simp [join]
    | cons y a =>
      rw [List.cons_append, join_cons _ _ _ (by simp), ih (by simp), join_cons _ x (y :: a) (by simp)]
      simp

/-- Texts joined by blanks are their words joined by blanks. -/
theorem join_flat : ∀ ps : List (Option Str × Option (List Str)),
    (∀ p ∈ ps, p = (none, none) ∨ ∃ ws, ws ≠ [] ∧ p = (some (join [' '] ws), some ws)) →
    join [' '] (ps.filterMap (·.1)) = join [' '] (Assign.flat (ps.map (·.2))) ∧
      (ps.filterMap (·.1) = [] ↔ Assign.flat (ps.map (·.2)) = [])
  | [], _ => ⟨rfl, by simp [Assign.flat]⟩
  | p :: ps, h => by
    obtain ⟨i1, i2⟩ := join_flat ps (fun q hq => h q (by simp [hq]))
    rcases h p (by simp) with rfl | ⟨ws, hne, rfl⟩
    · exact ⟨i1, i2⟩
    · simp only [List.filterMap_cons, List.map_cons, flat_cons_some]
      refine ⟨?_, by simp [hne]⟩
      by_cases hr : ps.filterMap (·.1) = []
      · rw [hr, i2.1 hr]; simp [join]
      · rw [join_cons _ _ _ hr, join_app _ _ hne (fun e => hr (i2.2 e)), i1]; simp

theorem sc_text {a : Attr} {v : Val} (hm : a.many = false) (h : ReadVal a v) :
    (v.text, v.words) = (none, none) ∨ ∃ ws, ws ≠ [] ∧ (v.text, v.words) = (some (join [' '] ws), some ws) := by
  cases v with
  | none => exact .inl rfl
  | sc s => exact .inr ⟨[(Val.sc s).str], by simp, by simp [Val.words, join, Val.text, Val.str, orNil]⟩
  | tuple l => rw [h.1] at hm; cases hm
  | obj => exact h.elim

theorem readVals_texts : ∀ (as : List Attr) (vs : List Val), (∀ a ∈ as, a.many = false) → ReadVals as vs →
    ∀ p ∈ vs.map (fun v => (v.text, v.words)), p = (none, none) ∨ ∃ ws, ws ≠ [] ∧ p = (some (join [' '] ws), some ws)
  | [], [], _, _ => by simp
  | [], _ :: _, _, h => h.elim
  | _ :: _, [], _, h => h.elim
  | a :: as, v :: vs, hm, h => by
    intro p hp
    rcases List.mem_cons.1 hp with rfl | hp
    · exact sc_text (hm a (by simp)) h.1
    · exact readVals_texts as vs (fun b hb => hm b (by simp [hb])) h.2 p hp

theorem readVals_app : ∀ (as1 as2 : List Attr) (v1 v2 : Assign) (r1 r2 : List Val), as1.length = v1.length →
    readVals as1 v1 = .ok r1 → readVals as2 v2 = .ok r2 → readVals (as1 ++ as2) (v1 ++ v2) = .ok (r1 ++ r2)
  | [], _, [], _, _, _, _, h1, h2 => by cases h1; exact h2
  | [], _, _ :: _, _, _, _, hl, _, _ => by cases hl
  | _ :: _, _, [], _, _, _, hl, _, _ => by cases hl
  | a :: as1, as2, v :: v1, v2, r1, r2, hl, h1, h2 => by
    simp only [List.cons_append, readVals] at h1 ⊢
    cases hx : readVal a v with
    | error e => rw [hx] at h1; cases h1
    | ok x =>
      rw [hx] at h1
      cases hy : readVals as1 v1 with
      | error e => rw [hy] at h1; cases h1
      | ok y =>
        rw [hy] at h1
        simp only [Except.ok.injEq] at h1
        subst h1
        simp only [readVals_app as1 as2 v1 v2 y r2 (by simpa using hl) hy h2]
        rfl

theorem parsed_ne {k : Kind} {t : Str} {y : Val} (hk : k.tok = true) (h : k.parse t = .ok y) : y ≠ .none := by
  cases k with
  | int => simp only [Kind.parse] at h; cases hp : intParse t <;> rw [hp] at h <;> cases h; exact fun e => by cases e
  | real => simp only [Kind.parse] at h; cases hp : realParse t <;> rw [hp] at h <;> cases h; exact fun e => by cases e
  | str => simp only [Kind.parse] at h; cases hp : stringParse t <;> rw [hp] at h <;> cases h; exact fun e => by cases e
  | zaid => simp only [Kind.parse] at h; cases hp : zaidParse t <;> rw [hp] at h <;> cases h; exact fun e => by cases e
  | dist => simp only [Kind.parse] at h; cases hp : distParse t <;> rw [hp] at h <;> cases h; exact fun e => by cases e
  | desig => simp only [Kind.parse] at h; cases hp : desigParse t <;> rw [hp] at h <;> cases h; exact fun e => by cases e
  | _ => cases hk

/-- Words placed alike that read as the same values are the same. -/
theorem widths_unique : ∀ (s : List Slot) (as : List Attr) (u v : Assign) (l : List Val), as.length = s.length →
    (∀ a ∈ as, a.many = false ∧ ∃ k, a.ty = .base k ∧ k.tok = true) → Widths s u → Widths s v →
    readVals as u = .ok l → readVals as v = .ok l → Assign.flat u = Assign.flat v → u = v
  | [], _, [], [], _, _, _, _, _, _, _, _ => rfl
  | [], _, _ :: _, _, _, _, _, h, _, _, _, _ => h.elim
  | [], _, [], _ :: _, _, _, _, _, h, _, _, _ => h.elim
  | _ :: _, _, [], _, _, _, _, h, _, _, _, _ => h.elim
  | _ :: _, _, _ :: _, [], _, _, _, _, h, _, _, _ => h.elim
  | _ :: _, [], _ :: _, _ :: _, _, hl, _, _, _, _, _, _ => by cases hl
  | x :: s, a :: as, p :: u, q :: v, l, hl, hk, hu, hv, h1, h2, hf => by
    obtain ⟨hm, k, hty, htok⟩ := hk a (by simp)
    have some_ne : ∀ t y, readVal a (some t) = .ok y → y ≠ .none := by
      intro t y hy
      simp only [readVal, hm, Bool.false_eq_true, if_false, hty, Ty.parse] at hy
      exact parsed_ne htok hy
    simp only [readVals] at h1 h2
    cases hp : readVal a p with
    | error e => rw [hp] at h1; cases h1
    | ok y =>
      rw [hp] at h1
      cases hp' : readVals as u with
      | error e => rw [hp'] at h1; cases h1
      | ok ys =>
        rw [hp'] at h1
        cases hq : readVal a q with
        | error e => rw [hq] at h2; cases h2
        | ok z =>
          rw [hq] at h2
          cases hq' : readVals as v with
          | error e => rw [hq'] at h2; cases h2
          | ok zs =>
            rw [hq'] at h2
            simp only [Except.ok.injEq] at h1 h2
            rw [← h2] at h1
            simp only [List.cons.injEq] at h1
            obtain ⟨rfl, rfl⟩ := h1
            have again := fun e => widths_unique s as u v ys (by simpa using hl) (fun b hb => hk b (by simp [hb])) hu.2 hv.2 hp' hq' e
            cases p with
            | none =>
              have : q = none := by
                cases q with
                | none => rfl
                | some t => cases hp; exact absurd rfl (some_ne t _ hq)
              subst this
              rw [again hf]
            | some t =>
              cases q with
              | none => cases hq; exact absurd rfl (some_ne t _ hp)
              | some t' =>
                rw [flat_cons_some, flat_cons_some] at hf
                obtain ⟨e1, e2⟩ := List.append_inj hf (by rw [hu.1 t rfl, hv.1 t' rfl])
                rw [e1, again e2]

theorem vals_widths : ∀ (as : List Attr) (vs : List Val) (s : List Slot) (u : Assign), (∀ a ∈ as, a.many = false) → ReadVals as vs →
    Widths s u → Widths (List.replicate as.length .word ++ s) (vs.map Val.words ++ u)
  | [], [], _, _, _, _, h => h
  | [], _ :: _, _, _, _, h, _ => h.elim
  | _ :: _, [], _, _, _, h, _ => h.elim
  | a :: as, v :: vs, s, u, hm, h, hs => by
    refine ⟨?_, vals_widths as vs s u (fun b hb => hm b (by simp [hb])) h.2 hs⟩
    intro t ht
    cases v with
    | none => cases ht
    | sc x => cases ht; rfl
    | tuple l => have := h.1.1; rw [hm a (by simp)] at this; cases this
    | obj => exact h.1.elim

theorem j_stable : Stable c!"j" :=
  ⟨⟨by decide, by decide, by decide, by decide, by decide, by decide, by decide⟩, by decide, by decide⟩

/-- An electron physics card with readable values: `a` are its first eleven attributes, `j` is unset or `j j`, `b` are its
last three.  It is read back unchanged exactly when its printed words are put back into the places they were printed from. -/
theorem C104_exact (a : List Val) (j : Val) (b : List Val) (ha : ReadVals (Tab.Phys_2.attrs.take 11) a)
    (hj : j = .none ∨ j = .sc (.str c!"j j")) (hb : ReadVals (Tab.Phys_2.attrs.drop 12) b)
    (v : Val) (hmk : Tab.Phys_2.mk' (a ++ j :: b) = .ok v) :
    cardParse Tab.Phys_2 v.str = .ok (v, []) ↔
      slots electronSlots (Assign.flat (physWords a j b)) = some (physWords a j b) := by
  obtain ⟨ra, sa⟩ := vals_round ha
  obtain ⟨rb, sb⟩ := vals_round hb
  have ma : ∀ x ∈ Tab.Phys_2.attrs.take 11, x.many = false := by decide +kernel
  have mb : ∀ x ∈ Tab.Phys_2.attrs.drop 12, x.many = false := by decide +kernel
  have hla : a.length = 11 := ha.length
  have hlb : b.length = 3 := hb.length
  -- the printed words
  have hst : ∀ w ∈ Assign.flat (physWords a j b), Stable w := by
    intro w hw
    unfold physWords at hw
    rw [physflat, List.mem_append] at hw
    rcases hw with hw | hw
    · exact sa w hw
    · rcases hj with rfl | rfl
      · exact sb w hw
      · rw [pairWords, flat_cons_some, List.mem_append] at hw
        rcases hw with hw | hw
        · have : w = c!"j" := by simpa using hw
          rw [this]; exact j_stable
        · exact sb w hw
        · intro e; cases e
  have hrd : readVals Tab.Phys_2.attrs (physWords a j b) = .ok (a ++ j :: b) := by
    have : readVals (Tab.Phys_2.attrs.take 11 ++ Tab.Phys_2.attrs.drop 11) (a.map Val.words ++ pairWords j :: b.map Val.words) = .ok (a ++ j :: b) := by
      refine readVals_app _ _ _ _ _ _ (by rw [List.length_map, hla]; rfl) ra ?_
      have hd : Tab.Phys_2.attrs.drop 11 = ⟨"j", (.base .str), false, (some (.and .notNone (.not (.lowIn ["j j"]))))⟩ :: Tab.Phys_2.attrs.drop 12 := rfl
      rw [hd]
      rcases hj with rfl | rfl
      · simp only [pairWords, readVals, readVal, rb]
      · have : readVal ⟨"j", (.base .str), false, (some (.and .notNone (.not (.lowIn ["j j"]))))⟩ (some [c!"j", c!"j"]) = .ok (.sc (.str c!"j j")) := by
          decide +kernel
        simp only [pairWords, readVals, this, rb]
    exact this
  have hwd : Widths electronSlots (physWords a j b) := by
    have h3 : Widths (List.replicate 3 .word) (b.map Val.words) := by
      have := vals_widths _ b [] [] mb hb True.intro
      rw [List.append_nil, List.append_nil] at this
      exact this
    refine vals_widths (Tab.Phys_2.attrs.take 11) a (.pair :: List.replicate 3 .word) _ ma ha ⟨?_, h3⟩
    rcases hj with rfl | rfl
    · intro t ht; cases ht
    · intro t ht; cases ht; rfl
  -- the printed text
  have hhd : Entry c!"phys:e" := ⟨by decide, by decide, by decide, by decide, by decide, by decide, by decide⟩
  have hws : Words (c!"phys:e" :: Assign.flat (physWords a j b)) := by
    intro w hw
    rcases List.mem_cons.1 hw with rfl | hw
    · exact ⟨hhd.sp, hhd.ne⟩
    · exact ⟨(hst w hw).entry.sp, (hst w hw).entry.ne⟩
  have hnames : ∀ x ∈ Tab.Phys_2.info.attrs.zip ((a ++ j :: b).map Val.text), special x.1 = false := by
    intro x hx
    have h1 := (List.of_mem_zip (a := x.1) (b := x.2) hx).1
    have h2 : ∀ n ∈ Tab.Phys_2.info.attrs, special n = false := by decide +kernel
    exact h2 _ h1
  have hstr : v.str = postprocess (join [' '] (c!"phys:e" :: Assign.flat (physWords a j b))) := by
    obtain ⟨p, s, d, hpart, -, -, hp, hs, hd⟩ := head_pieces electronHead [] ⟨[], [], [], rfl, rfl, rfl, rfl⟩
    obtain ⟨q1, q2, q3⟩ := hpart _ hnames
    have z1 := hp.1 rfl
    have z2 := hs.1 rfl
    have z3 := hd.1 rfl
    subst z1; subst z2; subst z3
    have hb1 := bodyStr_fields (a := []) (by simp) hnames
    rw [List.nil_append] at hb1
    have htx : (Tab.Phys_2.info.attrs.zip ((a ++ j :: b).map Val.text)).filterMap (·.2) = (a ++ j :: b).filterMap Val.text := by
      have h2 : (Tab.Phys_2.info.attrs.zip ((a ++ j :: b).map Val.text)).filterMap (·.2) =
          ((Tab.Phys_2.info.attrs.zip ((a ++ j :: b).map Val.text)).map (·.2)).filterMap id := by
        rw [List.filterMap_map]; rfl
      rw [h2, List.map_snd_zip (by
        rw [List.length_map, List.length_append, List.length_cons, hla, hlb]; decide), List.filterMap_map]
      rfl
    have hjn : join [' '] ((a ++ j :: b).filterMap Val.text) = join [' '] (Assign.flat (physWords a j b)) := by
      have := (join_flat (a.map (fun v => (v.text, v.words)) ++ (j.text, pairWords j) :: b.map (fun v => (v.text, v.words))) (by
        intro x hx
        rcases List.mem_append.1 hx with hx | hx
        · exact readVals_texts _ a ma ha x hx
        · rcases List.mem_cons.1 hx with rfl | hx
          · rcases hj with rfl | rfl
            · exact .inl rfl
            · exact .inr ⟨[c!"j", c!"j"], by simp, by decide +kernel⟩
          · exact readVals_texts _ b mb hb x hx)).1
      simp only [List.filterMap_append, List.filterMap_cons, List.filterMap_map, List.map_append, List.map_cons, List.map_map] at this ⊢
      exact this
    rw [mk_obj hmk, obj_str]
    unfold objStr
    rw [Val.parts_eq]
    have hh : headStr Tab.Phys_2.info.kw (Tab.Phys_2.info.attrs.zip ((a ++ j :: b).map Val.text)) = c!"phys:e" := by
      rw [headStr_eq]
      have e : electronHead.names.zip (([] : List Val).map Val.text) = [] := rfl
      rw [e, List.nil_append] at q1 q2 q3
      rw [q1, q2, q3]
      decide +kernel
    have hc : Tab.Phys_2.info.style = .card := rfl
    simp only [hc]
    rw [hh, hb1, htx, hjn, strip_text _ _ hws]
  rw [hstr, electron_rel.card]
  unfold cardParse
  rw [C18_wrap_roundtrip _ _ (fun w hw => by
      rcases List.mem_cons.1 hw with rfl | hw
      · exact hhd
      · exact (hst w hw).entry) (fun w hw => (hst w hw).low) (fun w hw => (hst w hw).cnt), join_enc]
  have e := electron_read _ _ hws
  have key : electronRead c!"phys:e" (Assign.flat (physWords a j b)) = .ok v ↔
      slots electronSlots (Assign.flat (physWords a j b)) = some (physWords a j b) := by
    unfold electronRead
    rw [if_pos (by decide)]
    constructor
    · intro h
      cases hs : slots electronSlots (Assign.flat (physWords a j b)) with
      | none => rw [hs] at h; cases h
      | some vs =>
        rw [hs] at h
        simp only at h
        cases hr : readVals Tab.Phys_2.attrs vs with
        | error e => rw [hr] at h; cases h
        | ok l =>
          rw [hr] at h
          have e1 := mk_obj h
          have e2 := mk_obj hmk
          rw [e2] at e1
          simp only [Val.obj.injEq, true_and] at e1
          subst e1
          rw [widths_unique electronSlots Tab.Phys_2.attrs vs (physWords a j b) _ rfl (by
            intro x hx
            have hall : Tab.Phys_2.attrs.all (fun x => !x.many && (match x.ty with | .base k => k.tok | .other _ _ _ _ => false)) = true := by
              decide +kernel
            have := List.all_eq_true.1 hall x hx
            rw [Bool.and_eq_true] at this
            refine ⟨by simpa using this.1, ?_⟩
            cases hty : x.ty with
            | base k => rw [hty] at this; exact ⟨k, rfl, this.2⟩
            | other => rw [hty] at this; exact absurd this.2 (by simp)) (slots_width _ _ _ hs) hwd hr hrd (slots_filled _ _ _ hs).2.1]
    · intro h
      rw [h]
      simp only [hrd, hmk]
  rw [← key, ← e]
  cases reMatch Electron.re (c!"phys:e" ++ enc (Assign.flat (physWords a j b))) with
  | none => simp
  | some m =>
    simp only
    cases Electron.build m with
    | error e => simp
    | ok u => simp

theorem gapless_words : ∀ (as : List Attr) (vs : List Val), (∀ a ∈ as, a.many = false) → ReadVals as vs →
    vs.Pairwise (fun x y => x = .none → y = .none) →
    ∃ xs : List Str, xs.length ≤ vs.length ∧ vs.map Val.words = xs.map (fun w => some [w]) ++ List.replicate (vs.length - xs.length) none ∧
      Assign.flat (vs.map Val.words) = xs ∧ ((∀ v ∈ vs, v ≠ .none) → xs.length = vs.length) ∧ ((∀ v ∈ vs, v = .none) → xs = [])
  | [], [], _, _, _ => ⟨[], Nat.le_refl _, rfl, rfl, fun _ => rfl, fun _ => rfl⟩
  | [], _ :: _, _, h, _ => h.elim
  | _ :: _, [], _, h, _ => h.elim
  | a :: as, v :: vs, hm, h, hp => by
    rw [List.pairwise_cons] at hp
    obtain ⟨xs, h1, h2, h3, h4, h5⟩ := gapless_words as vs (fun b hb => hm b (by simp [hb])) h.2 hp.2
    cases v with
    | none =>
      have hn : ∀ v ∈ vs, v = .none := fun v hv => hp.1 v hv rfl
      have hx := h5 hn
      subst hx
      refine ⟨[], by simp, ?_, ?_, fun e => absurd rfl (e .none (by simp)), fun _ => rfl⟩
      · rw [List.map_cons, h2]; simp [Val.words, List.replicate_succ]
      · rw [List.map_cons]; exact h3
    | sc x =>
      refine ⟨(Val.sc x).str :: xs, by simpa using h1, ?_, ?_, ?_, fun e => by have := e (.sc x) (by simp); cases this⟩
      · rw [List.map_cons, h2]; simp [Val.words]
      · rw [List.map_cons, Val.words, flat_cons_some, h3]
        · rfl
        · intro e; cases e
        · intro l e; cases e
      · intro e
        rw [List.length_cons, List.length_cons, h4 (fun v hv => e v (by simp [hv]))]
    | tuple l => have := h.1.1; rw [hm a (by simp)] at this; cases this
    | obj => exact h.1.elim

/-- Cards without gaps survive: no attribute is set after an unset one, except that `j j` may be left out; if it is,
the two attributes after it must not both be jumps. -/
theorem C104_round (a : List Val) (j : Val) (b : List Val) (ha : ReadVals (Tab.Phys_2.attrs.take 11) a)
    (hj : j = .none ∨ j = .sc (.str c!"j j")) (hb : ReadVals (Tab.Phys_2.attrs.drop 12) b)
    (ga : a.Pairwise (fun x y => x = .none → y = .none)) (gb : b.Pairwise (fun x y => x = .none → y = .none))
    (hall : (∀ x ∈ a, x ≠ .none) ∨ j = .none ∧ ∀ x ∈ b, x = .none)
    (hjj : j = .none → ∀ x y r, b = x :: y :: r → ¬ (isJ x.str = true ∧ isJ y.str = true))
    (v : Val) (hmk : Tab.Phys_2.mk' (a ++ j :: b) = .ok v) :
    cardParse Tab.Phys_2 v.str = .ok (v, []) := by
  rw [C104_exact a j b ha hj hb v hmk]
  have ma : ∀ x ∈ Tab.Phys_2.attrs.take 11, x.many = false := by decide +kernel
  have mb : ∀ x ∈ Tab.Phys_2.attrs.drop 12, x.many = false := by decide +kernel
  have hla : a.length = 11 := ha.length
  have hlb : b.length = 3 := hb.length
  obtain ⟨xs, a1, a2, a3, a4, -⟩ := gapless_words _ a ma ha ga
  obtain ⟨ys, b1, b2, b3, -, b5⟩ := gapless_words _ b mb hb gb
  rw [hla] at a1 a2 a4
  rw [hlb] at b1 b2
  rcases hall with hall | ⟨rfl, hn⟩
  · have hx : xs.length = 11 := a4 hall
    rw [hx, Nat.sub_self, List.replicate_zero, List.append_nil] at a2
    rcases hj with rfl | rfl
    · have hf : Assign.flat (physWords a .none b) = xs ++ ys := by
        unfold physWords
        rw [physflat, a3]
        exact congrArg (xs ++ ·) b3
      rw [hf, C104_rest xs ys hx b1]
      · unfold physWords; rw [a2, b2]; rfl
      · intro x y r e
        subst e
        cases hj : isJ x && isJ y with
        | false => rfl
        | true =>
          exfalso
          rw [Bool.and_eq_true] at hj
          match b, hlb, b2, hjj with
          | [p, q, t], _, b2, hjj =>
            simp only [List.map_cons, List.cons_append, List.cons.injEq] at b2
            have str : ∀ (p : Val) (x : Str), p.words = some [x] → p ∈ [p] → (∀ l, p ≠ .tuple l) → p.str = x := by
              intro p x h _ ht
              cases p with
              | none => cases h
              | tuple l => exact absurd rfl (ht l)
              | sc z => simpa [Val.words] using h
              | obj => simpa [Val.words] using h
            have nt : ∀ (at' : Attr) (p : Val), at'.many = false → ReadVal at' p → ∀ l, p ≠ .tuple l := by
              intro at' p hm hr l e
              subst e
              have := hr.1
              rw [hm] at this; cases this
            have hb' : ReadVals (Tab.Phys_2.attrs.drop 12) [p, q, t] := hb
            have hd : ∃ u v w, Tab.Phys_2.attrs.drop 12 = [u, v, w] := ⟨_, _, _, rfl⟩
            obtain ⟨u, v, w, hd⟩ := hd
            rw [hd] at hb' mb
            refine hjj rfl p q [t] rfl ⟨?_, ?_⟩
            · rw [str p x b2.1 (by simp) (nt u p (mb u (by simp)) hb'.1)]; exact hj.1
            · rw [str q y b2.2.1 (by simp) (nt v q (mb v (by simp)) hb'.2.1)]; exact hj.2
    · have hf : Assign.flat (physWords a (.sc (.str c!"j j")) b) = xs ++ c!"j" :: c!"j" :: ys := by
        unfold physWords
        rw [physflat, a3, pairWords, flat_cons_some, b3]
        · rfl
        · intro e; cases e
      rw [hf, C104_pair xs c!"j" c!"j" ys hx (by decide) (by decide) b1]
      unfold physWords
      rw [a2, b2]; rfl
  · have hy := b5 hn
    subst hy
    have hf : Assign.flat (physWords a .none b) = xs := by
      unfold physWords
      rw [physflat, a3]
      have : Assign.flat (pairWords .none :: b.map Val.words) = [] := b3
      rw [this, List.append_nil]
    rw [hf, C104_first xs a1]
    unfold physWords
    rw [a2, b2]
    simp only [pairWords, List.map_nil, List.nil_append, List.length_nil, Nat.sub_zero, List.append_assoc]
    rw [← List.replicate_succ, List.replicate_append_replicate]
    congr 3
    omega

/-- A full card with `j j`. -/
example : cardParse Tab.Phys_2 (Val.obj Tab.Phys_2.info ([.sc (.real (.num (.fin ⟨false, 5, 0⟩)))] ++
      List.replicate 4 (.sc (.int (.num 0))) ++ List.replicate 2 (.sc (.real (.num (.fin ⟨false, 1, 0⟩)))) ++
      List.replicate 4 (.sc (.int (.num 0))) ++ [.sc (.str c!"j j"), .sc (.real (.num (.fin ⟨false, 9, -1⟩))), .none, .none])).str =
    .ok (.obj Tab.Phys_2.info ([.sc (.real (.num (.fin ⟨false, 5, 0⟩)))] ++
      List.replicate 4 (.sc (.int (.num 0))) ++ List.replicate 2 (.sc (.real (.num (.fin ⟨false, 1, 0⟩)))) ++
      List.replicate 4 (.sc (.int (.num 0))) ++ [.sc (.str c!"j j"), .sc (.real (.num (.fin ⟨false, 9, -1⟩))), .none, .none]), []) := by
  refine C104_round ([.sc (.real (.num (.fin ⟨false, 5, 0⟩)))] ++
      List.replicate 4 (.sc (.int (.num 0))) ++ List.replicate 2 (.sc (.real (.num (.fin ⟨false, 1, 0⟩)))) ++
      List.replicate 4 (.sc (.int (.num 0)))) (.sc (.str c!"j j")) [.sc (.real (.num (.fin ⟨false, 9, -1⟩))), .none, .none]
    ?_ (.inr rfl) ?_ ?_ ?_ (.inl ?_) (by intro e; cases e) _ (by decide +kernel)
  · exact ⟨⟨rfl, .real, rfl, trivial⟩, ⟨rfl, .int, rfl, trivial⟩, ⟨rfl, .int, rfl, trivial⟩, ⟨rfl, .int, rfl, trivial⟩, ⟨rfl, .int, rfl, trivial⟩,
      ⟨rfl, .real, rfl, trivial⟩, ⟨rfl, .real, rfl, trivial⟩, ⟨rfl, .int, rfl, trivial⟩, ⟨rfl, .int, rfl, trivial⟩, ⟨rfl, .int, rfl, trivial⟩,
      ⟨rfl, .int, rfl, trivial⟩, trivial⟩
  · exact ⟨⟨rfl, .real, rfl, trivial⟩, trivial, trivial, trivial⟩
  · simp
  · simp
  · intro x hx
    simp only [List.mem_append, List.mem_singleton, List.mem_replicate] at hx
    rcases hx with ((rfl | ⟨-, rfl⟩) | ⟨-, rfl⟩) | ⟨-, rfl⟩ <;> exact fun e => by cases e

/-- The words of a card, broken over two lines with a counted jump. -/
example : slots electronSlots [c!"5", c!"0", c!"j", c!"j", c!"1"] =
    some [some [c!"5"], some [c!"0"], some [c!"j"], some [c!"j"], some [c!"1"], none, none, none, none, none, none, none, none, none, none] := by
  decide +kernel

/-- Fifteen entries with `j j` one place early: the eleventh attribute is left unset so that the rest fits. -/
example : slots electronSlots (List.replicate 10 c!"1" ++ [c!"J", c!"j", c!"2", c!"3", c!"4"]) =
    some (List.replicate 10 (some [c!"1"]) ++ [none, some [c!"J", c!"j"], some [c!"2"], some [c!"3"], some [c!"4"]]) := by
  decide +kernel

/-- Otherwise they need not.  A card with `j j` but without some earlier entry gives the two words to earlier attributes;
a card without `j j` whose next two attributes are jumps is read back with `j j` instead. -/
theorem C104_violated :
    attrsOf (cardParse Tab.Phys_2 (Val.obj Tab.Phys_2.info (.sc (.real (.num (.fin ⟨false, 5, 0⟩))) ::
      (List.replicate 10 .none ++ [.sc (.str c!"j j"), .none, .none, .none]))).str) =
      some (.sc (.real (.num (.fin ⟨false, 5, 0⟩))) :: .sc (.int (.hor (.jump none))) :: .sc (.int (.hor (.jump none))) ::
        List.replicate 12 .none) ∧
    attrsOf (cardParse Tab.Phys_2 (Val.obj Tab.Phys_2.info ([.sc (.real (.num (.fin ⟨false, 5, 0⟩)))] ++
      List.replicate 4 (.sc (.int (.num 0))) ++ List.replicate 2 (.sc (.real (.num (.fin ⟨false, 1, 0⟩)))) ++
      List.replicate 4 (.sc (.int (.num 0))) ++ [.none, .sc (.real (.hor (.jump none))), .sc (.real (.hor (.jump none))), .none])).str) =
      some ([.sc (.real (.num (.fin ⟨false, 5, 0⟩)))] ++
      List.replicate 4 (.sc (.int (.num 0))) ++ List.replicate 2 (.sc (.real (.num (.fin ⟨false, 1, 0⟩)))) ++
      List.replicate 4 (.sc (.int (.num 0))) ++ [.sc (.str c!"j j"), .none, .none, .none]) := by
  decide +kernel

/-- Both cards can be made. -/
example : (Tab.Phys_2.mk' (.sc (.real (.num (.fin ⟨false, 5, 0⟩))) ::
      (List.replicate 10 .none ++ [.sc (.str c!"j j"), .none, .none, .none]))).isOk = true ∧
    (Tab.Phys_2.mk' ([.sc (.real (.num (.fin ⟨false, 5, 0⟩)))] ++
      List.replicate 4 (.sc (.int (.num 0))) ++ List.replicate 2 (.sc (.real (.num (.fin ⟨false, 1, 0⟩)))) ++
      List.replicate 4 (.sc (.int (.num 0))) ++ [.none, .sc (.real (.hor (.jump none))), .sc (.real (.hor (.jump none))), .none])).isOk = true := by
  decide +kernel

end Props
