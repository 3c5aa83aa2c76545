import Verif.Inp.ShortLemmas
/-! Helper lemmas: shorthand collapsing and expanding on item sequences. -/
namespace Inp
open Py Types

/-- The five shorthand letters. -/
def kws : List Str := [kwJ, kwR, kwI, kwLog, kwIlog]

theorem kws_ok {kw : Str} (h : kw ∈ kws) : KwOk kw := by
  simp only [kws, List.mem_cons, List.not_mem_nil, or_false] at h
  rcases h with rfl | rfl | rfl | rfl | rfl
  · exact kwJ_ok
  · exact kwR_ok
  · exact kwI_ok
  · exact kwLog_ok
  · exact kwIlog_ok

/-- A list of words grouped as plain words, runs of one shorthand letter, and counted shorthand. -/
inductive Item
  | word (w : Str)
  | run (kw : Str) (l : List Str)
  | cnt (kw : Str) (w : Str) (n : Nat)

def Item.words : Item → List Str
  | .word w => [w]
  | .run _ l => l
  | .cnt _ w _ => [w]

def Item.cls : Item → Option Str
  | .word _ => none
  | .run kw _ => some kw
  | .cnt kw _ _ => some kw

structure PlainWord (w : Str) : Prop where
  ne : w ≠ []
  sp : NoSpace w
  kw : ∀ kw ∈ kws, isKw kw w = false
  cn : ∀ kw ∈ kws, cntOf kw w = none

inductive Item.Ok : Item → Prop
  | word {w} : PlainWord w → Item.Ok (.word w)
  | run {kw l} : kw ∈ kws → l ≠ [] → (∀ w ∈ l, isKw kw w = true) → Item.Ok (.run kw l)
  | cnt {kw w n} : kw ∈ kws → cntOf kw w = some n → 0 < n → Item.Ok (.cnt kw w n)

/-- Neighbouring items are not shorthand of the same letter. -/
def Sep : List Item → Prop
  | [] => True
  | [_] => True
  | a :: b :: l => (∀ kw, a.cls = some kw → b.cls ≠ some kw) ∧ Sep (b :: l)

theorem Sep.tail {a : Item} {l} (h : Sep (a :: l)) : Sep l := by
  cases l with
  | nil => trivial
  | cons b l => exact h.2

def words (is : List Item) : List Str := is.flatMap Item.words

@[simp] theorem words_nil : words [] = [] := rfl
@[simp] theorem words_cons (i : Item) (is) : words (i :: is) = i.words ++ words is := rfl

/-! ### different letters do not meet -/

theorem upperC_table : ∀ c ∈ ['j', 'r', 'i', 'l', 'o', 'g'], ∀ d ∈ ['j', 'r', 'i', 'l', 'o', 'g'],
    c ≠ d → c ≠ upperC d ∧ upperC c ≠ d ∧ upperC c ≠ upperC d := by decide

theorem kws_letters {kw : Str} (h : kw ∈ kws) : ∀ c ∈ kw, c ∈ ['j', 'r', 'i', 'l', 'o', 'g'] := by
  simp only [kws, List.mem_cons, List.not_mem_nil, or_false] at h
  rcases h with rfl | rfl | rfl | rfl | rfl <;> decide

theorem isKw_unique_aux (a b : Str) (ha : ∀ c ∈ a, c ∈ ['j', 'r', 'i', 'l', 'o', 'g'])
    (hb : ∀ c ∈ b, c ∈ ['j', 'r', 'i', 'l', 'o', 'g']) (w : Str)
    (h1 : stripKw a w = some []) (h2 : stripKw b w = some []) : a = b := by
  induction a generalizing b w with
  | nil =>
    simp only [stripKw, Option.some.injEq] at h1
    subst h1
    cases b with
    | nil => rfl
    | cons c cs => simp [stripKw] at h2
  | cons c cs ih =>
    cases w with
    | nil => simp [stripKw] at h1
    | cons x xs =>
      cases b with
      | nil => simp [stripKw] at h2
      | cons d ds =>
        simp only [stripKw] at h1 h2
        split at h1
        · rename_i hx
          split at h2
          · rename_i hy
            have e := ih ds (fun y hy => ha y (by simp [hy])) (fun y hy => hb y (by simp [hy])) xs h1 h2
            have : c = d := by
              by_cases hcd : c = d
              · exact hcd
              · obtain ⟨t1, t2, t3⟩ := upperC_table c (ha c (by simp)) d (hb d (by simp)) hcd
                simp only [Bool.or_eq_true, beq_iff_eq] at hx hy
                rcases hx with rfl | rfl <;> rcases hy with hy | hy
                · exact hy
                · exact absurd hy t1
                · exact absurd hy t2
                · exact absurd hy t3
            rw [e, this]
          · cases h2
        · cases h1

theorem isKw_unique {a b w : Str} (ha : a ∈ kws) (hb : b ∈ kws) (h1 : isKw a w = true) (h2 : isKw b w = true) :
    a = b :=
  isKw_unique_aux a b (kws_letters ha) (kws_letters hb) w (by simpa [isKw] using h1) (by simpa [isKw] using h2)

theorem isKw_not_cnt {a b w : Str} (ha : a ∈ kws) (h1 : isKw a w = true) : cntOf b w = none := by
  cases w with
  | nil => exact absurd rfl (isKw_ne_nil (kws_ok ha) h1)
  | cons c cs =>
    have := isKw_head (kws_ok ha) h1 [] c (cs ++ []) rfl
    simp [cntOf, this]

theorem cnt_not_isKw {a b w : Str} {n : Nat} (hb : b ∈ kws) (h1 : cntOf a w = some n) : isKw b w = false := by
  cases h : isKw b w with
  | false => rfl
  | true => rw [isKw_not_cnt hb h] at h1; cases h1

theorem cnt_unique {a b w : Str} {n m : Nat} (ha : a ∈ kws) (hb : b ∈ kws) (h1 : cntOf a w = some n)
    (h2 : cntOf b w = some m) : a = b := by
  unfold cntOf at h1 h2
  split at h1
  · rename_i x1
    split at h2
    · rename_i x2
      exact isKw_unique ha hb x1.2 x2.2
    · cases h2
  · cases h1

theorem Item.Ok.words_ne {i : Item} (h : i.Ok) : i.words ≠ [] := by
  cases h with
  | word h => simp [Item.words]
  | run _ h _ => exact h
  | cnt => simp [Item.words]

theorem cnt_noSpace {kw w : Str} {n : Nat} (hk : KwOk kw) (h : cntOf kw w = some n) : NoSpace w := by
  obtain ⟨ds, l, rfl, hd, _, hl, _⟩ := cntOf_some h
  intro c hc
  rcases List.mem_append.1 hc with hc | hc
  · exact isDigit_not_space (hd c hc)
  · exact isKw_noSpace hk hl c hc

theorem cnt_ne_nil {kw w : Str} {n : Nat} (h : cntOf kw w = some n) : w ≠ [] := by
  obtain ⟨ds, l, rfl, hd, hne, hl, _⟩ := cntOf_some h
  simp [hne]

theorem Item.Ok.words_ok {i : Item} (h : i.Ok) : Words i.words := by
  intro w hw
  cases h with
  | word h => simp only [Item.words, List.mem_singleton] at hw; subst hw; exact ⟨h.sp, h.ne⟩
  | run hk _ h => exact ⟨isKw_noSpace (kws_ok hk) (h w hw), isKw_ne_nil (kws_ok hk) (h w hw)⟩
  | cnt hk h _ =>
    simp only [Item.words, List.mem_singleton] at hw; subst hw
    exact ⟨cnt_noSpace (kws_ok hk) h, cnt_ne_nil h⟩

theorem words_Words {is : List Item} (h : ∀ i ∈ is, i.Ok) : Words (words is) := by
  intro w hw
  obtain ⟨i, hi, hw⟩ := List.mem_flatMap.1 hw
  exact (h i hi).words_ok w hw

/-- Words of an item of another class are not the letter `kw`. -/
theorem Item.Ok.not_kw {i : Item} (h : i.Ok) {kw : Str} (hk : kw ∈ kws)
    (hc : ∀ l, i ≠ .run kw l) : ∀ w ∈ i.words, isKw kw w = false := by
  intro w hw
  cases h with
  | word h => simp only [Item.words, List.mem_singleton] at hw; subst hw; exact h.kw kw hk
  | @run kw' l hk' _ h =>
    cases hi : isKw kw w with
    | false => rfl
    | true =>
      have := isKw_unique hk hk' hi (h w hw)
      subst this
      exact absurd rfl (hc l)
  | cnt hk' h _ =>
    simp only [Item.words, List.mem_singleton] at hw; subst hw
    exact cnt_not_isKw hk h

theorem Item.Ok.not_cnt {i : Item} (h : i.Ok) {kw : Str} (hk : kw ∈ kws)
    (hc : ∀ w n, i ≠ .cnt kw w n) : ∀ w ∈ i.words, cntOf kw w = none := by
  intro w hw
  cases h with
  | word h => simp only [Item.words, List.mem_singleton] at hw; subst hw; exact h.cn kw hk
  | run hk' _ h => exact isKw_not_cnt hk' (h w hw)
  | @cnt kw' w' n hk' h _ =>
    simp only [Item.words, List.mem_singleton] at hw; subst hw
    cases hi : cntOf kw w with
    | none => rfl
    | some m =>
      have := cnt_unique hk hk' hi h
      subst this
      exact absurd rfl (hc w n)

/-! ### fuel -/

theorem copyHead_congr {f g : List Str → List Str} (ws : List Str)
    (h : ∀ v vs, ws = v :: vs → f vs = g vs) : copyHead f ws = copyHead g ws := by
  cases ws with
  | nil => rfl
  | cons v vs => simp only [copyHead]; rw [h v vs rfl]

theorem leadKw_drop_length (kw : Str) (ws : List Str) : (ws.drop (leadKw kw ws).length).length ≤ ws.length := by
  simp

theorem collW_fuel (kw : Str) (n m : Nat) (ws : List Str) (hn : ws.length ≤ n) (hm : ws.length ≤ m) :
    collW kw n ws = collW kw m ws := by
  induction n generalizing m ws with
  | zero =>
    have : ws = [] := List.length_eq_zero_iff.1 (by omega)
    subst this
    cases m <;> rfl
  | succ n ih =>
    cases ws with
    | nil => cases m <;> rfl
    | cons w ws =>
      cases m with
      | zero => simp at hm
      | succ m =>
        simp only [List.length_cons, Nat.add_le_add_iff_right] at hn hm
        simp only [collW]
        rw [ih m ws hn hm]
        split
        · split
          · rfl
          · congr 1
            apply copyHead_congr
            intro v vs e
            have hl : (v :: vs).length ≤ ws.length := by
              rw [← e]; simp
            simp only [List.length_cons] at hl
            exact ih m vs (by omega) (by omega)
        · rfl

theorem expW_fuel (kw : Str) (n m : Nat) (ws : List Str) (hn : ws.length ≤ n) (hm : ws.length ≤ m) :
    expW kw n ws = expW kw m ws := by
  induction n generalizing m ws with
  | zero =>
    have : ws = [] := List.length_eq_zero_iff.1 (by omega)
    subst this
    cases m <;> rfl
  | succ n ih =>
    cases ws with
    | nil => cases m <;> rfl
    | cons w ws =>
      cases m with
      | zero => simp at hm
      | succ m =>
        simp only [List.length_cons, Nat.add_le_add_iff_right] at hn hm
        simp only [expW]
        rw [ih m ws hn hm]
        split
        · congr 1
          apply copyHead_congr
          intro v vs e
          have hl : (v :: vs).length = ws.length := by rw [← e]
          simp only [List.length_cons] at hl
          exact ih m vs (by omega) (by omega)
        · rfl

/-- Collapsing and expanding with enough fuel. -/
def coll (kw : Str) (ws : List Str) : List Str := collW kw ws.length ws
def expd (kw : Str) (ws : List Str) : List Str := expW kw ws.length ws

theorem coll_not {kw w : Str} (ws : List Str) (h : isKw kw w = false) : coll kw (w :: ws) = w :: coll kw ws := by
  simp [coll, collW, h]

theorem coll_nots {kw : Str} (l ws : List Str) (h : ∀ w ∈ l, isKw kw w = false) :
    coll kw (l ++ ws) = l ++ coll kw ws := by
  induction l with
  | nil => rfl
  | cons w l ih =>
    rw [List.cons_append, coll_not _ (h w (by simp)), ih (fun x hx => h x (by simp [hx]))]; rfl

theorem leadKw_app {kw : Str} (l ws : List Str) (h : ∀ w ∈ l, isKw kw w = true)
    (hs : ∀ v ∈ ws.head?, isKw kw v = false) : leadKw kw (l ++ ws) = l := by
  induction l with
  | nil =>
    cases ws with
    | nil => rfl
    | cons v vs => simp [leadKw, hs v (by simp)]
  | cons w l ih =>
    rw [List.cons_append, leadKw, if_pos (h w (by simp)), ih (fun x hx => h x (by simp [hx]))]

theorem coll_run1 {kw w : Str} (ws : List Str) (h : isKw kw w = true) (hs : ∀ v ∈ ws.head?, isKw kw v = false) :
    coll kw (w :: ws) = w :: coll kw ws := by
  have := leadKw_app [] ws (by simp) hs
  simp only [List.nil_append] at this
  simp [coll, collW, h, this]

theorem coll_run {kw : Str} (l ws : List Str) (h : ∀ w ∈ l, isKw kw w = true) (hl : 2 ≤ l.length)
    (hs : ∀ v ∈ ws.head?, isKw kw v = false) :
    coll kw (l ++ ws) = counted kw l.length :: coll kw ws := by
  match l, hl with
  | a :: b :: l, _ =>
    have h1 := leadKw_app (b :: l) ws (fun w hw => h w (by simp only [List.mem_cons] at hw ⊢; exact .inr hw)) hs
    have hd : ((b :: l) ++ ws).drop (b :: l).length = ws := List.drop_left
    unfold coll
    simp only [List.cons_append, List.length_cons, collW, h a (by simp), if_true] at h1 hd ⊢
    rw [h1]
    simp only [List.length_cons]
    rw [hd]
    congr 1
    cases ws with
    | nil => rfl
    | cons v vs =>
      have hv := hs v (by simp)
      simp only [copyHead, List.length_cons, collW, hv]
      simp only [Bool.false_eq_true, if_false]
      congr 1
      apply collW_fuel <;> simp <;> omega

theorem expd_not {kw w : Str} (ws : List Str) (h : cntOf kw w = none) : expd kw (w :: ws) = w :: expd kw ws := by
  simp [expd, expW, h]

theorem expd_nots {kw : Str} (l ws : List Str) (h : ∀ w ∈ l, cntOf kw w = none) :
    expd kw (l ++ ws) = l ++ expd kw ws := by
  induction l with
  | nil => rfl
  | cons w l ih =>
    rw [List.cons_append, expd_not _ (h w (by simp)), ih (fun x hx => h x (by simp [hx]))]; rfl

theorem expd_cnt {kw w : Str} {n : Nat} (ws : List Str) (h : cntOf kw w = some n)
    (hs : ∀ v ∈ ws.head?, cntOf kw v = none) :
    expd kw (w :: ws) = List.replicate n kw ++ expd kw ws := by
  simp only [expd, List.length_cons, expW, h]
  congr 1
  cases ws with
  | nil => rfl
  | cons v vs =>
    have hv := hs v (by simp)
    simp only [copyHead, List.length_cons, expW, hv]
    congr 1
    apply expW_fuel <;> simp

/-! ### on items -/

def Item.coll (kw : Str) : Item → Item
  | .run kw' l => if kw' = kw ∧ 2 ≤ l.length then .cnt kw (counted kw l.length) l.length else .run kw' l
  | i => i

def Item.expd (kw : Str) : Item → Item
  | .cnt kw' w n => if kw' = kw then .run kw (List.replicate n kw) else .cnt kw' w n
  | i => i

@[simp] theorem Item.coll_cls (kw : Str) (i : Item) : (i.coll kw).cls = i.cls := by
  cases i <;> simp only [Item.coll]
  split
  · rename_i h; simp [Item.cls, h.1]
  · rfl

@[simp] theorem Item.expd_cls (kw : Str) (i : Item) : (i.expd kw).cls = i.cls := by
  cases i <;> simp only [Item.expd]
  split
  · rename_i h; simp [Item.cls, h]
  · rfl

theorem Item.Ok.coll {i : Item} (h : i.Ok) {kw : Str} (hk : kw ∈ kws) : (i.coll kw).Ok := by
  cases h with
  | word h => exact .word h
  | run h1 h2 h3 =>
    simp only [Item.coll]
    split
    · exact .cnt hk (cntOf_counted (kws_ok hk) _) (by omega)
    · exact .run h1 h2 h3
  | cnt h1 h2 h3 => exact .cnt h1 h2 h3

theorem Item.Ok.expd {i : Item} (h : i.Ok) {kw : Str} (hk : kw ∈ kws) : (i.expd kw).Ok := by
  cases h with
  | word h => exact .word h
  | run h1 h2 h3 => exact .run h1 h2 h3
  | @cnt kw' w n h1 h2 h3 =>
    simp only [Item.expd]
    split
    · refine .run hk ?_ ?_
      · intro e
        have := congrArg List.length e
        simp at this
        omega
      · intro w hw
        rw [(List.mem_replicate.1 hw).2]
        exact (kws_ok hk).self
    · exact .cnt h1 h2 h3

theorem Sep.map {f : Item → Item} (hf : ∀ i, (f i).cls = i.cls) {is : List Item} (h : Sep is) : Sep (is.map f) := by
  induction is with
  | nil => trivial
  | cons a l ih =>
    cases l with
    | nil => trivial
    | cons b l =>
      refine ⟨?_, ih h.2⟩
      intro kw e
      rw [hf] at e ⊢
      exact h.1 kw e

theorem words_head {a : Item} {is : List Item} (hok : ∀ i ∈ a :: is, i.Ok) (hs : Sep (a :: is)) {kw : Str}
    (hk : kw ∈ kws) (hc : a.cls = some kw) :
    (∀ v ∈ (words is).head?, isKw kw v = false) ∧ (∀ v ∈ (words is).head?, cntOf kw v = none) := by
  cases is with
  | nil => simp
  | cons b l =>
    have hb := hok b (by simp)
    have hne := hb.words_ne
    have hbc := hs.1 kw hc
    have hmem : ∀ v ∈ (words (b :: l)).head?, v ∈ b.words := by
      intro v hv
      rw [words_cons] at hv
      cases hw : b.words with
      | nil => exact absurd hw hne
      | cons x xs => rw [hw] at hv; simp at hv; subst hv; simp
    refine ⟨fun v hv => ?_, fun v hv => ?_⟩
    · exact hb.not_kw hk (by rintro l rfl; exact hbc rfl) v (hmem v hv)
    · exact hb.not_cnt hk (by rintro w n rfl; exact hbc rfl) v (hmem v hv)

theorem coll_items {kw : Str} (hk : kw ∈ kws) (is : List Item) (hok : ∀ i ∈ is, i.Ok) (hs : Sep is) :
    coll kw (words is) = words (is.map (Item.coll kw)) := by
  induction is with
  | nil => rfl
  | cons a is ih =>
    have ih := ih (fun i hi => hok i (by simp [hi])) hs.tail
    have ha := hok a (by simp)
    rw [List.map_cons, words_cons, words_cons, ← ih]
    by_cases hr : ∃ l, a = .run kw l
    · obtain ⟨l, rfl⟩ := hr
      have hh := (words_head hok hs hk rfl).1
      cases ha with
      | run _ hne hl =>
        show coll kw (l ++ words is) = _
        by_cases h2 : 2 ≤ l.length
        · rw [coll_run l _ hl h2 hh]
          simp [Item.coll, h2, Item.words]
        · have : ∃ w, l = [w] := by
            match l, hne, h2 with
            | [w], _, _ => exact ⟨w, rfl⟩
            | a :: b :: l, _, h2 => simp at h2
          obtain ⟨w, rfl⟩ := this
          rw [List.singleton_append, coll_run1 _ (hl w (by simp)) hh]
          simp [Item.coll, Item.words]
    · have hn := ha.not_kw hk (fun l e => hr ⟨l, e⟩)
      rw [coll_nots _ _ hn]
      congr 1
      cases a with
      | word => rfl
      | cnt => rfl
      | run kw' l =>
        simp only [Item.coll]
        rw [if_neg]
        rintro ⟨rfl, _⟩
        exact hr ⟨l, rfl⟩

theorem expd_items {kw : Str} (hk : kw ∈ kws) (is : List Item) (hok : ∀ i ∈ is, i.Ok) (hs : Sep is) :
    expd kw (words is) = words (is.map (Item.expd kw)) := by
  induction is with
  | nil => rfl
  | cons a is ih =>
    have ih := ih (fun i hi => hok i (by simp [hi])) hs.tail
    have ha := hok a (by simp)
    rw [List.map_cons, words_cons, words_cons, ← ih]
    by_cases hr : ∃ w n, a = .cnt kw w n
    · obtain ⟨w, n, rfl⟩ := hr
      have hh := (words_head hok hs hk rfl).2
      cases ha with
      | cnt _ hc _ =>
        show expd kw (w :: words is) = _
        rw [expd_cnt _ hc hh]
        simp [Item.expd, Item.words]
    · have hn := ha.not_cnt hk (fun w n e => hr ⟨w, n, e⟩)
      rw [expd_nots _ _ hn]
      congr 1
      cases a with
      | word => rfl
      | run => rfl
      | cnt kw' w n =>
        simp only [Item.expd]
        rw [if_neg]
        rintro rfl
        exact hr ⟨w, n, rfl⟩

/-- Five collapsing passes on one item: runs of two or more become counted. -/
def Item.short : Item → Item
  | .run kw l => if 2 ≤ l.length then .cnt kw (counted kw l.length) l.length else .run kw l
  | i => i

/-- Six expanding passes on one item. -/
def Item.long : Item → Item
  | .cnt kw _ n => .run kw (List.replicate n kw)
  | i => i

theorem Item.Ok.short {i : Item} (h : i.Ok) : i.short.Ok := by
  cases h with
  | word h => exact .word h
  | run h1 h2 h3 =>
    simp only [Item.short]
    split
    · exact .cnt h1 (cntOf_counted (kws_ok h1) _) (by omega)
    · exact .run h1 h2 h3
  | cnt h1 h2 h3 => exact .cnt h1 h2 h3

theorem Item.Ok.long {i : Item} (h : i.Ok) : i.long.Ok := by
  cases h with
  | word h => exact .word h
  | run h1 h2 h3 => exact .run h1 h2 h3
  | @cnt kw w n h1 h2 h3 =>
    have := (Item.Ok.cnt h1 h2 h3).expd h1
    simpa [Item.expd, Item.long] using this

@[simp] theorem Item.short_cls (i : Item) : i.short.cls = i.cls := by
  cases i <;> simp only [Item.short]
  split <;> rfl

@[simp] theorem Item.long_cls (i : Item) : i.long.cls = i.cls := by
  cases i <;> rfl

theorem coll_five (i : Item) (h : i.Ok) :
    ((((i.coll kwJ).coll kwR).coll kwI).coll kwLog).coll kwIlog = i.short := by
  cases h with
  | word h => rfl
  | cnt h1 h2 h3 => rfl
  | @run kw l h1 h2 h3 =>
    simp only [kws, List.mem_cons, List.not_mem_nil, or_false] at h1
    by_cases h : 2 ≤ l.length
    · rcases h1 with rfl | rfl | rfl | rfl | rfl <;>
        simp [Item.coll, Item.short, h, show ¬ kwR = kwJ from by decide, show ¬ kwI = kwJ from by decide,
          show ¬ kwLog = kwJ from by decide, show ¬ kwIlog = kwJ from by decide, show ¬ kwI = kwR from by decide,
          show ¬ kwLog = kwR from by decide, show ¬ kwIlog = kwR from by decide, show ¬ kwLog = kwI from by decide,
          show ¬ kwIlog = kwI from by decide, show ¬ kwIlog = kwLog from by decide]
    · simp [Item.coll, Item.short, h]

theorem expd_six (i : Item) (h : i.Ok) :
    (((((i.expd kwJ).expd kwR).expd kwI).expd kwJ).expd kwLog).expd kwIlog = i.long := by
  cases h with
  | word h => rfl
  | run h1 h2 h3 => rfl
  | @cnt kw w n h1 h2 h3 =>
    simp only [kws, List.mem_cons, List.not_mem_nil, or_false] at h1
    rcases h1 with rfl | rfl | rfl | rfl | rfl <;>
        simp [Item.expd, Item.long, show ¬ kwR = kwJ from by decide, show ¬ kwI = kwJ from by decide,
          show ¬ kwLog = kwJ from by decide, show ¬ kwIlog = kwJ from by decide, show ¬ kwI = kwR from by decide,
          show ¬ kwLog = kwR from by decide, show ¬ kwIlog = kwR from by decide, show ¬ kwLog = kwI from by decide,
          show ¬ kwIlog = kwI from by decide, show ¬ kwIlog = kwLog from by decide]

theorem collapse_items {kw : Str} (hk : kw ∈ kws) (u : Str) (hu : NoSpace u) (is : List Item)
    (hok : ∀ i ∈ is, i.Ok) (hs : Sep is) :
    collapse kw (u ++ enc (words is)) = u ++ enc (words (is.map (Item.coll kw))) := by
  rw [collapse_eq (kws_ok hk) u hu _ (words_Words hok)]
  rw [← coll_items hk is hok hs]; rfl

theorem expand_items {kw : Str} (hk : kw ∈ kws) (u : Str) (hu : NoSpace u) (is : List Item)
    (hok : ∀ i ∈ is, i.Ok) (hs : Sep is) :
    expand kw (u ++ enc (words is)) = u ++ enc (words (is.map (Item.expd kw))) := by
  rw [expand_eq (kws_ok hk) u hu _ (words_Words hok)]
  rw [← expd_items hk is hok hs]; rfl

theorem ok_map {f : Item → Item} (hf : ∀ i, i.Ok → (f i).Ok) {is : List Item} (h : ∀ i ∈ is, i.Ok) :
    ∀ i ∈ is.map f, i.Ok := by
  intro i hi
  obtain ⟨j, hj, rfl⟩ := List.mem_map.1 hi
  exact hf j (h j hj)

theorem collapseAll_items (u : Str) (hu : NoSpace u) (is : List Item) (hok : ∀ i ∈ is, i.Ok) (hs : Sep is) :
    collapseAll (u ++ enc (words is)) = u ++ enc (words (is.map Item.short)) := by
  have kj : kwJ ∈ kws := by decide
  have kr : kwR ∈ kws := by decide
  have ki : kwI ∈ kws := by decide
  have kl : kwLog ∈ kws := by decide
  have kil : kwIlog ∈ kws := by decide
  have o1 := ok_map (fun i h => Item.Ok.coll h kj) hok
  have s1 := Sep.map (Item.coll_cls kwJ) hs
  have o2 := ok_map (fun i h => Item.Ok.coll h kr) o1
  have s2 := Sep.map (Item.coll_cls kwR) s1
  have o3 := ok_map (fun i h => Item.Ok.coll h ki) o2
  have s3 := Sep.map (Item.coll_cls kwI) s2
  have o4 := ok_map (fun i h => Item.Ok.coll h kl) o3
  have s4 := Sep.map (Item.coll_cls kwLog) s3
  unfold collapseAll
  rw [collapse_items kj u hu is hok hs, collapse_items kr u hu _ o1 s1, collapse_items ki u hu _ o2 s2,
    collapse_items kl u hu _ o3 s3, collapse_items kil u hu _ o4 s4]
  congr 3
  simp only [List.map_map]
  apply List.map_congr_left
  intro i hi
  exact coll_five i (hok i hi)

theorem expandAll_items (u : Str) (hu : NoSpace u) (is : List Item) (hok : ∀ i ∈ is, i.Ok) (hs : Sep is) :
    expandAll (u ++ enc (words is)) = u ++ enc (words (is.map Item.long)) := by
  have kj : kwJ ∈ kws := by decide
  have kr : kwR ∈ kws := by decide
  have ki : kwI ∈ kws := by decide
  have kl : kwLog ∈ kws := by decide
  have kil : kwIlog ∈ kws := by decide
  have o1 := ok_map (fun i h => Item.Ok.expd h kj) hok
  have s1 := Sep.map (Item.expd_cls kwJ) hs
  have o2 := ok_map (fun i h => Item.Ok.expd h kr) o1
  have s2 := Sep.map (Item.expd_cls kwR) s1
  have o3 := ok_map (fun i h => Item.Ok.expd h ki) o2
  have s3 := Sep.map (Item.expd_cls kwI) s2
  have o4 := ok_map (fun i h => Item.Ok.expd h kj) o3
  have s4 := Sep.map (Item.expd_cls kwJ) s3
  have o5 := ok_map (fun i h => Item.Ok.expd h kl) o4
  have s5 := Sep.map (Item.expd_cls kwLog) s4
  unfold expandAll
  rw [expand_items kj u hu is hok hs, expand_items kr u hu _ o1 s1, expand_items ki u hu _ o2 s2,
    expand_items kj u hu _ o3 s3, expand_items kl u hu _ o4 s4, expand_items kil u hu _ o5 s5]
  congr 3
  simp only [List.map_map]
  apply List.map_congr_left
  intro i hi
  exact expd_six i (hok i hi)

end Inp
