import Verif.Inp.CaseCards
import Verif.Inp.PrintLemmas
/-! Helper lemmas: reading a card word by word does not depend on the case of letters. -/
namespace Inp
open Py Types Ptrac Props

theorem low_rec : ∀ {s t : Str}, lower s = lower t → RecasedIf false s t
  | [], [], _ => trivial
  | c :: s, d :: t, h => by
    rw [low_cons] at h
    exact ⟨h.1, fun _ _ h => (by cases h), low_rec h.2⟩
  | [], _ :: _, h => by unfold lower at h; simp at h
  | _ :: _, [], h => by unfold lower at h; simp at h

theorem SameWord.refl (w : Str) : SameWord w w := by
  refine ⟨rfl, ?_⟩
  cases w with
  | nil => trivial
  | cons c w => exact fun h => absurd rfl h

theorem SameWords.refl : ∀ l : List Str, SameWords l l
  | [] => trivial
  | w :: l => ⟨SameWord.refl w, SameWords.refl l⟩

/-- The types that read a single word. -/
def wordKind : Kind → Bool
  | .subst | .index | .trans _ => false
  | _ => true

theorem kind_word (k : Kind) (hk : wordKind k = true) {s t : Str} (h : SameWord s t) : (k.parse s).map Val.low = (k.parse t).map Val.low := by
  have h1 := low_rec h.1
  cases k <;> unfold Kind.parse
  · simp only; rw [intParse_rec h1 h.2]
  · simp only; rw [realParse_rec h1 h.2]
  · simp only [stringParse, Except.map, Val.low, Sc.low]; rw [h.1]
  · simp only; rw [map_map', map_map']
    exact map_of_map (fun z => Val.sc (.zaid z)) (fun _ => rfl) (zaidParse_rec h1)
  · simp only; rw [distParse_rec h1]
  · simp only; rw [map_map', map_map']
    exact map_of_map (fun z => Val.sc (.desig z)) (fun _ => rfl) (desigParse_rec h1)
  · cases hk
  · cases hk
  · simp only; rw [geoParse_rec h1]
  · simp only; rw [latParse_rec h1]
  · cases hk

theorem desig_word {s t : Str} (h : lower s = lower t) : (Kind.desig.parse s).map Val.low = (Kind.desig.parse t).map Val.low := by
  unfold Kind.parse
  simp only; rw [map_map', map_map']
  exact map_of_map (fun z => Val.sc (.desig z)) (fun _ => rfl) (desigParse_rec (low_rec h))

/-! ### Lists of words -/

theorem mapM_words {p : Str → Res Val} (hp : ∀ s t, SameWord s t → (p s).map Val.low = (p t).map Val.low) : ∀ {l m : List Str}, SameWords l m →
    (l.mapM p).map (List.map Val.low) = (m.mapM p).map (List.map Val.low)
  | [], [], _ => rfl
  | x :: l, y :: m, hlm => by
    have h1 := hp x y hlm.1
    have h2 := mapM_words hp hlm.2
    rw [List.mapM_cons, List.mapM_cons]
    revert h1 h2
    cases p x <;> cases p y <;> intro h1 <;> simp only [Except.map] at h1
    · cases h1; intro _; rfl
    · cases h1
    · cases h1
    · cases l.mapM p <;> cases m.mapM p <;> intro h2 <;> simp only [Except.map] at h2
      · cases h2; rfl
      · cases h2
      · cases h2
      · change Except.ok _ = Except.ok _
        simp only [List.map_cons]
        rw [Except.ok.inj h1, Except.ok.inj h2]
  | [], _ :: _, h => h.elim
  | _ :: _, [], h => h.elim

theorem low_append {a b c d : Str} (h : lower a = lower b) (h' : lower c = lower d) : lower (a ++ c) = lower (b ++ d) := by
  unfold lower at *
  rw [List.map_append, List.map_append, h, h']

theorem join_word : ∀ {l m : List Str}, SameWords l m → SameWord (join [' '] l) (join [' '] m)
  | [], [], _ => SameWord.refl _
  | [x], [y], h => h.1
  | x :: x' :: l, y :: y' :: m, h => by
    have ih := join_word (l := x' :: l) (m := y' :: m) h.2
    have e : ∀ (x x' : Str) l, join [' '] (x :: x' :: l) = x ++ ([' '] ++ join [' '] (x' :: l)) := by
      intro x x' l
      simp [join]
    rw [e, e]
    refine ⟨low_append h.1.1 (low_append rfl ih.1), ?_⟩
    have h1 := h.1.2
    have hl := h.1.1
    cases x with
    | nil => cases y with
      | nil => exact fun h => absurd rfl h
      | cons d y => unfold lower at hl; simp at hl
    | cons c x => cases y with
      | nil => unfold lower at hl; simp at hl
      | cons d y =>
        intro a b
        have := h1 a b
        cases x with
        | nil => rfl
        | cons a x => exact this
  | [], _ :: _, h => h.elim
  | _ :: _, [], h => h.elim
  | [_], _ :: _ :: _, h => h.2.elim
  | _ :: _ :: _, [_], h => h.2.elim

/-! ### Assigning entries to fields -/

/-- Field by field. -/
def SameAssign : Assign → Assign → Prop
  | [], [] => True
  | x :: l, y :: m => OptRel SameWords x y ∧ SameAssign l m
  | _, _ => False

theorem words_snoc : ∀ {l m : List Str} {x y : Str}, SameWords l m → SameWord x y → SameWords (l ++ [x]) (m ++ [y])
  | [], [], _, _, _, h => ⟨h, trivial⟩
  | _ :: _, _ :: _, _, _, h, h' => ⟨h.1, words_snoc h.2 h'⟩
  | [], _ :: _, _, _, h, _ => h.elim
  | _ :: _, [], _, _, h, _ => h.elim

theorem cons_rel {x y : Option (List Str)} (h : OptRel SameWords x y) {a b : Option Assign} (hab : OptRel SameAssign a b) :
    OptRel SameAssign (a.map (x :: ·)) (b.map (y :: ·)) := by
  cases a <;> cases b
  · trivial
  · exact hab
  · exact hab
  · exact ⟨h, hab⟩

theorem takeMore_rel {ok : Str → Bool} (hok : ∀ s t, SameWord s t → ok s = ok t) (lz : Bool) {f : List Str → Option Assign}
    (hf : ∀ l m, SameWords l m → OptRel SameAssign (f l) (f m)) : ∀ {l m : List Str}, SameWords l m → ∀ {x y : List Str}, SameWords x y →
    OptRel SameAssign (takeMore ok lz f x l) (takeMore ok lz f y m)
  | [], [], _, x, y, hxy => cons_rel (x := some x) (y := some y) hxy (hf [] [] trivial)
  | v :: l, w :: m, h, x, y, hxy => by
    unfold takeMore
    simp only
    have h1 := cons_rel (x := some x) (y := some y) hxy (hf (v :: l) (w :: m) h)
    have h2 : OptRel SameAssign (if ok v then takeMore ok lz f (x ++ [v]) l else none) (if ok w then takeMore ok lz f (y ++ [w]) m else none) := by
      rw [hok v w h.1]
      split
      · exact takeMore_rel hok lz hf h.2 (words_snoc hxy h.1)
      · trivial
    split
    · exact OptRel.or h1 h2
    · exact OptRel.or h2 h1
  | [], _ :: _, h, _, _, _ => h.elim
  | _ :: _, [], h, _, _, _ => h.elim

theorem takeOne_rel {ok : Str → Bool} (hok : ∀ s t, SameWord s t → ok s = ok t) {f : List Str → Option Assign}
    (hf : ∀ l m, SameWords l m → OptRel SameAssign (f l) (f m)) : ∀ {l m : List Str}, SameWords l m →
    OptRel SameAssign (takeOne ok f l) (takeOne ok f m)
  | [], [], _ => trivial
  | v :: l, w :: m, h => by
    unfold takeOne
    simp only
    rw [hok v w h.1]
    split
    · exact cons_rel (x := some [v]) (y := some [w]) ⟨h.1, trivial⟩ (hf l m h.2)
    · trivial
  | [], _ :: _, h => h.elim
  | _ :: _, [], h => h.elim

theorem takeMany_rel {ok : Str → Bool} (hok : ∀ s t, SameWord s t → ok s = ok t) (lz : Bool) {f : List Str → Option Assign}
    (hf : ∀ l m, SameWords l m → OptRel SameAssign (f l) (f m)) : ∀ {l m : List Str}, SameWords l m →
    OptRel SameAssign (takeMany ok lz f l) (takeMany ok lz f m)
  | [], [], _ => trivial
  | v :: l, w :: m, h => by
    unfold takeMany
    simp only
    rw [hok v w h.1]
    split
    · exact takeMore_rel hok lz hf h.2 (x := [v]) (y := [w]) ⟨h.1, trivial⟩
    · trivial
  | [], _ :: _, h => h.elim
  | _ :: _, [], h => h.elim

theorem assign_rel : ∀ {fs : List ((Str → Bool) × Mode)}, (∀ f ∈ fs, ∀ s t, SameWord s t → f.1 s = f.1 t) →
    ∀ l m, SameWords l m → OptRel SameAssign (assign fs l) (assign fs m)
  | [], _, [], [], _ => trivial
  | [], _, _ :: _, _ :: _, _ => trivial
  | [], _, [], _ :: _, h => h.elim
  | [], _, _ :: _, [], h => h.elim
  | (ok, m) :: fs, hf, l, l', h => by
    have h1 := hf (ok, m) List.mem_cons_self
    have h2 := assign_rel (fs := fs) (fun f hm => hf f (List.mem_cons_of_mem _ hm))
    cases m <;> unfold assign
    · exact takeOne_rel h1 h2 h
    · exact OptRel.or (takeOne_rel h1 h2 h) (cons_rel (x := none) (y := none) trivial (h2 l l' h))
    · exact takeMany_rel h1 true h2 h
    · exact takeMany_rel h1 false h2 h
    · exact OptRel.or (takeMany_rel h1 true h2 h) (cons_rel (x := none) (y := none) trivial (h2 l l' h))

theorem unitOk_case {p : Pat} (hp : caseless (anchored (p.re 1)) = true) {s t : Str} (h : lower s = lower t) : unitOk p s = unitOk p t := by
  unfold unitOk
  rcases match_cases hp (low_rec h) with ⟨a, b⟩ | ⟨m, m', a, b, -⟩ <;> rw [a, b] <;> rfl

/-! ### The first word -/

theorem drop_low : ∀ (n : Nat) {s t : Str}, lower s = lower t → lower (s.drop n) = lower (t.drop n) := by
  intro n s t h
  unfold lower at *
  rw [List.map_drop, List.map_drop, h]

theorem take_low : ∀ (n : Nat) {s t : Str}, lower s = lower t → lower (s.take n) = lower (t.take n) := by
  intro n s t h
  unfold lower at *
  rw [List.map_take, List.map_take, h]

theorem pre_low (p : Pre) {s t : Str} (h : lower s = lower t) : (readPre p s).1 = (readPre p t).1 ∧ lower (readPre p s).2 = lower (readPre p t).2 := by
  unfold readPre
  split
  · exact ⟨rfl, h⟩
  · cases s with
    | nil => cases t with
      | nil => exact ⟨rfl, rfl⟩
      | cons d t => unfold lower at h; simp at h
    | cons c s => cases t with
      | nil => unfold lower at h; simp at h
      | cons d t =>
        have h' := low_cons.1 h
        have hl : ∀ x ∈ p.chars, x ∉ letters := by cases p <;> decide +kernel
        have key : ∀ {c d : Char}, lowerC c = lowerC d → c ∈ p.chars → c = d := fun e m => nonletter e (hl _ m)
        simp only
        by_cases hc : c ∈ p.chars
        · have := key h'.1 hc
          subst this
          rw [if_pos hc, if_pos hc]
          exact ⟨rfl, h'.2⟩
        · rw [if_neg hc, if_neg (fun m => hc (by rw [← key h'.1.symm m]; exact m))]
          exact ⟨rfl, h⟩

theorem suf_low (f : Suf) {s t : Str} (h : lower s = lower t) : (readSuf f s = none ∧ readSuf f t = none) ∨
    ∃ x u v, readSuf f s = some (x, u) ∧ readSuf f t = some (x, v) ∧ lower u = lower v := by
  obtain ⟨a, b⟩ := span_low h
  unfold readSuf
  cases f with
  | no => exact .inr ⟨_, _, _, rfl, rfl, h⟩
  | req =>
    simp only
    rw [a]
    split
    · exact .inl ⟨rfl, rfl⟩
    · exact .inr ⟨_, _, _, rfl, rfl, b⟩
  | opt =>
    simp only
    rw [a]
    exact .inr ⟨_, _, _, rfl, rfl, b⟩

theorem nil_low {t : Str} (h : lower [] = lower t) : t = [] := by
  cases t with
  | nil => rfl
  | cons d t => unfold lower at h; simp at h

/-- What the designator gives. -/
def DesRel : List (Option Str) → List (Option Str) → Prop
  | [], [] => True
  | [x], [y] => OptRel (fun s t => lower s = lower t) x y
  | _, _ => False

theorem des_low (d : Des) {s t : Str} (h : lower s = lower t) : OptRel DesRel (readDes d s) (readDes d t) := by
  cases s with
  | nil =>
    rw [nil_low h]
    cases d <;> trivial
  | cons c s => cases t with
    | nil => have := nil_low h.symm; cases this
    | cons e t =>
      have h' := low_cons.1 h
      by_cases hc : c = ':'
      · have he : e = ':' := (char_low (by decide +kernel) h'.1).1 hc
        subst hc; subst he
        cases s with
        | nil => rw [nil_low h'.2]; cases d <;> trivial
        | cons a s => cases t with
          | nil => have := nil_low h'.2.symm; cases this
          | cons b t =>
            cases d
            · trivial
            · exact h'.2
            · exact h'.2
      · have he : e ≠ ':' := fun he => hc ((char_low (by decide +kernel) h'.1).2 he)
        have key : ∀ (c : Char) s, c ≠ ':' → readDes d (c :: s) = none := by
          intro c s hc
          unfold readDes
          split
          · rename_i e1 e2; cases e2
          · rename_i e1 e2; cases e2
          · rename_i e1 e2; cases e2; exact absurd rfl hc
          · rename_i e1 e2; cases e2; exact absurd rfl hc
          · rfl
        rw [key c s hc, key e t he]
        trivial

/-- The first word: the same prefix and number, the designator in any case. -/
def HeadRel (n : Nat) (a b : List (Option Str)) : Prop := ∃ x d e, a = x ++ d ∧ b = x ++ e ∧ x.length = n ∧ DesRel d e

/-- Attributes in the first word before the designator. -/
def Head.front (h : Head) : Nat := (if h.pre = .no then 0 else 1) + (if h.suf = .no then 0 else 1)

theorem pre_len (p : Pre) (s : Str) : (readPre p s).1.length = if p = .no then 0 else 1 := by
  unfold readPre
  split
  · rfl
  · cases s with
    | nil => rfl
    | cons c s => simp only; split <;> rfl

theorem suf_len {f : Suf} {s u : Str} {x} (h : readSuf f s = some (x, u)) : x.length = if f = .no then 0 else 1 := by
  unfold readSuf at h
  cases f with
  | no => cases h; rfl
  | req => simp only at h; split at h <;> cases h; rfl
  | opt => cases h; rfl

theorem head_low (h : Head) {s t : Str} (hst : lower s = lower t) : OptRel (HeadRel h.front) (readHead h s) (readHead h t) := by
  obtain ⟨p1, p2⟩ := pre_low h.pre hst
  unfold readHead readKw
  rw [take_low h.kw.length p2]
  by_cases hk : lower ((readPre h.pre t).2.take h.kw.length) = lower h.kw
  · rw [if_pos hk, if_pos hk]
    simp only
    rcases suf_low h.suf (drop_low h.kw.length p2) with ⟨a, b⟩ | ⟨x, u, v, a, b, huv⟩
    · rw [a, b]; trivial
    · rw [a, b]
      simp only
      have hd := des_low h.des huv
      revert hd
      cases readDes h.des u <;> cases readDes h.des v <;> intro hd
      · trivial
      · exact hd
      · exact hd
      · refine ⟨(readPre h.pre t).1 ++ x, _, _, by rw [p1], rfl, ?_, hd⟩
        rw [List.length_append, pre_len, suf_len a]
        rfl
  · rw [if_neg hk, if_neg hk]; trivial

/-! ### Attributes -/

/-- The entries of one attribute, in any case. -/
def AttrRel (a : Attr) (x y : Option (List Str)) : Prop := (readVal a x).map Val.low = (readVal a y).map Val.low

/-- The entries of all attributes, in any case. -/
def AttrsRel : List Attr → Assign → Assign → Prop
  | [], _, _ => True
  | _ :: _, [], [] => True
  | a :: as, x :: l, y :: m => AttrRel a x y ∧ AttrsRel as l m
  | _, _, _ => False

theorem readVals_rel : ∀ {as : List Attr} {l m : Assign}, AttrsRel as l m →
    (readVals as l).map (List.map Val.low) = (readVals as m).map (List.map Val.low)
  | [], _, _, _ => by simp only [readVals]
  | _ :: _, [], [], _ => rfl
  | a :: as, x :: l, y :: m, h => by
    have h1 := h.1
    have h2 := readVals_rel h.2
    unfold readVals
    unfold AttrRel at h1
    revert h1 h2
    cases readVal a x <;> cases readVal a y <;> intro h1 <;> simp only [Except.map] at h1
    · cases h1; intro _; rfl
    · cases h1
    · cases h1
    · cases readVals as l <;> cases readVals as m <;> intro h2 <;> simp only [Except.map] at h2
      · cases h2; rfl
      · cases h2
      · cases h2
      · simp only [Except.map, List.map_cons]
        rw [Except.ok.inj h1, Except.ok.inj h2]
  | _ :: _, [], _ :: _, h => h.elim
  | _ :: _, _ :: _, [], h => h.elim

theorem attrs_same : ∀ (k : List (Option (List Str))) {as : List Attr} {l m : Assign}, AttrsRel (as.drop k.length) l m → AttrsRel as (k ++ l) (k ++ m)
  | [], _, _, _, h => h
  | _ :: _, [], _, _, _ => trivial
  | x :: k, a :: as, _, _, h => ⟨rfl, attrs_same k h⟩

/-- The type reads single words. -/
def wordAttr (a : Attr) : Bool := match a.ty with | .base k => wordKind k | .other _ _ _ _ => false

theorem attr_words {a : Attr} (ha : wordAttr a = true) {x y : Option (List Str)} (h : OptRel SameWords x y) : AttrRel a x y := by
  unfold AttrRel
  cases x <;> cases y
  · rfl
  · exact h.elim
  · exact h.elim
  · rename_i x y
    unfold wordAttr at ha
    cases ht : a.ty with
    | other n r g p => rw [ht] at ha; cases ha
    | base k =>
      rw [ht] at ha
      unfold readVal
      simp only
      rw [ht]
      split
      · rw [map_map', map_map']
        exact map_of_map Val.tuple (fun l => by unfold Val.low; rw [lows_map]) (mapM_words (fun s t h => kind_word k ha h) h)
      · exact kind_word k ha (join_word h)

theorem attrs_words : ∀ {as : List Attr}, as.all wordAttr = true → ∀ {l m : Assign}, SameAssign l m → AttrsRel as l m
  | [], _, _, _, _ => trivial
  | _ :: _, _, [], [], _ => trivial
  | a :: as, ha, _ :: _, _ :: _, h => by
    simp only [List.all_cons, Bool.and_eq_true] at ha
    exact ⟨attr_words ha.1 h.1, attrs_words ha.2 h.2⟩
  | _ :: _, _, [], _ :: _, h => h.elim
  | _ :: _, _, _ :: _, [], h => h.elim

/-- The attribute after the prefix and the number is a designator, if the first word has one. -/
def desAttr (c : Cls) (h : Head) : Bool :=
  h.des == .no || (match c.attrs.drop h.front with
    | a :: _ => !a.many && (match a.ty with | .base .desig => true | _ => false)
    | [] => true)

/-- The decidable conditions on a class. -/
def wordsCase (c : Cls) (h : Head) (fs : List Field) : Bool :=
  clsCase c && c.attrs.all wordAttr && fs.all (fun f => caseless (anchored (f.unit.re 1))) && desAttr c h

theorem des_nil {h : Head} (hd : h.des = .no) {s : Str} {l} (e : readHead h s = some l) : l.length = h.front := by
  unfold readHead at e
  split at e
  · cases e
  · split at e
    · cases e
    · rename_i x u hs
      rw [hd] at e
      have e' : ∀ u, readDes .no u = some [] ∨ readDes .no u = none := by
        intro u
        cases u
        · exact .inl rfl
        · exact .inr rfl
      rcases e' u with e' | e' <;> rw [e'] at e <;> cases e
      simp only
      rw [List.append_nil, List.length_append, pre_len, suf_len hs]
      rfl

theorem all_drop {α : Type} (p : α → Bool) : ∀ (n : Nat) {l : List α}, l.all p = true → (l.drop n).all p = true := by
  intro n l h
  rw [List.all_eq_true] at *
  exact fun x hx => h x (List.mem_of_mem_drop hx)

/-- Reading a card word by word. -/
theorem readWords_case {c : Cls} {h : Head} {fs : List Field} (hc : wordsCase c h fs = true) {hd hd' : Str} (hh : lower hd = lower hd')
    {ws vs : List Str} (hw : SameWords ws vs) :
    (readWords c h fs hd ws).map Val.low = (readWords c h fs hd' vs).map Val.low := by
  simp only [wordsCase, Bool.and_eq_true] at hc
  obtain ⟨⟨⟨hc1, hc2⟩, hc3⟩, hc4⟩ := hc
  have h1 := head_low h hh
  have h2 := assign_rel (fs := fs.map Field.spec) (by
    intro f hf s t hst
    obtain ⟨g, hg, rfl⟩ := List.mem_map.1 hf
    exact unitOk_case (List.all_eq_true.1 hc3 g hg) hst.1) ws vs hw
  unfold readWords
  cases ha : readHead h hd with
  | none =>
    rw [ha] at h1
    cases hb : readHead h hd' with
    | none => rfl
    | some y => rw [hb] at h1; exact h1.elim
  | some a =>
    rw [ha] at h1
    cases hb : readHead h hd' with
    | none => rw [hb] at h1; exact h1.elim
    | some b =>
      rw [hb] at h1
      obtain ⟨x, d, e, rfl, rfl, hx, hde⟩ := h1
      cases hp : assign (fs.map Field.spec) ws with
      | none =>
        rw [hp] at h2
        cases hq : assign (fs.map Field.spec) vs with
        | none => rfl
        | some q => rw [hq] at h2; exact h2.elim
      | some p =>
        rw [hp] at h2
        cases hq : assign (fs.map Field.spec) vs with
        | none => rw [hq] at h2; exact h2.elim
        | some q =>
          rw [hq] at h2
          simp only
          have key : AttrsRel c.attrs ((x ++ d).map (·.map ([·])) ++ p) ((x ++ e).map (·.map ([·])) ++ q) := by
            rw [List.map_append, List.map_append, List.append_assoc, List.append_assoc]
            apply attrs_same
            rw [List.length_map, hx]
            match d, e, hde with
            | [], [], _ => exact attrs_words (all_drop _ _ hc2) h2
            | [u], [v], hde =>
              have hno : h.des ≠ .no := by
                intro hno
                have := des_nil hno ha
                rw [List.length_append, hx] at this
                simp at this
              have hat := all_drop wordAttr h.front hc2
              unfold desAttr at hc4
              cases hca : c.attrs.drop h.front with
              | nil => trivial
              | cons a as =>
                rw [hca] at hc4 hat
                simp only [Bool.or_eq_true, beq_iff_eq, hno, false_or, Bool.and_eq_true, Bool.not_eq_true'] at hc4
                simp only [List.all_cons, Bool.and_eq_true] at hat
                refine ⟨?_, attrs_words hat.2 h2⟩
                unfold AttrRel
                cases u <;> cases v
                · rfl
                · exact hde.elim
                · exact hde.elim
                · simp only [Option.map_some, readVal, hc4.1]
                  have ht : a.ty = .base .desig := by
                    have := hc4.2
                    split at this
                    · assumption
                    · cases this
                  rw [ht]
                  exact desig_word hde
          have := readVals_rel key
          revert this
          cases readVals c.attrs ((x ++ d).map (·.map ([·])) ++ p) <;> cases readVals c.attrs ((x ++ e).map (·.map ([·])) ++ q) <;> intro this <;>
            simp only [Except.map] at this
          · cases this; rfl
          · cases this
          · cases this
          · exact mk_case (caseAll (cs := [c]) (by simp [hc1]) c List.mem_cons_self) (Except.ok.inj this)

/-- A class of a first word and scalar entries that meets the conditions. -/
def Cls.wordCase (c : Cls) : Bool := match c.shape with | .flat h fs => c.std h fs && wordsCase c h fs | .other _ => false

end Inp
