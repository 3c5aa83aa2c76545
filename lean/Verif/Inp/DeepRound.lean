import Verif.Inp.DeepFind
import Verif.Inp.OptionRound
import Verif.Inp.TrclRound
/-! Helper lemmas: options of whole cells with transformations as they print. -/
set_option maxRecDepth 100000
namespace Inp
open Py Types

/-- The first word of a printed `trcl`. -/
def trclWord0 (star : Bool) : Str := (if star then ['*'] else []) ++ c!"trcl"

/-- The first word of a printed `fill`. -/
def fillWord0 (star : Bool) : Str := (if star then ['*'] else []) ++ c!"fill"

/-- The transformation of a printed `fill`. -/
def fillTrans (t : Option (List Dec × Option Int)) : Val := match t with | none => .none | some (ds, m) => .sc (.trans 0 (ds.map (fun d => .num (.fin d))) (m.map .num))

/-- The printed option. -/
def fillObj (c : Cls) (star : Bool) (n : Int) (t : Option (List Dec × Option Int)) : Val :=
  .obj c.info [if star then .sc (.str ['*']) else .none, .sc (.int (.num n)),
    fillTrans t]

/-- The words after the universe. -/
def fillWords (t : Option (List Dec × Option Int)) : List Str := match t with | none => [] | some (ds, m) => trclWords ds m

/-- An option as a value: one of the classes made of a head and fields, with the words it prints as, `trcl` with a transformation of finite numbers, or `fill` with a
universe and perhaps such a transformation of twelve entries. -/
inductive DVal where
  | plain (c : Cls) (v : Val) (i : Opt)
  | move (star : Bool) (k : Nat) (ds : List Dec) (m : Option Int)
  | fill (star : Bool) (n : Int) (t : Option (List Dec × Option Int))

/-- The value itself. -/
def DVal.val (like : Bool) : DVal → Val
  | .plain _ v _ => v
  | .move star k ds m => trclObj (trclOf like k) star k ds m
  | .fill star n t => fillObj (fillOf like) star n t

/-- The option as it stands in the text. -/
def DVal.opt : DVal → DOpt
  | .plain c _ i => .plain c i.1 i.2
  | .move star _ ds m => .move star (trclWord0 star) (trclWords ds m) (trclWords ds m)
  | .fill star n t => .fill star (fillWord0 star) (intStr n) (fillWords t) (fillWords t)

/-- The value is made of readable values.  Eight entries have no system (`C97_violated`). -/
def DVal.Ok : DVal → Prop
  | .plain c v i => OptVal c v i
  | .move _ k ds m => k < 5 ∧ ds.length = trCount k ∧ SysOk m ∧ (k = 2 → m = none)
  | .fill _ n t => (n = 10000000000 ∨ (0 ≤ n ∧ n ≤ 99999999)) ∧ ∀ x ∈ t, x.1.length = 12 ∧ SysOk x.2

/-- The words after the universe with the empty word for a missing system. -/
def fillTail (t : Option (List Dec × Option Int)) : List Str := match t with | none => [] | some (ds, m) => ds.map Dec.str ++ [sysText m]

/-- The words of the text with the empty word for a missing system. -/
def DVal.printed : DVal → List Str
  | .plain _ _ i => i.1 :: i.2
  | .move star _ ds m => trclWord0 star :: (ds.map Dec.str ++ [sysText m])
  | .fill star n t => fillWord0 star :: intStr n :: fillTail t

theorem fill_make (like : Bool) (star : Bool) (n : Int) (hn : n = 10000000000 ∨ (0 ≤ n ∧ n ≤ 99999999)) (t : Option (List Dec × Option Int)) :
    (fillOf like).mk' [if star then .sc (.str ['*']) else .none, .sc (.int (.num n)),
      fillTrans t] = .ok (fillObj (fillOf like) star n t) := by
  have hc : ∀ env, Chk.eval env (.sc (.int (.num n))) (.or .isNone (.not (.or (.cmp .eq 10000000000 0) (.and (.cmp .ge 0 0) (.cmp .le 99999999 0))))) = .ok false := by
    intro env
    have h0 : n * 10 ^ 0 = n := by simp
    simp only [Chk.eval, cmpVal, Except.bind, Except.map, Cmp.holds, h0]
    rcases hn with rfl | ⟨h1, h2⟩
    · rfl
    · have e1 : (compare n 10000000000 == .eq) = false := by
        rw [beq_eq_false_iff_ne, ne_eq, Int.compare_eq_eq]; omega
      have e2 : (compare n 0 != .lt) = true := by
        rw [bne_iff_ne, ne_eq, Int.compare_eq_lt]; omega
      have e3 : (compare n 99999999 != .gt) = true := by
        rw [bne_iff_ne, ne_eq, Int.compare_eq_gt]; omega
      rw [e1, e2, e3]
      rfl
  have h1 : ∀ env, Chk.eval env .none (Chk.notNone.and (Chk.lowIn ["*"]).not) = .ok false := fun _ => rfl
  have h2 : ∀ env, Chk.eval env (.sc (.str ['*'])) (Chk.notNone.and (Chk.lowIn ["*"]).not) = .ok false := fun _ => rfl
  unfold Cls.mk' fillObj
  cases like <;> cases star <;> cases t <;> simp [fillOf, Tab.cell_Fill_1, Tab.like_Fill_1, runInit, setAttr, hc, h1, h2, fillTrans]

theorem fill_text (like : Bool) (star : Bool) (n : Int) (t : Option (List Dec × Option Int)) :
    (fillObj (fillOf like) star n t).str = fillWord0 star ++ ' ' :: (intStr n ++
      match t with | none => [] | some (ds, m) => ' ' :: join [' '] (ds.map Dec.str ++ [sysText m])) := by
  have hi : (fillOf like).info = ⟨"Fill_1", .option, c!"fill", ["prefix", "universe", "transformation"]⟩ := by cases like <;> rfl
  unfold fillObj
  rw [hi]
  cases t with
  | none =>
    have : ∀ s : Str, s = s ++ [] := fun s => (List.append_nil s).symm
    cases star
    · exact congrArg (fun x => fillWord0 false ++ ' ' :: x) (this (intStr n))
    · exact congrArg (fun x => fillWord0 true ++ ' ' :: x) (this (intStr n))
  | some x =>
    obtain ⟨ds, m⟩ := x
    simp only [fillTrans]
    rw [← transStr_eq]
    generalize ds.map (fun d => RealVal.num (.fin d)) = rs
    have : ∀ s : Str, intStr n ++ [' '] ++ s = intStr n ++ ' ' :: s := fun s => by simp
    cases star
    · exact congrArg (fun x => fillWord0 false ++ ' ' :: x) (this _)
    · exact congrArg (fun x => fillWord0 true ++ ' ' :: x) (this _)

theorem fillWords_stable (t : Option (List Dec × Option Int)) : ∀ w ∈ fillWords t, Stable w := by
  cases t with
  | none => intro w hw; cases hw
  | some x => exact trclWords_stable x.1 x.2

theorem fill_ok_pieces {t : Option (List Dec × Option Int)} (h : ∀ x ∈ t, x.1.length = 12 ∧ SysOk x.2) :
    ((t = none ∧ fillWords t = []) ∨ (TransText 0 (join [' '] (fillWords t)) (fillWords t))) ∧
    (if fillWords t = [] then .ok .none else readTrans 0 (fillWords t)) =
      .ok (fillTrans t) := by
  cases t with
  | none => exact ⟨.inl ⟨rfl, rfl⟩, rfl⟩
  | some x =>
    obtain ⟨ds, m⟩ := x
    obtain ⟨h1, h2⟩ := h _ rfl
    obtain ⟨p1, p2⟩ := trcl_pieces (k := 0) h1 h2
    have hne : fillWords (some (ds, m)) ≠ [] := by
      intro h0
      have := congrArg List.length h0
      simp only [fillWords, trclWords, List.length_append, List.length_map, List.length_nil] at this
      simp only at h1
      omega
    exact ⟨.inr p1, by rw [if_neg hne]; exact p2⟩

theorem form_words {k : Nat} (hk : k < 5) {ds : List Dec} (hl : ds.length = trCount k) (m : Option Int) (h : k = 2 → m = none) :
    trclForm (trclWords ds m).length = some k := by
  have hn : (trclWords ds m).length = trCount k + (if m = none then 0 else 1) := by
    cases m <;> simp [trclWords, hl]
  rw [hn]
  have : k = 0 ∨ k = 1 ∨ k = 2 ∨ k = 3 ∨ k = 4 := by omega
  rcases this with rfl | rfl | rfl | rfl | rfl
  · cases m <;> rfl
  · cases m <;> rfl
  · rw [h rfl]; rfl
  · cases m <;> rfl
  · cases m <;> rfl

theorem printed_filter {x : DVal} (h : x.Ok) : x.printed.filter (fun w => w != []) = x.opt.opt.1 :: x.opt.opt.2 := by
  cases x with
  | plain c v i =>
    obtain ⟨-, h2, -⟩ := optval_facts h
    show (i.1 :: i.2).filter (fun w => w != []) = i.1 :: i.2
    rw [List.filter_eq_self]
    intro w hw
    have hs : Stable w := by
      rcases List.mem_cons.1 hw with rfl | hw
      · exact h.first
      · exact h2 w hw
    simpa using hs.entry.ne
  | move star k ds m =>
    show (trclWord0 star :: (ds.map Dec.str ++ [sysText m])).filter (fun w => w != []) = trclWord0 star :: trclWords ds m
    have h1 : (trclWord0 star != []) = true := by cases star <;> rfl
    have h2 : (ds.map Dec.str).filter (fun w => w != []) = ds.map Dec.str := by
      rw [List.filter_eq_self]
      intro w hw
      obtain ⟨d, -, rfl⟩ := List.mem_map.1 hw
      simpa using Dec.str_ne_nil d
    rw [List.filter_cons, if_pos h1, List.filter_append, h2]
    cases m with
    | none => rfl
    | some n =>
      have : (sysText (some n) != []) = true := by simpa [sysText] using (plain_int n).entry.ne
      rw [List.filter_cons, if_pos this]
      rfl
  | fill star n t =>
    have h1 : (fillWord0 star != []) = true := by cases star <;> rfl
    have h2 : (intStr n != []) = true := by simpa using (plain_int n).entry.ne
    show (fillWord0 star :: intStr n :: fillTail t).filter (fun w => w != []) =
      fillWord0 star :: intStr n :: fillWords t
    rw [List.filter_cons, if_pos h1, List.filter_cons, if_pos h2]
    cases t with
    | none => rfl
    | some x =>
      obtain ⟨ds, m⟩ := x
      have h2 : (ds.map Dec.str).filter (fun w => w != []) = ds.map Dec.str := by
        rw [List.filter_eq_self]
        intro w hw
        obtain ⟨d, -, rfl⟩ := List.mem_map.1 hw
        simpa using Dec.str_ne_nil d
      simp only [fillTail, List.filter_append, h2, fillWords, trclWords]
      cases m with
      | none => rfl
      | some n =>
        have : (sysText (some n) != []) = true := by simpa [sysText] using (plain_int n).entry.ne
        rw [List.filter_cons, if_pos this]
        rfl

theorem printed_text (like : Bool) {x : DVal} (h : x.Ok) : (x.val like).text = some (join [' '] x.printed) := by
  cases x with
  | plain c v i =>
    rw [DVal.val, (optval_facts h).1, DVal.printed, join_enc]
  | move star k ds m =>
    have h1 := trcl_text like star k ds m
    have h2 : (trclObj (trclOf like k) star k ds m).text = some (trclObj (trclOf like k) star k ds m).str := rfl
    rw [DVal.val, h2, h1, DVal.printed, join_enc, trclWord0]
    cases hd : ds.map Dec.str ++ [sysText m] with
    | nil => simp at hd
    | cons y ys => rw [join_enc, enc_cons]
  | fill star n t =>
    have h1 := fill_text like star n t
    have h2 : (fillObj (fillOf like) star n t).text = some (fillObj (fillOf like) star n t).str := rfl
    rw [DVal.val, h2, h1, DVal.printed, join_enc, enc_cons]
    cases t with
    | none => simp [fillTail]
    | some x =>
      obtain ⟨ds, m⟩ := x
      simp only [fillTail]
      cases hd : ds.map Dec.str ++ [sysText m] with
      | nil => simp at hd
      | cons y ys => rw [join_enc, enc_cons]

theorem opt_stable {x : DVal} (h : x.Ok) : ∀ w ∈ x.opt.opt.1 :: x.opt.opt.2, Stable w := by
  intro w hw
  cases x with
  | plain c v i =>
    rcases List.mem_cons.1 hw with rfl | hw
    · exact h.first
    · exact (optval_facts h).2.1 w hw
  | move star k ds m =>
    have hw : w ∈ trclWord0 star :: trclWords ds m := hw
    rcases List.mem_cons.1 hw with rfl | hw
    · exact ⟨trcl_entry star, by cases star <;> decide, by cases star <;> decide⟩
    · exact trclWords_stable ds m w hw
  | fill star n t =>
    have hw : w ∈ fillWord0 star :: intStr n :: fillWords t := hw
    rcases List.mem_cons.1 hw with rfl | hw
    · exact ⟨by cases star <;> decide, by cases star <;> decide, by cases star <;> decide⟩
    · rcases List.mem_cons.1 hw with rfl | hw
      · exact plain_int n
      · exact fillWords_stable t w hw

theorem opt_reads (like : Bool) {x : DVal} (h : x.Ok) : x.opt.read like = .ok (x.val like) := by
  cases x with
  | plain c v i => exact (optval_facts h).2.2
  | move star k ds m =>
    obtain ⟨h1, h2, h3, h4⟩ := h
    simp only [DVal.opt, DOpt.read, form_words h1 h2 m h4, readTrcl, (trcl_pieces h2 h3).2]
    rfl
  | fill star n t =>
    obtain ⟨h1, h2⟩ := h
    have e : intParse (intStr n) = .ok (.num n) := Props.C02_integer_roundtrip n
    show readFill (fillOf like) star (intStr n) (fillWords t) = _
    unfold readFill
    rw [e]
    simp only
    rw [(fill_ok_pieces h2).2]
    exact fill_make like star n h1 t

theorem opts_read (like : Bool) : ∀ l : List DVal, (∀ x ∈ l, x.Ok) → allOk (l.map (fun x => x.opt.read like)) = .ok (l.map (·.val like))
  | [], _ => rfl
  | x :: l, h => by
    rw [List.map_cons, opt_reads like (h x (by simp))]
    simp only [allOk, opts_read like l (fun y hy => h y (by simp [hy]))]
    rfl

theorem options_value (like : Bool) (l : List DVal) (h : ∀ x ∈ l, x.Ok) : optionsRead like (l.map DVal.opt) = .ok (optsVal (l.map (·.val like))) := by
  cases l with
  | nil => rfl
  | cons x l =>
    have := opts_read like (x :: l) h
    unfold optionsRead
    simp only [List.map_cons, List.map_map] at this ⊢
    rw [show (List.map (DOpt.read like ∘ DVal.opt) l) = l.map (fun x => x.opt.read like) from rfl, this]
    rfl

theorem join_flat : ∀ ls : List (List Str), (∀ l ∈ ls, l ≠ []) → join [' '] (ls.map (join [' '])) = join [' '] ls.flatten
  | [], _ => rfl
  | [l], _ => by simp [join]
  | l :: k :: ls, h => by
    have ih := join_flat (k :: ls) (fun x hx => h x (by simp [hx]))
    obtain ⟨x, l, rfl⟩ := List.exists_cons_of_ne_nil (h l (by simp))
    obtain ⟨y, k, rfl⟩ := List.exists_cons_of_ne_nil (h k (by simp))
    rw [List.map_cons, List.map_cons, join_cons _ _ _ (by simp), ← List.map_cons, ih, List.flatten_cons, List.flatten_cons, List.cons_append, List.cons_append, join_enc, join_enc,
      join_enc]
    simp [enc_append, enc_cons]

theorem options_text (like : Bool) (l : List DVal) (h : ∀ x ∈ l, x.Ok) :
    orNil (optsVal (l.map (·.val like))).text = join [' '] (l.map DVal.printed).flatten := by
  cases l with
  | nil => rfl
  | cons x l =>
    have e1 : (Val.parts ((x :: l).map (·.val like))).map orNil = ((x :: l).map DVal.printed).map (join [' ']) := by
      rw [Val.parts_eq, List.map_map, List.map_map, List.map_map]
      refine List.map_congr_left (fun y hy => ?_)
      simp only [Function.comp, printed_text like (h y hy)]
      rfl
    have l1 : optsVal ((x :: l).map (·.val like)) = .tuple ((x :: l).map (·.val like)) := rfl
    rw [l1]
    simp only [Val.text, orNil]
    rw [e1]
    refine join_flat _ ?_
    intro y hy
    obtain ⟨z, -, rfl⟩ := List.mem_map.1 hy
    cases z <;> simp [DVal.printed]

theorem printed_words (l : List DVal) (h : ∀ x ∈ l, x.Ok) :
    (l.map DVal.printed).flatten.filter (fun w => w != []) = deepWords (l.map DVal.opt) := by
  induction l with
  | nil => rfl
  | cons x l ih =>
    rw [List.map_cons, List.flatten_cons, List.filter_append, printed_filter (h x (by simp)), ih (fun y hy => h y (by simp [hy]))]
    rfl

theorem deep_stable (l : List DVal) (h : ∀ x ∈ l, x.Ok) : ∀ w ∈ deepWords (l.map DVal.opt), Stable w := by
  intro w hw
  obtain ⟨i, hi, hw⟩ := List.mem_flatMap.1 hw
  obtain ⟨o, ho, rfl⟩ := List.mem_map.1 hi
  obtain ⟨x, hx, rfl⟩ := List.mem_map.1 ho
  exact opt_stable (h x hx) w hw

theorem printed_cases' (l : List DVal) (h : ∀ x ∈ l, x.Ok) (hs : ∀ w ∈ deepWords (l.map DVal.opt), lower w ∉ shorthand) :
    ∀ w ∈ (l.map DVal.printed).flatten, w = [] ∨ (Stable w ∧ lower w ∉ shorthand) := by
  intro w hw
  by_cases h0 : w = []
  · exact .inl h0
  · have : w ∈ deepWords (l.map DVal.opt) := by
      rw [← printed_words l h, List.mem_filter]
      exact ⟨hw, by simpa using h0⟩
    exact .inr ⟨deep_stable l h w this, hs w this⟩

end Inp
