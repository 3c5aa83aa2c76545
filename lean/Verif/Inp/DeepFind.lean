import Verif.Inp.DeepRun
import Verif.Inp.DeepSpec
import Verif.Inp.FillRead
/-!
# Lists of options with `trcl`
-/
set_option maxRecDepth 100000
namespace Inp
open Py Types

/-! ## Options found one after the other -/

/-- The blank that an option takes away. -/
def swal (sw : Bool) : Str := if sw then [' '] else []

/-- The option is found before the words `rest`, perhaps with the blank after it, and read as `r`. -/
structure Found (cs : List Cls) (i : Opt) (rest : List Str) (sw : Bool) (r : Res Val) : Prop where
  find : ∀ prev, ∃ e, run (altsRe (sortLen cs) 1) ⟨prev, i.1 ++ enc (i.2 ++ rest), []⟩ (findK (i.1 ++ enc (i.2 ++ rest)).length) =
    some ⟨(i.1 ++ enc i.2 ++ swal sw).reverse ++ prev, (enc rest).drop (swal sw).length, e⟩
  more : sw = true → rest ≠ []
  read : unionParse cs (i.1 ++ enc i.2 ++ swal sw) = r

/-- All options are found. -/
inductive Founds (cs : List Cls) : List (Opt × Res Val) → Prop where
  | nil : Founds cs []
  | cons {i r l} (sw : Bool) : Found cs i (optWords (l.map (·.1))) sw r → Founds cs l → Founds cs ((i, r) :: l)

theorem mapM_cons_res {α β : Type} (f : α → Res β) (a : α) (l : List α) : (a :: l).mapM f =
    match f a with | .error e => .error e | .ok v => match l.mapM f with | .error e => .error e | .ok vs => .ok (v :: vs) := by
  rw [List.mapM_cons]
  cases f a with
  | error e => rfl
  | ok v => cases l.mapM f <;> rfl

theorem allOk_cons {α : Type} (r : Res α) (l : List (Res α)) : allOk (r :: l) =
    match r with | .error e => .error e | .ok v => match allOk l with | .error e => .error e | .ok vs => .ok (v :: vs) := by
  cases r with
  | error e => rfl
  | ok v => rw [allOk]; cases allOk l <;> rfl

/-- `Tuple(T).from_mcnp` on options found one after the other. -/
theorem found_tuple (nm : String) (cs : List Cls) (hg : ∀ c ∈ cs, c.pat.Good) (hb : ∀ c ∈ cs, c.pat.nb = true) (i : Opt) (r : Res Val)
    (l : List (Opt × Res Val)) (hf : Founds cs ((i, r) :: l)) (hw : ∀ x ∈ (i, r) :: l, x.1.1 ≠ []) :
    tupleParse (unionTy nm cs) (i.1 ++ enc (i.2 ++ optWords (l.map (·.1)))) = (allOk (((i, r) :: l).map (·.2))).map .tuple := by
  have hfree := (alts_any (sortLen cs) (fun c hc => hg c ((mem_sortLen cs).1 hc)) 1).1
  have hit : ∀ (l : List (Opt × Res Val)) (i : Opt) (r : Res Val), Founds cs ((i, r) :: l) → (∀ x ∈ (i, r) :: l, x.1.1 ≠ []) →
      ∀ (prev : Str) (n : Nat), (i.1 ++ enc (i.2 ++ optWords (l.map (·.1)))).length ≤ n →
      ((finditerAux (altsRe (sortLen cs) 1) n prev (i.1 ++ enc (i.2 ++ optWords (l.map (·.1))))).filterMap
        (fun | .inl _ => none | .inr (t, _) => some t)).mapM (unionParse cs) = allOk (((i, r) :: l).map (·.2)) := by
    intro l
    induction l with
    | nil =>
      intro i r hf hw prev n hn
      obtain ⟨hd, ws⟩ := i
      cases hf with
      | cons sw hf1 hf2 =>
      have hsw : sw = false := by
        cases sw with
        | false => rfl
        | true => exact absurd rfl (hf1.more rfl)
      subst hsw
      obtain ⟨c, t, rfl⟩ := List.exists_cons_of_ne_nil (show hd ≠ [] from hw ((hd, ws), r) (List.mem_cons_self ..))
      obtain ⟨e, he⟩ := hf1.find prev
      have hr := hf1.read
      cases n with
      | zero => simp at hn
      | succ n =>
        simp only [List.map_nil, List.cons_append] at he ⊢
        rw [finditerAux]
        unfold findK at he
        rw [he]
        have e1 : optWords [] = [] := rfl
        simp only [swal, List.filterMap_cons, e1, enc_nil, List.append_nil, List.length_nil, Nat.sub_zero, List.take_length, List.drop_nil] at hr ⊢
        have : ∀ p, finditerAux (altsRe (sortLen cs) 1) n p [] = [] := by intro p; cases n <;> rfl
        rw [this]
        simp only [List.filterMap_nil]
        rw [mapM_cons_res]
        have hr' : unionParse cs (c :: (t ++ enc ws)) = r := by simpa using hr
        rw [hr']
        cases r <;> rfl
    | cons x l ih =>
      intro i r hf hw prev n hn
      obtain ⟨⟨hd', ws'⟩, r'⟩ := x
      obtain ⟨hd, ws⟩ := i
      cases hf with
      | cons sw hf1 hf2 =>
      obtain ⟨c, t, rfl⟩ := List.exists_cons_of_ne_nil (show hd ≠ [] from hw ((hd, ws), r) (List.mem_cons_self ..))
      obtain ⟨e, he⟩ := hf1.find prev
      have hr := hf1.read
      have hrest : optWords ((((hd', ws'), r') :: l).map (·.1)) = hd' :: (ws' ++ optWords (l.map (·.1))) := rfl
      rw [hrest] at he hn ⊢
      have ih := ih (hd', ws') r' hf2 (fun x hx => hw x (by simp only [List.mem_cons] at hx ⊢; exact .inr hx))
      cases n with
      | zero => simp at hn
      | succ n =>
        simp only [List.cons_append] at he ⊢
        rw [finditerAux]
        unfold findK at he
        rw [he]
        simp only [List.filterMap_cons]
        have htake : (c :: (t ++ enc (ws ++ hd' :: (ws' ++ optWords (l.map (·.1)))))).take
            ((c :: (t ++ enc (ws ++ hd' :: (ws' ++ optWords (l.map (·.1)))))).length
              - ((enc (hd' :: (ws' ++ optWords (l.map (·.1))))).drop (swal sw).length).length) = c :: t ++ enc ws ++ swal sw := by
          have := take_consumed (c :: t ++ enc ws ++ swal sw) ((enc (hd' :: (ws' ++ optWords (l.map (·.1))))).drop (swal sw).length)
          have e2 : (c :: t ++ enc ws ++ swal sw) ++ (enc (hd' :: (ws' ++ optWords (l.map (·.1))))).drop (swal sw).length =
              c :: (t ++ enc (ws ++ hd' :: (ws' ++ optWords (l.map (·.1))))) := by
            cases sw <;> simp [swal, enc_append]
          rw [e2] at this
          exact this
        rw [htake, mapM_cons_res, List.map_cons, allOk_cons, hr]
        suffices hh : ((finditerAux (altsRe (sortLen cs) 1) n ((c :: t ++ enc ws ++ swal sw).reverse ++ prev)
            ((enc (hd' :: (ws' ++ optWords (l.map (·.1))))).drop (swal sw).length)).filterMap
            (fun | .inl _ => none | .inr (t, _) => some t)).mapM (unionParse cs) = allOk ((((hd', ws'), r') :: l).map (·.2)) by
          have hh' := hh
          simp only [List.cons_append] at hh'
          rw [← hh']
        have hn' : (hd' ++ enc (ws' ++ optWords (l.map (·.1)))).length + 1 ≤ n := by
          simp only [enc_cons, enc_append, List.length_append, List.length_cons] at hn ⊢
          omega
        cases sw with
        | true =>
          simp only [swal, if_true, List.length_singleton, enc_cons, List.drop_succ_cons, List.drop_zero]
          exact ih _ n (by simp only at hn' ⊢; omega)
        | false =>
          simp only [swal, Bool.false_eq_true, if_false, List.length_nil, List.drop_zero, enc_cons]
          cases n with
          | zero => omega
          | succ n =>
            rw [finditerAux]
            have : ∀ prev, run (altsRe (sortLen cs) 1) ⟨prev, ' ' :: (hd' ++ enc (ws' ++ optWords (l.map (·.1)))), []⟩
                (fun st => if st.rest.length < (' ' :: (hd' ++ enc (ws' ++ optWords (l.map (·.1))))).length then some st else none) = none := by
              intro prev
              apply run_none
              intro st' hst
              obtain ⟨u, e', h1, h2, h3, h4⟩ := hst.mt hfree
              cases u with
              | nil =>
                simp only [List.nil_append] at h2
                rw [← h2]; simp
              | cons a u =>
                simp only [List.cons_append, List.cons.injEq] at h2
                exfalso
                obtain ⟨d, hd1, e1, hd2⟩ := (alts_full (sortLen cs) (fun c hc => hg c ((mem_sortLen cs).1 hc)) 1 (a :: u)).1 ⟨_, h1⟩
                have := Pat.nb_mt (hb d ((mem_sortLen cs).1 hd1)) hd2
                rw [← h2.1] at this
                exact this rfl
            rw [this]
            simp only [List.filterMap_cons]
            exact ih _ n (by simp only at hn' ⊢; omega)
  unfold tupleParse
  have h1 : (unionTy nm cs).re 1 = altsRe (sortLen cs) 1 := rfl
  have h2 : (unionTy nm cs).parse = unionParse cs := rfl
  rw [h1, h2]
  unfold finditer
  exact congrArg (Except.map Val.tuple) (hit l i r hf hw [] _ (Nat.le_refl _))

/-! ## Options of one class -/

theorem options_good (like : Bool) : ∀ c ∈ optionsOf like, c.pat.Good := by
  cases like
  · exact cellOptions_good
  · exact likeOptions_good

theorem options_nb (like : Bool) : ∀ c ∈ optionsOf like, c.pat.nb = true := by
  cases like
  · exact cellOptions_nb
  · exact likeOptions_nb

theorem options_names (like : Bool) : ((optionsOf like).map (·.info.name)).Nodup ∧ ((sortLen (optionsOf like)).map (·.info.name)).Nodup := by
  cases like
  · exact cellOptions_names
  · exact likeOptions_names

theorem found_plain (like : Bool) (c : Cls) (hd : Str) (ws rest : List Str) (hc : c ∈ optionsOf like) (ho : owns (optionsOf like) c hd ws rest = true)
    (hs : ∀ w ∈ hd :: (ws ++ rest), Stable w) : Found (optionsOf like) (hd, ws) rest false (c.readW hd ws) := by
  obtain ⟨h1, h2, h3, h4⟩ := owned_class (options_good like) (options_names like).1 (options_names like).2 hc ho (stable_words hs)
  refine ⟨fun prev => ?_, (fun h => by cases h), ?_⟩
  · have := find_class (optionsOf like) (options_good like) c hd ws rest (stable_words fun w hw => hs w (by
      rcases List.mem_cons.1 hw with rfl | hw <;> simp [*])) h1 h3 prev
    simpa [swal] using this
  · have := option_read (optionsOf like) c hd ws h2 h4 (hs hd (by simp)).entry (fun w hw => hs w (by simp [hw]))
    simpa [swal] using this

/-! ## `trcl` -/

/-- The classes of `trcl` with entries are tried first. -/
theorem sorted_trcl (like : Bool) : ∃ more, sortLen (optionsOf like) =
    [trclOf like 0, trclOf like 1, trclOf like 2, trclOf like 3, trclOf like 4] ++ more := by
  cases like
  · exact ⟨(sortLen cellOptions).drop 5, rfl⟩
  · exact ⟨(sortLen likeOptions).drop 5, rfl⟩

theorem trcl_mem (like : Bool) (k : Nat) (hk : k < 5) : trclOf like k ∈ optionsOf like := by
  rw [trcl_split]
  have : k = 0 ∨ k = 1 ∨ k = 2 ∨ k = 3 ∨ k = 4 := by omega
  rcases this with rfl | rfl | rfl | rfl | rfl <;> simp

theorem find_form (like : Bool) (j : Nat) (hj : j < 5) {star : Bool} {hd : Str} (hh : TrclWord star hd) (hsp : NoSpace hd) (qs : List Str) (o cl tail : Str)
    (hl : qs.length = trCount j ∨ qs.length = trCount j + 1)
    (hch : ∀ p ∈ qs, ∀ c ∈ p, trC c = true) (hf : ∀ p ∈ qs.take (trCount j - 1), p ≠ []) (ho : o = [] ∨ o = ['(']) (hc : cl = [] ∨ cl = [')'])
    (ht : cl = [] → ∀ x xs, tail = x :: xs → trC x = false ∧ x ≠ ')' ∧ (qs.length = trCount j → x ≠ ' '))
    (bs : List Str) (t : Str) (hbl : 2 ≤ bs.length) (hbc : ∀ p ∈ bs, ∀ c ∈ p, trC c = true) (hbt : ∀ x xs, t = x :: xs → trC x = false ∧ x ≠ ' ')
    (hbe : o ++ join [' '] qs ++ cl ++ tail = o ++ join [' '] bs ++ t) (hlt : ∀ i, i < j → bs.length < trCount i) (prev : Str) :
    ∃ e, run (altsRe (sortLen (optionsOf like)) 1) ⟨prev, hd ++ ' ' :: (o ++ join [' '] qs ++ cl ++ tail), []⟩
      (findK (hd ++ ' ' :: (o ++ join [' '] qs ++ cl ++ tail)).length) = some ⟨(hd ++ ' ' :: (o ++ join [' '] qs ++ cl)).reverse ++ prev, tail, e⟩ := by
  obtain ⟨more, hsort⟩ := sorted_trcl like
  have hk : ∀ e, findK (hd ++ ' ' :: (o ++ join [' '] qs ++ cl ++ tail)).length ⟨(hd ++ ' ' :: (o ++ join [' '] qs ++ cl)).reverse ++ prev, tail, e⟩ =
      some ⟨(hd ++ ' ' :: (o ++ join [' '] qs ++ cl)).reverse ++ prev, tail, e⟩ := by
    intro e
    refine findK_ok ?_
    simp only [List.length_append, List.length_cons]
    omega
  have hsplit : ∃ as bs, sortLen (optionsOf like) = as ++ trclOf like j :: bs ∧ ∀ d ∈ as, ∃ i, i < j ∧ d = trclOf like i := by
    have : j = 0 ∨ j = 1 ∨ j = 2 ∨ j = 3 ∨ j = 4 := by omega
    rcases this with rfl | rfl | rfl | rfl | rfl
    · exact ⟨[], _, hsort, by simp⟩
    · exact ⟨[trclOf like 0], _, hsort, by
        intro d hd; simp only [List.mem_cons, List.not_mem_nil, or_false] at hd; exact ⟨0, by omega, hd⟩⟩
    · exact ⟨[trclOf like 0, trclOf like 1], _, hsort, by
        intro d hd
        simp only [List.mem_cons, List.not_mem_nil, or_false] at hd
        rcases hd with hd | hd
        · exact ⟨0, by omega, hd⟩
        · exact ⟨1, by omega, hd⟩⟩
    · exact ⟨[trclOf like 0, trclOf like 1, trclOf like 2], _, hsort, by
        intro d hd
        simp only [List.mem_cons, List.not_mem_nil, or_false] at hd
        rcases hd with hd | hd | hd
        · exact ⟨0, by omega, hd⟩
        · exact ⟨1, by omega, hd⟩
        · exact ⟨2, by omega, hd⟩⟩
    · exact ⟨[trclOf like 0, trclOf like 1, trclOf like 2, trclOf like 3], _, hsort, by
        intro d hd
        simp only [List.mem_cons, List.not_mem_nil, or_false] at hd
        rcases hd with hd | hd | hd | hd
        · exact ⟨0, by omega, hd⟩
        · exact ⟨1, by omega, hd⟩
        · exact ⟨2, by omega, hd⟩
        · exact ⟨3, by omega, hd⟩⟩
  obtain ⟨as, ds, hsplit, has⟩ := hsplit
  obtain ⟨st', ⟨e, rfl⟩, h2⟩ := alts_option as ds (trclOf like j) ⟨prev, hd ++ ' ' :: (o ++ join [' '] qs ++ cl ++ tail), []⟩
    (findK (hd ++ ' ' :: (o ++ join [' '] qs ++ cl ++ tail)).length)
    (fun st => ∃ e, st = ⟨(hd ++ ' ' :: (o ++ join [' '] qs ++ cl)).reverse ++ prev, tail, e⟩)
    (by
      intro d hd' n
      obtain ⟨i, hi, rfl⟩ := has d hd'
      refine begins_none (options_good like _ (trcl_mem like i (by omega))) ?_ n _ _ _
      rw [hbe]
      exact trcl_begins (trclOf_ok like i (by omega)).toTrclCls hsp bs hbl hbc o t ho hbt (hlt i hi))
    (by
      intro n
      obtain ⟨e, he⟩ := trcl_run (trclOf_ok like j hj).toTrclCls hh hsp qs o cl tail hl hch hf ho hc ht n prev []
        (findK (hd ++ ' ' :: (o ++ join [' '] qs ++ cl ++ tail)).length) (by intro e; rw [hk]; rfl)
      exact ⟨_, ⟨e, rfl⟩, by rw [he, hk]⟩) 1
  rw [hsplit]
  exact ⟨e, h2⟩

/-- Entries that are not closed are the words without the opening parenthesis. -/
theorem open_pieces {o : Str} {ws ps : List Str} (ho : o = [] ∨ o = ['(']) (hs : ∀ w ∈ ws, Entry w) (hch : ∀ p ∈ ps, ∀ c ∈ p, trC c = true)
    (hp : ps ≠ []) (hw : ws ≠ []) (e : join [' '] ws = o ++ join [' '] ps) : ∀ p ∈ ps, p ≠ [] := by
  obtain ⟨w, ws, rfl⟩ := List.exists_cons_of_ne_nil hw
  obtain ⟨p, ps, rfl⟩ := List.exists_cons_of_ne_nil hp
  have hps : ∀ x ∈ p :: ps, NoSpace x := fun x hx c hc => (trC_facts (hch x hx c hc)).1
  rcases ho with rfl | rfl
  · have : enc (w :: ws) = enc (p :: ps) := by
      rw [List.nil_append, join_enc, join_enc] at e
      rw [enc_cons, enc_cons, e]
    rw [← enc_inj (fun x hx => (hs x hx).sp) hps this]
    exact fun x hx => (hs x hx).ne
  · obtain ⟨y, w', rfl⟩ := List.exists_cons_of_ne_nil (hs w (by simp)).ne
    rw [join_enc, join_enc, List.cons_append, List.singleton_append, List.cons.injEq] at e
    obtain ⟨rfl, e⟩ := e
    have : enc (w' :: ws) = enc (p :: ps) := by rw [enc_cons, enc_cons, e]
    have h2 : ∀ x ∈ w' :: ws, NoSpace x := by
      intro x hx c hc
      rcases List.mem_cons.1 hx with rfl | hx
      · exact (hs ('(' :: x) (by simp)).sp c (by simp [hc])
      · exact (hs x (by simp [hx])).sp c hc
    rw [← enc_inj h2 hps this]
    intro x hx
    rcases List.mem_cons.1 hx with rfl | hx
    · rintro rfl
      exact (hs ['('] (by simp)).op rfl
    · exact (hs x (by simp [hx])).ne

theorem form_count {n k : Nat} (h : trclForm n = some k) : k < 5 ∧ (n = trCount k ∨ n = trCount k + 1) ∧ ∀ i, i < k → n < trCount i := by
  unfold trclForm at h
  have hi : ∀ i, i = 0 ∨ i = 1 ∨ i = 2 ∨ i = 3 ∨ 4 ≤ i := by intro i; omega
  (repeat' split at h) <;> first | cases h | skip
  all_goals
    simp only [trCount]
    refine ⟨by omega, by omega, ?_⟩
    intro i hlt
    rcases hi i with rfl | rfl | rfl | rfl | h4
    all_goals first | omega | simp only [trCount]; omega

/-- One more piece belongs to no form only after a system. -/
theorem form_next {n k : Nat} (h : trclForm n = some k) (h2 : trclForm (n + 1) = none) : n = trCount k + 1 ∧ ∀ i, i < k → n + 1 < trCount i := by
  unfold trclForm at h h2
  have hi : ∀ i, i = 0 ∨ i = 1 ∨ i = 2 ∨ i = 3 ∨ 4 ≤ i := by intro i; omega
  (repeat' split at h2) <;> first | cases h2 | skip
  (repeat' split at h) <;> first | cases h | skip
  all_goals
    simp only [trCount]
    refine ⟨by omega, ?_⟩
    intro i hlt
    rcases hi i with rfl | rfl | rfl | rfl | h4
    all_goals first | omega | simp only [trCount]; omega

theorem join_last {ps : List Str} (hch : ∀ p ∈ ps, ∀ c ∈ p, trC c = true) {x : Char} (h : (join [' '] ps).getLast? = some x) : x ≠ ')' := by
  have hx : x ∈ join [' '] ps := List.mem_of_getLast? h
  cases ps with
  | nil => simp [join] at hx
  | cons p l =>
    rw [join_enc, List.mem_append] at hx
    rcases hx with hx | hx
    · exact (trC_facts (hch p (by simp) x hx)).2.2
    · unfold enc at hx
      obtain ⟨q, hq, hx⟩ := List.mem_flatMap.1 hx
      rcases List.mem_cons.1 hx with rfl | hx
      · decide
      · exact (trC_facts (hch q (by simp [hq]) x hx)).2.2

/-- `trcl` is found with its entries, and with the blank after them if they could be followed by another one. -/
theorem found_trcl (like : Bool) {star : Bool} {hd : Str} {ws rest ps : List Str} {k : Nat} (hh : TrclWord star hd) (hs : ∀ w ∈ hd :: (ws ++ rest), Stable w)
    (he : Ends ws rest) (hk : trclForm ps.length = some k) (ht : TransText k (join [' '] ws) ps) :
    ∃ sw, Found (optionsOf like) (hd, ws) rest sw (readTrcl (trclOf like k) star k ps) := by
  obtain ⟨hk5, hlen, hbefore⟩ := form_count hk
  have hbig := trCount_big k
  have hread : ∀ sw, unionParse (optionsOf like) (hd ++ enc ws ++ swal sw) = readTrcl (trclOf like k) star k ps := by
    intro sw
    obtain ⟨h1, h2⟩ := spaced_single hd ws (swal sw) (hs hd (by simp)).entry (fun w hw => hs w (by simp [hw]))
      (by cases sw; exact .nil; exact .sp .nil)
    have := spaced_prep h1
    rw [single_body, h2] at this
    obtain ⟨-, h3, h4⟩ := this
    rw [List.nil_append, ← List.append_assoc] at h3
    obtain ⟨m, m1, m2⟩ := trcl_first like h4 hh ht hk
    unfold unionParse
    rw [h3, m1]
    exact m2
  have hne : ws ≠ [] := by
    rintro rfl
    obtain ⟨o, c, -, -, e⟩ := ht.text
    have : join [' '] ps = [] := by
      have := congrArg List.length e
      simp only [join, List.length_append, List.length_nil] at this
      exact List.eq_nil_of_length_eq_zero (by omega)
    exact join_ne (by omega) this
  obtain ⟨o, cl, ho, hc, htext⟩ := ht.text
  have hsp : NoSpace hd := (hs hd (by simp)).entry.sp
  have henc : ∀ r, enc (ws ++ r) = ' ' :: (o ++ join [' '] ps ++ cl ++ enc r) := by
    intro r
    rw [enc_append, ← htext]
    obtain ⟨w, ws, rfl⟩ := List.exists_cons_of_ne_nil hne
    rw [join_enc, enc_cons]; simp
  have henc0 : enc ws = ' ' :: (o ++ join [' '] ps ++ cl) := by
    have := henc []
    simpa using this
  have exact_case : (cl = [')'] ∨ rest = []) → ∃ sw, Found (optionsOf like) (hd, ws) rest sw (readTrcl (trclOf like k) star k ps) := by
    intro hcase
    refine ⟨false, fun prev => ?_, (fun h => by cases h), hread false⟩
    have := find_form like k hk5 hh hsp ps o cl (enc rest) hlen ht.chars ht.full ho hc
      (by
        intro h0 x xs hx
        rcases hcase with h | h
        · rw [h0] at h; cases h
        · rw [h] at hx; cases hx)
      ps (cl ++ enc rest) (by omega) ht.chars
      (by
        intro x xs hx
        rcases hc with rfl | rfl
        · rcases hcase with h | h
          · cases h
          · rw [h] at hx; cases hx
        · cases hx; decide)
      (by simp) hbefore prev
    simp only [swal, henc, henc0, Bool.false_eq_true, if_false, List.append_nil, List.length_nil, List.drop_zero]
    exact this
  rcases hc with rfl | hc
  · -- not closed
    cases rest with
    | nil => exact exact_case (.inr rfl)
    | cons w rest =>
      simp only [List.append_nil] at htext
      have hent := (hs w (by simp)).entry
      have hw0 : ∀ c, w.head? = some c → trC c = false := by
        rcases he with he | he
        · exfalso
          rw [htext] at he
          have hj : join [' '] ps ≠ [] := join_ne (by omega)
          rw [List.getLast?_append, Option.or_eq_some_iff] at he
          have he : (join [' '] ps).getLast? = some ')' := by
            rcases he with he | he
            · exact he
            · exact absurd (List.getLast?_eq_none_iff.1 he.1) hj
          exact join_last ht.chars he rfl
        · exact he w rfl
      obtain ⟨x, w', rfl⟩ := List.exists_cons_of_ne_nil hent.ne
      have hx1 : trC x = false := hw0 x rfl
      have hx2 : x ≠ ')' := by rintro rfl; exact hent.cl rfl
      have hx3 : x ≠ ' ' := by rintro rfl; exact absurd (hent.sp ' ' (by simp)) (by decide)
      have hps : ps ≠ [] := by rintro rfl; simp at hlen; omega
      have hnz := open_pieces ho (fun w hw => (hs w (by simp [hw])).entry) ht.chars hps hne htext
      have hbs : ∀ p ∈ ps ++ [[]], ∀ c ∈ p, trC c = true := by
        intro p hp
        rcases List.mem_append.1 hp with hp | hp
        · exact ht.chars p hp
        · simp only [List.mem_singleton] at hp; subst hp; simp
      have hjoin := join_snoc ps [] hps
      have hbt : ∀ y ys, x :: (w' ++ enc rest) = y :: ys → trC y = false ∧ y ≠ ' ' := by
        intro y ys h; cases h; exact ⟨hx1, hx3⟩
      cases hnext : trclForm (ps.length + 1) with
      | some j =>
        obtain ⟨hj5, hjlen, hjbefore⟩ := form_count hnext
        have hlen' : (ps ++ [[]]).length = ps.length + 1 := by simp
        refine ⟨true, fun prev => ?_, fun _ => by simp, hread true⟩
        have := find_form like j hj5 hh hsp (ps ++ [[]]) o [] (x :: (w' ++ enc rest)) (by rw [hlen']; exact hjlen) hbs
          (by
            intro p hp
            rw [List.take_append_of_le_length (by omega)] at hp
            exact hnz p (List.mem_of_mem_take hp)) ho (.inl rfl)
          (by intro _ y ys h; cases h; exact ⟨hx1, hx2, fun _ => hx3⟩)
          (ps ++ [[]]) (x :: (w' ++ enc rest)) (by rw [hlen']; omega) hbs hbt (by simp) (by rw [hlen']; exact hjbefore) prev
        rw [hjoin] at this
        have e1 : hd ++ ' ' :: (o ++ (join [' '] ps ++ [' ']) ++ [] ++ x :: (w' ++ enc rest)) = hd ++ enc (ws ++ (x :: w') :: rest) := by
          rw [henc]; simp
        have e2 : hd ++ ' ' :: (o ++ (join [' '] ps ++ [' ']) ++ []) = hd ++ enc ws ++ swal true := by
          rw [henc0]; simp [swal]
        rw [e1, e2] at this
        have e3 : (enc ((x :: w') :: rest)).drop (swal true).length = x :: (w' ++ enc rest) := by simp [swal]
        simp only [e3]
        exact this
      | none =>
        obtain ⟨hsys, hb2⟩ := form_next hk hnext
        refine ⟨false, fun prev => ?_, (fun h => by cases h), hread false⟩
        have hlen' : (ps ++ [[]]).length = ps.length + 1 := by simp
        have := find_form like k hk5 hh hsp ps o [] (enc ((x :: w') :: rest)) hlen ht.chars ht.full ho (.inl rfl)
          (by
            intro _ y ys h
            rw [enc_cons] at h
            cases h
            refine ⟨by decide, by decide, ?_⟩
            intro h; omega)
          (ps ++ [[]]) (x :: (w' ++ enc rest)) (by rw [hlen']; omega) hbs hbt (by rw [hjoin]; simp) (by rw [hlen']; exact hb2) prev
        have e1 : hd ++ ' ' :: (o ++ join [' '] ps ++ [] ++ enc ((x :: w') :: rest)) = hd ++ enc (ws ++ (x :: w') :: rest) := by
          rw [henc]
        have e2 : hd ++ ' ' :: (o ++ join [' '] ps ++ []) = hd ++ enc ws ++ swal false := by
          rw [henc0]; simp [swal]
        rw [e1, e2] at this
        have e3 : (enc ((x :: w') :: rest)).drop (swal false).length = enc ((x :: w') :: rest) := by simp [swal]
        simp only [e3]
        exact this
  · exact exact_case (.inl hc)

/-! ## `fill` -/

/-- `fill` is found with its universe and its transformation, and with the blank after it if a system could follow. -/
theorem found_fill (like : Bool) {star : Bool} {hd u : Str} {ws rest ps : List Str} (hh : FillWord star hd) (hs : ∀ w ∈ hd :: (u :: ws ++ rest), Stable w)
    (hu : unitOk (.ty (.base .int)) u = true) (hp : (ws = [] ∧ ps = [] ∧ Lone rest) ∨ (TransText 0 (join [' '] ws) ps ∧ Ends ws rest)) :
    ∃ sw, Found (optionsOf like) (hd, u :: ws) rest sw (readFill (fillOf like) star u ps) := by
  have hpl : Placed0 ws ps := hp.imp (fun h => ⟨h.1, h.2.1⟩) (fun h => h.1)
  have hwords : Words (hd :: u :: (ws ++ rest)) := stable_words hs
  have hread : ∀ sw, unionParse (optionsOf like) (hd ++ enc (u :: ws) ++ swal sw) = readFill (fillOf like) star u ps := by
    intro sw
    obtain ⟨h1, h2⟩ := spaced_single hd (u :: ws) (swal sw) (hs hd (by simp)).entry (fun w hw => hs w (by
        simp only [List.mem_cons, List.cons_append, List.mem_append] at hw ⊢
        rcases hw with hw | hw <;> simp [hw]))
      (by cases sw; exact .nil; exact .sp .nil)
    have := spaced_prep h1
    rw [single_body, h2] at this
    obtain ⟨-, h3, h4⟩ := this
    rw [List.nil_append, ← List.append_assoc] at h3
    obtain ⟨m, m1, m2⟩ := fill_first like h4 hh (int_full hu) hpl
    unfold unionParse
    rw [h3, m1]
    exact m2
  have close : ∀ (sw : Bool), (sw = true → rest ≠ []) → (∀ n prev caps (K : St → Option St), (∀ e, (K ⟨(enc ws ++ swal sw).reverse ++ prev, (enc rest).drop (swal sw).length, e⟩).isSome = true) →
      ∃ e, run (putRe n) ⟨prev, enc (ws ++ rest), caps⟩ K = K ⟨(enc ws ++ swal sw).reverse ++ prev, (enc rest).drop (swal sw).length, e⟩) →
      ∃ sw, Found (optionsOf like) (hd, u :: ws) rest sw (readFill (fillOf like) star u ps) := by
    intro sw hmore hput
    refine ⟨sw, fun prev => ?_, hmore, hread sw⟩
    have hX : enc (ws ++ rest) = (enc ws ++ swal sw) ++ (enc rest).drop (swal sw).length := by
      rw [enc_append]
      cases sw with
      | false => simp [swal]
      | true =>
        obtain ⟨w, r, rfl⟩ := List.exists_cons_of_ne_nil (hmore rfl)
        simp [swal]
    have := find_fill like (ws ++ rest) _ _ hwords hh hu hX hput prev
    have e1 : hd ++ ' ' :: u ++ (enc ws ++ swal sw) = hd ++ enc (u :: ws) ++ swal sw := by rw [enc_cons]; simp
    rw [e1] at this
    exact this
  rcases hp with ⟨rfl, rfl, hl⟩ | ⟨ht, he⟩
  · refine close false (fun h => by cases h) ?_
    intro n prev caps K _
    refine ⟨caps, ?_⟩
    have := lone_run n (fun w hw => hwords w (by simp [hw])) hl prev caps K
    simpa [swal] using this
  · obtain ⟨hne, hps⟩ := trans_words ht
    have hlen : ps.length = 12 ∨ ps.length = 13 := ht.len
    obtain ⟨o, cl, ho, hc, htext⟩ := ht.text
    have henc : ∀ r, enc (ws ++ r) = ' ' :: (o ++ join [' '] ps ++ cl ++ enc r) := by
      intro r
      rw [enc_append, ← htext]
      obtain ⟨w, ws, rfl⟩ := List.exists_cons_of_ne_nil hne
      rw [join_enc, enc_cons]; simp
    have henc0 : enc ws = ' ' :: (o ++ join [' '] ps ++ cl) := by
      have := henc []
      simpa using this
    have exact_case : (cl = [] → ∀ x xs, enc rest = x :: xs → trC x = false ∧ x ≠ ')' ∧ (ps.length = 12 → x ≠ ' ')) →
        ∃ sw, Found (optionsOf like) (hd, u :: ws) rest sw (readFill (fillOf like) star u ps) := by
      intro hcase
      refine close false (fun h => by cases h) ?_
      intro n prev caps K hK
      simp only [swal, Bool.false_eq_true, if_false, List.append_nil, List.length_nil, List.drop_zero, henc, henc0] at hK ⊢
      exact put_run n ps o cl (enc rest) hlen ht.chars ht.full ho hc hcase prev caps K hK
    rcases hc with rfl | rfl
    · cases rest with
      | nil => exact exact_case (fun _ x xs h => by cases h)
      | cons w rest =>
        simp only [List.append_nil] at htext
        have hent := (hs w (by simp)).entry
        have hw0 : ∀ c, w.head? = some c → trC c = false := by
          rcases he with he | he
          · exfalso
            rw [htext] at he
            have hj : join [' '] ps ≠ [] := join_ne (by omega)
            rw [List.getLast?_append, Option.or_eq_some_iff] at he
            have he : (join [' '] ps).getLast? = some ')' := by
              rcases he with he | he
              · exact he
              · exact absurd (List.getLast?_eq_none_iff.1 he.1) hj
            exact join_last ht.chars he rfl
          · exact he w rfl
        obtain ⟨x, w', rfl⟩ := List.exists_cons_of_ne_nil hent.ne
        have hx1 : trC x = false := hw0 x rfl
        have hx2 : x ≠ ')' := by rintro rfl; exact hent.cl rfl
        have hx3 : x ≠ ' ' := by rintro rfl; exact absurd (hent.sp ' ' (by simp)) (by decide)
        rcases hlen with hlen | hlen
        · -- the blank is taken for the one before the system
          have hnz := open_pieces ho (fun w hw => (hs w (by simp [hw])).entry) ht.chars hps hne htext
          have hjoin := join_snoc ps [] hps
          refine close true (fun _ => by simp) ?_
          intro n prev caps K hK
          have e1 : ' ' :: (o ++ join [' '] (ps ++ [[]]) ++ []) = enc ws ++ swal true := by
            rw [hjoin, henc0]; simp [swal]
          have e2 : (enc ((x :: w') :: rest)).drop (swal true).length = x :: (w' ++ enc rest) := by simp [swal]
          have e3 : ' ' :: (o ++ join [' '] (ps ++ [[]]) ++ [] ++ x :: (w' ++ enc rest)) = enc (ws ++ (x :: w') :: rest) := by
            rw [henc, hjoin]; simp
          rw [e2, ← e1] at hK ⊢
          rw [← e3]
          exact put_run n (ps ++ [[]]) o [] (x :: (w' ++ enc rest)) (.inr (by simp [hlen])) (by
              intro p hp
              rcases List.mem_append.1 hp with hp | hp
              · exact ht.chars p hp
              · simp only [List.mem_singleton] at hp; subst hp; simp)
            (by
              intro p hp
              rw [List.take_append_of_le_length (by omega)] at hp
              exact hnz p (List.mem_of_mem_take hp)) ho (.inl rfl)
            (by intro _ y ys h; cases h; exact ⟨hx1, hx2, fun _ => hx3⟩) prev caps K hK
        · refine exact_case ?_
          intro _ y ys h
          rw [enc_cons] at h
          cases h
          exact ⟨by decide, by decide, fun h => by omega⟩
    · exact exact_case (fun h => by cases h)

/-! ## Whole lists -/

/-- The words of the options. -/
def deepWords (l : List DOpt) : List Str := optWords (l.map DOpt.opt)

theorem deep_founds (like : Bool) : ∀ l : List DOpt, Deep like l → (∀ w ∈ deepWords l, Stable w) →
    Founds (optionsOf like) (l.map (fun o => (o.opt, o.read like)))
  | [], _, _ => .nil
  | o :: l, h, hs => by
    have hrest : ((l.map (fun o => (o.opt, o.read like))).map (·.1)) = l.map DOpt.opt := by rw [List.map_map]; rfl
    have hcons : deepWords (o :: l) = o.opt.1 :: (o.opt.2 ++ deepWords l) := rfl
    rw [hcons] at hs
    cases o with
    | plain c hd ws =>
      obtain ⟨⟨h1, h2⟩, h3⟩ := h
      refine .cons false ?_ (deep_founds like l h3 (fun w hw => hs w (by simp [hw])))
      rw [hrest]
      exact found_plain like c hd ws _ h1 h2 hs
    | move star hd ws ps =>
      obtain ⟨⟨h1, h2, k, h3, h4⟩, h5⟩ := h
      obtain ⟨sw, h6⟩ := found_trcl like h1 hs h2 h3 h4
      refine .cons sw ?_ (deep_founds like l h5 (fun w hw => hs w (by simp [hw])))
      rw [hrest]
      have : DOpt.read like (.move star hd ws ps) = readTrcl (trclOf like k) star k ps := by
        simp only [DOpt.read, h3]
      rw [this]
      exact h6
    | fill star hd u ws ps =>
      obtain ⟨⟨h1, h2, h3⟩, h5⟩ := h
      obtain ⟨sw, h6⟩ := found_fill like h1 hs h2 h3
      refine .cons sw ?_ (deep_founds like l h5 (fun w hw => hs w (by simp [hw])))
      rw [hrest]
      exact h6

theorem deep_tuple (nm : String) (like : Bool) (o : DOpt) (l : List DOpt) (h : Deep like (o :: l)) (hs : ∀ w ∈ deepWords (o :: l), Stable w) :
    tupleParse (unionTy nm (optionsOf like)) (o.opt.1 ++ enc (o.opt.2 ++ deepWords l)) = optionsRead like (o :: l) := by
  have hf := deep_founds like (o :: l) h hs
  have hrest : ((l.map (fun o => (o.opt, o.read like))).map (·.1)) = l.map DOpt.opt := by rw [List.map_map]; rfl
  have := found_tuple nm (optionsOf like) (options_good like) (options_nb like) o.opt (o.read like) (l.map (fun o : DOpt => (o.opt, o.read like))) hf (by
    intro x hx
    have hx : x ∈ (o :: l).map (fun o => (o.opt, o.read like)) := hx
    obtain ⟨y, hy, rfl⟩ := List.mem_map.1 hx
    exact (hs y.opt.1 (List.mem_flatMap.2 ⟨y.opt, List.mem_map.2 ⟨y, hy, rfl⟩, by simp [Opt.words]⟩)).entry.ne)
  rw [hrest] at this
  rw [deepWords, this]
  have e : ((o.opt, o.read like) :: l.map (fun o => (o.opt, o.read like))).map (·.2) = (o :: l).map (DOpt.read like) := by
    simp
  rw [e]
  rfl

theorem word_start {star : Bool} {hd : Str} (h : TrclWord star hd) : optStart hd := by
  obtain ⟨kw, h1, rfl⟩ := h
  cases kw with
  | nil => cases h1
  | cons x kw =>
    have hx : lowerC x = 't' := by
      have := (List.cons.inj h1).1
      exact this
    refine ⟨if star then ['*'] else [], x, kw, rfl, by cases star <;> simp, lower_letter (c := 't') (by decide) (by rw [hx]; decide)⟩

theorem fill_start {star : Bool} {hd : Str} (h : FillWord star hd) : optStart hd := by
  obtain ⟨kw, h1, rfl⟩ := h
  cases kw with
  | nil => cases h1
  | cons x kw =>
    have hx : lowerC x = 'f' := (List.cons.inj h1).1
    refine ⟨if star then ['*'] else [], x, kw, rfl, by cases star <;> simp, lower_letter (c := 'f') (by decide) (by rw [hx]; decide)⟩

/-- Every option is one of a class, and the first one begins like one. -/
theorem deep_full (like : Bool) : ∀ l : List DOpt, Deep like l → (∀ w ∈ deepWords l, Stable w) →
    ∀ i ∈ l.map DOpt.opt, ∃ d ∈ optionsOf like, Full (d.pat.re 1) (i.1 ++ enc i.2)
  | [], _, _ => by simp
  | o :: l, h, hs => by
    have hcons : deepWords (o :: l) = o.opt.1 :: (o.opt.2 ++ deepWords l) := rfl
    rw [hcons] at hs
    have hw : Words (o.opt.1 :: o.opt.2) := stable_words fun w hw => hs w (by
      rcases List.mem_cons.1 hw with rfl | hw <;> simp [*])
    intro i hi
    cases o with
    | plain c hd ws =>
      obtain ⟨⟨h1, h2⟩, h3⟩ := h
      rcases List.mem_cons.1 hi with rfl | hi
      · unfold owns at h2
        rw [Bool.and_eq_true] at h2
        exact ⟨c, h1, takes_full h2.1 (options_good like c h1) hw⟩
      · exact deep_full like l h3 (fun w hw => hs w (by simp [hw])) i hi
    | move star hd ws ps =>
      obtain ⟨⟨h1, h2, k, h3, h4⟩, h5⟩ := h
      rcases List.mem_cons.1 hi with rfl | hi
      · obtain ⟨hk5, hlen, -⟩ := form_count h3
        refine ⟨trclOf like k, trcl_mem like k hk5, ?_⟩
        obtain ⟨m, m1, -⟩ := trcl_first like hw h1 h4 h3
        have hfr := trcl_free (trclOf_ok like k hk5).toTrclCls
        refine (full_iff _ hfr _).1 ?_
        have hm : ∀ cs : List Cls, firstMatch (hd ++ enc ws) cs = some (trclOf like k, m) → reMatch (trclOf like k).re (hd ++ enc ws) = some m := by
          intro cs
          induction cs with
          | nil => intro h; cases h
          | cons d cs ih =>
            intro h
            unfold firstMatch at h
            split at h
            · rename_i m' hm'
              split at h
              · cases h; exact hm'
              · exact ih h
            · exact ih h
        exact Option.isSome_iff_exists.2 ⟨m, hm _ m1⟩
      · exact deep_full like l h5 (fun w hw => hs w (by simp [hw])) i hi
    | fill star hd u ws ps =>
      obtain ⟨⟨h1, h2, h3⟩, h5⟩ := h
      rcases List.mem_cons.1 hi with rfl | hi
      · refine ⟨fillOf like, fill_mem like, ?_⟩
        have hpl : Placed0 ws ps := h3.imp (fun h => ⟨h.1, h.2.1⟩) (fun h => h.1)
        show Full ((fillOf like).pat.re 1) (hd ++ enc (u :: ws))
        rw [enc_cons]
        exact fill_full like (head_full (fill_head h1) (hw hd (List.mem_cons_self ..)).1 1) (int_full h2) (put_full hpl)
      · exact deep_full like l h5 (fun w hw => hs w (by simp [hw])) i hi

theorem deep_start (l : List DOpt) (h : Deep false l) : ∀ i ∈ (l.map DOpt.opt).head?, optStart i.1 := by
  cases l with
  | nil => simp
  | cons o l =>
    intro i hi
    simp only [List.map_cons, List.head?_cons, Option.mem_def, Option.some.injEq] at hi
    subst hi
    cases o with
    | plain c hd ws =>
      obtain ⟨⟨h1, h2⟩, -⟩ := h
      unfold owns at h2
      rw [Bool.and_eq_true] at h2
      exact takes_start h1 h2.1
    | move star hd ws ps => exact word_start h.1.1
    | fill star hd u ws ps => exact fill_start h.1.1

end Inp
