import Verif.Inp.TrclRead
import Verif.Inp.LikeRead
/-!
# What `trcl` takes from a longer text
-/
set_option maxRecDepth 100000
namespace Inp
open Py Types

/-! ## The pattern of a transformation takes as much as it can -/

theorem or_taken {α : Type} {x y z : Option α} (h : x = z) (hz : z.isSome = true) : x.or y = z := by
  obtain ⟨v, rfl⟩ := Option.isSome_iff_exists.1 hz
  rw [h]; rfl

theorem star_take {α : Type} (p : Char → Bool) (q tail prev : Str) (caps) (k : St → Option α) (hq : ∀ c ∈ q, p c = true)
    (ht : ∀ x xs, tail = x :: xs → p x = false) (hs : (k ⟨q.reverse ++ prev, tail, caps⟩).isSome = true) :
    run (.star true (.cls p)) ⟨prev, q ++ tail, caps⟩ k = k ⟨q.reverse ++ prev, tail, caps⟩ := by
  obtain ⟨v, hv⟩ := Option.isSome_iff_exists.1 hs
  rw [hv]
  have := run_star_cls_greedy p q [] tail prev caps k v hq (by simp) ht (by simpa using hv) (by
    intro a b ha hab
    simp at hab
    exact absurd hab.1 ha)
  simpa using this

theorem tr_run {α : Type} (n g : Nat) (qs : List Str) (hl : qs.length = n + 1) (hc : ∀ p ∈ qs, ∀ c ∈ p, trC c = true)
    (hf : ∀ p ∈ qs.take n, p ≠ []) (tail prev : Str) (caps) (k : St → Option α) (ht : ∀ x xs, tail = x :: xs → trC x = false)
    (hs : ∀ e, (k ⟨(join [' '] qs).reverse ++ prev, tail, e⟩).isSome = true) :
    ∃ e, run (trRe n g) ⟨prev, join [' '] qs ++ tail, caps⟩ k = k ⟨(join [' '] qs).reverse ++ prev, tail, e⟩ := by
  induction n generalizing g qs prev caps with
  | zero =>
    obtain ⟨q, rfl⟩ := List.length_eq_one_iff.1 hl
    refine ⟨(g, (q ++ tail).take ((q ++ tail).length - tail.length)) :: caps, ?_⟩
    rw [trRe, run_grp]
    simp only [join] at hs ⊢
    exact star_take trC q tail prev caps (fun st' => k ⟨st'.prev, st'.rest, (g, (q ++ tail).take ((q ++ tail).length - st'.rest.length)) :: st'.caps⟩)
      (hc q (by simp)) ht (hs _)
  | succ n ih =>
    cases qs with
    | nil => simp at hl
    | cons q qs =>
      have hqs : qs ≠ [] := by intro h; rw [h] at hl; simp at hl
      have hq : q ≠ [] := hf q (by simp)
      obtain ⟨c, q', rfl⟩ := List.exists_cons_of_ne_nil hq
      have hcq := hc (c :: q') (by simp)
      have ih := fun prev caps => ih (g + 1) qs (by simpa using hl) (fun p hp => hc p (by simp [hp]))
        (fun p hp => hf p (by rw [List.take_succ_cons]; simp [hp])) prev caps
      have e1 : (join [' '] ((c :: q') :: qs)).reverse ++ prev = (join [' '] qs).reverse ++ (' ' :: (q'.reverse ++ c :: prev)) := by
        rw [join_cons _ _ _ hqs]; simp
      have e2 : join [' '] ((c :: q') :: qs) ++ tail = c :: (q' ++ ' ' :: (join [' '] qs ++ tail)) := by
        rw [join_cons _ _ _ hqs]; simp
      rw [e1] at hs
      rw [e1, e2]
      have step : ∀ caps, ∃ e, run (.seq (.chr ' ') (trRe n (g + 1))) ⟨q'.reverse ++ c :: prev, ' ' :: (join [' '] qs ++ tail), caps⟩ k =
          k ⟨(join [' '] qs).reverse ++ (' ' :: (q'.reverse ++ c :: prev)), tail, e⟩ := by
        intro caps
        obtain ⟨e, he⟩ := ih (' ' :: (q'.reverse ++ c :: prev)) caps hs
        refine ⟨e, ?_⟩
        rw [run_seq, Re.chr, run_cls_cons, if_pos (by decide)]
        exact he
      obtain ⟨e, he⟩ := step ((g, (c :: (q' ++ ' ' :: (join [' '] qs ++ tail))).take
        ((c :: (q' ++ ' ' :: (join [' '] qs ++ tail))).length - (' ' :: (join [' '] qs ++ tail)).length)) :: caps)
      refine ⟨e, ?_⟩
      rw [trRe, run_seq, run_grp, Re.plus, run_seq, run_cls_cons, if_pos (hcq c (by simp)), star_take trC q' _ _ _ _ (fun x hx => hcq x (by simp [hx])) (by
        intro x xs hx; cases hx; decide)]
      · exact he
      · simp only; rw [he]; exact hs e

theorem close_run {α : Type} (c tail : Str) (hc : c = [] ∨ c = [')']) (h : c = [] → ∀ xs, tail ≠ ')' :: xs) (prev : Str) (caps) (k : St → Option α)
    (hs : (k ⟨c.reverse ++ prev, tail, caps⟩).isSome = true) :
    run (.opt true (.chr ')')) ⟨prev, c ++ tail, caps⟩ k = k ⟨c.reverse ++ prev, tail, caps⟩ := by
  rw [run_opt_greedy, Re.chr]
  rcases hc with rfl | rfl
  · have : run (.cls (· == ')')) ⟨prev, [] ++ tail, caps⟩ k = none := by
      cases tail with
      | nil => rfl
      | cons x xs =>
        rw [List.nil_append, run_cls_cons, if_neg]
        intro hx
        rw [beq_iff_eq] at hx
        exact h rfl xs (by rw [hx])
    rw [this]; rfl
  · refine or_taken ?_ hs
    rw [List.singleton_append, run_cls_cons, if_pos (by decide)]
    rfl

theorem join_ne {l : List Str} (h : 2 ≤ l.length) : join [' '] l ≠ [] := by
  match l with
  | [] => simp at h
  | [p] => simp at h
  | p :: q :: l => rw [join_enc, enc_cons]; simp

theorem trans_run {α : Type} (k g : Nat) (qs : List Str) (o c tail : Str) (hl : qs.length = trCount k ∨ qs.length = trCount k + 1)
    (hch : ∀ p ∈ qs, ∀ c ∈ p, trC c = true) (hf : ∀ p ∈ qs.take (trCount k - 1), p ≠ []) (ho : o = [] ∨ o = ['(']) (hc : c = [] ∨ c = [')'])
    (ht : c = [] → ∀ x xs, tail = x :: xs → trC x = false ∧ x ≠ ')' ∧ (qs.length = trCount k → x ≠ ' ')) (prev : Str) (caps) (K : St → Option α)
    (hs : ∀ e, (K ⟨(o ++ join [' '] qs ++ c).reverse ++ prev, tail, e⟩).isSome = true) :
    ∃ e, run (transRe k g) ⟨prev, o ++ join [' '] qs ++ c ++ tail, caps⟩ K = K ⟨(o ++ join [' '] qs ++ c).reverse ++ prev, tail, e⟩ := by
  have hk := trCount_big k
  -- what follows the entries is no entry
  have hfol : ∀ x xs, c ++ tail = x :: xs → trC x = false := by
    intro x xs h
    rcases hc with rfl | rfl
    · exact (ht rfl x xs h).1
    · cases h; decide
  -- the parenthesis at the end
  have hclose : ∀ prev' caps, prev' = (o ++ join [' '] qs).reverse ++ prev →
      run (.opt true (.chr ')')) ⟨prev', c ++ tail, caps⟩ K = K ⟨(o ++ join [' '] qs ++ c).reverse ++ prev, tail, caps⟩ := by
    intro prev' caps hp
    have e : c.reverse ++ prev' = (o ++ join [' '] qs ++ c).reverse ++ prev := by rw [hp]; simp
    rw [close_run c tail hc (fun h xs h' => (ht h _ _ h').2.1 rfl) prev' caps K (by rw [e]; exact hs _), e]
  -- all but the parenthesis at the beginning
  have hmid : ∀ prev' caps, prev' = o.reverse ++ prev → ∃ e,
      run (.seq (trRe (trCount k - 1) g) (.seq (.opt true (.seq (.chr ' ') (.grp (g + trCount k) (.star true (.cls trC))))) (.opt true (.chr ')'))))
        ⟨prev', join [' '] qs ++ (c ++ tail), caps⟩ K = K ⟨(o ++ join [' '] qs ++ c).reverse ++ prev, tail, e⟩ := by
    intro prev' caps hp
    rcases hl with hl | hl
    · have hsys : ∀ caps, run (.seq (.opt true (.seq (.chr ' ') (.grp (g + trCount k) (.star true (.cls trC))))) (.opt true (.chr ')')))
          ⟨(join [' '] qs).reverse ++ prev', c ++ tail, caps⟩ K = K ⟨(o ++ join [' '] qs ++ c).reverse ++ prev, tail, caps⟩ := by
        intro caps
        rw [run_seq, run_opt_greedy]
        have : ∀ K' : St → Option α, run (.seq (.chr ' ') (.grp (g + trCount k) (.star true (.cls trC)))) ⟨(join [' '] qs).reverse ++ prev', c ++ tail, caps⟩ K' = none := by
          intro K'
          rw [run_seq, Re.chr]
          cases h : c ++ tail with
          | nil => rfl
          | cons x xs =>
            rw [run_cls_cons, if_neg]
            intro hx
            rw [beq_iff_eq] at hx
            subst hx
            rcases hc with rfl | rfl
            · exact (ht rfl _ _ h).2.2 hl rfl
            · cases h
        rw [this, Option.none_or]
        exact hclose _ _ (by rw [hp]; simp)
      obtain ⟨e, he⟩ := tr_run (trCount k - 1) g qs (by omega) hch hf (c ++ tail) prev' caps
        (fun st => run (.seq (.opt true (.seq (.chr ' ') (.grp (g + trCount k) (.star true (.cls trC))))) (.opt true (.chr ')'))) st K) hfol
        (fun e => by rw [hsys]; exact hs _)
      refine ⟨e, ?_⟩
      rw [run_seq, he]
      exact hsys e
    · have hne : qs ≠ [] := by intro h; rw [h] at hl; simp at hl
      have hd := List.dropLast_concat_getLast hne
      have hlen : qs.dropLast.length = trCount k := by rw [List.length_dropLast]; omega
      generalize qs.dropLast = rs at *
      generalize qs.getLast hne = q at *
      subst hd
      have hrs : rs ≠ [] := by intro h; rw [h] at hlen; simp at hlen; omega
      have hj := join_snoc rs q hrs
      have hsys : ∀ caps, ∃ e, run (.seq (.opt true (.seq (.chr ' ') (.grp (g + trCount k) (.star true (.cls trC))))) (.opt true (.chr ')')))
          ⟨(join [' '] rs).reverse ++ prev', ' ' :: (q ++ (c ++ tail)), caps⟩ K = K ⟨(o ++ join [' '] (rs ++ [q]) ++ c).reverse ++ prev, tail, e⟩ := by
        intro caps
        have hp2 : q.reverse ++ ' ' :: ((join [' '] rs).reverse ++ prev') = (o ++ join [' '] (rs ++ [q])).reverse ++ prev := by
          rw [hj, hp]; simp
        have hin : ∀ caps, run (.opt true (.chr ')')) ⟨q.reverse ++ ' ' :: ((join [' '] rs).reverse ++ prev'), c ++ tail, caps⟩ K =
            K ⟨(o ++ join [' '] (rs ++ [q]) ++ c).reverse ++ prev, tail, caps⟩ := fun caps => hclose _ caps hp2
        refine ⟨(g + trCount k, (q ++ (c ++ tail)).take ((q ++ (c ++ tail)).length - (c ++ tail).length)) :: caps, ?_⟩
        rw [run_seq, run_opt_greedy]
        refine or_taken ?_ (hs _)
        rw [run_seq, Re.chr, run_cls_cons, if_pos (by decide), run_grp, star_take trC q (c ++ tail) _ _ _ (hch q (by simp)) hfol (by
          simp only; rw [hin]; exact hs _)]
        exact hin _
      obtain ⟨e, he⟩ := tr_run (trCount k - 1) g rs (by omega) (fun p hp => hch p (by simp [hp]))
        (by rw [List.take_append_of_le_length (by omega)] at hf; exact hf) (' ' :: (q ++ (c ++ tail))) prev' caps
        (fun st => run (.seq (.opt true (.seq (.chr ' ') (.grp (g + trCount k) (.star true (.cls trC))))) (.opt true (.chr ')'))) st K)
        (by intro x xs h; cases h; decide)
        (fun e => by
          obtain ⟨e', he'⟩ := hsys e
          rw [he']; exact hs _)
      obtain ⟨e', he'⟩ := hsys e
      refine ⟨e', ?_⟩
      rw [run_seq, hj]
      have : (join [' '] rs ++ ' ' :: q) ++ (c ++ tail) = join [' '] rs ++ ' ' :: (q ++ (c ++ tail)) := by simp
      rw [this, he]
      rw [hj] at he'
      exact he'
  have hlong : 2 ≤ qs.length := by omega
  unfold transRe
  rw [run_seq, run_opt_greedy, Re.chr]
  rcases ho with rfl | rfl
  · have : ∀ K' : St → Option α, run (.cls (· == '(')) ⟨prev, [] ++ join [' '] qs ++ c ++ tail, caps⟩ K' = none := by
      intro K'
      cases hj : join [' '] qs with
      | nil => exact absurd hj (join_ne hlong)
      | cons x xs =>
        have hx : x ≠ '(' := by
          cases qs with
          | nil => simp at hlong
          | cons q qs =>
            have hq : q ≠ [] := hf q (by rw [show trCount k - 1 = (trCount k - 2) + 1 by omega, List.take_succ_cons]; simp)
            obtain ⟨y, q', rfl⟩ := List.exists_cons_of_ne_nil hq
            rw [join_enc, List.cons_append, List.cons.injEq] at hj
            have := (trC_facts (hch (y :: q') (by simp) y (by simp))).2.1
            rw [hj.1] at this
            exact this
        simp only [List.nil_append, List.cons_append]
        rw [run_cls_cons, if_neg (by simpa using hx)]
    rw [this, Option.none_or]
    obtain ⟨e, he⟩ := hmid prev caps rfl
    refine ⟨e, ?_⟩
    simp only [List.nil_append, List.append_assoc] at he ⊢
    exact he
  · obtain ⟨e, he⟩ := hmid ('(' :: prev) caps rfl
    refine ⟨e, or_taken ?_ (hs _)⟩
    have : ['('] ++ join [' '] qs ++ c ++ tail = '(' :: (join [' '] qs ++ (c ++ tail)) := by simp
    rw [this, run_cls_cons, if_pos (by decide)]
    exact he

theorem bnd_blank (s : Str) : Bnd (' ' :: s) := by
  intro c hc
  cases hc
  decide

/-! ## A class takes its option -/

theorem trcl_run {c : Cls} {k : Nat} (ok : TrclCls c k) {star : Bool} {hd : Str} (hh : TrclWord star hd) (hsp : NoSpace hd) (qs : List Str) (o cl tail : Str)
    (hl : qs.length = trCount k ∨ qs.length = trCount k + 1)
    (hch : ∀ p ∈ qs, ∀ c ∈ p, trC c = true) (hf : ∀ p ∈ qs.take (trCount k - 1), p ≠ []) (ho : o = [] ∨ o = ['(']) (hc : cl = [] ∨ cl = [')'])
    (ht : cl = [] → ∀ x xs, tail = x :: xs → trC x = false ∧ x ≠ ')' ∧ (qs.length = trCount k → x ≠ ' ')) (n : Nat) (prev : Str) (caps) (K : St → Option St)
    (hs : ∀ e, (K ⟨(hd ++ ' ' :: (o ++ join [' '] qs ++ cl)).reverse ++ prev, tail, e⟩).isSome = true) :
    ∃ e, run (c.pat.re n) ⟨prev, hd ++ ' ' :: (o ++ join [' '] qs ++ cl ++ tail), caps⟩ K =
      K ⟨(hd ++ ' ' :: (o ++ join [' '] qs ++ cl)).reverse ++ prev, tail, e⟩ := by
  rw [trcl_pat ok, run_cat_append]
  have hlast : (Pat.cat [Field.pat ⟨.ty (.base (.trans k)), .req⟩]).re (n + (Pat.cat trclHead.pats).ng) =
      .seq (.grp (n + 1) (.seq (litRe c!" ") (transRe k (n + 2)))) .eps := rfl
  rw [hlast]
  have hfacts := (Pat.cat trclHead.pats).facts (trclHead.word (by decide)) n
  have e1 : (hd ++ ' ' :: (o ++ join [' '] qs ++ cl)).reverse ++ prev = (o ++ join [' '] qs ++ cl).reverse ++ (' ' :: (hd.reverse ++ prev)) := by simp
  rw [e1] at hs ⊢
  have hin : ∀ caps, ∃ e, run (.seq (.grp (n + 1) (.seq (litRe c!" ") (transRe k (n + 2)))) .eps)
      ⟨hd.reverse ++ prev, ' ' :: (o ++ join [' '] qs ++ cl ++ tail), caps⟩ K =
      K ⟨(o ++ join [' '] qs ++ cl).reverse ++ (' ' :: (hd.reverse ++ prev)), tail, e⟩ := by
    intro caps
    rw [run_seq, run_grp, blank_run]
    obtain ⟨e, he⟩ := trans_run k (n + 2) qs o cl tail hl hch hf ho hc ht (' ' :: (hd.reverse ++ prev)) caps
      (fun st' => run .eps { st' with caps := (n + 1, (' ' :: (o ++ join [' '] qs ++ cl ++ tail)).take
        ((' ' :: (o ++ join [' '] qs ++ cl ++ tail)).length - st'.rest.length)) :: st'.caps } K) (fun e => by
        simp only [run_eps]; exact hs _)
    rw [he]
    exact ⟨_, rfl⟩
  obtain ⟨x0, hx0⟩ := head_full (trcl_head hh) hsp n
  obtain ⟨e, -, he⟩ := (run_word ((Pat.cat trclHead.pats).re n) hfacts.1 (noSp_mt hfacts.2.1) hd (' ' :: (o ++ join [' '] qs ++ cl ++ tail)) prev caps
    (bnd_blank _)
    (fun st' => run (.seq (.grp (n + 1) (.seq (litRe c!" ") (transRe k (n + 2)))) .eps) st' K) (by
      intro u v e huv hv
      rw [run_seq, run_grp]
      exact blank_none _ _ _ (blocked_of_word hsp huv hv _))).1 ⟨x0, hx0⟩
  rw [he]
  exact hin _

/-! ## No class begins that needs more entries -/

theorem count_join (ps : List Str) (h : ∀ p ∈ ps, ' ' ∉ p) (hne : ps ≠ []) : (join [' '] ps).count ' ' + 1 = ps.length := by
  induction ps with
  | nil => exact absurd rfl hne
  | cons p ps ih =>
    have hp : p.count ' ' = 0 := List.count_eq_zero.2 (h p (by simp))
    cases ps with
    | nil => simp [join, hp]
    | cons q qs =>
      have := ih (fun x hx => h x (by simp [hx])) (by simp)
      rw [join_cons _ _ _ (by simp)]
      simp only [List.count_append, hp, List.count_cons, List.length_cons, List.count_nil] at this ⊢
      simp at this ⊢
      omega

theorem trC_blank {p : Str} (h : ∀ c ∈ p, trC c = true) : ' ' ∉ p := by
  intro hb
  have := h ' ' hb
  revert this
  decide

theorem paren_count {o c : Str} (ho : o = [] ∨ o = ['(']) (hc : c = [] ∨ c = [')']) (s : Str) : (o ++ s ++ c).count ' ' = s.count ' ' := by
  rcases ho with rfl | rfl <;> rcases hc with rfl | rfl <;> simp [List.count_append, List.count_cons]

/-- A beginning of a text of so many pieces has no more pieces. -/
theorem trans_begin {j : Nat} {u v : Str} {ps' : List Str} (h : TransText j u ps') (qs : List Str) (hl : 2 ≤ qs.length)
    (hch : ∀ p ∈ qs, ∀ c ∈ p, trC c = true) (o t : Str) (ho : o = [] ∨ o = ['(']) (ht : ∀ x xs, t = x :: xs → trC x = false ∧ x ≠ ' ')
    (e : o ++ join [' '] qs ++ t = u ++ v) : ps'.length ≤ qs.length := by
  have hj := trCount_big j
  obtain ⟨hl', hc', -, o', c', ho', hc2, rfl⟩ := h
  have hne' : ps' ≠ [] := by rintro rfl; simp at hl'; omega
  have hne : qs ≠ [] := by rintro rfl; simp at hl
  have n1 := count_join ps' (fun p hp => trC_blank (hc' p hp)) hne'
  have n2 := count_join qs (fun p hp => trC_blank (hch p hp)) hne
  have n3 := paren_count ho' hc2 (join [' '] ps')
  have n4 : (o ++ join [' '] qs).count ' ' = (join [' '] qs).count ' ' := by
    have := paren_count ho (.inl rfl) (join [' '] qs)
    simpa using this
  have hmem : ∀ x ∈ join [' '] ps', trC x = true ∨ x = ' ' := by
    intro x hx
    cases ps' with
    | nil => exact absurd rfl hne'
    | cons p l =>
      rw [join_enc, List.mem_append] at hx
      rcases hx with hx | hx
      · exact .inl (hc' p (by simp) x hx)
      · unfold enc at hx
        obtain ⟨q, hq, hx⟩ := List.mem_flatMap.1 hx
        rcases List.mem_cons.1 hx with rfl | hx
        · exact .inr rfl
        · exact .inl (hc' q (by simp [hq]) x hx)
  generalize hU : o' ++ join [' '] ps' ++ c' = u at *
  have hle : u.count ' ' ≤ (o ++ join [' '] qs).count ' ' := by
    rcases List.append_eq_append_iff.1 e with ⟨t', h1, h2⟩ | ⟨b, h1, h2⟩
    · -- the text reaches beyond the pieces
      rw [h1, List.count_append]
      cases t' with
      | nil => simp
      | cons x t' =>
        have hx := ht x (t' ++ v) (by rw [h2]; rfl)
        cases t' with
        | nil => simp [List.count_cons, hx.2]
        | cons y t' =>
          exfalso
          have hjn := join_ne hl
          -- neither the first nor the last character
          have hmid : x ∈ (u.drop 1).dropLast := by
            rw [h1]
            cases hs : o ++ join [' '] qs with
            | nil => exact absurd (List.append_eq_nil_iff.1 hs).2 hjn
            | cons z zs =>
              simp only [List.cons_append, List.drop_succ_cons, List.drop_zero]
              rw [List.dropLast_append_of_ne_nil (by simp)]
              simp
          have : x ∈ join [' '] ps' := by
            rw [← hU] at hmid
            have h3 : ∀ s : Str, x ∈ ((o' ++ s ++ c').drop 1).dropLast → x ∈ s := by
              intro s hs
              rcases ho' with rfl | rfl <;> rcases hc2 with rfl | rfl
              · simp only [List.nil_append, List.append_nil] at hs
                exact List.mem_of_mem_drop ((List.dropLast_sublist _).subset hs)
              · cases s with
                | nil => simp at hs
                | cons a s =>
                  simp only [List.nil_append, List.cons_append, List.drop_succ_cons, List.drop_zero, List.dropLast_concat] at hs
                  simp [hs]
              · simp only [List.append_nil, List.singleton_append, List.drop_succ_cons, List.drop_zero] at hs
                exact (List.dropLast_sublist _).subset hs
              · simp only [List.singleton_append, List.cons_append, List.drop_succ_cons, List.drop_zero, List.dropLast_concat] at hs
                exact hs
            exact h3 _ hmid
          rcases hmem x this with h4 | h4
          · rw [hx.1] at h4; cases h4
          · exact hx.2 h4
    · rw [h1, List.count_append]; omega
  omega

/-- A class that needs more entries finds nothing. -/
theorem trcl_begins {c : Cls} {j : Nat} (ok : TrclCls c j) {hd : Str} (hsp : NoSpace hd) (qs : List Str) (hl : 2 ≤ qs.length)
    (hch : ∀ p ∈ qs, ∀ c ∈ p, trC c = true) (o t : Str) (ho : o = [] ∨ o = ['(']) (ht : ∀ x xs, t = x :: xs → trC x = false ∧ x ≠ ' ')
    (hlt : qs.length < trCount j) : c.begins (hd ++ ' ' :: (o ++ join [' '] qs ++ t)) = false := by
  unfold Cls.begins
  cases hm : reMatch (c.pat.re 1) (hd ++ ' ' :: (o ++ join [' '] qs ++ t)) with
  | none => rfl
  | some m =>
    exfalso
    unfold reMatch at hm
    obtain ⟨st', h1, -⟩ := (run_spec (c.pat.re 1) _ _).2 _ hm
    obtain ⟨w, e, m1, m2, -, -⟩ := h1.mt (trcl_free ok)
    obtain ⟨u, s, x, ps, m3, m4, rfl, -⟩ := (trcl_parts ok).1 m1
    have m2' : hd ++ ' ' :: (o ++ join [' '] qs ++ t) = u ++ (' ' :: (s ++ st'.rest)) := by
      have : hd ++ ' ' :: (o ++ join [' '] qs ++ t) = (u ++ ' ' :: s) ++ st'.rest := m2
      rw [this]; simp
    obtain ⟨q, q1, q2⟩ := prefix_word (noSp_mt trcl_head_facts.2 _ _ m3) (bnd_blank _) m2'
    have hq : q = [] := by
      cases q with
      | nil => rfl
      | cons y q =>
        simp only [List.cons_append, List.cons.injEq] at q2
        have h3 := hsp y (by rw [q1]; simp)
        rw [← q2.1] at h3
        exact absurd h3 (by decide)
    subst hq
    simp only [List.nil_append, List.cons.injEq, true_and] at q2
    have h2 := trans_begin m4 qs hl hch o t ho ht q2.symm
    have h3 := m4.len
    omega

end Inp
