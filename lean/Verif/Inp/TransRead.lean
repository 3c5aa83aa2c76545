import Verif.Inp.TransSpec
import Verif.Inp.RowRound
import Verif.Inp.BlankLemmas
/-!
# Reading transformations
-/
set_option maxRecDepth 100000
namespace Inp
open Py Types

/-- The groups of the pieces, from `g` on. -/
def capsOf (g : Nat) : List Str → List (Nat × Str)
  | [] => []
  | p :: ps => capsOf (g + 1) ps ++ [(g, p)]

theorem capsOf_snoc (g : Nat) (ps : List Str) (q : Str) : capsOf g (ps ++ [q]) = (g + ps.length, q) :: capsOf g ps := by
  induction ps generalizing g with
  | nil => rfl
  | cons p ps ih =>
    simp only [List.cons_append, capsOf, ih, List.length_cons]
    rw [show g + 1 + ps.length = g + (ps.length + 1) by omega]

theorem lookup_capsOf (g : Nat) (ps : List Str) (i : Nat) : (capsOf g ps).lookup (g + i) = ps[i]? := by
  induction ps generalizing g i with
  | nil => rfl
  | cons p ps ih =>
    rw [capsOf, List.lookup_append]
    cases i with
    | zero =>
      have : ∀ (l : List Str) (h : Nat), g < h → (capsOf h l).lookup g = none := by
        intro l
        induction l with
        | nil => intro h _; rfl
        | cons q l ihl =>
          intro h hlt
          rw [capsOf, List.lookup_append, ihl _ (by omega)]
          have : (g == h) = false := by simp; omega
          simp [List.lookup, this]
      rw [Nat.add_zero, this _ _ (by omega)]
      simp [List.lookup]
    | succ i =>
      have h := ih (g + 1) i
      rw [show g + 1 + i = g + (i + 1) by omega] at h
      rw [h]
      have : ((g + (i + 1)) == g) = false := by simp
      simp [List.lookup, this]

theorem cap_capsOf (s : Str) (ps : List Str) (i : Nat) : cap ((0, s) :: capsOf 1 ps) (i + 1) = ps[i]? := by
  have h := lookup_capsOf 1 ps i
  rw [Nat.add_comm] at h
  have : ((i + 1) == 0) = false := by simp
  simp only [cap, List.lookup, this]
  exact h

theorem mt_chr {x : Char} {w e} : Mt (.chr x) w e ↔ w = [x] ∧ e = [] := by
  unfold Re.chr
  rw [mt_cls]
  constructor
  · rintro ⟨c, h, rfl, rfl⟩
    simp only [beq_iff_eq] at h
    exact ⟨by rw [h], rfl⟩
  · rintro ⟨rfl, rfl⟩
    exact ⟨x, by simp, rfl, rfl⟩

theorem tr_mt (n g : Nat) (w : Str) (e) : Mt (trRe n g) w e ↔
    ∃ ps : List Str, ps.length = n + 1 ∧ (∀ p ∈ ps, ∀ c ∈ p, trC c = true) ∧ (∀ p ∈ ps.take n, p ≠ []) ∧ w = join [' '] ps ∧ e = capsOf g ps := by
  induction n generalizing g w e with
  | zero =>
    rw [trRe, mt_grp]
    constructor
    · rintro ⟨x, h, rfl⟩
      obtain ⟨h1, rfl⟩ := mt_star_cls.1 h
      exact ⟨[w], rfl, by simpa using h1, by simp, rfl, rfl⟩
    · rintro ⟨ps, h1, h2, -, rfl, rfl⟩
      obtain ⟨p, rfl⟩ := List.length_eq_one_iff.1 h1
      exact ⟨[], mt_star_cls.2 ⟨h2 p (by simp), rfl⟩, rfl⟩
  | succ n ih =>
    rw [trRe, mt_seq]
    constructor
    · rintro ⟨u, v, x, y, h1, h2, rfl, rfl⟩
      obtain ⟨x', h3, rfl⟩ := mt_grp.1 h1
      obtain ⟨h4, h5, rfl⟩ := mt_plus_cls.1 h3
      obtain ⟨b, t, x2, y2, h6, h7, rfl, rfl⟩ := mt_seq.1 h2
      obtain ⟨rfl, rfl⟩ := mt_chr.1 h6
      obtain ⟨ps, p1, p2, p3, rfl, rfl⟩ := (ih _ _ _).1 h7
      have hps : ps ≠ [] := by intro h; rw [h] at p1; simp at p1
      refine ⟨u :: ps, by simp [p1], ?_, ?_, ?_, by simp [capsOf]⟩
      · intro p hp
        rcases List.mem_cons.1 hp with rfl | hp
        · exact h5
        · exact p2 p hp
      · intro p hp
        rw [List.take_succ_cons] at hp
        rcases List.mem_cons.1 hp with rfl | hp
        · exact h4
        · exact p3 p hp
      · rw [join_cons _ _ _ hps]; simp
    · rintro ⟨ps, p1, p2, p3, rfl, rfl⟩
      cases ps with
      | nil => simp at p1
      | cons u ps =>
        have hps : ps ≠ [] := by intro h; rw [h] at p1; simp at p1
        refine ⟨u, ' ' :: join [' '] ps, [(g, u)], capsOf (g + 1) ps, ?_, ?_, by rw [join_cons _ _ _ hps]; simp, rfl⟩
        · exact mt_grp.2 ⟨[], mt_plus_cls.2 ⟨p3 u (by simp), p2 u (by simp), rfl⟩, rfl⟩
        · refine mt_seq.2 ⟨[' '], join [' '] ps, [], capsOf (g + 1) ps, mt_chr.2 ⟨rfl, rfl⟩, (ih _ _ _).2 ⟨ps, by simpa using p1, ?_, ?_, rfl, rfl⟩, rfl, by simp⟩
          · exact fun p hp => p2 p (by simp [hp])
          · exact fun p hp => p3 p (by rw [List.take_succ_cons]; simp [hp])

theorem trCount_big (k : Nat) : 2 < trCount k := by
  rcases k with _ | _ | _ | _ | k <;> simp [trCount]

theorem join_snoc (ps : List Str) (q : Str) (h : ps ≠ []) : join [' '] (ps ++ [q]) = join [' '] ps ++ ' ' :: q := by
  cases ps with
  | nil => exact absurd rfl h
  | cons p ps => rw [List.cons_append, join_enc, join_enc]; simp

theorem mt_paren {x : Char} {w e} : Mt (.opt true (.chr x)) w e ↔ (w = [] ∨ w = [x]) ∧ e = [] := by
  rw [mt_opt, mt_chr]
  constructor
  · rintro (⟨rfl, rfl⟩ | ⟨rfl, rfl⟩) <;> simp
  · rintro ⟨rfl | rfl, rfl⟩ <;> simp

theorem trans_mt (k g : Nat) (w : Str) (e) : Mt (transRe k g) w e ↔ ∃ ps, TransText k w ps ∧ e = capsOf g ps := by
  have hk := trCount_big k
  unfold transRe
  constructor
  · intro h
    obtain ⟨o, r, x, y, h1, h2, rfl, rfl⟩ := mt_seq.1 h
    obtain ⟨t, r, x2, y2, h3, h4, rfl, rfl⟩ := mt_seq.1 h2
    obtain ⟨m, c, x3, y3, h5, h6, rfl, rfl⟩ := mt_seq.1 h4
    obtain ⟨ho, rfl⟩ := mt_paren.1 h1
    obtain ⟨hc, rfl⟩ := mt_paren.1 h6
    obtain ⟨ps, p1, p2, p3, rfl, rfl⟩ := (tr_mt _ _ _ _).1 h3
    have hps : ps ≠ [] := by intro h; rw [h] at p1; simp at p1
    rcases mt_opt.1 h5 with ⟨rfl, rfl⟩ | h7
    · exact ⟨ps, ⟨.inl (by omega), p2, p3, o, c, ho, hc, by simp⟩, by simp⟩
    · obtain ⟨b, q, x4, y4, h8, h9, rfl, rfl⟩ := mt_seq.1 h7
      obtain ⟨rfl, rfl⟩ := mt_chr.1 h8
      obtain ⟨z, h10, rfl⟩ := mt_grp.1 h9
      obtain ⟨h11, rfl⟩ := mt_star_cls.1 h10
      refine ⟨ps ++ [q], ⟨.inr (by simp; omega), ?_, ?_, o, c, ho, hc, by rw [join_snoc _ _ hps]; simp⟩, ?_⟩
      · intro p hp
        rcases List.mem_append.1 hp with hp | hp
        · exact p2 p hp
        · simp only [List.mem_singleton] at hp; subst hp; exact h11
      · rw [List.take_append_of_le_length (by omega)]; exact p3
      · rw [capsOf_snoc, p1, show trCount k - 1 + 1 = trCount k by omega]; simp
  · rintro ⟨ps, ⟨hl, p2, p3, o, c, ho, hc, rfl⟩, rfl⟩
    have last : ∃ (qs : List Str) (m : Str) (x : List (Nat × Str)), qs.length = trCount k ∧ (∀ p ∈ qs, p ∈ ps) ∧ (∀ p ∈ qs.take (trCount k - 1), p ≠ []) ∧
        join [' '] ps = join [' '] qs ++ m ∧ capsOf g ps = x ++ capsOf g qs ∧
        Mt (.opt true (.seq (.chr ' ') (.grp (g + trCount k) (.star true (.cls trC))))) m x := by
      rcases hl with hl | hl
      · exact ⟨ps, [], [], hl, fun _ h => h, p3, by simp, rfl, mt_opt.2 (.inl ⟨rfl, rfl⟩)⟩
      · have hne : ps ≠ [] := by intro h; rw [h] at hl; simp at hl
        have hd := List.dropLast_concat_getLast hne
        have hlen : ps.dropLast.length = trCount k := by rw [List.length_dropLast]; omega
        generalize ps.dropLast = qs at *
        generalize hq : ps.getLast hne = q at *
        subst hd
        have hqs : qs ≠ [] := by intro h; rw [h] at hlen; simp at hlen; omega
        refine ⟨qs, ' ' :: q, [(g + trCount k, q)], hlen, fun p hp => by simp [hp], ?_, join_snoc _ _ hqs, by rw [capsOf_snoc, hlen]; rfl, ?_⟩
        · rw [List.take_append_of_le_length (by omega)] at p3; exact p3
        · refine mt_opt.2 (.inr (mt_seq.2 ⟨[' '], q, [], [(g + trCount k, q)], mt_chr.2 ⟨rfl, rfl⟩, mt_grp.2 ⟨[], ?_, rfl⟩, rfl, rfl⟩))
          exact mt_star_cls.2 ⟨p2 q (by simp), rfl⟩
    obtain ⟨qs, m, x, q1, q2, q3, q4, q5, q6⟩ := last
    rw [q4, q5]
    refine mt_seq.2 ⟨o, join [' '] qs ++ m ++ c, [], _, mt_paren.2 ⟨ho, rfl⟩, ?_, by simp, (List.append_nil _).symm⟩
    refine mt_seq.2 ⟨join [' '] qs, m ++ c, capsOf g qs, x, ?_, ?_, by simp, rfl⟩
    · exact (tr_mt _ _ _ _).2 ⟨qs, by omega, fun p hp => p2 p (q2 p hp), q3, rfl, rfl⟩
    · exact mt_seq.2 ⟨m, c, x, [], q6, mt_paren.2 ⟨hc, rfl⟩, rfl, rfl⟩

theorem trC_facts {c : Char} (h : trC c = true) : isSpace c = false ∧ c ≠ '(' ∧ c ≠ ')' := by
  simp only [trC, Bool.or_eq_true, beq_iff_eq] at h
  rcases h with ((((((h | rfl) | rfl) | rfl) | rfl) | rfl) | rfl) | rfl
  · refine ⟨isDigit_not_space h, ?_, ?_⟩ <;> rintro rfl <;> revert h <;> decide
  all_goals decide

theorem TransText.uniq {k j : Nat} {s : Str} {ps qs : List Str} (h1 : TransText k s ps) (h2 : TransText j s qs) : ps = qs := by
  obtain ⟨l1, c1, f1, o, c, ho, hc, rfl⟩ := h1
  obtain ⟨l2, c2, f2, o', c', ho', hc', h⟩ := h2
  have mem : ∀ (l : List Str), (∀ p ∈ l, ∀ c ∈ p, trC c = true) → ∀ x ∈ join [' '] l, x ≠ '(' ∧ x ≠ ')' := by
    intro l hl x hx
    cases l with
    | nil => simp [join] at hx
    | cons p l =>
      rw [join_enc, List.mem_append] at hx
      rcases hx with hx | hx
      · exact (trC_facts (hl p (by simp) x hx)).2
      · unfold enc at hx
        obtain ⟨q, hq, hx⟩ := List.mem_flatMap.1 hx
        rcases List.mem_cons.1 hx with rfl | hx
        · decide
        · exact (trC_facts (hl q (by simp [hq]) x hx)).2
  have ne : ∀ (k : Nat) (l : List Str), l.length = trCount k ∨ l.length = trCount k + 1 → l ≠ [] := by
    intro k l hl h0; have hk := trCount_big k; rw [h0, List.length_nil] at hl; omega
  have jn : ∀ (k : Nat) (l : List Str), l ≠ [] → (l.length = trCount k ∨ l.length = trCount k + 1) → join [' '] l ≠ [] := by
    intro k l h0 hl
    have hk := trCount_big k
    cases l with
    | nil => exact absurd rfl h0
    | cons p l =>
      cases l with
      | nil => simp only [List.length_cons, List.length_nil] at hl; omega
      | cons q l => rw [join_enc]; simp
  have m1 := mem ps c1
  have m2 := mem qs c2
  have j1 := jn k ps (ne k ps l1) l1
  have j2 := jn j qs (ne j qs l2) l2
  have key : join [' '] ps = join [' '] qs := by
    generalize join [' '] ps = a at *
    generalize join [' '] qs = b at *
    have hoo : o = o' := by
      cases a with
      | nil => exact absurd rfl j1
      | cons x a =>
        cases b with
        | nil => exact absurd rfl j2
        | cons y b =>
          have hx := (m1 x (by simp)).1
          have hy := (m2 y (by simp)).1
          rcases ho with rfl | rfl <;> rcases ho' with rfl | rfl <;> simp at h ⊢
          · exact hx h.1
          · exact hy h.1.symm
    subst hoo
    rw [List.append_assoc, List.append_assoc] at h
    have h := List.append_cancel_left h
    rcases hc with rfl | rfl <;> rcases hc' with rfl | rfl
    · simpa using h
    · exfalso
      have : ')' ∈ a := by
        have : ')' ∈ b ++ [')'] := by simp
        rw [← h] at this
        simpa using this
      exact (m1 _ this).2 rfl
    · exfalso
      have : ')' ∈ b := by
        have : ')' ∈ a ++ [')'] := by simp
        rw [h] at this
        simpa using this
      exact (m2 _ this).2 rfl
    · exact List.append_cancel_right h
  have h3 := ne k ps l1
  have h4 := ne j qs l2
  cases ps with
  | nil => exact absurd rfl h3
  | cons p ps =>
    cases qs with
    | nil => exact absurd rfl h4
    | cons q qs =>
      have : enc (p :: ps) = enc (q :: qs) := by
        rw [enc_cons, enc_cons, ← join_enc, ← join_enc, key]
      refine enc_inj ?_ ?_ this
      · exact fun w hw x hx => (trC_facts (c1 w hw x hx)).1
      · exact fun w hw x hx => (trC_facts (c2 w hw x hx)).1

theorem trRe_free (n g : Nat) : (trRe n g).free = true := by
  induction n generalizing g with
  | zero => rfl
  | succ n ih => simp [trRe, Re.free, Re.plus, Re.chr, ih]

theorem transRe_free (k g : Nat) : (transRe k g).free = true := by
  simp [transRe, Re.free, trRe_free, Re.chr]

/-- The groups of a text of the right form. -/
theorem trans_match {k : Nat} {s : Str} {ps : List Str} (h : TransText k s ps) :
    reMatch (anchored (transRe k 1)) s = some ((0, s) :: capsOf 1 ps) := by
  have full : Full (transRe k 1) s := ⟨_, (trans_mt k 1 s _).2 ⟨ps, h, rfl⟩⟩
  obtain ⟨m, hm⟩ := Option.isSome_iff_exists.1 ((full_iff _ (transRe_free k 1) _).2 full)
  obtain ⟨e, he, rfl⟩ := full_match (transRe_free k 1) hm
  obtain ⟨qs, h2, rfl⟩ := (trans_mt k 1 s _).1 he
  rw [h.uniq h2]
  exact hm

theorem trans_none {k : Nat} {s : Str} (h : ∀ ps, ¬ TransText k s ps) : reMatch (anchored (transRe k 1)) s = none := by
  cases hm : reMatch (anchored (transRe k 1)) s with
  | none => rfl
  | some m =>
    obtain ⟨e, he, rfl⟩ := full_match (transRe_free k 1) hm
    obtain ⟨qs, h2, rfl⟩ := (trans_mt k 1 s _).1 he
    exact absurd h2 (h qs)

theorem trEntries_read (s : Str) (ps : List Str) (n i : Nat) (h : i + n ≤ ps.length) :
    trEntries ((0, s) :: capsOf 1 ps) n (i + 1) = readReals ((ps.drop i).take n) := by
  induction n generalizing i with
  | zero => simp [trEntries, readReals]
  | succ n ih =>
    have hi : i < ps.length := by omega
    rw [trEntries, cap_capsOf, List.getElem?_eq_getElem hi, List.drop_eq_getElem_cons hi, List.take_succ_cons, readReals, ih (i + 1) (by omega)]
    rfl

/-- Reading a transformation, for every text. -/
theorem trans_read (k : Nat) (s : Str) :
    (∀ ps, TransText k s ps → transParse k s = readTrans k ps) ∧ ((∀ ps, ¬ TransText k s ps) → transParse k s = .error .types) := by
  refine ⟨fun ps h => ?_, fun h => ?_⟩
  · unfold transParse readTrans
    rw [trans_match h]
    simp only
    have hlen : trCount k ≤ ps.length := by rcases h.len with h | h <;> omega
    rw [show (1 : Nat) = 0 + 1 from rfl, trEntries_read s ps (trCount k) 0 (by omega), List.drop_zero, cap_capsOf]
    cases readReals (ps.take (trCount k)) with
    | error e => rfl
    | ok rs =>
      simp only
      cases hq : ps[trCount k]? with
      | none => rfl
      | some t =>
        cases t with
        | nil => rfl
        | cons c t =>
          simp only [Option.getD_some]
          cases intParse (c :: t) with
          | error e => rfl
          | ok v =>
            cases v with
            | num n => simp only [mkTrans, or_comm]
            | hor x => rfl
  · unfold transParse
    rw [trans_none h]

end Inp
