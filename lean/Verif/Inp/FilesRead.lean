import Verif.Inp.FilterRead
/-!
# Reading the files of `files` cards
-/
set_option maxRecDepth 100000
namespace Inp
open Py Types

/-- `\S` (src/pymcnp/inp/files/File.py:22) -/
abbrev fwordC : Char → Bool := CC.test (.one .S)

theorem fwordC_iff {c : Char} : fwordC c = true ↔ isSpace c = false := by
  simp [fwordC, CC.test, CI.test]

abbrev fwordRe (n : Nat) : Re := .grp n (.plus true (.cls fwordC))

abbrev optWord (n : Nat) : Re := .opt true (.seq (litRe c!" ") (fwordRe n))

def creationRe (n : Nat) : Re := .seq (fwordRe n) (.seq (litRe c!" ") (.seq (fwordRe (n + 1)) (.seq (optWord (n + 2)) (.seq (optWord (n + 3)) (optWord (n + 4))))))

theorem creationRe_eq (n : Nat) : Tab.T_files_File.re n = creationRe n := rfl

theorem mt_fwordRe {n w e} : Mt (fwordRe n) w e ↔ (NoSpace w ∧ w ≠ []) ∧ e = [(n, w)] := by
  rw [mt_grp]
  constructor
  · rintro ⟨z, h, rfl⟩
    obtain ⟨h1, h2, rfl⟩ := mt_plus_cls.1 h
    exact ⟨⟨fun c hc => fwordC_iff.1 (h2 c hc), h1⟩, rfl⟩
  · rintro ⟨⟨h1, h2⟩, rfl⟩
    exact ⟨[], mt_plus_cls.2 ⟨h2, fun c hc => fwordC_iff.2 (h1 c hc), rfl⟩, rfl⟩

theorem mt_optWord {n w e} (h : Mt (optWord n) w e) : ∃ l, Words l ∧ w = enc l := by
  rcases mt_opt.1 h with ⟨rfl, -⟩ | h
  · exact ⟨[], (by intro x hx; cases hx), rfl⟩
  · obtain ⟨b, t, _, _, h1, h2, rfl, -⟩ := mt_seq.1 h
    obtain ⟨rfl, -⟩ := (blank_lit.mt _ _).1 h1
    exact ⟨[t], by intro x hx; rw [List.mem_singleton.1 hx]; exact (mt_fwordRe.1 h2).1, by simp⟩

theorem full_optWord {n : Nat} {l : List Str} (hw : Words l) (hl : l.length ≤ 1) : ∃ e, Mt (optWord n) (enc l) e := by
  match l, hl with
  | [], _ => exact ⟨_, mt_opt.2 (.inl ⟨rfl, rfl⟩)⟩
  | [w], _ => exact ⟨_, mt_opt.2 (.inr (mt_seq.2 ⟨[' '], w, [], _, (blank_lit.mt _ _).2 ⟨rfl, rfl⟩, mt_fwordRe.2 ⟨hw w (by simp), rfl⟩, by simp, rfl⟩))⟩

theorem fwords_append {a b : List Str} (ha : Words a) (hb : Words b) : Words (a ++ b) := by
  intro w hw
  rcases List.mem_append.1 hw with h | h
  · exact ha w h
  · exact hb w h

theorem fwords_cons {a : Str} {b : List Str} (ha : NoSpace a ∧ a ≠ []) (hb : Words b) : Words (a :: b) := by
  intro w hw
  rcases List.mem_cons.1 hw with rfl | h
  · exact ha
  · exact hb w h

/-- Files have at least two words. -/
theorem mt_file {n w e} (h : Mt (creationRe n) w e) : ∃ a b l, Words (a :: b :: l) ∧ w = a ++ enc (b :: l) := by
  unfold creationRe at h
  obtain ⟨a, _, _, _, h1, g1, rfl, -⟩ := mt_seq.1 h
  obtain ⟨k, _, _, _, h2, g2, rfl, -⟩ := mt_seq.1 g1
  obtain ⟨b, _, _, _, h3, g3, rfl, -⟩ := mt_seq.1 g2
  obtain ⟨u, _, _, _, h4, g4, rfl, -⟩ := mt_seq.1 g3
  obtain ⟨v, t, _, _, h5, h6, rfl, -⟩ := mt_seq.1 g4
  obtain ⟨rfl, -⟩ := (blank_lit.mt _ _).1 h2
  obtain ⟨l1, w1, rfl⟩ := mt_optWord h4
  obtain ⟨l2, w2, rfl⟩ := mt_optWord h5
  obtain ⟨l3, w3, rfl⟩ := mt_optWord h6
  refine ⟨a, b, l1 ++ (l2 ++ l3), fwords_cons (mt_fwordRe.1 h1).1 (fwords_cons (mt_fwordRe.1 h3).1 (fwords_append w1 (fwords_append w2 w3))), ?_⟩
  simp [enc_append]

theorem full_file {n : Nat} {a b : Str} {l : List Str} (hw : Words (a :: b :: l)) (hl : l.length ≤ 1) : ∃ e, Mt (creationRe n) (a ++ enc (b :: l)) e := by
  obtain ⟨e, he⟩ := full_optWord (n := n + 2) hw.tail.tail hl
  refine ⟨_, mt_seq.2 ⟨a, enc (b :: l), _, _, mt_fwordRe.2 ⟨hw a (by simp), rfl⟩, mt_seq.2 ⟨[' '], b ++ enc l, [], _, (blank_lit.mt _ _).2 ⟨rfl, rfl⟩,
    mt_seq.2 ⟨b, enc l, _, _, mt_fwordRe.2 ⟨hw b (by simp), rfl⟩, mt_seq.2 ⟨enc l, [], _, _, he, mt_seq.2 ⟨[], [], [], [], mt_opt.2 (.inl ⟨rfl, rfl⟩),
      mt_opt.2 (.inl ⟨rfl, rfl⟩), rfl, rfl⟩, by simp, rfl⟩, rfl, rfl⟩, by simp, rfl⟩, rfl, rfl⟩⟩

theorem file_piece {n : Nat} {a b : Str} {l : List Str} (hw : Words (a :: b :: l)) (hl : l.length ≤ 1) :
    ∃ e, Mt (.seq (litRe c!" ") (creationRe n)) (enc (a :: b :: l)) e := by
  obtain ⟨e, he⟩ := full_file (n := n) hw hl
  exact ⟨_, mt_seq.2 ⟨[' '], a ++ enc (b :: l), [], e, (blank_lit.mt _ _).2 ⟨rfl, rfl⟩, he, by simp, rfl⟩⟩

theorem full_star_files (n : Nat) : ∀ (ws : List Str), Words ws → ws.length ≠ 1 → Full (.star false (.seq (litRe c!" ") (creationRe n))) (enc ws)
  | [], _, _ => ⟨[], .starNil⟩
  | [_], _, h => absurd rfl h
  | [a, b, c], hw, _ => by
    obtain ⟨e, he⟩ := file_piece (n := n) hw (by simp)
    refine ⟨[] ++ e, ?_⟩
    have := Mt.starCons (g := false) (by simp) he Mt.starNil
    simpa using this
  | [a, b], hw, _ => by
    obtain ⟨e, he⟩ := file_piece (n := n) hw (by simp)
    refine ⟨[] ++ e, ?_⟩
    have := Mt.starCons (g := false) (by simp) he Mt.starNil
    simpa using this
  | a :: b :: c :: d :: l, hw, _ => by
    obtain ⟨f, hf⟩ := full_star_files n (c :: d :: l) hw.tail.tail (by simp)
    obtain ⟨e, he⟩ := file_piece (n := n) (a := a) (b := b) (l := []) (fwords_cons (hw a (by simp)) (fwords_cons (hw b (by simp)) (by intro x hx; cases hx))) (by simp)
    refine ⟨f ++ e, ?_⟩
    have := Mt.starCons (g := false) (by simp) he hf
    rwa [← enc_append] at this

theorem full_plus_files (n : Nat) (ws : List Str) (hw : Words ws) (hl : 2 ≤ ws.length) : Full (Re.plus false (.seq (litRe c!" ") (creationRe n))) (enc ws) := by
  match ws, hl with
  | [a, b, c], _ =>
    obtain ⟨e, he⟩ := file_piece (n := n) hw (by simp)
    exact ⟨_, mt_seq.2 ⟨_, [], _, [], he, .starNil, by simp, rfl⟩⟩
  | [a, b], _ =>
    obtain ⟨e, he⟩ := file_piece (n := n) hw (by simp)
    exact ⟨_, mt_seq.2 ⟨_, [], _, [], he, .starNil, by simp, rfl⟩⟩
  | a :: b :: c :: d :: l, _ =>
    obtain ⟨f, hf⟩ := full_star_files n (c :: d :: l) hw.tail.tail (by simp)
    obtain ⟨e, he⟩ := file_piece (n := n) (a := a) (b := b) (l := []) (fwords_cons (hw a (by simp)) (fwords_cons (hw b (by simp)) (by intro x hx; cases hx))) (by simp)
    exact ⟨_, mt_seq.2 ⟨_, _, _, _, he, hf, by rw [← enc_append]; rfl, rfl⟩⟩

theorem mt_star_files {n w e} (h : Mt (.star false (.seq (litRe c!" ") (creationRe n))) w e) : ∃ ws, Words ws ∧ w = enc ws := by
  generalize hq : Re.star false (.seq (litRe c!" ") (creationRe n)) = q at h
  induction h with
  | starNil => exact ⟨[], (by intro x hx; cases hx), rfl⟩
  | @starCons g' a' u v x y hu h1 h2 _ ih2 =>
    simp only [Re.star.injEq] at hq
    obtain ⟨rfl, rfl⟩ := hq
    obtain ⟨b, t, x', y', h3, h4, rfl, -⟩ := mt_seq.1 h1
    obtain ⟨rfl, -⟩ := (blank_lit.mt _ _).1 h3
    obtain ⟨z, z', zs, a1, rfl⟩ := mt_file h4
    obtain ⟨ws, hws, rfl⟩ := ih2 rfl
    exact ⟨(z :: z' :: zs) ++ ws, fwords_append a1 hws, by simp [enc_append]⟩
  | _ => cases hq

theorem mt_plus_files {n w e} (h : Mt (Re.plus false (.seq (litRe c!" ") (creationRe n))) w e) : ∃ ws, Words ws ∧ 2 ≤ ws.length ∧ w = enc ws := by
  unfold Re.plus at h
  obtain ⟨u, v, x, y, h1, h2, rfl, -⟩ := mt_seq.1 h
  obtain ⟨b, t, x', y', h3, h4, rfl, -⟩ := mt_seq.1 h1
  obtain ⟨rfl, -⟩ := (blank_lit.mt _ _).1 h3
  obtain ⟨z, z', zs, a1, rfl⟩ := mt_file h4
  obtain ⟨ws, hws, rfl⟩ := mt_star_files h2
  exact ⟨(z :: z' :: zs) ++ ws, fwords_append a1 hws, by simp, by simp [enc_append]⟩

/-! ## The words a file takes -/

theorem run_fwordRe {α : Type} {n : Nat} {a rest prev : Str} {caps} {k : St → Option α} {x : α} (ha : NoSpace a ∧ a ≠ []) (hr : Bnd rest)
    (h : k ⟨a.reverse ++ prev, rest, (n, a) :: caps⟩ = some x) : run (fwordRe n) ⟨prev, a ++ rest, caps⟩ k = some x := by
  obtain ⟨hall, hne⟩ := ha
  rw [run_grp]
  cases a with
  | nil => exact absurd rfl hne
  | cons d t =>
    simp only [Re.plus, run_seq, List.cons_append, run_cls_cons, fwordC_iff.2 (hall d (by simp)), if_true]
    refine run_star_cls_full _ t rest (d :: prev) caps _ x (fun a ha => fwordC_iff.2 (hall a (by simp [ha]))) (by
      intro c cs h
      have := hr c (by simp [h])
      cases hp : fwordC c with
      | false => rfl
      | true => rw [fwordC_iff.1 hp] at this; cases this) ?_
    have ht := take_consumed (d :: t) rest
    simp only [List.cons_append] at ht
    simp only [ht]
    rw [← h]; simp

theorem run_optWord {α : Type} {n : Nat} {a prev : Str} {l : List Str} {caps} {k : St → Option α} {x : α} (ha : NoSpace a ∧ a ≠ [])
    (h : k ⟨a.reverse ++ ' ' :: prev, enc l, (n, a) :: caps⟩ = some x) : run (optWord n) ⟨prev, enc (a :: l), caps⟩ k = some x := by
  rw [run_opt_greedy, run_seq]
  apply or_of_some
  rw [show enc (a :: l) = [' '] ++ (a ++ enc l) from rfl, run_lit_ok c!" " [' '] rfl]
  exact run_fwordRe ha (enc_bnd l) h

theorem run_optWord_end {α : Type} {n : Nat} {prev : Str} {caps} {k : St → Option α} : run (optWord n) ⟨prev, [], caps⟩ k = k ⟨prev, [], caps⟩ := by
  rw [run_opt_greedy, run_seq]
  have : run (litRe c!" ") ⟨prev, [], caps⟩ (fun st => run (fwordRe n) st k) = none := rfl
  rw [this, Option.none_or]

/-- Groups numbered from `n`. -/
def capsFrom (n : Nat) : List Str → List (Nat × Str)
  | [] => []
  | w :: ws => capsFrom (n + 1) ws ++ [(n, w)]

theorem caps_groups : ∀ (ws : List Str) (n : Nat), ∀ x ∈ capsFrom n ws, n ≤ x.1
  | [], _, x, hx => by cases hx
  | w :: ws, n, x, hx => by
    rcases List.mem_append.1 hx with h | h
    · have := caps_groups ws (n + 1) x h
      omega
    · rw [List.mem_singleton.1 h]; exact Nat.le_refl _

theorem caps_lookup : ∀ (ws : List Str) (n j : Nat), (capsFrom n ws).lookup (n + j) = ws[j]?
  | [], _, _ => by simp [capsFrom]
  | w :: ws, n, 0 => by
    have h : (capsFrom (n + 1) ws).lookup n = none := by
      rw [List.lookup_eq_none_iff]
      intro x hx
      have := caps_groups ws (n + 1) x hx
      simp; omega
    simp [capsFrom, List.lookup_append, h]
  | w :: ws, n, j + 1 => by
    have h := caps_lookup ws (n + 1) j
    rw [show n + 1 + j = n + (j + 1) by omega] at h
    have hne : (n + (j + 1) == n) = false := by simp
    simp [capsFrom, List.lookup_append, h, List.lookup_cons, hne]

/-- A file takes as many words as it can, up to five. -/
theorem run_file {α : Type} {n : Nat} {a b : Str} {l : List Str} (hw : Words (a :: b :: l)) {prev : Str} {caps} {k : St → Option α} {x : α}
    (h : k ⟨(a ++ enc (b :: l.take 3)).reverse ++ prev, enc (l.drop 3), capsFrom n (a :: b :: l.take 3) ++ caps⟩ = some x) :
    run (creationRe n) ⟨prev, a ++ enc (b :: l), caps⟩ k = some x := by
  unfold creationRe
  rw [run_seq]
  refine run_fwordRe (hw a (by simp)) (enc_bnd _) ?_
  rw [run_seq, show enc (b :: l) = [' '] ++ (b ++ enc l) from rfl, run_lit_ok c!" " [' '] rfl, run_seq]
  refine run_fwordRe (hw b (by simp)) (enc_bnd _) ?_
  rw [run_seq]
  match l, hw with
  | [], _ =>
    rw [enc_nil, run_optWord_end, run_seq, run_optWord_end, run_optWord_end, ← h]
    simp [capsFrom]
  | [c], hw =>
    refine run_optWord (hw c (by simp)) ?_
    rw [enc_nil, run_seq, run_optWord_end, run_optWord_end, ← h]
    simp [capsFrom]
  | [c, d], hw =>
    refine run_optWord (hw c (by simp)) ?_
    rw [run_seq]
    refine run_optWord (hw d (by simp)) ?_
    rw [enc_nil, run_optWord_end, ← h]
    simp [capsFrom]
  | c :: d :: e :: l, hw =>
    refine run_optWord (hw c (by simp)) ?_
    rw [run_seq]
    refine run_optWord (hw d (by simp)) ?_
    refine run_optWord (hw e (by simp)) ?_
    rw [← h]
    simp [capsFrom]

theorem file_facts (n : Nat) : (creationRe n).free = true ∧ (creationRe n).groupsIn n (n + 5) := by
  constructor
  · simp [creationRe, Re.free, Re.plus, blank_lit.free]
  · simp [creationRe, Re.groupsIn, Re.plus]
    exact blank_lit.groups _ _

/-- The words of the files: five for each, the last has what is left; a single word left over is not taken. -/
def fileWords : List Str → List (List Str)
  | a :: b :: c :: d :: e :: l => [a, b, c, d, e] :: fileWords l
  | [a, b, c, d] => [[a, b, c, d]]
  | [a, b, c] => [[a, b, c]]
  | [a, b] => [[a, b]]
  | [_] => []
  | [] => []

theorem fileWords_step (a b : Str) (l : List Str) : fileWords (a :: b :: l) = (a :: b :: l.take 3) :: fileWords (l.drop 3) := by
  match l with
  | [] => rfl
  | [_] => rfl
  | [_, _] => rfl
  | _ :: _ :: _ :: _ => rfl

abbrev texts (l : List (Str ⊕ (Str × List (Nat × Str)))) : List Str := l.filterMap (fun | .inl _ => none | .inr (t, _) => some t)

theorem file_rest {a : Str} (ha : NoSpace a) (n : Nat) (prev : Str) : texts (finditerAux (creationRe 1) n prev a) = [] := by
  refine List.filterMap_eq_nil_iff.2 ?_
  intro x hx
  cases x with
  | inl => rfl
  | inr p =>
    exfalso
    obtain ⟨t, c⟩ := p
    obtain ⟨h1, -, -⟩ := finditerAux_infix n prev a _ hx t c rfl
    obtain ⟨e, he⟩ := finditerAux_full (file_facts 1).1 n prev a _ hx t c rfl
    obtain ⟨u, v, l, -, rfl⟩ := mt_file he
    have : ' ' ∈ a := h1.subset (by simp)
    exact absurd (ha _ this) (by decide)

theorem finditer_files : ∀ (N : Nat) (a : Str) (l : List Str), l.length ≤ N → Words (a :: l) → ∀ (prev : Str) (n : Nat), (a ++ enc l).length ≤ n →
    texts (finditerAux (creationRe 1) n prev (a ++ enc l)) = (fileWords (a :: l)).map (join [' ']) := by
  intro N
  induction N using Nat.strongRecOn with
  | ind N ih =>
    intro a l hN hw prev n hn
    cases l with
    | nil =>
      rw [enc_nil, List.append_nil, file_rest (hw a (by simp)).1]
      rfl
    | cons b l =>
      have hne := (hw a (by simp)).2
      obtain ⟨c, t, rfl⟩ : ∃ c t, a = c :: t := by
        cases a with
        | nil => exact absurd rfl hne
        | cons c t => exact ⟨c, t, rfl⟩
      cases n with
      | zero => simp at hn
      | succ n =>
        have hsplit : (c :: t) ++ enc (b :: l) = ((c :: t) ++ enc (b :: l.take 3)) ++ enc (l.drop 3) := by
          rw [List.append_assoc, ← enc_append]
          simp
        have hlen : (enc (l.drop 3)).length < ((c :: t) ++ enc (b :: l)).length := by
          rw [hsplit, List.length_append (as := (c :: t) ++ _)]; simp
        have he := run_file (n := 1) hw (prev := prev) (caps := []) (k := findK ((c :: t) ++ enc (b :: l)).length) (findK_ok (by exact hlen))
        unfold findK at he
        have hstep : texts (finditerAux (creationRe 1) (n + 1) prev ((c :: t) ++ enc (b :: l))) = ((c :: t) ++ enc (b :: l.take 3)) ::
            texts (finditerAux (creationRe 1) n (((c :: t) ++ enc (b :: l.take 3)).reverse ++ prev) (enc (l.drop 3))) := by
          rw [List.cons_append] at he ⊢
          rw [finditerAux, he]
          simp only [texts, List.filterMap_cons]
          congr 1
          have := take_consumed ((c :: t) ++ enc (b :: l.take 3)) (enc (l.drop 3))
          rw [← hsplit, List.cons_append] at this
          exact this
        rw [hstep, fileWords_step, List.map_cons]
        congr 1
        · rw [join_enc]
        · generalize hprev : ((c :: t) ++ enc (b :: l.take 3)).reverse ++ prev = prev'
          have hn' : (enc (l.drop 3)).length ≤ n := by omega
          have hw' : Words (l.drop 3) := fun x hx => hw x (by simp [List.mem_of_mem_drop hx])
          have hl' : (l.drop 3).length ≤ l.length := by simp
          generalize l.drop 3 = r at hn' hw' hl'
          cases r with
          | nil => rw [enc_nil]; cases n <;> rfl
          | cons v vs =>
            cases n with
            | zero => simp at hn'
            | succ n =>
              rw [enc_cons, finditerAux]
              have : run (creationRe 1) ⟨prev', ' ' :: (v ++ enc vs), []⟩
                  (fun st => if st.rest.length < (' ' :: (v ++ enc vs)).length then some st else none) = none := by
                apply run_none
                intro st' hst
                obtain ⟨u, e', h1, h2, h3, h4⟩ := hst.mt (file_facts 1).1
                obtain ⟨p, q, s, hp, rfl⟩ := mt_file h1
                obtain ⟨p1, p2⟩ := hp p (by simp)
                cases p with
                | nil => exact absurd rfl p2
                | cons z p =>
                  simp only [List.cons_append, List.cons.injEq] at h2
                  have := p1 z (by simp)
                  rw [← h2.1] at this
                  exact absurd this (by decide)
              rw [this]
              have hlt : vs.length < N := by
                simp only [List.length_cons] at hl' hN
                omega
              have := ih vs.length hlt v vs (Nat.le_refl _) hw' (' ' :: prev') n (by
                rw [enc_cons] at hn'; simp only [List.length_cons] at hn'; omega)
              rw [← this]
              simp only [texts, List.filterMap_cons]

theorem files_split {ws : List Str} (hw : Words ws) (hl : 2 ≤ ws.length) : finditer (creationRe 1) (strip (enc ws)) = (fileWords ws).map (join [' ']) := by
  match ws, hl with
  | a :: b :: l, _ =>
    rw [strip_enc _ _ hw]
    exact finditer_files _ a (b :: l) (Nat.le_refl _) hw [] _ (Nat.le_refl _)

/-! ## One file -/

/-- A text that may be missing. -/
def textVal : Option Str → Val
  | none => .none
  | some s => .sc (.str s)

/-- What one file is read as: unit, name, access, form and length, checked by the class. -/
def readParts (a b : Str) (c d e : Option Str) : Res Val :=
  match intParse a with
  | .error e => .error e
  | .ok u =>
    match e with
    | none => Tab.files_File.mk' [.sc (.int u), .sc (.str b), textVal c, textVal d, .none]
    | some n => match intParse n with
      | .error e => .error e
      | .ok n => Tab.files_File.mk' [.sc (.int u), .sc (.str b), textVal c, textVal d, .sc (.int n)]

/-- What the words of one file are read as. -/
def readFile : List Str → Res Val
  | a :: b :: l => readParts a b l[0]? l[1]? l[2]?
  | _ => .error .inp

theorem file_build {m : List (Nat × Str)} {a b : Str} {c d e : Option Str} (h1 : m.lookup 1 = some a) (h2 : m.lookup 2 = some b) (h3 : m.lookup 3 = c)
    (h4 : m.lookup 4 = d) (h5 : m.lookup 5 = e) (ha : NoSpace a ∧ a ≠ []) (hb : NoSpace b ∧ b ≠ []) (hc : ∀ w ∈ c, NoSpace w ∧ w ≠ [])
    (hd : ∀ w ∈ d, NoSpace w ∧ w ≠ []) (he : ∀ w ∈ e, NoSpace w ∧ w ≠ []) : Tab.files_File.build m = readParts a b c d e := by
  unfold Cls.build
  have hat : Tab.files_File.attrs = [⟨"unit", .base .int, false, some .isNone⟩, ⟨"filename", .base .str, false, some .isNone⟩,
    ⟨"access", .base .str, false, some (.and .notNone (.not (.lowIn ["sequential", "direct", "s", "d"])))⟩,
    ⟨"form", .base .str, false, some (.and .notNone (.not (.lowIn ["formatted", "unformatted", "f", "u"])))⟩,
    ⟨"length", .base .int, false, none⟩] := rfl
  have b1 := attr_word Tab.files_File.pat.ng m 0 ⟨"unit", .base .int, false, some .isNone⟩ (by decide +kernel) rfl (some a) h1
    (by intro u hu; cases hu; exact ha)
  have b2 := attr_word Tab.files_File.pat.ng m (0 + 1) ⟨"filename", .base .str, false, some .isNone⟩ (by decide +kernel) rfl (some b) h2
    (by intro u hu; cases hu; exact hb)
  have b3 := attr_word Tab.files_File.pat.ng m (0 + 1 + 1) ⟨"access", .base .str, false, some (.and .notNone (.not (.lowIn ["sequential", "direct", "s", "d"])))⟩
    (by decide +kernel) rfl c h3 hc
  have b4 := attr_word Tab.files_File.pat.ng m (0 + 1 + 1 + 1) ⟨"form", .base .str, false, some (.and .notNone (.not (.lowIn ["formatted", "unformatted", "f", "u"])))⟩
    (by decide +kernel) rfl d h4 hd
  have b5 := attr_word Tab.files_File.pat.ng m (0 + 1 + 1 + 1 + 1) ⟨"length", .base .int, false, none⟩ (by decide +kernel) rfl e h5 he
  rw [hat]
  simp only [attrVals]
  rw [b1, b2, b3, b4, b5]
  have c1 : readVal ⟨"unit", .base .int, false, some .isNone⟩ (Option.map (fun x => [x]) (some a)) = (intParse a).map (fun n => Val.sc (.int n)) := rfl
  have c2 : readVal ⟨"filename", .base .str, false, some .isNone⟩ (Option.map (fun x => [x]) (some b)) = .ok (Val.sc (.str b)) := rfl
  have cs : ∀ (o : Option Str) nm ck, readVal ⟨nm, .base .str, false, ck⟩ (Option.map (fun x => [x]) o) =
      .ok (textVal o) := by
    intro o nm ck; cases o <;> rfl
  rw [c1, c2, cs, cs]
  unfold readParts
  cases intParse a with
  | error => rfl
  | ok x =>
    cases e with
    | none => rfl
    | some n =>
      have c5 : readVal ⟨"length", .base .int, false, none⟩ (Option.map (fun x => [x]) (some n)) = (intParse n).map (fun n => Val.sc (.int n)) := rfl
      rw [c5]
      dsimp only
      cases intParse n <;> rfl

theorem file_entry {a b : Str} {l : List Str} (hst : ∀ w ∈ a :: b :: l, Stable w) (hl : l.length ≤ 3) :
    unionParse [Tab.files_File] (join [' '] (a :: b :: l)) = readFile (a :: b :: l) := by
  have hw : Words (a :: b :: l) := fun w h => ⟨(hst w h).entry.sp, (hst w h).entry.ne⟩
  obtain ⟨s1, s2⟩ := spaced_single a (b :: l) [] (hst a (by simp)).entry (fun w h => hst w (List.mem_cons_of_mem _ h)) .nil
  have hp := (spaced_prep s1).2.1
  rw [single_body, s2, List.nil_append, List.append_nil] at hp
  rw [join_enc]
  refine union_one hp ?_
  have hre : Tab.files_File.re = anchored (creationRe 1) := rfl
  have hm : reMatch (anchored (creationRe 1)) (a ++ enc (b :: l)) = some ((0, a ++ enc (b :: l)) :: (capsFrom 1 (a :: b :: l) ++ [])) := by
    unfold reMatch anchored
    rw [run_seq, run_bos, if_pos rfl, run_seq]
    refine run_file hw ?_
    rw [List.drop_eq_nil_of_le hl, List.take_of_length_le hl, enc_nil, run_eos, if_pos (by rfl)]
    show some ((0, List.take (_ - 0) _) :: _) = _
    rw [Nat.sub_zero, List.take_length]
  rw [hre, hm]
  show Tab.files_File.build _ = readParts a b l[0]? l[1]? l[2]?
  have look : ∀ (j : Nat) (v : Option Str), (a :: b :: l)[j]? = v → j < 5 → ((0, a ++ enc (b :: l)) :: (capsFrom 1 (a :: b :: l) ++ [])).lookup (j + 1) = v := by
    intro j v hv hj
    rw [List.append_nil, List.lookup_cons, show (j + 1 == 0) = false from by simp, ← hv, ← caps_lookup (a :: b :: l) 1 j, Nat.add_comm]
  have mem : ∀ (j : Nat), ∀ w ∈ l[j]?, NoSpace w ∧ w ≠ [] := fun j w h => hw w (by
    have := List.mem_of_getElem? h
    simp [this])
  exact file_build (look 0 _ rfl (by decide)) (look 1 _ rfl (by decide)) (look 2 _ rfl (by decide)) (look 3 _ rfl (by decide)) (look 4 _ rfl (by decide))
    (hw a (by simp)) (hw b (by simp)) (mem 0) (mem 1) (mem 2)

theorem file_entries : ∀ (N : Nat) (ws : List Str), ws.length ≤ N → (∀ w ∈ ws, Stable w) →
    (fileWords ws).mapM (fun y => unionParse [Tab.files_File] (join [' '] y)) = (fileWords ws).mapM readFile := by
  intro N
  induction N with
  | zero => intro ws h _; rw [List.length_eq_zero_iff.1 (Nat.le_zero.1 h)]; simp only [fileWords, List.mapM_nil]
  | succ N ih =>
    intro ws h hst
    match ws with
    | [] => simp only [fileWords, List.mapM_nil]
    | [_] => simp only [fileWords, List.mapM_nil]
    | a :: b :: l =>
      simp only [List.length_cons] at h
      rw [fileWords_step, List.mapM_cons, List.mapM_cons, ih (l.drop 3) (by simp; omega) (fun w hw => hst w (by simp [List.mem_of_mem_drop hw])),
        file_entry (fun w hw => hst w (by
          rcases List.mem_cons.1 hw with rfl | hw
          · simp
          rcases List.mem_cons.1 hw with rfl | hw
          · simp
          · simp [List.mem_of_mem_take hw])) (by simp; omega)]

/-! ## The card -/

/-- What a card with these words is read as. -/
def readFiles (ws : List Str) : Res Val :=
  if ws.length < 2 then .error .inp
  else match (fileWords ws).mapM readFile with
    | .error e => .error e
    | .ok ys => Tab.Files.mk' [.tuple ys]

abbrev filesHead : Head := ⟨.no, c!"files", .no, .no⟩

theorem files_words {hd : Str} {ws : List Str} (hw : Words (hd :: ws)) (hst : ∀ w ∈ ws, Stable w) (hrd : readHead filesHead hd = some []) :
    (match reMatch Tab.Files.re (hd ++ enc ws) with | none => (.error .inp : Res Val) | some m => Tab.Files.build m) = readFiles ws := by
  have hre : Tab.Files.re = anchored ((Pat.cat (filesHead.pats ++ [Field.pat ⟨.ty Tab.T_files_File, .many⟩])).re 1) := rfl
  have hhw := (Pat.cat filesHead.pats).facts (filesHead.word (by decide +kernel)) 1
  have htl : (Pat.cat [Field.pat ⟨.ty Tab.T_files_File, .many⟩]).re (1 + (Pat.cat filesHead.pats).ng) =
      .seq (.grp 1 (Re.plus false (.seq (litRe c!" ") (creationRe 2)))) .eps := rfl
  have e1 : ∀ w e, Mt ((Pat.cat (filesHead.pats ++ [Field.pat ⟨.ty Tab.T_files_File, .many⟩])).re 1) w e ↔ ∃ u v x y, Mt (headRe filesHead 1) u x ∧
      Mt (Re.plus false (.seq (litRe c!" ") (creationRe 2))) v y ∧ w = u ++ v ∧ e = (1, v) :: y ++ x := by
    intro w e
    rw [mt_cat_append, htl]
    constructor
    · rintro ⟨u', v, x, y, m1, m2, rfl, rfl⟩
      obtain ⟨v, t, x', y', m3, m4, rfl, rfl⟩ := mt_seq.1 m2
      obtain ⟨z, m5, rfl⟩ := mt_grp.1 m3
      obtain ⟨rfl, rfl⟩ := mt_eps.1 m4
      exact ⟨u', v, x, z, m1, m5, by simp, by simp⟩
    · rintro ⟨u', v, x, y, m1, m2, rfl, rfl⟩
      exact ⟨u', v, x, _, m1, mt_seq.2 ⟨v, [], _, [], mt_grp.2 ⟨y, m2, rfl⟩, mt_eps.2 ⟨rfl, rfl⟩, by simp, rfl⟩, rfl, by simp⟩
  have hfree : ((Pat.cat (filesHead.pats ++ [Field.pat ⟨.ty Tab.T_files_File, .many⟩])).re 1).free = true := by
    rw [free_cat, hhw.1, htl]
    simp only [Re.free, Re.plus, blank_lit.free, (file_facts 2).1, Bool.and_self]
  have hsplit : ∀ {u v x y}, Mt (headRe filesHead 1) u x → Mt (Re.plus false (.seq (litRe c!" ") (creationRe 2))) v y → hd ++ enc ws = u ++ v →
      u = hd ∧ v = enc ws ∧ 2 ≤ ws.length := by
    intro u v x y m1 m2 e
    obtain ⟨vs, q1, q2, rfl⟩ := mt_plus_files m2
    obtain ⟨q, q3, q4⟩ := prefix_word (noSp_mt hhw.2.1 _ _ m1) (enc_bnd ws) e
    cases q with
    | nil =>
      simp only [List.nil_append] at q4
      have := enc_inj (fun w h => (q1 w h).1) (fun w h => (hw.tail w h).1) q4
      subst this
      exact ⟨by simpa using q3.symm, rfl, q2⟩
    | cons c q =>
      have := enc_bnd vs c (by rw [q4]; simp)
      have h3 := (hw hd (by simp)).1 c (by rw [q3]; simp)
      rw [h3] at this; cases this
  rw [hre]
  unfold readFiles
  by_cases hl : ws.length < 2
  · rw [if_pos hl]
    cases hm : reMatch (anchored ((Pat.cat (filesHead.pats ++ [Field.pat ⟨.ty Tab.T_files_File, .many⟩])).re 1)) (hd ++ enc ws) with
    | none => rfl
    | some m =>
      obtain ⟨c, hc, rfl⟩ := full_match hfree hm
      obtain ⟨u, v, x, y, n1, n2, e, -⟩ := (e1 _ _).1 hc
      have := (hsplit n1 n2 e).2.2
      omega
  · rw [if_neg hl]
    have hl2 : 2 ≤ ws.length := by omega
    obtain ⟨x1, m1⟩ := head_full hrd (hw hd (by simp)).1 1
    obtain ⟨y1, m2⟩ := full_plus_files 2 ws hw.tail hl2
    obtain ⟨m, hm⟩ := Option.isSome_iff_exists.1 ((full_iff _ hfree (hd ++ enc ws)).2 ⟨_, (e1 _ _).2 ⟨hd, enc ws, x1, y1, m1, m2, rfl, rfl⟩⟩)
    obtain ⟨c, hc, rfl⟩ := full_match hfree hm
    obtain ⟨u, v, x, y, n1, n2, e, rfl⟩ := (e1 _ _).1 hc
    obtain ⟨-, rfl, -⟩ := hsplit n1 n2 e
    have hm' : reMatch (anchored ((Pat.cat (filesHead.pats ++ [Field.pat ⟨.ty Tab.T_files_File, .many⟩])).re 1)) (hd ++ enc ws) =
      some ((0, hd ++ enc ws) :: ((1, enc ws) :: y ++ x)) := hm
    rw [hm']
    show Tab.Files.build _ = _
    unfold Cls.build
    have ha : attrVal Tab.Files.pat.ng ((0, hd ++ enc ws) :: ((1, enc ws) :: y ++ x)) 0 ⟨"creations", Tab.T_files_File, true, some .isNone⟩ =
        ((fileWords ws).mapM readFile).map .tuple := by
      unfold attrVal
      rw [if_neg (by decide +kernel)]
      have hc : cap ((0, hd ++ enc ws) :: ((1, enc ws) :: y ++ x)) (0 + 1) = some (enc ws) := rfl
      rw [hc]
      have hs := files_split hw.tail hl2
      match ws, hl2 with
      | w :: v :: vs, _ =>
        have hne : ∃ ch t, enc (w :: v :: vs) = ch :: t := ⟨_, _, enc_cons ..⟩
        obtain ⟨ch, t, he⟩ := hne
        rw [he]
        simp only [Attr.parse, if_true, tupleParse]
        rw [← he, creationRe_eq, hs, List.mapM_map]
        have hpp : Tab.T_files_File.parse = unionParse [Tab.files_File] := by
          unfold Tab.T_files_File
          rw [asTy_parse]
        have := file_entries _ (w :: v :: vs) (Nat.le_refl _) hst
        rw [hpp]
        rw [← this]
        simp only [Function.comp_def]
    have hat : Tab.Files.attrs = [⟨"creations", Tab.T_files_File, true, some .isNone⟩] := rfl
    rw [hat]
    simp only [attrVals]
    rw [ha]
    cases (fileWords ws).mapM readFile <;> rfl

end Inp
