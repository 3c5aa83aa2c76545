import Verif.Meshtal.File
import Verif.Ptrac.LineLemmas
import Verif.Py.RegexLex
/-! Lemmas on mesh tally rows. -/
namespace Meshtal
open Py Types Ptrac

/-- Which of the optional columns of widths `ws` the pattern takes from `L` characters, when what follows accepts the
numbers of characters in `acc`. -/
def choose (acc : Nat → Bool) : List Nat → Nat → Option (List Bool)
  | [], L => if acc L then some [] else none
  | w :: ws, L =>
    match if w ≤ L then choose acc ws (L - w) else none with
    | some bs => some (true :: bs)
    | none => (choose acc ws L).map (false :: ·)

/-- Cut a text into the chosen columns and the rest. -/
def cut : List Nat → List Bool → Str → List (Option Str) × Str
  | w :: ws, true :: bs, u => let r := cut ws bs (u.drop w); (some (u.take w) :: r.1, r.2)
  | _ :: ws, false :: bs, u => let r := cut ws bs u; (none :: r.1, r.2)
  | _, _, u => ([], u)

/-- The captures of chosen columns. -/
def optCaps : Nat → List (Option Str) → List (Nat × Str) → List (Nat × Str)
  | _, [], c => c
  | n, none :: fs, c => optCaps (n + 1) fs c
  | n, some f :: fs, c => optCaps (n + 1) fs ((n, f) :: c)

def texts (fs : List (Option Str)) : Str := (fs.map orBlank).flatten

theorem cut_texts (ws : List Nat) : ∀ (bs : List Bool) (u : Str), texts (cut ws bs u).1 ++ (cut ws bs u).2 = u := by
  induction ws with
  | nil => intro bs u; cases bs <;> rfl
  | cons w ws ih =>
    intro bs u
    cases bs with
    | nil => rfl
    | cons b bs =>
      cases b with
      | true =>
        have := ih bs (u.drop w)
        simp only [cut, texts, List.map_cons, List.flatten_cons, orBlank, List.append_assoc] at this ⊢
        rw [this, List.take_append_drop]
      | false =>
        have := ih bs u
        simpa [cut, texts, orBlank] using this

theorem run_optFields {α : Type} (R : Str) (k : St → Option α) (r : Re) (acc : Nat → Bool) (f : Str → Str → List (Nat × Str) → α)
    (N : Nat)
    (hr : ∀ prev u caps, '\n' ∉ u → u.length ≤ N → run r ⟨prev, u ++ R, caps⟩ k = if acc u.length then some (f prev u caps) else none)
    (hR : R = [] ∨ ∃ t, R = '\n' :: t) (ws : List Nat) : ∀ (n : Nat) (prev u : Str) (caps), '\n' ∉ u → u.length ≤ N →
    run (optFields n ws r) ⟨prev, u ++ R, caps⟩ k =
      (choose acc ws u.length).map fun bs => f ((texts (cut ws bs u).1).reverse ++ prev) (cut ws bs u).2 (optCaps n (cut ws bs u).1 caps) := by
  induction ws with
  | nil =>
    intro n prev u caps hu hN
    rw [optFields, hr prev u caps hu hN, choose]
    split <;> simp [cut, texts, optCaps]
  | cons w ws ih =>
    intro n prev u caps hu hN
    rw [optFields, run_seq, run_opt_greedy, run_grp, choose]
    simp only
    rw [ih _ prev u caps hu hN]
    have one : run (Re.rep w .dot) ⟨prev, u ++ R, caps⟩ (fun t => run (optFields (n + 1) ws r)
          { t with caps := (n, (u ++ R).take ((u ++ R).length - t.rest.length)) :: t.caps } k) =
        if w ≤ u.length then (choose acc ws (u.length - w)).map fun bs =>
          f ((texts (cut ws bs (u.drop w)).1).reverse ++ ((u.take w).reverse ++ prev)) (cut ws bs (u.drop w)).2
            (optCaps (n + 1) (cut ws bs (u.drop w)).1 ((n, u.take w) :: caps)) else none := by
      by_cases hw : w ≤ u.length
      · rw [if_pos hw]
        have hl : (u.take w).length = w := by simp; omega
        have hu1 : '\n' ∉ u.take w := fun h => hu (List.mem_of_mem_take h)
        have hu2 : '\n' ∉ u.drop w := fun h => hu (List.mem_of_mem_drop h)
        have e : u ++ R = u.take w ++ (u.drop w ++ R) := by rw [← List.append_assoc, List.take_append_drop]
        rw [e]
        have := run_rep_dot (u.take w) (u.drop w ++ R) prev caps (fun t => run (optFields (n + 1) ws r)
          { t with caps := (n, (u.take w ++ (u.drop w ++ R)).take ((u.take w ++ (u.drop w ++ R)).length - t.rest.length)) :: t.caps } k) hu1
        rw [hl] at this
        rw [this]
        simp only [take_consumed]
        rw [ih _ _ _ _ hu2 (by simp; omega), List.length_drop]
      · rw [if_neg hw]
        rcases hR with rfl | ⟨t, rfl⟩
        · rw [List.append_nil]; exact run_rep_short _ _ _ _ _ (by omega)
        · exact run_rep_nl _ _ _ _ _ _ (by omega)
    rw [one]
    by_cases hw : w ≤ u.length
    · rw [if_pos hw, if_pos hw]
      cases hc : choose acc ws (u.length - w) with
      | some bs => simp [cut, texts, orBlank, optCaps]
      | none =>
        simp only [Option.map_none, Option.none_or]
        cases hc' : choose acc ws u.length with
        | none => rfl
        | some bs => simp [cut, texts, orBlank, optCaps]
    · rw [if_neg hw, if_neg hw]
      simp only [Option.none_or]
      cases hc' : choose acc ws u.length with
      | none => rfl
      | some bs => simp [cut, texts, orBlank, optCaps]

theorem not_nl_rep {α : Type} (n : Nat) (u R prev : Str) (caps) (k : St → Option α) (hR : R = [] ∨ ∃ t, R = '\n' :: t)
    (h : u.length < n) : run (Re.rep n .dot) ⟨prev, u ++ R, caps⟩ k = none := by
  rcases hR with rfl | ⟨t, rfl⟩
  · rw [List.append_nil]; exact run_rep_short _ _ _ _ _ h
  · exact run_rep_nl _ _ _ _ _ _ h

/-- The two columns every row has. -/
theorem run_last {α : Type} (prev u R : Str) (caps) (k : St → Option α) (hu : '\n' ∉ u) (hR : R = [] ∨ ∃ t, R = '\n' :: t) :
    run (fieldsRe 6 [12, 12]) ⟨prev, u ++ R, caps⟩ k =
      if 24 ≤ u.length then k ⟨(u.take 24).reverse ++ prev, u.drop 24 ++ R, (7, (u.drop 12).take 12) :: (6, u.take 12) :: caps⟩ else none := by
  by_cases h : 24 ≤ u.length
  · rw [if_pos h]
    have e : u ++ R = [u.take 12, (u.drop 12).take 12].flatten ++ (u.drop 24 ++ R) := by
      have h1 : u = u.take 12 ++ ((u.drop 12).take 12 ++ u.drop 24) := by
        rw [show u.drop 24 = (u.drop 12).drop 12 by rw [List.drop_drop], List.take_append_drop, List.take_append_drop]
      conv => lhs; rw [h1]
      simp
    have hw : [12, 12] = [u.take 12, (u.drop 12).take 12].map (·.length) := by
      simp; omega
    rw [e]
    conv => lhs; rw [hw]
    rw [run_fields 6 _ _ _ _ _ (by
      intro f hf hc
      simp only [List.mem_cons, List.not_mem_nil, or_false] at hf
      rcases hf with rfl | rfl
      · exact hu (List.mem_of_mem_take hc)
      · exact hu (List.mem_of_mem_drop (List.mem_of_mem_take hc)))]
    congr 2
    have : u.take 24 = u.take 12 ++ (u.drop 12).take 12 := List.take_add (i := 12) (j := 12)
    rw [this]; simp
  · rw [if_neg h]
    rw [fieldsRe, run_seq, run_grp]
    simp only
    by_cases h1 : 12 ≤ u.length
    · have hl : (u.take 12).length = 12 := by simp; omega
      have e : u ++ R = u.take 12 ++ (u.drop 12 ++ R) := by rw [← List.append_assoc, List.take_append_drop]
      rw [e]
      have := fun k => run_rep_dot (α := α) (u.take 12) (u.drop 12 ++ R) prev caps k (fun h => hu (List.mem_of_mem_take h))
      rw [hl] at this
      rw [this]
      simp only
      rw [fieldsRe, run_seq, run_grp]
      simp only
      exact not_nl_rep _ _ _ _ _ _ hR (by simp; omega)
    · exact not_nl_rep _ _ _ _ _ _ hR (by omega)

/-- What the tail of the row pattern accepts at the end of a text. -/
theorem run_tail_end {α : Type} (prev u R : Str) (caps) (k : St → Option α) (hu : '\n' ∉ u) (hR : R = [] ∨ R = ['\n']) :
    run (.seq (fieldsRe 6 [12, 12]) (.opt true (Re.chr '\n'))) ⟨prev, u ++ R, caps⟩ (fun st => run .eos st k) =
      if u.length == 24 then k ⟨R.reverse ++ (u.reverse ++ prev), [], (7, (u.drop 12).take 12) :: (6, u.take 12) :: caps⟩ else none := by
  have hR' : R = [] ∨ ∃ t, R = '\n' :: t := hR.imp id fun h => ⟨[], h⟩
  rw [run_seq, run_last _ _ _ _ _ hu hR']
  by_cases h : 24 ≤ u.length
  · rw [if_pos h, run_opt_greedy]
    by_cases he : u.length = 24
    · rw [if_pos (by simp [he])]
      have h1 : u.drop 24 = [] := List.drop_eq_nil_of_le (by omega)
      have h2 : u.take 24 = u := List.take_of_length_le (by omega)
      rw [h1, h2, List.nil_append]
      rcases hR with rfl | rfl
      · rw [Re.chr, run_cls_nil, run_eos, if_pos rfl, Option.none_or]; rfl
      · rw [Re.chr, run_cls_cons, if_pos (by decide), run_eos, if_pos rfl, run_eos, if_neg (by simp), Option.or_none]; rfl
    · rw [if_neg (by simpa using he)]
      cases hd : u.drop 24 with
      | nil => have := congrArg List.length hd; simp at this; omega
      | cons c cs =>
        have hc : c ≠ '\n' := fun e => hu (List.mem_of_mem_drop (by rw [hd, e]; simp))
        rw [List.cons_append, Re.chr, run_cls_cons, if_neg (by simpa using hc), run_eos, if_neg (by simp), Option.or_none]
  · rw [if_neg h, if_neg (by simp; omega)]

/-- And in the middle of a text. -/
theorem run_tail_mid {α : Type} (prev u R : Str) (caps) (k : St → Option α) (hu : '\n' ∉ u) (hR : R = [] ∨ ∃ t, R = '\n' :: t)
    (g : St → α) (hk : ∀ st : St, st.rest.length ≤ (u.drop 24 ++ R).length → k st = some (g st)) :
    run (.seq (fieldsRe 6 [12, 12]) (.opt true (Re.chr '\n'))) ⟨prev, u ++ R, caps⟩ k =
      if decide (24 ≤ u.length) then
        some (if u.length = 24 then g ⟨(R.take 1).reverse ++ (u.reverse ++ prev), R.drop 1, (7, (u.drop 12).take 12) :: (6, u.take 12) :: caps⟩
          else g ⟨(u.take 24).reverse ++ prev, u.drop 24 ++ R, (7, (u.drop 12).take 12) :: (6, u.take 12) :: caps⟩) else none := by
  rw [run_seq, run_last _ _ _ _ _ hu hR]
  by_cases h : 24 ≤ u.length
  · rw [if_pos h, if_pos (by simpa using h), run_opt_greedy]
    by_cases he : u.length = 24
    · rw [if_pos he]
      have h1 : u.drop 24 = [] := List.drop_eq_nil_of_le (by omega)
      have h2 : u.take 24 = u := List.take_of_length_le (by omega)
      rw [h1] at hk
      rw [h1, h2, List.nil_append]
      rcases hR with rfl | ⟨t, rfl⟩
      · rw [Re.chr, run_cls_nil, hk _ (by simp), Option.none_or]; rfl
      · rw [Re.chr, run_cls_cons, if_pos (by decide), hk _ (by simp)]; rfl
    · rw [if_neg he]
      cases hd : u.drop 24 with
      | nil => have := congrArg List.length hd; simp at this; omega
      | cons c cs =>
        have hc : c ≠ '\n' := fun e => hu (List.mem_of_mem_drop (by rw [hd, e]; simp))
        rw [hd] at hk
        rw [List.cons_append, Re.chr, run_cls_cons, if_neg (by simpa using hc), Option.none_or, hk _ (by simp)]
  · rw [if_neg h, if_neg (by simpa using h)]

def widths : List Nat := [9, 11, 9, 10, 10]

/-- The row made of chosen columns. -/
def rowOf : List (Option Str) × Str → Row
  | (fs, r) => ⟨fs[0]?.join, fs[1]?.join, fs[2]?.join, fs[3]?.join, fs[4]?.join, r.take 12, (r.drop 12).take 12⟩

theorem choose_length {acc ws L bs} (h : choose acc ws L = some bs) : bs.length = ws.length := by
  induction ws generalizing L bs with
  | nil => rw [choose] at h; split at h <;> simp_all
  | cons w ws ih =>
    rw [choose] at h
    split at h
    · rename_i bs' hb
      cases h
      split at hb
      · simp [ih hb]
      · cases hb
    · obtain ⟨bs', h1, rfl⟩ := Option.map_eq_some_iff.1 h
      simp [ih h1]

theorem choose_acc {acc ws L bs} (u : Str) (hu : u.length = L) (h : choose acc ws L = some bs) : acc (cut ws bs u).2.length = true := by
  induction ws generalizing L bs u with
  | nil =>
    rw [choose] at h
    split at h
    · cases h; simpa [cut, hu]
    · cases h
  | cons w ws ih =>
    rw [choose] at h
    split at h
    · rename_i bs' hb
      cases h
      split at hb
      · exact ih (u.drop w) (by simp; omega) hb
      · cases hb
    · obtain ⟨bs', h1, rfl⟩ := Option.map_eq_some_iff.1 h
      exact ih u hu h1

/-- The columns chosen have their widths. -/
theorem cut_widths {acc ws L bs} (u : Str) (hu : u.length = L) (h : choose acc ws L = some bs) :
    (cut ws bs u).1.map Option.isSome = bs ∧ ∀ p ∈ (cut ws bs u).1.zip ws, ∀ f, p.1 = some f → f.length = p.2 := by
  induction ws generalizing L bs u with
  | nil =>
    rw [choose] at h
    split at h
    · cases h; simp [cut]
    · cases h
  | cons w ws ih =>
    rw [choose] at h
    split at h
    · rename_i bs' hb
      cases h
      split at hb
      · rename_i hw
        obtain ⟨h1, h2⟩ := ih (u.drop w) (by simp; omega) hb
        refine ⟨by simp [cut, h1], ?_⟩
        intro p hp f hf
        simp only [cut, List.zip_cons_cons, List.mem_cons] at hp
        rcases hp with rfl | hp
        · cases hf; simp; omega
        · exact h2 p hp f hf
      · cases hb
    · obtain ⟨bs', h1, rfl⟩ := Option.map_eq_some_iff.1 h
      obtain ⟨h2, h3⟩ := ih u hu h1
      refine ⟨by simp [cut, h2], ?_⟩
      intro p hp f hf
      simp only [cut, List.zip_cons_cons, List.mem_cons] at hp
      rcases hp with rfl | hp
      · cases hf
      · exact h3 p hp f hf

/-- How the pattern of rows works inside a text. -/
theorem row_find (prev u R : Str) (hu : '\n' ∉ u) (hR : R = [] ∨ ∃ t, R = '\n' :: t) (bs : List Bool)
    (hc : choose (fun L => decide (24 ≤ L)) widths u.length = some bs) (he : (cut widths bs u).2.length = 24) :
    run rowBody ⟨prev, ' ' :: ' ' :: (u ++ R), []⟩ (findK (' ' :: ' ' :: (u ++ R)).length) =
      some ⟨(R.take 1).reverse ++ (u.reverse ++ ' ' :: ' ' :: prev), R.drop 1,
        (7, ((cut widths bs u).2.drop 12).take 12) :: (6, (cut widths bs u).2.take 12) :: optCaps 1 (cut widths bs u).1 []⟩ := by
  unfold rowBody
  rw [run_seq, Re.chr, run_cls_cons, if_pos (by decide), run_seq, run_cls_cons, if_pos (by decide)]
  have := run_optFields R (findK (' ' :: ' ' :: (u ++ R)).length) (.seq (fieldsRe 6 [12, 12]) (.opt true (Re.chr '\n')))
    (fun L => decide (24 ≤ L)) (fun prev v caps =>
      if v.length = 24 then ⟨(R.take 1).reverse ++ (v.reverse ++ prev), R.drop 1, (7, (v.drop 12).take 12) :: (6, v.take 12) :: caps⟩
          else ⟨(v.take 24).reverse ++ prev, v.drop 24 ++ R, (7, (v.drop 12).take 12) :: (6, v.take 12) :: caps⟩) u.length (by
      intro prev v caps hv hl
      exact run_tail_mid _ _ _ _ _ hv hR id (by
        intro st hst
        unfold findK
        rw [if_pos (by simp at hst ⊢; omega)]; rfl)) hR widths 1 (' ' :: ' ' :: prev) u [] hu (Nat.le_refl _)
  rw [hc, Option.map_some, if_pos he] at this
  have e := cut_texts widths bs u
  have e2 : (cut widths bs u).2.reverse ++ ((texts (cut widths bs u).1).reverse ++ ' ' :: ' ' :: prev) = u.reverse ++ ' ' :: ' ' :: prev := by
    conv => rhs; rw [← e]
    simp
  rw [e2] at this
  exact this

theorem row_caps (fs : List (Option Str)) (hl : fs.length = 5) (hne : ∀ f, some f ∈ fs → f ≠ []) (r t : Str) :
    let m := (0, t) :: (7, (r.drop 12).take 12) :: (6, r.take 12) :: optCaps 1 fs []
    (⟨optTok m 1, optTok m 2, optTok m 3, optTok m 4, optTok m 5, tok m 6, tok m 7⟩ : Row) = rowOf (fs, r) := by
  match fs, hl with
  | [a, b, c, d, e], _ =>
    have o : ∀ f, some f ∈ [a, b, c, d, e] → (if f = [] then none else some f) = some f := fun f hf => if_neg (hne f hf)
    rcases a with _ | a <;> rcases b with _ | b <;> rcases c with _ | c <;> rcases d with _ | d <;> rcases e with _ | e <;>
      simp [optTok, tok, optCaps, rowOf, cap, List.lookup] <;> simp_all

/-- How the text of a row is read. -/
theorem row_read (u R : Str) (hu : '\n' ∉ u) (hR : R = [] ∨ R = ['\n']) :
    rowParse (' ' :: ' ' :: (u ++ R)) =
      match choose (· == 24) widths u.length with
      | none => .error .meshtal
      | some bs => .ok (rowOf (cut widths bs u)) := by
  have hR' : R = [] ∨ ∃ t, R = '\n' :: t := hR.imp id fun h => ⟨[], h⟩
  have hm : reMatch rowRe (' ' :: ' ' :: (u ++ R)) = (choose (· == 24) widths u.length).map fun bs =>
      (0, ' ' :: ' ' :: (u ++ R)) :: (7, ((cut widths bs u).2.drop 12).take 12) :: (6, (cut widths bs u).2.take 12) ::
        optCaps 1 (cut widths bs u).1 [] := by
    unfold reMatch rowRe rowBody
    rw [run_seq, run_bos, if_pos rfl, run_seq, run_seq, Re.chr, run_cls_cons, if_pos (by decide), run_seq, run_cls_cons,
      if_pos (by decide)]
    exact run_optFields R _ _ (· == 24) (fun _ r c => (0, ' ' :: ' ' :: (u ++ R)) :: (7, (r.drop 12).take 12) :: (6, r.take 12) :: c) u.length (by
      intro prev v caps hv _
      rw [run_tail_end _ _ _ _ _ hv hR]
      simp only [List.length_nil, Nat.sub_zero, List.take_length]) hR' widths 1 _ u [] hu (Nat.le_refl _)
  unfold rowParse
  rw [hm]
  cases hc : choose (· == 24) widths u.length with
  | none => rfl
  | some bs =>
    simp only [Option.map_some]
    obtain ⟨h1, h2⟩ := cut_widths u rfl hc
    have hl : (cut widths bs u).1.length = 5 := by
      rw [← List.length_map (f := Option.isSome), h1, choose_length hc]; rfl
    congr 1
    refine row_caps _ hl ?_ _ _
    intro f hf he
    obtain ⟨i, hi, hg⟩ := List.getElem_of_mem hf
    have hi5 : i < 5 := by omega
    have hz : ((cut widths bs u).1.zip widths)[i]'(by rw [List.length_zip, hl]; exact hi5) ∈ (cut widths bs u).1.zip widths := List.getElem_mem _
    rw [List.getElem_zip] at hz
    have := h2 _ hz f hg
    have hw : ∀ w ∈ widths, 0 < w := by decide
    have := hw _ (List.getElem_mem hi5 : widths[i]'hi5 ∈ widths)
    rw [he] at *
    simp at *
    omega

/-- A row is read from two blanks, characters other than line ends, and at most one line end. -/
theorem row_shape {s : Str} {t : Row} (h : rowParse s = .ok t) : ∃ u R, s = ' ' :: ' ' :: (u ++ R) ∧ '\n' ∉ u ∧ (R = [] ∨ R = ['\n']) := by
  unfold rowParse at h
  split at h
  · cases h
  · rename_i m hm
    obtain ⟨st', hs, -⟩ := reMatch_some hm
    have dot : ∀ n a b, Step (Re.rep n .dot) a b → ∃ v, '\n' ∉ v ∧ a.rest = v ++ b.rest := by
      intro n
      induction n with
      | zero => intro a b h; rw [Re.rep, step_eps] at h; subst h; exact ⟨[], by simp, rfl⟩
      | succ n ih =>
        intro a b h
        rw [Re.rep, step_seq] at h
        obtain ⟨c, h1, h2⟩ := h
        rw [Re.dot, step_cls] at h1
        obtain ⟨x, xs, hx', hx, rfl⟩ := h1
        obtain ⟨v, hv, e⟩ := ih _ _ h2
        refine ⟨x :: v, ?_, by rw [hx]; exact congrArg _ e⟩
        simp only [List.mem_cons, not_or]
        exact ⟨fun e => by simp [← e] at hx', hv⟩
    have grp : ∀ i n a b, Step (.grp i (Re.rep n .dot)) a b → ∃ v, '\n' ∉ v ∧ a.rest = v ++ b.rest := by
      intro i n a b h
      obtain ⟨d, h3, rfl⟩ := step_grp.1 h
      exact dot n a d h3
    have cat : ∀ {a b c : St}, (∃ v, '\n' ∉ v ∧ a.rest = v ++ b.rest) → (∃ v, '\n' ∉ v ∧ b.rest = v ++ c.rest) →
        ∃ v, '\n' ∉ v ∧ a.rest = v ++ c.rest := by
      rintro a b c ⟨v, h1, e1⟩ ⟨w, h2, e2⟩
      exact ⟨v ++ w, by simp [h1, h2], by rw [e1, e2, List.append_assoc]⟩
    have opts : ∀ ws n (r : Re) a b, Step (optFields n ws r) a b → ∃ c, (∃ v, '\n' ∉ v ∧ a.rest = v ++ c.rest) ∧ Step r c b := by
      intro ws
      induction ws with
      | nil => intro n r a b h; exact ⟨a, ⟨[], by simp, rfl⟩, h⟩
      | cons w ws ih =>
        intro n r a b h
        rw [optFields, step_seq] at h
        obtain ⟨c, h1, h2⟩ := h
        obtain ⟨d, h3, h4⟩ := ih _ _ _ _ h2
        refine ⟨d, cat ?_ h3, h4⟩
        rw [step_opt] at h1
        rcases h1 with rfl | h1
        · exact ⟨[], by simp, rfl⟩
        · exact grp _ _ _ _ h1
    unfold rowRe rowBody at hs
    rw [step_seq] at hs
    obtain ⟨a, h1, hs⟩ := hs
    obtain ⟨rfl, -⟩ := step_bos.1 h1
    rw [step_seq] at hs
    obtain ⟨b, hs, he⟩ := hs
    obtain ⟨rfl, he⟩ := step_eos.1 he
    rw [step_seq, Re.chr] at hs
    obtain ⟨c, h1, hs⟩ := hs
    obtain ⟨x, xs, hx', hx, rfl⟩ := step_cls.1 h1
    rw [step_seq] at hs
    obtain ⟨d, h1, hs⟩ := hs
    obtain ⟨y, ys, hy', hy, rfl⟩ := step_cls.1 h1
    obtain ⟨e, h2, hq⟩ := opts _ _ _ _ _ hs
    rw [step_seq] at hq
    obtain ⟨f, h3, hq⟩ := hq
    rw [fieldsRe, step_seq] at h3
    obtain ⟨g, h3, h4⟩ := h3
    rw [fieldsRe, step_seq] at h4
    obtain ⟨i, h4, h5⟩ := h4
    rw [fieldsRe, step_eps] at h5
    subst h5
    obtain ⟨v, hv, ev⟩ := cat (cat h2 (grp _ _ _ _ h3)) (grp _ _ _ _ h4)
    simp only [beq_iff_eq] at hx' hy'
    simp only at hx hy ev
    subst hx' hy'
    refine ⟨v, f.rest, by rw [hx, hy, ev], hv, ?_⟩
    rw [step_opt] at hq
    rcases hq with rfl | hq
    · exact .inl he
    · obtain ⟨z, zs, hz', hz, rfl⟩ := step_cls.1 hq
      simp only [beq_iff_eq] at hz'
      subst hz'
      exact .inr (by rw [hz, show zs = [] from he])

end Meshtal
