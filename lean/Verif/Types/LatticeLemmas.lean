import Verif.Types.Lattice
import Verif.Types.GeometryGrammar
import Verif.Py.RegexLex
/-! Helper lemmas for lattice expressions. -/
namespace Types
open Py

/-! ### Integers -/

/-- Optionally signed digits. -/
def IsInt (s : Str) : Prop := ∃ g d, (g = [] ∨ g = ['+'] ∨ g = ['-']) ∧ d ≠ [] ∧ Digits d ∧ s = g ++ d

theorem ldigit_iff (s : Str) : (reMatch ldigitRe s).isSome = true ↔ IsInt s := by
  constructor
  · intro h
    obtain ⟨m, hm⟩ := Option.isSome_iff_exists.1 h
    obtain ⟨st', hs, _⟩ := reMatch_some hm
    unfold ldigitRe at hs
    obtain ⟨m1, h1, hs⟩ := step_seq.1 hs
    obtain ⟨rfl, _⟩ := step_bos.1 h1
    obtain ⟨m2, h2, hs⟩ := step_seq.1 hs
    obtain ⟨rfl, he⟩ := step_eos.1 hs
    obtain ⟨m3, h3, rfl⟩ := step_grp.1 h2
    obtain ⟨m4, h4, h5⟩ := step_seq.1 h3
    obtain ⟨a, r, hne, ha, e1, rfl⟩ := step_plus_cls.1 h5
    simp only [St.adv_rest] at he
    subst he
    rcases step_opt.1 h4 with rfl | h4
    · exact ⟨[], a, .inl rfl, hne, ha, by simpa using e1⟩
    · obtain ⟨c, cs, hc, e2, rfl⟩ := step_cls.1 h4
      simp only [St.adv_rest] at e1 e2
      have hc' : c = '+' ∨ c = '-' := by simpa using hc
      refine ⟨[c], a, ?_, hne, ha, by rw [e2, e1]; simp⟩
      rcases hc' with rfl | rfl <;> simp
  · rintro ⟨g, d, hg, hne, hd, rfl⟩
    have hplus : ∀ prev caps, Step (Re.plus false Re.digit) ⟨prev, d, caps⟩ ⟨d.reverse ++ prev, [], caps⟩ := by
      intro prev caps
      refine step_plus_cls.2 ⟨d, [], hne, hd, by simp, rfl⟩
    have hopt : ∃ m : St, Step (.opt true (Re.oneOf "+-")) ⟨[], g ++ d, []⟩ m ∧ m.rest = d := by
      rcases hg with rfl | rfl | rfl
      · exact ⟨_, step_opt.2 (.inl rfl), rfl⟩
      · exact ⟨⟨['+'], d, []⟩, step_opt.2 (.inr (step_cls.2 ⟨'+', d, by decide, rfl, rfl⟩)), rfl⟩
      · exact ⟨⟨['-'], d, []⟩, step_opt.2 (.inr (step_cls.2 ⟨'-', d, by decide, rfl, rfl⟩)), rfl⟩
    obtain ⟨⟨pv, rs, cp⟩, h1, h2⟩ := hopt
    simp only at h2; subst h2
    cases hm : reMatch ldigitRe (g ++ rs) with
    | some m => rfl
    | none =>
      exfalso
      have := (run_spec _ _ _).1.1 hm _ (step_seq.2 ⟨_, step_bos.2 ⟨rfl, rfl⟩,
        step_seq.2 ⟨_, step_grp.2 ⟨_, step_seq.2 ⟨_, h1, hplus pv cp⟩, rfl⟩, step_eos.2 ⟨rfl, rfl⟩⟩⟩)
      cases this

theorem lDigit_int {s : Str} (h : IsInt s) (r : List Str) : lDigit (s :: r) = .ok (.digit s, r) := by
  simp [lDigit, (ldigit_iff s).2 h]

theorem lDigit_ok {ts x r} (h : lDigit ts = .ok (x, r)) : ∃ s, IsInt s ∧ x = .digit s ∧ ts = s :: r := by
  cases ts with
  | nil => simp [lDigit] at h
  | cons t ts =>
    simp only [lDigit] at h
    split at h
    · rename_i ht
      have := Except.ok.inj h
      exact ⟨t, (ldigit_iff t).1 ht, (Prod.mk.inj this).1.symm, by rw [(Prod.mk.inj this).2]⟩
    · cases h

theorem IsInt.head {s : Str} (h : IsInt s) : ∃ c cs, s = c :: cs ∧ (isDigit c = true ∨ c = '+' ∨ c = '-') := by
  obtain ⟨g, d, hg, hne, hd, rfl⟩ := h
  rcases hg with rfl | rfl | rfl
  · cases d with
    | nil => exact absurd rfl hne
    | cons c cs => exact ⟨c, cs, rfl, .inl (hd c (by simp))⟩
  · exact ⟨_, _, rfl, .inr (.inl rfl)⟩
  · exact ⟨_, _, rfl, .inr (.inr rfl)⟩

theorem IsInt.noSpace {s : Str} (h : IsInt s) : ∀ c ∈ s, isSpace c = false := by
  obtain ⟨g, d, hg, hne, hd, rfl⟩ := h
  intro c hc
  rcases List.mem_append.1 hc with hc | hc
  · rcases hg with rfl | rfl | rfl
    · cases hc
    · simp at hc; subst hc; decide
    · simp at hc; subst hc; decide
  · exact isDigit_not_space (hd c hc)

/-- A symbol is not an integer. -/
theorem IsInt.ne_sym {s : Str} (h : IsInt s) {c : Char} (hc : c ∈ [':', '<', ')', '(', '[', ']', '|']) : s ≠ [c] := by
  rintro rfl
  obtain ⟨g, d, hg, hne, hd, e⟩ := h
  have : c ∈ d := by
    rcases hg with rfl | rfl | rfl
    · simp at e; rw [← e]; simp
    · cases d with
      | nil => exact absurd rfl hne
      | cons => simp at e
    · cases d with
      | nil => exact absurd rfl hne
      | cons => simp at e
  have h1 := hd c this
  have h2 : ∀ c ∈ [':', '<', ')', '(', '[', ']', '|'], isDigit c = false := by decide
  rw [h2 c hc] at h1; cases h1

/-! ### Trees -/

/-- One index of a lattice element: a single number or a range. -/
inductive Coord : Lat → Bool → Prop
  | single {s} : IsInt s → Coord (.digit s) false
  | pair {s t} : IsInt s → IsInt t → Coord (.index (.digit s) (.digit t)) true

/-- Trees by level: 0 single levels, 1 chains read by `_Embedded.from_mcnp`, 2 whole texts. -/
inductive LWf : Nat → Lat → Prop
  | digit {s} : IsInt s → LWf 0 (.digit s)
  | paren {e} : LWf 1 e → LWf 0 (.paren e)
  | range {c i j k bi bj bk} : IsInt c → Coord i bi → Coord j bj → Coord k bk → (bk = true → bj = true) →
      LWf 0 (.range (.digit c) i j k)
  | up {e} : LWf 0 e → LWf 1 e
  | emb {l r} : LWf 1 l → LWf 0 r → LWf 1 (.emb l r)
  | top {e} : LWf 1 e → LWf 2 e
  | juxt {l r} : LWf 2 l → LWf 1 r → LWf 2 (.emb l r)

/-- Tokens of the printed tree. -/
def Lat.toks : Lat → List Str
  | .emb l r => l.toks ++ ['<'] :: r.toks
  | .range c i j k => c.toks ++ ['['] :: (i.toks ++ (j.toks ++ (k.toks ++ [[']']])))
  | .paren e => ['('] :: (e.toks ++ [[')']])
  | .index lo hi => lo.toks ++ [':'] :: hi.toks
  | .digit s => [s]

/-! ### What the parser returns -/

theorem lIndex_ok {ts x r} (h : lIndex ts = .ok (x, r)) :
    ∃ s t, IsInt s ∧ IsInt t ∧ x = .index (.digit s) (.digit t) ∧ ts = s :: [':'] :: t :: r := by
  unfold lIndex at h
  cases h1 : lDigit ts with
  | error e => rw [h1] at h; cases h
  | ok p =>
    obtain ⟨lo, rest⟩ := p
    obtain ⟨s, hs, rfl, rfl⟩ := lDigit_ok h1
    rw [h1] at h
    cases rest with
    | nil => cases h
    | cons t rest =>
      simp only at h
      split at h
      · rename_i ht; subst ht
        cases h2 : lDigit rest with
        | error e => rw [h2] at h; cases h
        | ok p =>
          obtain ⟨hi, rest'⟩ := p
          obtain ⟨t, ht, rfl, rfl⟩ := lDigit_ok h2
          rw [h2] at h
          have := Prod.mk.inj (Except.ok.inj h)
          obtain ⟨e1, e2⟩ := this
          subst e1; subst e2
          exact ⟨s, t, hs, ht, rfl, rfl⟩
      · cases h

theorem coord_ok {b : Bool} {ts x r} (h : (if b then lIndex ts else lDigit ts) = .ok (x, r)) :
    Coord x b ∧ ts = x.toks ++ r := by
  cases b with
  | true =>
    obtain ⟨s, t, hs, ht, rfl, rfl⟩ := lIndex_ok h
    exact ⟨.pair hs ht, rfl⟩
  | false =>
    obtain ⟨s, hs, rfl, rfl⟩ := lDigit_ok h
    exact ⟨.single hs, rfl⟩

theorem lRange_ok {ts x r} (h : lRange ts = .ok (x, r)) : LWf 0 x ∧ ts = x.toks ++ r := by
  unfold lRange at h
  cases h1 : lDigit ts with
  | error e => rw [h1] at h; cases h
  | ok p =>
    obtain ⟨c, t1⟩ := p
    obtain ⟨c, hc, rfl, rfl⟩ := lDigit_ok h1
    rw [h1] at h
    simp only at h
    split at h
    · cases h
    · rename_i hb
      have hb : t1.head? = some ['['] := Decidable.not_not.1 hb
      cases t1 with
      | nil => cases hb
      | cons b t1 =>
        simp at hb; subst hb
        cases h2 : (if colonAhead (['['] :: t1) = true then lIndex (['['] :: t1).tail else lDigit (['['] :: t1).tail) with
        | error e => rw [h2] at h; cases h
        | ok p =>
          obtain ⟨i, t2⟩ := p
          rw [h2] at h
          simp only at h
          obtain ⟨hi, e2⟩ := coord_ok h2
          simp only [List.tail_cons] at e2
          cases h3 : (if colonAhead t2 = true then lIndex t2 else lDigit t2) with
          | error e => rw [h3] at h; cases h
          | ok p =>
            obtain ⟨j, t3⟩ := p
            rw [h3] at h
            simp only at h
            obtain ⟨hj, e3⟩ := coord_ok h3
            cases h4 : (if colonAhead t3 = true then lIndex t3 else lDigit t3) with
            | error e => rw [h4] at h; cases h
            | ok p =>
              obtain ⟨k, t4⟩ := p
              rw [h4] at h
              simp only at h
              obtain ⟨hk, e4⟩ := coord_ok h4
              split at h
              · rename_i hb
                cases t4 with
                | nil => cases hb
                | cons b t4 =>
                  simp at hb; subst hb
                  have := Prod.mk.inj (Except.ok.inj h)
                  obtain ⟨e5, e6⟩ := this
                  simp at e6
                  subst e5; subst e6
                  refine ⟨.range hc hi hj hk ?_, by simp [Lat.toks, e2, e3, e4]⟩
                  intro hbk
                  cases hbj : colonAhead t2 with
                  | true => rfl
                  | false =>
                    exfalso
                    rw [hbj] at hj
                    rw [hbk] at hk
                    cases hj with
                    | single hs =>
                      cases hk with
                      | pair hs' ht' =>
                        rw [e3, e4] at hbj
                        simp [Lat.toks, colonAhead] at hbj
              · cases h

theorem parse_ok (n : Nat) :
    (∀ ts x r, lItem n ts = .ok (x, r) → LWf 0 x ∧ ts = x.toks ++ r) ∧
    (∀ ts x r, lEmb n ts = .ok (x, r) → LWf 1 x ∧ ts = x.toks ++ r) ∧
    (∀ l ts x r, LWf 1 l → lLoop n l ts = .ok (x, r) → LWf 1 x ∧ l.toks ++ ts = x.toks ++ r) := by
  induction n with
  | zero => refine ⟨?_, ?_, ?_⟩ <;> intros <;> rename_i h <;> cases h
  | succ n ih =>
    obtain ⟨ihI, ihE, ihL⟩ := ih
    refine ⟨?_, ?_, ?_⟩
    · intro ts x r h
      simp only [lItem] at h
      split at h
      · rename_i hb
        cases ts with
        | nil => cases hb
        | cons t ts =>
          simp at hb; subst hb
          simp only [List.tail_cons] at h
          cases he : lEmb n ts with
          | error e => rw [he] at h; cases h
          | ok p =>
            obtain ⟨e, r'⟩ := p
            rw [he] at h
            cases r' with
            | nil => cases h
            | cons t r' =>
              simp only at h
              split at h
              · rename_i ht; subst ht
                obtain ⟨e1, e2⟩ := Prod.mk.inj (Except.ok.inj h)
                subst e1; subst e2
                obtain ⟨w, e3⟩ := ihE _ _ _ he
                exact ⟨.paren w, by simp [Lat.toks, e3]⟩
              · cases h
      · split at h
        · exact lRange_ok h
        · obtain ⟨s, hs, rfl, rfl⟩ := lDigit_ok h
          exact ⟨.digit hs, rfl⟩
    · intro ts x r h
      simp only [lEmb] at h
      cases he : lItem n ts with
      | error e => rw [he] at h; cases h
      | ok p =>
        obtain ⟨l, r'⟩ := p
        rw [he] at h
        obtain ⟨w, e⟩ := ihI _ _ _ he
        obtain ⟨w', e'⟩ := ihL _ _ _ _ (.up w) h
        exact ⟨w', by rw [e, e']⟩
    · intro l ts x r hl h
      simp only [lLoop] at h
      split at h
      · rename_i hb
        cases ts with
        | nil => cases hb
        | cons t ts =>
          simp at hb; subst hb
          simp only [List.tail_cons] at h
          cases he : lItem n ts with
          | error e => rw [he] at h; cases h
          | ok p =>
            obtain ⟨x', r'⟩ := p
            rw [he] at h
            obtain ⟨w, e⟩ := ihI _ _ _ he
            obtain ⟨w', e'⟩ := ihL _ _ _ _ (.emb hl w) h
            exact ⟨w', by rw [← e', e]; simp [Lat.toks]⟩
      · obtain ⟨e1, e2⟩ := Prod.mk.inj (Except.ok.inj h)
        subst e1; subst e2
        exact ⟨hl, rfl⟩

theorem lTop_ok {n l ts x} (hl : LWf 2 l) (h : lTop n l ts = .ok x) : LWf 2 x := by
  induction n generalizing l ts with
  | zero => cases h
  | succ n ih =>
    simp only [lTop] at h
    split at h
    · rw [← Except.ok.inj h]; exact hl
    · cases he : lEmb (2 * ts.length + 2) ts with
      | error e => rw [he] at h; cases h
      | ok p => rw [he] at h; exact ih (.juxt hl ((parse_ok _).2.1 _ _ _ he).1) h

theorem latParse_wf {s x} (h : latParse s = .ok x) : LWf 2 x := by
  unfold latParse at h
  cases h1 : latToks s with
  | none => rw [h1] at h; cases h
  | some ts =>
    rw [h1] at h
    simp only at h
    have h : lAll ts = .ok x := by
      split at h
      · cases h
      · exact h
    unfold lAll at h
    cases he : lEmb (2 * ts.length + 2) ts with
    | error e => rw [he] at h; cases h
    | ok p => rw [he] at h; exact lTop_ok (.top ((parse_ok _).2.1 _ _ _ he).1) h

/-! ### Trees are read back -/

/-- What may follow an expression: neither `:` nor `[`. -/
def Follow (r : List Str) : Prop := r.head? ≠ some [':'] ∧ r.head? ≠ some ['[']

theorem coord_read {x b} (h : Coord x b) (r : List Str) (hr : r.head? ≠ some [':'])
    (hr2 : b = false → r[1]? ≠ some [':']) :
    (if colonAhead (x.toks ++ r) then lIndex (x.toks ++ r) else lDigit (x.toks ++ r)) = .ok (x, r) := by
  cases h with
  | @single s hs =>
    have : colonAhead ((Lat.digit s).toks ++ r) = false := by
      have := hr2 rfl
      cases r with
      | nil => rfl
      | cons a r =>
        simp at hr this
        simp [Lat.toks, colonAhead, hr, this]
    rw [this]
    exact lDigit_int hs r
  | @pair s t hs ht =>
    have : colonAhead ((Lat.index (.digit s) (.digit t)).toks ++ r) = true := by simp [Lat.toks, colonAhead]
    rw [this]
    simp [Lat.toks, lIndex, lDigit_int hs, lDigit_int ht]

theorem Coord.first {x b} (h : Coord x b) : ∃ s ts, IsInt s ∧ x.toks = s :: ts ∧ (b = false → ts = []) ∧
    (b = true → ∃ t, ts = [[':'], t]) := by
  cases h with
  | @single s hs => exact ⟨s, [], hs, rfl, fun _ => rfl, by simp⟩
  | @pair s t hs ht => exact ⟨s, _, hs, rfl, by simp, fun _ => ⟨t, rfl⟩⟩

theorem lRange_read {c i j k bi bj bk} (hc : IsInt c) (hi : Coord i bi) (hj : Coord j bj) (hk : Coord k bk)
    (hb : bk = true → bj = true) (r : List Str) (hr : Follow r) :
    lRange ((Lat.range (.digit c) i j k).toks ++ r) = .ok (.range (.digit c) i j k, r) := by
  have e : (Lat.range (.digit c) i j k).toks ++ r =
      c :: ['['] :: (i.toks ++ (j.toks ++ (k.toks ++ [']'] :: r))) := by simp [Lat.toks]
  obtain ⟨sj, tj, hsj, ej, fj, gj⟩ := hj.first
  obtain ⟨sk, tk, hsk, ek, fk, gk⟩ := hk.first
  have colj : ∀ s, IsInt s → s ≠ [':'] := fun s hs => hs.ne_sym (by decide)
  have h2 : (if colonAhead (['['] :: (i.toks ++ (j.toks ++ (k.toks ++ [']'] :: r)))) then
      lIndex (i.toks ++ (j.toks ++ (k.toks ++ [']'] :: r))) else lDigit (i.toks ++ (j.toks ++ (k.toks ++ [']'] :: r)))) =
      .ok (i, j.toks ++ (k.toks ++ [']'] :: r)) := by
    cases hi with
    | @single s hs =>
      have : colonAhead (['['] :: ((Lat.digit s).toks ++ (j.toks ++ (k.toks ++ [']'] :: r)))) = false := by
        rw [ej]
        simp [Lat.toks, colonAhead, colj s hs, colj sj hsj]
      rw [this]
      exact lDigit_int hs _
    | @pair s t hs ht =>
      have : colonAhead (['['] :: ((Lat.index (.digit s) (.digit t)).toks ++ (j.toks ++ (k.toks ++ [']'] :: r)))) = true := by
        simp [Lat.toks, colonAhead]
      rw [this]
      simp [Lat.toks, lIndex, lDigit_int hs, lDigit_int ht]
  have h3 := coord_read hj (k.toks ++ [']'] :: r) (by rw [ek]; simpa using colj sk hsk) (by
    intro hbj
    have hbk : bk = false := by
      cases hbk : bk with
      | false => rfl
      | true => rw [hb hbk] at hbj; cases hbj
    rw [ek, fk hbk]; simp)
  have h4 := coord_read hk ([']'] :: r) (by simp) (by
    intro _
    cases r with
    | nil => simp
    | cons a r => simpa using hr.1)
  rw [e, lRange, lDigit_int hc]
  simp only [List.head?_cons, ne_eq, not_true_eq_false, if_false, List.tail_cons]
  rw [h2]; simp only
  rw [h3]; simp only
  rw [h4]; simp

/-- First token of an expression. -/
theorem LWf.first {n x} (h : LWf n x) (r : List Str) : ∃ t ts, x.toks ++ r = t :: ts ∧
    (t = ['('] ∨ IsInt t) := by
  induction h generalizing r with
  | digit hs => exact ⟨_, _, rfl, .inr hs⟩
  | paren _ _ => exact ⟨_, _, rfl, .inl rfl⟩
  | range hc _ _ _ _ => exact ⟨_, _, rfl, .inr hc⟩
  | up _ ih => exact ih r
  | top _ ih => exact ih r
  | emb _ _ ihl _ => simpa [Lat.toks] using ihl _
  | juxt _ _ ihl _ => simpa [Lat.toks] using ihl _

/-- Statement of reading back, by level. -/
def Back : Nat → Lat → Prop
  | 0, x => ∀ n r, 2 * x.toks.length ≤ n → Follow r → lItem n (x.toks ++ r) = .ok (x, r)
  | 1, x => ∀ n r, 2 * x.toks.length < n → Follow r → ∃ m, n < m + 2 * x.toks.length + 1 ∧
      lEmb n (x.toks ++ r) = lLoop m x r
  | _, _ => True

theorem Lat.toks_pos (x : Lat) : 0 < x.toks.length := by
  cases x <;> simp [Lat.toks] <;> omega

theorem wf_back {k x} (h : LWf k x) : Back k x := by
  induction h with
  | @digit s hs =>
    intro n r hn hr
    cases n with
    | zero => simp [Lat.toks] at hn
    | succ n =>
      have h1 : s ≠ ['('] := hs.ne_sym (by decide)
      show lItem (n + 1) (s :: r) = _
      rw [lItem, if_neg (by simpa using h1), if_neg (by
        intro hc
        cases r with
        | nil => cases hc
        | cons a r => exact hr.2 (by simpa using hc))]
      exact lDigit_int hs r
  | @paren e he ih =>
    intro n r hn hr
    cases n with
    | zero => simp [Lat.toks] at hn
    | succ n =>
      have hl : (Lat.paren e).toks.length = e.toks.length + 2 := by simp [Lat.toks]
      rw [hl] at hn
      obtain ⟨m, hm, e1⟩ := ih n ([')'] :: r) (by omega) ⟨by simp, by simp⟩
      cases m with
      | zero => omega
      | succ m =>
        have e2 : lEmb n (e.toks ++ [')'] :: r) = .ok (e, [')'] :: r) := by
          rw [e1]; simp [lLoop]
        simp only [Lat.toks, List.cons_append, lItem, List.head?_cons, if_true, List.tail_cons, List.append_assoc,
          List.nil_append]
        rw [e2]; simp
  | @range c i j k bi bj bk hc hi hj hk hb =>
    intro n r hn hr
    cases n with
    | zero => simp [Lat.toks] at hn
    | succ n =>
      have h1 : c ≠ ['('] := hc.ne_sym (by decide)
      have e : (Lat.range (.digit c) i j k).toks ++ r =
          c :: ['['] :: (i.toks ++ (j.toks ++ (k.toks ++ [']'] :: r))) := by simp [Lat.toks]
      rw [lItem, if_neg (by rw [e]; simpa using h1), if_pos (by rw [e]; rfl)]
      exact lRange_read hc hi hj hk hb r hr
  | @up x hx ih =>
    intro n r hn hr
    cases n with
    | zero => omega
    | succ n =>
      have := x.toks_pos
      refine ⟨n, by omega, ?_⟩
      simp only [lEmb]
      rw [ih _ r (by omega) hr]
  | @emb l r hl hr ihl ihr =>
    intro n rest hn hf
    have hlen : (Lat.emb l r).toks.length = l.toks.length + (r.toks.length + 1) := by simp [Lat.toks]
    rw [hlen] at hn ⊢
    obtain ⟨m, hm, e1⟩ := ihl n (['<'] :: (r.toks ++ rest)) (by omega) ⟨by simp, by simp⟩
    cases m with
    | zero => omega
    | succ m =>
      have e2 := ihr m rest (by omega) hf
      refine ⟨m, by omega, ?_⟩
      have e3 : (Lat.emb l r).toks ++ rest = l.toks ++ ['<'] :: (r.toks ++ rest) := by simp [Lat.toks]
      rw [e3, e1]
      simp only [lLoop, List.head?_cons, if_true, List.tail_cons]
      rw [e2]
  | top _ _ => exact trivial
  | juxt _ _ _ _ => exact trivial

theorem lEmb_read {x} (h : LWf 1 x) (r : List Str) (hf : Follow r) (hl : r.head? ≠ some ['<'])
    (n : Nat) (hn : 2 * x.toks.length < n) : lEmb n (x.toks ++ r) = .ok (x, r) := by
  obtain ⟨m, hm, e⟩ := wf_back h n r hn hf
  cases m with
  | zero => omega
  | succ m => rw [e]; simp [lLoop, hl]

/-! ### Pieces of text -/

/-- A written piece: an integer, a symbol with the blanks after it, or blanks. -/
inductive LP where
  | num (s : Str)
  | sym (c : Char) (w : Str)
  | gap (w : Str)

def LP.text : LP → Str
  | .num s => s
  | .sym c w => c :: w
  | .gap w => w

def LP.tok : LP → Option Str
  | .num s => some s
  | .sym c _ => some [c]
  | .gap _ => none

def LP.texts (ps : List LP) : Str := (ps.map LP.text).flatten
def LP.toks (ps : List LP) : List Str := ps.filterMap LP.tok

@[simp] theorem LP.texts_nil : LP.texts [] = [] := rfl
@[simp] theorem LP.texts_cons (p ps) : LP.texts (p :: ps) = p.text ++ LP.texts ps := rfl
@[simp] theorem LP.texts_append (ps qs) : LP.texts (ps ++ qs) = LP.texts ps ++ LP.texts qs := by simp [LP.texts]
@[simp] theorem LP.toks_nil : LP.toks [] = [] := rfl
@[simp] theorem LP.toks_num (s ps) : LP.toks (.num s :: ps) = s :: LP.toks ps := rfl
@[simp] theorem LP.toks_sym (c w ps) : LP.toks (.sym c w :: ps) = [c] :: LP.toks ps := rfl
@[simp] theorem LP.toks_gap (w ps) : LP.toks (.gap w :: ps) = LP.toks ps := rfl
@[simp] theorem LP.toks_append (ps qs) : LP.toks (ps ++ qs) = LP.toks ps ++ LP.toks qs := by simp [LP.toks]

/-- The piece is separated from the text after it. -/
def LP.ok : LP → Str → Prop
  | .num s, r => IsInt s ∧ HeadNot isDigit r
  | .sym c w, r => c ∈ [':', '<', ')', '(', '[', ']', '|'] ∧ Blank w ∧ HeadNot isSpace r
  | .gap w, r => w ≠ [] ∧ Blank w ∧ HeadNot isSpace r

def LP.Ok : List LP → Prop
  | [] => True
  | p :: ps => p.ok (LP.texts ps) ∧ LP.Ok ps

theorem LP.ok.ne {p r} (h : LP.ok p r) : p.text ≠ [] := by
  cases p with
  | num s => obtain ⟨c, cs, e, _⟩ := h.1.head; simp [LP.text, e]
  | sym c w => simp [LP.text]
  | gap w => exact h.1

theorem lat_lex {p : LP} {r : Str} (h : p.ok r) (prev : Str) (n : Nat) (hn : r.length < n) :
    run latRe ⟨prev, p.text ++ r, []⟩ (findK n) = some ⟨p.text.reverse ++ prev, r, []⟩ := by
  unfold latRe
  cases p with
  | gap w =>
    obtain ⟨hne, hb, hr⟩ := h
    cases w with
    | nil => exact absurd rfl hne
    | cons c cs =>
      have hc : isSpace c = true := hb c (by simp)
      simp only [LP.text, List.cons_append]
      rw [run_alt, Re.plus, run_seq, Re.space, run_cls_cons, if_pos hc]
      have := run_star_cls_full isSpace cs r (c :: prev) [] (findK n) ⟨(c :: cs).reverse ++ prev, r, []⟩
        (fun x hx => hb x (by simp [hx])) hr (by rw [findK_ok hn]; simp)
      rw [this, Option.some_or]
  | num s =>
    obtain ⟨hs, hr⟩ := h
    obtain ⟨g, d, hg, hne, hd, rfl⟩ := hs
    cases d with
    | nil => exact absurd rfl hne
    | cons c cs =>
      have hc : isDigit c = true := hd c (by simp)
      have tail : ∀ pv : Str, run (Re.plus true Re.digit) ⟨pv, c :: (cs ++ r), []⟩ (findK n) =
          some ⟨(c :: cs).reverse ++ pv, r, []⟩ := by
        intro pv
        rw [Re.plus, run_seq, Re.digit, run_cls_cons, if_pos hc]
        exact run_star_cls_full isDigit cs r (c :: pv) [] (findK n) _
          (fun x hx => hd x (by simp [hx])) hr (by rw [findK_ok hn]; simp)
      have hsp : ∀ x ∈ ['+', '-'], isSpace x = false := by decide
      rw [run_alt, Re.plus, run_seq, Re.space]
      rcases hg with rfl | rfl | rfl
      · have hns : "+-".toList.contains c = false := by
          have : c ≠ '+' ∧ c ≠ '-' := ⟨digit_ne hc (by decide), digit_ne hc (by decide)⟩
          simpa using this
        simp only [LP.text, List.nil_append, List.cons_append]
        rw [run_cls_cons, if_neg (by simp [isDigit_not_space hc]), Option.none_or, run_alt, run_seq, run_opt_greedy,
          Re.oneOf, run_cls_cons, if_neg (by rw [hns]; simp), Option.none_or, tail, Option.some_or]
      · simp only [LP.text, List.cons_append, List.nil_append]
        rw [run_cls_cons, if_neg (by decide), Option.none_or, run_alt, run_seq, run_opt_greedy,
          Re.oneOf, run_cls_cons, if_pos (by decide), tail, Option.some_or, Option.some_or]
        simp
      · simp only [LP.text, List.cons_append, List.nil_append]
        rw [run_cls_cons, if_neg (by decide), Option.none_or, run_alt, run_seq, run_opt_greedy,
          Re.oneOf, run_cls_cons, if_pos (by decide), tail, Option.some_or, Option.some_or]
        simp
  | sym c w =>
    obtain ⟨hc, hb, hr⟩ := h
    have h1 : ∀ x ∈ [':', '<', ')', '(', '[', ']', '|'], isSpace x = false ∧ "+-".toList.contains x = false ∧
      isDigit x = false ∧ ":<)([]|".toList.contains x = true := by decide
    obtain ⟨h1, h2, h3, h4⟩ := h1 c hc
    simp only [LP.text, List.cons_append]
    rw [run_alt, Re.plus, run_seq, Re.space, run_cls_cons, if_neg (by simp [h1]), Option.none_or,
      run_alt, run_seq, run_opt_greedy, Re.oneOf, run_cls_cons, if_neg (by rw [h2]; simp), Option.none_or,
      Re.plus, run_seq, Re.digit, run_cls_cons, if_neg (by simp [h3]), Option.none_or,
      run_seq, run_star_stop _ _ _ _ _ _ (by intro a b e; cases e; exact h1), run_seq, Re.oneOf, run_cls_cons,
      if_pos h4]
    exact run_star_cls_full isSpace w r (c :: prev) [] (findK n) _ hb hr (by rw [findK_ok hn]; simp)

theorem lat_lexes (ps : List LP) (h : LP.Ok ps) : Lexes latRe (ps.map LP.text) := by
  induction ps with
  | nil => trivial
  | cons p ps ih =>
    refine ⟨h.1.ne, ?_, ih h.2⟩
    intro prev n hn
    exact ⟨[], lat_lex h.1 prev n hn⟩

theorem lat_toks (ps : List LP) (h : LP.Ok ps) :
    ((ps.map LP.text).map strip).filter (· ≠ []) = LP.toks ps := by
  induction ps with
  | nil => rfl
  | cons p ps ih =>
    simp only [List.map_cons, List.filter_cons]
    rw [ih h.2]
    cases p with
    | num s =>
      have hs := h.1.1
      have : strip s = s := strip_noSpace s hs.noSpace
      obtain ⟨c, cs, e, _⟩ := hs.head
      have hne : s ≠ [] := by rw [e]; simp
      simp [LP.text, this, hne]
    | sym c w =>
      have hc : isSpace c = false := by
        have h1 : ∀ x ∈ [':', '<', ')', '(', '[', ']', '|'], isSpace x = false := by decide
        exact h1 c h.1.1
      have : strip (c :: w) = [c] := strip_pad' (a := []) blank_nil h.1.2.1 hc
      simp [LP.text, this]
    | gap w => simp [LP.text, strip_blank h.1.2.1]

/-- Tokens of a text made of separated pieces, between blanks. -/
theorem latToks_pieces (ps : List LP) (h : LP.Ok ps) (hne : LP.texts ps ≠ [])
    (h1 : ∀ c ∈ (LP.texts ps).head?, isSpace c = false) (h2 : ∀ c ∈ (LP.texts ps).getLast?, isSpace c = false)
    (a b : Str) (ha : Blank a) (hb : Blank b) :
    latToks (a ++ LP.texts ps ++ b) = some (LP.toks ps) := by
  unfold latToks
  rw [strip_pad ha hb h1 h2 hne]
  have : finditer latRe (LP.texts ps) = ps.map LP.text := finditer_lexes latRe _ (lat_lexes ps h)
  simp only [this]
  rw [if_neg (by simp [LP.texts]), lat_toks ps h]

/-- Pieces without regard to how blanks are shared out. -/
def LP.wk : LP → Str → Prop
  | .num s, r => IsInt s ∧ HeadNot isDigit r
  | .sym c w, _ => c ∈ [':', '<', ')', '(', '[', ']', '|'] ∧ Blank w
  | .gap w, _ => w ≠ [] ∧ Blank w

def LP.Wk : List LP → Prop
  | [] => True
  | p :: ps => p.wk (LP.texts ps) ∧ LP.Wk ps

/-- Blanks join the symbol or the blanks before them. -/
def LP.merge : List LP → List LP
  | [] => []
  | .num s :: ps => .num s :: LP.merge ps
  | .sym c w :: ps => match LP.merge ps with
    | .gap v :: qs => .sym c (w ++ v) :: qs
    | qs => .sym c w :: qs
  | .gap w :: ps => match LP.merge ps with
    | .gap v :: qs => .gap (w ++ v) :: qs
    | qs => .gap w :: qs

theorem LP.merge_texts (ps : List LP) : LP.texts (LP.merge ps) = LP.texts ps := by
  induction ps with
  | nil => rfl
  | cons p ps ih =>
    cases p with
    | num s => simp [LP.merge, ih]
    | sym c w =>
      simp only [LP.merge]
      split
      · rename_i v qs h; rw [h] at ih; simp [LP.text, ← ih]
      · simp [ih]
    | gap w =>
      simp only [LP.merge]
      split
      · rename_i v qs h; rw [h] at ih; simp [LP.text, ← ih]
      · simp [ih]

theorem LP.merge_toks (ps : List LP) : LP.toks (LP.merge ps) = LP.toks ps := by
  induction ps with
  | nil => rfl
  | cons p ps ih =>
    cases p with
    | num s => simp [LP.merge, ih]
    | sym c w =>
      simp only [LP.merge]
      split
      · rename_i v qs h; rw [h] at ih; simpa using ih
      · simp [ih]
    | gap w =>
      simp only [LP.merge]
      split
      · rename_i v qs h; rw [h] at ih; simpa using ih
      · simp [ih]

theorem LP.Ok.noGap {ps : List LP} (h : LP.Ok ps) (hg : ∀ w qs, ps ≠ .gap w :: qs) : HeadNot isSpace (LP.texts ps) := by
  cases ps with
  | nil => intro a b e; cases e
  | cons p ps =>
    cases p with
    | num s =>
      have hns := h.1.1.noSpace
      obtain ⟨c, cs, e, _⟩ := h.1.1.head
      intro a b e'
      simp only [LP.texts_cons, LP.text, e, List.cons_append] at e'
      cases e'
      exact hns _ (by rw [e]; simp)
    | sym c w =>
      have h1 : ∀ x ∈ [':', '<', ')', '(', '[', ']', '|'], isSpace x = false := by decide
      intro a b e'; cases e'; exact h1 _ h.1.1
    | gap w => exact absurd rfl (hg w ps)

theorem LP.Wk.merge {ps : List LP} (h : LP.Wk ps) : LP.Ok (LP.merge ps) := by
  induction ps with
  | nil => trivial
  | cons p ps ih =>
    have ih := ih h.2
    cases p with
    | num s => exact ⟨⟨h.1.1, by rw [LP.merge_texts]; exact h.1.2⟩, ih⟩
    | sym c w =>
      simp only [LP.merge]
      split
      · rename_i v qs hm
        rw [hm] at ih
        exact ⟨⟨h.1.1, by intro x hx; rcases List.mem_append.1 hx with hx | hx
                          · exact h.1.2 x hx
                          · exact ih.1.2.1 x hx, ih.1.2.2⟩, ih.2⟩
      · rename_i hm
        exact ⟨⟨h.1.1, h.1.2, ih.noGap (fun w qs e => hm w qs e)⟩, ih⟩
    | gap w =>
      simp only [LP.merge]
      split
      · rename_i v qs hm
        rw [hm] at ih
        exact ⟨⟨by simp [h.1.1], by intro x hx; rcases List.mem_append.1 hx with hx | hx
                                    · exact h.1.2 x hx
                                    · exact ih.1.2.1 x hx, ih.1.2.2⟩, ih.2⟩
      · rename_i hm
        exact ⟨⟨h.1.1, h.1.2, ih.noGap (fun w qs e => hm w qs e)⟩, ih⟩

theorem latToks_weak (ps : List LP) (h : LP.Wk ps) (hne : LP.texts ps ≠ [])
    (h1 : ∀ c ∈ (LP.texts ps).head?, isSpace c = false) (h2 : ∀ c ∈ (LP.texts ps).getLast?, isSpace c = false)
    (a b : Str) (ha : Blank a) (hb : Blank b) :
    latToks (a ++ LP.texts ps ++ b) = some (LP.toks ps) := by
  rw [← LP.merge_texts] at hne h1 h2 ⊢
  rw [latToks_pieces _ h.merge hne h1 h2 a b ha hb, LP.merge_toks]

/-! ### Which errors occur -/

/-- An error other than exhaustion. -/
def NotOut {α : Type} (r : Res α) : Prop := ∀ e, r = .error e → e = .syntaxErr ∨ e = .assertion ∨ e = .index

theorem lDigit_err (ts) {e} (h : lDigit ts = .error e) : e = .syntaxErr := by
  unfold lDigit at h
  split at h
  · cases h; rfl
  · split at h <;> cases h; rfl

theorem lIndex_err (ts) : NotOut (lIndex ts) := by
  intro e h
  unfold lIndex at h
  cases h1 : lDigit ts with
  | error e1 => rw [h1] at h; cases h; exact .inl (lDigit_err _ h1)
  | ok p =>
    obtain ⟨x, r⟩ := p
    rw [h1] at h
    cases r with
    | nil => cases h; exact .inr (.inr rfl)
    | cons t r =>
      simp only at h
      split at h
      · cases h2 : lDigit r with
        | error e1 => rw [h2] at h; cases h; exact .inl (lDigit_err _ h2)
        | ok p => rw [h2] at h; cases h
      · cases h; exact .inr (.inl rfl)

theorem coord_err (b : Bool) (ts) : NotOut (if b then lIndex ts else lDigit ts) := by
  cases b with
  | true => exact lIndex_err ts
  | false => intro e h; exact .inl (lDigit_err _ h)

theorem lRange_err (ts) : NotOut (lRange ts) := by
  intro e h
  unfold lRange at h
  cases h1 : lDigit ts with
  | error e1 => rw [h1] at h; cases h; exact .inl (lDigit_err _ h1)
  | ok p =>
    obtain ⟨c, t1⟩ := p
    rw [h1] at h
    simp only at h
    split at h
    · cases h; exact .inr (.inl rfl)
    · cases h2 : (if colonAhead t1 = true then lIndex t1.tail else lDigit t1.tail) with
      | error e1 => rw [h2] at h; cases h; exact coord_err _ _ _ h2
      | ok p =>
        obtain ⟨i, t2⟩ := p
        rw [h2] at h
        simp only at h
        cases h3 : (if colonAhead t2 = true then lIndex t2 else lDigit t2) with
        | error e1 => rw [h3] at h; cases h; exact coord_err _ _ _ h3
        | ok p =>
          obtain ⟨j, t3⟩ := p
          rw [h3] at h
          simp only at h
          cases h4 : (if colonAhead t3 = true then lIndex t3 else lDigit t3) with
          | error e1 => rw [h4] at h; cases h; exact coord_err _ _ _ h4
          | ok p =>
            obtain ⟨k, t4⟩ := p
            rw [h4] at h
            simp only at h
            split at h
            · cases h
            · cases h; exact .inl rfl

theorem shorter {x : Lat} {ts r : List Str} (h : ts = x.toks ++ r) : r.length < ts.length := by
  have := x.toks_pos
  rw [h, List.length_append]; omega

theorem parse_err (n : Nat) :
    (∀ ts, 2 * ts.length + 1 ≤ n → NotOut (lItem n ts)) ∧
    (∀ ts, 2 * ts.length + 2 ≤ n → NotOut (lEmb n ts)) ∧
    (∀ l ts, 2 * ts.length + 1 ≤ n → NotOut (lLoop n l ts)) := by
  induction n with
  | zero => refine ⟨?_, ?_, ?_⟩ <;> intros <;> omega
  | succ n ih =>
    obtain ⟨ihI, ihE, ihL⟩ := ih
    refine ⟨?_, ?_, ?_⟩
    · intro ts hn e h
      simp only [lItem] at h
      split at h
      · rename_i hb
        cases ts with
        | nil => cases hb
        | cons t ts =>
          simp only [List.tail_cons] at h
          simp only [List.length_cons] at hn
          cases he : lEmb n ts with
          | error e1 => rw [he] at h; cases h; exact ihE ts (by omega) _ he
          | ok p =>
            obtain ⟨x, r⟩ := p
            rw [he] at h
            cases r with
            | nil => cases h; exact .inr (.inr rfl)
            | cons t r =>
              simp only at h
              split at h
              · cases h
              · cases h; exact .inr (.inl rfl)
      · split at h
        · exact lRange_err _ _ h
        · exact .inl (lDigit_err _ h)
    · intro ts hn e h
      simp only [lEmb] at h
      cases he : lItem n ts with
      | error e1 => rw [he] at h; cases h; exact ihI ts (by omega) _ he
      | ok p =>
        obtain ⟨x, r⟩ := p
        rw [he] at h
        have := shorter ((parse_ok n).1 _ _ _ he).2
        exact ihL x r (by omega) _ h
    · intro l ts hn e h
      simp only [lLoop] at h
      split at h
      · rename_i hb
        cases ts with
        | nil => cases hb
        | cons t ts =>
          simp only [List.tail_cons] at h
          simp only [List.length_cons] at hn
          cases he : lItem n ts with
          | error e1 => rw [he] at h; cases h; exact ihI ts (by omega) _ he
          | ok p =>
            obtain ⟨x, r⟩ := p
            rw [he] at h
            have := shorter ((parse_ok n).1 _ _ _ he).2
            exact ihL _ r (by omega) _ h
      · cases h

theorem lTop_err (n : Nat) (l ts) (hn : ts.length < n) : NotOut (lTop n l ts) := by
  induction n generalizing l ts with
  | zero => omega
  | succ n ih =>
    intro e h
    simp only [lTop] at h
    split at h
    · cases h
    · cases he : lEmb (2 * ts.length + 2) ts with
      | error e1 => rw [he] at h; cases h; exact (parse_err _).2.1 ts (Nat.le_refl _) _ he
      | ok p =>
        obtain ⟨x, r⟩ := p
        rw [he] at h
        have := shorter ((parse_ok _).2.1 _ _ _ he).2
        exact ih _ r (by omega) _ h

theorem lAll_err (ts) : NotOut (lAll ts) := by
  intro e h
  unfold lAll at h
  cases he : lEmb (2 * ts.length + 2) ts with
  | error e1 => rw [he] at h; cases h; exact (parse_err _).2.1 ts (Nat.le_refl _) _ he
  | ok p =>
    obtain ⟨x, r⟩ := p
    rw [he] at h
    exact lTop_err _ _ _ (by omega) _ h

/-- Without parentheses and brackets only syntax errors. -/
theorem plain_err (n : Nat) :
    (∀ ts : List Str, ['('] ∉ ts → ['['] ∉ ts → 2 * ts.length + 1 ≤ n → ∀ e, lItem n ts = .error e → e = .syntaxErr) ∧
    (∀ ts : List Str, ['('] ∉ ts → ['['] ∉ ts → 2 * ts.length + 2 ≤ n → ∀ e, lEmb n ts = .error e → e = .syntaxErr) ∧
    (∀ l (ts : List Str), ['('] ∉ ts → ['['] ∉ ts → 2 * ts.length + 1 ≤ n → ∀ e, lLoop n l ts = .error e →
      e = .syntaxErr) := by
  have sub : ∀ {x : Lat} {ts r : List Str} {a : Str}, ts = x.toks ++ r → a ∉ ts → a ∉ r := by
    intro x ts r a e h h'
    exact h (by rw [e]; exact List.mem_append_right _ h')
  induction n with
  | zero => refine ⟨?_, ?_, ?_⟩ <;> intros <;> omega
  | succ n ih =>
    obtain ⟨ihI, ihE, ihL⟩ := ih
    refine ⟨?_, ?_, ?_⟩
    · intro ts h1 h2 hn e h
      simp only [lItem] at h
      rw [if_neg (fun hc => h1 (List.mem_of_mem_head? (by rw [hc]; simp))),
        if_neg (fun hc => h2 (List.mem_of_getElem? hc))] at h
      exact lDigit_err _ h
    · intro ts h1 h2 hn e h
      simp only [lEmb] at h
      cases he : lItem n ts with
      | error e1 => rw [he] at h; cases h; exact ihI ts h1 h2 (by omega) _ he
      | ok p =>
        obtain ⟨x, r⟩ := p
        rw [he] at h
        have e1 := ((parse_ok n).1 _ _ _ he).2
        have := shorter e1
        exact ihL x r (sub e1 h1) (sub e1 h2) (by omega) _ h
    · intro l ts h1 h2 hn e h
      simp only [lLoop] at h
      split at h
      · cases ts with
        | nil => rename_i hb; cases hb
        | cons t ts =>
          simp only [List.tail_cons] at h
          simp only [List.length_cons] at hn
          have h1' : ['('] ∉ ts := fun hc => h1 (List.mem_cons_of_mem _ hc)
          have h2' : ['['] ∉ ts := fun hc => h2 (List.mem_cons_of_mem _ hc)
          cases he : lItem n ts with
          | error e1 => rw [he] at h; cases h; exact ihI ts h1' h2' (by omega) _ he
          | ok p =>
            obtain ⟨x, r⟩ := p
            rw [he] at h
            have e1 := ((parse_ok n).1 _ _ _ he).2
            have := shorter e1
            exact ihL _ r (sub e1 h1') (sub e1 h2') (by omega) _ h
      · cases h

theorem plain_top (n : Nat) (l) (ts : List Str) (h1 : ['('] ∉ ts) (h2 : ['['] ∉ ts) (hn : ts.length < n) {e}
    (h : lTop n l ts = .error e) : e = .syntaxErr := by
  induction n generalizing l ts with
  | zero => omega
  | succ n ih =>
    simp only [lTop] at h
    split at h
    · cases h
    · cases he : lEmb (2 * ts.length + 2) ts with
      | error e1 => rw [he] at h; cases h; exact (plain_err _).2.1 ts h1 h2 (Nat.le_refl _) _ he
      | ok p =>
        obtain ⟨x, r⟩ := p
        rw [he] at h
        have e1 := ((parse_ok _).2.1 _ _ _ he).2
        have := shorter e1
        exact ih _ r (fun hc => h1 (by rw [e1]; exact List.mem_append_right _ hc))
          (fun hc => h2 (by rw [e1]; exact List.mem_append_right _ hc)) (by omega) h

theorem plain_all (ts : List Str) (h1 : ['('] ∉ ts) (h2 : ['['] ∉ ts) {e} (h : lAll ts = .error e) :
    e = .syntaxErr := by
  unfold lAll at h
  cases he : lEmb (2 * ts.length + 2) ts with
  | error e1 => rw [he] at h; cases h; exact (plain_err _).2.1 ts h1 h2 (Nat.le_refl _) _ he
  | ok p =>
    obtain ⟨x, r⟩ := p
    rw [he] at h
    have e1 := ((parse_ok _).2.1 _ _ _ he).2
    exact plain_top _ _ _ (fun hc => h1 (by rw [e1]; exact List.mem_append_right _ hc))
      (fun hc => h2 (by rw [e1]; exact List.mem_append_right _ hc)) (by omega) h

theorem strip_sub (s : Str) : ∀ c ∈ strip s, c ∈ s := by
  intro c hc
  unfold strip rstrip lstrip at hc
  have h1 := List.mem_reverse.1 hc
  have h2 := (List.dropWhile_suffix _).subset h1
  have h3 := List.mem_reverse.1 h2
  exact (List.dropWhile_suffix _).subset h3

theorem latToks_mem {s ts} (h : latToks s = some ts) : ∀ t ∈ ts, ∀ c ∈ t, c ∈ s := by
  unfold latToks at h
  simp only at h
  split at h
  · cases h
  · rename_i hf
    have hf : (finditer latRe (strip s)).flatten = strip s := Decidable.not_not.1 hf
    have := Option.some.inj h
    intro t ht c hc
    rw [← this] at ht
    obtain ⟨u, hu, rfl⟩ := List.mem_map.1 (List.mem_filter.1 ht).1
    refine strip_sub s c ?_
    rw [← hf]
    exact List.mem_flatten.2 ⟨u, hu, strip_sub u c hc⟩

end Types
