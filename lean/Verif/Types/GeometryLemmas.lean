import Verif.Types.Geometry
import Verif.Types.ScalarLemmas
/-! Helper lemmas for geometry expressions. -/
namespace Types
open Py

/-! ### Shapes of trees the parser produces -/

/-- `_Digit._REGEX` accepts the text. -/
def isNum (s : Str) : Prop := (reMatch gdigitRe s).isSome = true

/-- Trees by level: 0 atoms, 1 unions of atoms, 2 intersections of unions. -/
inductive WF : Nat → Ast → Prop
  | digit {s} : isNum s → WF 0 (.digit s)
  | paren {e} : WF 2 e → WF 0 (.paren e)
  | unDigit {o s} : isNum s → WF 0 (.unary o (.digit s))
  | unParen {o e} : WF 2 e → WF 0 (.unary o (.paren e))
  | union {l r} : WF 1 l → WF 0 r → WF 1 (.union l r)
  | inter {l r} : WF 2 l → WF 1 r → WF 2 (.inter l r)
  | up0 {e} : WF 0 e → WF 1 e
  | up1 {e} : WF 1 e → WF 2 e

/-- Tokens of the printed tree. -/
def Ast.toks : Ast → List GTok
  | .inter l r => l.toks ++ .sp :: r.toks
  | .union l r => l.toks ++ .col :: r.toks
  | .unary o e => .op o :: e.toks
  | .paren e => .lp :: e.toks ++ [.rp]
  | .digit s => [.dig s]

theorem Ast.toks_ne_nil (e : Ast) : e.toks ≠ [] := by
  cases e <;> simp [Ast.toks]

/-! ### Fuel -/

/-- Result that is not exhaustion. -/
def Done {α : Type} (r : Res α) : Prop := r ≠ .error .unmodelled

theorem pDigit_done (ts) : Done (pDigit ts) := by
  unfold pDigit Done; split <;> simp

/-- More fuel does not change a result. -/
theorem fuel_mono (n : Nat) :
    (∀ ts, Done (pInter n ts) → pInter (n + 1) ts = pInter n ts) ∧
    (∀ l ts, Done (loopI n l ts) → loopI (n + 1) l ts = loopI n l ts) ∧
    (∀ ts, Done (pUnion n ts) → pUnion (n + 1) ts = pUnion n ts) ∧
    (∀ l ts, Done (loopU n l ts) → loopU (n + 1) l ts = loopU n l ts) ∧
    (∀ ts, Done (pAtom n ts) → pAtom (n + 1) ts = pAtom n ts) := by
  induction n with
  | zero =>
    refine ⟨?_, ?_, ?_, ?_, ?_⟩ <;> intros <;> rename_i h <;> exact absurd rfl h
  | succ n ih =>
    obtain ⟨ihI, ihLI, ihU, ihLU, ihA⟩ := ih
    refine ⟨?_, ?_, ?_, ?_, ?_⟩
    · intro ts h
      have e1 : pInter (n + 1) ts = match pUnion n ts with
        | .error e => .error e
        | .ok (l, ts) => loopI n l ts := rfl
      have e2 : pInter (n + 2) ts = match pUnion (n + 1) ts with
        | .error e => .error e
        | .ok (l, ts) => loopI (n + 1) l ts := rfl
      rw [e1] at h ⊢
      rw [e2]
      cases hu : pUnion n ts with
      | error e =>
        rw [hu] at h
        rw [ihU ts (by rw [hu]; exact fun hc => h (by simpa using hc)), hu]
      | ok p =>
        rw [hu] at h
        rw [ihU ts (by rw [hu]; simp [Done]), hu]
        exact ihLI _ _ h
    · intro l ts h
      match ts with
      | .lp :: t =>
        have e1 : loopI (n + 1) l (.lp :: t) = match pUnion n (.lp :: t) with
          | .error e => .error e
          | .ok (r, ts) => loopI n (.inter l r) ts := rfl
        have e2 : loopI (n + 2) l (.lp :: t) = match pUnion (n + 1) (.lp :: t) with
          | .error e => .error e
          | .ok (r, ts) => loopI (n + 1) (.inter l r) ts := rfl
        rw [e1] at h ⊢
        rw [e2]
        cases hu : pUnion n (.lp :: t) with
        | error e =>
          rw [hu] at h
          rw [ihU _ (by rw [hu]; exact fun hc => h (by simpa using hc)), hu]
        | ok p =>
          rw [hu] at h
          rw [ihU _ (by rw [hu]; simp [Done]), hu]
          exact ihLI _ _ h
      | .sp :: t =>
        have e1 : loopI (n + 1) l (.sp :: t) = match pUnion n t with
          | .error e => .error e
          | .ok (r, ts) => loopI n (.inter l r) ts := rfl
        have e2 : loopI (n + 2) l (.sp :: t) = match pUnion (n + 1) t with
          | .error e => .error e
          | .ok (r, ts) => loopI (n + 1) (.inter l r) ts := rfl
        rw [e1] at h ⊢
        rw [e2]
        cases hu : pUnion n t with
        | error e =>
          rw [hu] at h
          rw [ihU _ (by rw [hu]; exact fun hc => h (by simpa using hc)), hu]
        | ok p =>
          rw [hu] at h
          rw [ihU _ (by rw [hu]; simp [Done]), hu]
          exact ihLI _ _ h
      | [] => rfl
      | .col :: t => rfl
      | .rp :: t => rfl
      | .op o :: t => rfl
      | .dig d :: t => rfl
      | .bad d :: t => rfl
    · intro ts h
      match ts with
      | [] => rfl
      | t :: ts =>
        have e1 : pUnion (n + 1) (t :: ts) = match pAtom n (t :: ts) with
          | .error e => .error e
          | .ok (l, ts) => loopU n l ts := rfl
        have e2 : pUnion (n + 2) (t :: ts) = match pAtom (n + 1) (t :: ts) with
          | .error e => .error e
          | .ok (l, ts) => loopU (n + 1) l ts := rfl
        rw [e1] at h ⊢
        rw [e2]
        cases hu : pAtom n (t :: ts) with
        | error e =>
          rw [hu] at h
          rw [ihA _ (by rw [hu]; exact fun hc => h (by simpa using hc)), hu]
        | ok p =>
          rw [hu] at h
          rw [ihA _ (by rw [hu]; simp [Done]), hu]
          exact ihLU _ _ h
    · intro l ts h
      match ts with
      | .col :: t :: ts =>
        have e1 : loopU (n + 1) l (.col :: t :: ts) = match pAtom n (t :: ts) with
          | .error e => .error e
          | .ok (r, ts) => loopU n (.union l r) ts := rfl
        have e2 : loopU (n + 2) l (.col :: t :: ts) = match pAtom (n + 1) (t :: ts) with
          | .error e => .error e
          | .ok (r, ts) => loopU (n + 1) (.union l r) ts := rfl
        rw [e1] at h ⊢
        rw [e2]
        cases hu : pAtom n (t :: ts) with
        | error e =>
          rw [hu] at h
          rw [ihA _ (by rw [hu]; exact fun hc => h (by simpa using hc)), hu]
        | ok p =>
          rw [hu] at h
          rw [ihA _ (by rw [hu]; simp [Done]), hu]
          exact ihLU _ _ h
      | [] => rfl
      | [.col] => rfl
      | .sp :: t => rfl
      | .lp :: t => rfl
      | .rp :: t => rfl
      | .op o :: t => rfl
      | .dig d :: t => rfl
      | .bad d :: t => rfl
    · intro ts h
      match ts with
      | .op o :: .lp :: t =>
        have e1 : pAtom (n + 1) (.op o :: .lp :: t) = match pInter n t with
          | .error e => .error e
          | .ok (e, .rp :: r) => .ok (.unary o (.paren e), r)
          | .ok _ => .error .syntaxErr := rfl
        have e2 : pAtom (n + 2) (.op o :: .lp :: t) = match pInter (n + 1) t with
          | .error e => .error e
          | .ok (e, .rp :: r) => .ok (.unary o (.paren e), r)
          | .ok _ => .error .syntaxErr := rfl
        rw [e1] at h ⊢
        rw [e2]
        rw [ihI t]
        intro hc
        rw [hc] at h
        exact h rfl
      | .lp :: t =>
        have e1 : pAtom (n + 1) (.lp :: t) = match pInter n t with
          | .error e => .error e
          | .ok (e, .rp :: r) => .ok (.paren e, r)
          | .ok _ => .error .syntaxErr := rfl
        have e2 : pAtom (n + 2) (.lp :: t) = match pInter (n + 1) t with
          | .error e => .error e
          | .ok (e, .rp :: r) => .ok (.paren e, r)
          | .ok _ => .error .syntaxErr := rfl
        rw [e1] at h ⊢
        rw [e2]
        rw [ihI t]
        intro hc
        rw [hc] at h
        exact h rfl
      | [] => rfl
      | .col :: t => rfl
      | .sp :: t => rfl
      | .rp :: t => rfl
      | .dig d :: t => rfl
      | .bad d :: t => rfl
      | [.op o] => rfl
      | .op o :: .col :: t => rfl
      | .op o :: .sp :: t => rfl
      | .op o :: .rp :: t => rfl
      | .op o :: .op _ :: t => rfl
      | .op o :: .dig _ :: t => rfl
      | .op o :: .bad _ :: t => rfl

theorem pInter_mono {n m : Nat} (h : n ≤ m) {ts} (hd : Done (pInter n ts)) : pInter m ts = pInter n ts := by
  induction m with
  | zero => have : n = 0 := by omega
            subst this; rfl
  | succ m ih =>
    by_cases e : n = m + 1
    · subst e; rfl
    · have := ih (by omega)
      rw [(fuel_mono m).1 ts (by rw [this]; exact hd), this]

/-! ### Consumption, well-formedness of results, no exhaustion -/

/-- All digit tokens are valid numbers. -/
def Good (ts : List GTok) : Prop := ∀ s, .dig s ∈ ts → isNum s

theorem Good.tail {t ts} (h : Good (t :: ts)) : Good ts := fun s hs => h s (by simp [hs])

theorem pDigit_spec {ts a r} (hg : Good ts) (h : pDigit ts = .ok (a, r)) :
    (∃ s, a = .digit s ∧ isNum s) ∧ Good r ∧ r.length < ts.length := by
  unfold pDigit at h
  split at h
  · cases h
  · cases h; exact ⟨⟨_, rfl, hg _ (by simp)⟩, hg.tail, by simp⟩
  · cases h

theorem parse_spec (n : Nat) :
    (∀ ts a r, Good ts → pInter n ts = .ok (a, r) → WF 2 a ∧ Good r ∧ r.length < ts.length) ∧
    (∀ l ts a r, Good ts → WF 2 l → loopI n l ts = .ok (a, r) → WF 2 a ∧ Good r ∧ r.length ≤ ts.length) ∧
    (∀ ts a r, Good ts → pUnion n ts = .ok (a, r) → WF 1 a ∧ Good r ∧ r.length < ts.length) ∧
    (∀ l ts a r, Good ts → WF 1 l → loopU n l ts = .ok (a, r) → WF 1 a ∧ Good r ∧ r.length ≤ ts.length) ∧
    (∀ ts a r, Good ts → pAtom n ts = .ok (a, r) → WF 0 a ∧ Good r ∧ r.length < ts.length) := by
  induction n with
  | zero => refine ⟨?_, ?_, ?_, ?_, ?_⟩ <;> intros <;> rename_i h <;> cases h
  | succ n ih =>
    obtain ⟨ihI, ihLI, ihU, ihLU, ihA⟩ := ih
    refine ⟨?_, ?_, ?_, ?_, ?_⟩
    · intro ts a r hg h
      unfold pInter at h
      split at h
      · cases h
      · rename_i l ts' hu
        obtain ⟨w, g, k⟩ := ihU _ _ _ hg hu
        obtain ⟨w', g', k'⟩ := ihLI _ _ _ _ g (.up1 w) h
        exact ⟨w', g', by omega⟩
    · intro l ts a r hg hl h
      unfold loopI at h
      split at h
      · split at h
        · cases h
        · rename_i hu
          obtain ⟨w, g, k⟩ := ihU _ _ _ hg hu
          obtain ⟨w', g', k'⟩ := ihLI _ _ _ _ g (.inter hl w) h
          exact ⟨w', g', by omega⟩
      · split at h
        · cases h
        · rename_i hu
          obtain ⟨w, g, k⟩ := ihU _ _ _ hg.tail hu
          obtain ⟨w', g', k'⟩ := ihLI _ _ _ _ g (.inter hl w) h
          exact ⟨w', g', by simp; omega⟩
      · cases h; exact ⟨hl, hg, Nat.le_refl _⟩
    · intro ts a r hg h
      unfold pUnion at h
      split at h
      · cases h
      · split at h
        · cases h
        · rename_i hu
          obtain ⟨w, g, k⟩ := ihA _ _ _ hg hu
          obtain ⟨w', g', k'⟩ := ihLU _ _ _ _ g (.up0 w) h
          exact ⟨w', g', by omega⟩
    · intro l ts a r hg hl h
      unfold loopU at h
      split at h
      · cases h
      · split at h
        · cases h
        · rename_i hu
          obtain ⟨w, g, k⟩ := ihA _ _ _ hg.tail hu
          obtain ⟨w', g', k'⟩ := ihLU _ _ _ _ g (.union hl w) h
          simp only [List.length_cons] at *
          exact ⟨w', g', by omega⟩
      · cases h; exact ⟨hl, hg, Nat.le_refl _⟩
    · intro ts a r hg h
      unfold pAtom at h
      split at h
      · split at h
        · cases h
        · rename_i hu
          obtain ⟨w, g, k⟩ := ihI _ _ _ hg.tail.tail hu
          cases h
          simp only [List.length_cons] at *
          exact ⟨.unParen w, g.tail, by omega⟩
        · cases h
      · split at h
        · cases h
        · rename_i hu
          obtain ⟨⟨s, rfl, hs⟩, g, k⟩ := pDigit_spec hg.tail hu
          cases h
          simp only [List.length_cons] at *
          exact ⟨.unDigit hs, g, by omega⟩
      · split at h
        · cases h
        · rename_i hu
          obtain ⟨w, g, k⟩ := ihI _ _ _ hg.tail hu
          cases h
          simp only [List.length_cons] at *
          exact ⟨.paren w, g.tail, by omega⟩
        · cases h
      · obtain ⟨⟨s, rfl, hs⟩, g, k⟩ := pDigit_spec hg h
        exact ⟨.digit hs, g, k⟩

/-- Shorter results, without the `Good` assumption. -/
theorem parse_len (n : Nat) :
    (∀ ts a r, pInter n ts = .ok (a, r) → r.length < ts.length) ∧
    (∀ l ts a r, loopI n l ts = .ok (a, r) → r.length ≤ ts.length) ∧
    (∀ ts a r, pUnion n ts = .ok (a, r) → r.length < ts.length) ∧
    (∀ l ts a r, loopU n l ts = .ok (a, r) → r.length ≤ ts.length) ∧
    (∀ ts a r, pAtom n ts = .ok (a, r) → r.length < ts.length) := by
  have hdig : ∀ ts a r, pDigit ts = .ok (a, r) → r.length < ts.length := by
    intro ts a r h
    unfold pDigit at h
    split at h
    · cases h
    · cases h; simp
    · cases h
  induction n with
  | zero => refine ⟨?_, ?_, ?_, ?_, ?_⟩ <;> intros <;> rename_i h <;> cases h
  | succ n ih =>
    obtain ⟨ihI, ihLI, ihU, ihLU, ihA⟩ := ih
    refine ⟨?_, ?_, ?_, ?_, ?_⟩
    · intro ts a r h
      unfold pInter at h
      split at h
      · cases h
      · rename_i l ts' hu
        have := ihU _ _ _ hu
        have := ihLI _ _ _ _ h
        omega
    · intro l ts a r h
      unfold loopI at h
      split at h
      · split at h
        · cases h
        · rename_i hu
          have := ihU _ _ _ hu
          have := ihLI _ _ _ _ h
          omega
      · split at h
        · cases h
        · rename_i hu
          have := ihU _ _ _ hu
          have := ihLI _ _ _ _ h
          simp; omega
      · cases h; exact Nat.le_refl _
    · intro ts a r h
      unfold pUnion at h
      split at h
      · cases h
      · split at h
        · cases h
        · rename_i hu
          have := ihA _ _ _ hu
          have := ihLU _ _ _ _ h
          omega
    · intro l ts a r h
      unfold loopU at h
      split at h
      · cases h
      · split at h
        · cases h
        · rename_i hu
          have := ihA _ _ _ hu
          have := ihLU _ _ _ _ h
          simp only [List.length_cons] at *
          omega
      · cases h; exact Nat.le_refl _
    · intro ts a r h
      unfold pAtom at h
      split at h
      · split at h
        · cases h
        · rename_i hu
          have := ihI _ _ _ hu
          cases h
          simp only [List.length_cons] at *
          omega
        · cases h
      · split at h
        · cases h
        · rename_i hu
          have := hdig _ _ _ hu
          cases h
          simp only [List.length_cons] at *
          omega
      · split at h
        · cases h
        · rename_i hu
          have := ihI _ _ _ hu
          cases h
          simp only [List.length_cons] at *
          omega
        · cases h
      · exact hdig _ _ _ h

/-- Enough fuel: the recursion never runs out, and only four errors occur. -/
def ErrOk {α : Type} (r : Res α) : Prop :=
  ∀ e, r = .error e → e = .syntaxErr ∨ e = .assertion ∨ e = .index

theorem pDigit_err (ts) : ErrOk (pDigit ts) := by
  intro e h
  unfold pDigit at h
  split at h <;> cases h <;> simp

theorem parse_fuel (n : Nat) :
    (∀ ts, 4 * ts.length + 3 ≤ n → ErrOk (pInter n ts)) ∧
    (∀ l ts, 4 * ts.length + 3 ≤ n → ErrOk (loopI n l ts)) ∧
    (∀ ts, 4 * ts.length + 2 ≤ n → ErrOk (pUnion n ts)) ∧
    (∀ l ts, 4 * ts.length + 1 ≤ n → ErrOk (loopU n l ts)) ∧
    (∀ ts, 4 * ts.length + 1 ≤ n → ErrOk (pAtom n ts)) := by
  induction n with
  | zero => refine ⟨?_, ?_, ?_, ?_, ?_⟩ <;> intros <;> omega
  | succ n ih =>
    obtain ⟨ihI, ihLI, ihU, ihLU, ihA⟩ := ih
    obtain ⟨lI, lLI, lU, lLU, lA⟩ := parse_len n
    refine ⟨?_, ?_, ?_, ?_, ?_⟩
    · intro ts hn e h
      unfold pInter at h
      split at h
      · cases h; exact ihU ts (by omega) _ ‹_›
      · rename_i hu
        have := lU _ _ _ hu
        exact ihLI _ _ (by omega) _ h
    · intro l ts hn e h
      unfold loopI at h
      split at h
      · split at h
        · rename_i hu; cases h; refine ihU _ ?_ _ hu; omega
        · rename_i hu
          have := lU _ _ _ hu
          exact ihLI _ _ (by omega) _ h
      · simp only [List.length_cons] at hn
        split at h
        · rename_i hu; cases h; refine ihU _ ?_ _ hu; omega
        · rename_i hu
          have := lU _ _ _ hu
          exact ihLI _ _ (by omega) _ h
      · cases h
    · intro ts hn e h
      unfold pUnion at h
      split at h
      · cases h; simp
      · split at h
        · rename_i hu; cases h; refine ihA _ ?_ _ hu; omega
        · rename_i hu
          have := lA _ _ _ hu
          exact ihLU _ _ (by omega) _ h
    · intro l ts hn e h
      unfold loopU at h
      split at h
      · cases h; simp
      · simp only [List.length_cons] at hn
        split at h
        · rename_i hu; cases h; refine ihA _ ?_ _ hu; simp only [List.length_cons]; omega
        · rename_i hu
          have := lA _ _ _ hu
          simp only [List.length_cons] at this
          exact ihLU _ _ (by omega) _ h
      · cases h
    · intro ts hn e h
      unfold pAtom at h
      split at h
      · simp only [List.length_cons] at hn
        split at h
        · rename_i hu; cases h; refine ihI _ ?_ _ hu; omega
        · cases h
        · cases h; simp
      · split at h
        · cases h; exact pDigit_err _ _ ‹_›
        · cases h
      · simp only [List.length_cons] at hn
        split at h
        · rename_i hu; cases h; refine ihI _ ?_ _ hu; omega
        · cases h
        · cases h; simp
      · exact pDigit_err _ _ h

theorem ErrOk.done {α : Type} {r : Res α} (h : ErrOk r) : Done r := by
  intro e
  rcases h _ e with h | h | h <;> cases h

/-! ### Completeness: printed tokens parse back -/

/-- Eventually (for all large fuel) equal. -/
def Ev {α : Type} (f : Nat → α) (x : α) : Prop := ∃ N, ∀ n, N ≤ n → f n = x

theorem Ev.const {α : Type} {f : Nat → α} {x : α} (h : ∀ n, f (n + 1) = x) : Ev f x :=
  ⟨1, fun n hn => by obtain ⟨m, rfl⟩ : ∃ m, n = m + 1 := ⟨n - 1, by omega⟩; exact h m⟩

theorem Ev.step {α β : Type} {f : Nat → α} {x : α} {g h : Nat → β} {y : β} (hf : Ev f x) (hh : Ev h y)
    (hg : ∀ n, f n = x → g (n + 1) = h n) : Ev g y := by
  obtain ⟨N, hN⟩ := hf
  obtain ⟨M, hM⟩ := hh
  refine ⟨max N M + 1, fun n hn => ?_⟩
  obtain ⟨m, rfl⟩ : ∃ m, n = m + 1 := ⟨n - 1, by omega⟩
  rw [hg m (hN m (by omega)), hM m (by omega)]

def notCol : List GTok → Prop
  | .col :: _ => False
  | _ => True

def notCont : List GTok → Prop
  | .col :: _ => False
  | .sp :: _ => False
  | .lp :: _ => False
  | _ => True

theorem loopU_stop (l ts) (h : notCol ts) : Ev (fun n => loopU n l ts) (.ok (l, ts)) := by
  apply Ev.const
  intro n
  match ts with
  | [] => rfl
  | .col :: _ => exact absurd h id
  | .sp :: t => rfl
  | .lp :: t => rfl
  | .rp :: t => rfl
  | .op o :: t => rfl
  | .dig d :: t => rfl
  | .bad d :: t => rfl

theorem loopI_stop (l ts) (h : notCont ts) : Ev (fun n => loopI n l ts) (.ok (l, ts)) := by
  apply Ev.const
  intro n
  match ts with
  | [] => rfl
  | .col :: t => exact absurd h id
  | .sp :: t => exact absurd h id
  | .lp :: t => exact absurd h id
  | .rp :: t => rfl
  | .op o :: t => rfl
  | .dig d :: t => rfl
  | .bad d :: t => rfl

/-- What completeness says at each level. -/
def Comp : Nat → Ast → Prop
  | 0, e => ∀ rest, Ev (fun n => pAtom n (e.toks ++ rest)) (.ok (e, rest))
  | 1, e => ∀ rest res, Ev (fun n => loopU n e rest) res → Ev (fun n => pUnion n (e.toks ++ rest)) res
  | _, e => ∀ rest res, notCol rest → Ev (fun n => loopI n e rest) res → Ev (fun n => pInter n (e.toks ++ rest)) res

theorem toks_cons (e : Ast) (rest) : ∃ t ts, e.toks ++ rest = t :: ts := by
  cases h : e.toks with
  | nil => exact absurd h e.toks_ne_nil
  | cons t ts => exact ⟨t, ts ++ rest, rfl⟩

theorem comp_paren {e : Ast} (ih : Comp 2 e) (rest) :
    Ev (fun n => pInter n (e.toks ++ (.rp :: rest))) (.ok (e, .rp :: rest)) :=
  ih (.rp :: rest) _ trivial (loopI_stop e (.rp :: rest) trivial)

theorem complete {k e} (h : WF k e) : Comp k e := by
  induction h with
  | @digit s hs => intro rest; exact Ev.const (fun n => rfl)
  | @paren e he ih =>
    intro rest
    refine Ev.step (comp_paren ih rest) (h := fun _ => .ok (.paren e, rest)) ⟨0, fun _ _ => rfl⟩ ?_
    intro n hn
    have : (Ast.paren e).toks ++ rest = .lp :: (e.toks ++ .rp :: rest) := by simp [Ast.toks]
    rw [this]
    show (match pInter n (e.toks ++ .rp :: rest) with
      | .error e => .error e
      | .ok (e, .rp :: r) => .ok (.paren e, r)
      | .ok _ => .error .syntaxErr : Res (Ast × List GTok)) = _
    rw [hn]
  | @unDigit o s hs => intro rest; exact Ev.const (fun n => rfl)
  | @unParen o e he ih =>
    intro rest
    refine Ev.step (comp_paren ih rest) (h := fun _ => .ok (.unary o (.paren e), rest)) ⟨0, fun _ _ => rfl⟩ ?_
    intro n hn
    have : (Ast.unary o (.paren e)).toks ++ rest = .op o :: .lp :: (e.toks ++ .rp :: rest) := by simp [Ast.toks]
    rw [this]
    show (match pInter n (e.toks ++ .rp :: rest) with
      | .error e => .error e
      | .ok (e, .rp :: r) => .ok (.unary o (.paren e), r)
      | .ok _ => .error .syntaxErr : Res (Ast × List GTok)) = _
    rw [hn]
  | @union l r hl hr ihl ihr =>
    intro rest res h
    have e : (Ast.union l r).toks ++ rest = l.toks ++ (.col :: (r.toks ++ rest)) := by simp [Ast.toks]
    rw [e]
    apply ihl
    obtain ⟨t, ts, ht⟩ := toks_cons r rest
    have := ihr rest
    rw [ht] at this ⊢
    refine Ev.step this h ?_
    intro n hn
    show (match pAtom n (t :: ts) with
      | .error e => .error e
      | .ok (r, ts) => loopU n (.union l r) ts : Res (Ast × List GTok)) = _
    rw [hn]
  | @inter l r hl hr ihl ihr =>
    intro rest res hc h
    have e : (Ast.inter l r).toks ++ rest = l.toks ++ (.sp :: (r.toks ++ rest)) := by simp [Ast.toks]
    rw [e]
    refine ihl (.sp :: (r.toks ++ rest)) _ trivial ?_
    have := ihr rest _ (loopU_stop r rest hc)
    refine Ev.step this h ?_
    intro n hn
    show (match pUnion n (r.toks ++ rest) with
      | .error e => .error e
      | .ok (r, ts) => loopI n (.inter l r) ts : Res (Ast × List GTok)) = _
    rw [hn]
  | @up0 e he ih =>
    intro rest res h
    obtain ⟨t, ts, ht⟩ := toks_cons e rest
    have := ih rest
    rw [ht] at this ⊢
    refine Ev.step this h ?_
    intro n hn
    show (match pAtom n (t :: ts) with
      | .error e => .error e
      | .ok (l, ts) => loopU n l ts : Res (Ast × List GTok)) = _
    rw [hn]
  | @up1 e he ih =>
    intro rest res hc h
    have := ih rest _ (loopU_stop e rest hc)
    refine Ev.step this h ?_
    intro n hn
    show (match pUnion n (e.toks ++ rest) with
      | .error e => .error e
      | .ok (l, ts) => loopI n l ts : Res (Ast × List GTok)) = _
    rw [hn]

theorem pInter_toks {e : Ast} (h : WF 2 e) : pInter (4 * e.toks.length + 4) e.toks = .ok (e, []) := by
  obtain ⟨N, hN⟩ := complete h [] _ trivial (loopI_stop e [] trivial)
  simp only [List.append_nil] at hN
  have hd : Done (pInter (4 * e.toks.length + 4) e.toks) := ((parse_fuel _).1 e.toks (by omega)).done
  rw [← pInter_mono (Nat.le_max_left (4 * e.toks.length + 4) N) hd]
  exact hN _ (Nat.le_max_right _ _)

end Types
