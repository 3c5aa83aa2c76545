import Mathlib.Tactic.Ring
import Mathlib.Tactic.Linarith
import Mathlib.Tactic.NormNum
import Mathlib.Tactic.Positivity
import Mathlib.Tactic.FieldSimp
import Verif.Inp.RangeSpec
import Verif.Inp.PutLemmas
import Verif.Inp.TallyRead
/-!
# The tests of setters and ranges

Reads the condition of a setter as a list of ranges, and proves that the condition refuses exactly the numbers outside.
-/
namespace Inp
open Py Types

theorem dec_int (x : Dec) : decValue x = ((if x.neg then -(x.coeff : Int) else x.coeff : Int) : ℚ) * (10 : ℚ) ^ x.exp := by
  unfold decValue
  cases x.neg <;> simp

theorem scale_lt (m n : Int) (e : Int) (d : Nat) :
    (m * 10 ^ (e + d).toNat < n * 10 ^ (-(e + d)).toNat ↔ (m : ℚ) * (10 : ℚ) ^ e < (n : ℚ) / 10 ^ d) := by
  have h10 : (0 : ℚ) < 10 := by norm_num
  have hd : (0 : ℚ) < 10 ^ d := by positivity
  rw [lt_div_iff₀ hd]
  have he : (m : ℚ) * (10 : ℚ) ^ e * 10 ^ d = m * (10 : ℚ) ^ (e + d) := by
    rw [zpow_add₀ (by norm_num), zpow_natCast]; ring
  rw [he]
  rcases Int.le_total 0 (e + d) with h | h
  · obtain ⟨k, hk⟩ := Int.eq_ofNat_of_zero_le h
    rw [hk]
    have h1 : ((k : Int)).toNat = k := by simp
    have h2 : (-(k : Int)).toNat = 0 := by omega
    rw [h1, h2, zpow_natCast]
    rw [← @Int.cast_lt ℚ]
    push_cast
    rw [mul_one]
  · obtain ⟨k, hk⟩ := Int.eq_ofNat_of_zero_le (show 0 ≤ -(e + d) by omega)
    have h0 : e + d = -(k : Int) := by omega
    rw [h0]
    have h1 : (-(k : Int)).toNat = 0 := by omega
    have h2 : (-(-(k : Int))).toNat = k := by omega
    rw [h1, h2, zpow_neg, zpow_natCast]
    have hk : (0 : ℚ) < 10 ^ k := by positivity
    rw [← div_eq_mul_inv, div_lt_iff₀ hk, ← @Int.cast_lt ℚ]
    push_cast
    rw [mul_one]

theorem scale_eq (m n : Int) (e : Int) (d : Nat) :
    (m * 10 ^ (e + d).toNat = n * 10 ^ (-(e + d)).toNat ↔ (m : ℚ) * (10 : ℚ) ^ e = (n : ℚ) / 10 ^ d) := by
  have h1 := scale_lt m n e d
  have h2 := scale_lt (-m) (-n) e d
  push_cast at h2
  simp only [neg_mul, neg_div, neg_lt_neg_iff] at h2
  constructor
  · intro h
    apply le_antisymm
    · rw [← not_lt]; rw [← h2]; omega
    · rw [← not_lt]; rw [← h1]; omega
  · intro h
    have a1 : ¬ m * 10 ^ (e + d).toNat < n * 10 ^ (-(e + d)).toNat := by rw [h1, h]; exact lt_irrefl _
    have a2 : ¬ -(m * 10 ^ (e + d).toNat) < -(n * 10 ^ (-(e + d)).toNat) := by
      rw [neg_lt_neg_iff, h2, h]; exact lt_irrefl _
    omega

/-- The three outcomes of comparing a decimal with a constant are those of the numbers. -/
theorem decCmp_spec (x : Dec) (n : Int) (d : Nat) :
    (decCmp x n d = .lt ↔ decValue x < (n : ℚ) / 10 ^ d) ∧ (decCmp x n d = .eq ↔ decValue x = (n : ℚ) / 10 ^ d) ∧
      (decCmp x n d = .gt ↔ (n : ℚ) / 10 ^ d < decValue x) := by
  rw [dec_int]
  have h1 := scale_lt (if x.neg then -(x.coeff : Int) else x.coeff) n x.exp d
  have h2 := scale_eq (if x.neg then -(x.coeff : Int) else x.coeff) n x.exp d
  unfold decCmp
  refine ⟨?_, ?_, ?_⟩
  · rw [← h1, compare_lt_iff_lt]
  · rw [← h2, compare_eq_iff_eq]
  · rw [compare_gt_iff_gt]
    constructor
    · intro h
      rcases lt_trichotomy ((((if x.neg then -(x.coeff : Int) else x.coeff : Int) : ℚ)) * (10 : ℚ) ^ x.exp) ((n : ℚ) / 10 ^ d) with c | c | c
      · have := h1.2 c; omega
      · have := h2.2 c; omega
      · exact c
    · intro h
      have a1 := mt h1.1 (not_lt.2 (le_of_lt h))
      have a2 := mt h2.1 (ne_of_gt h)
      omega

theorem intCmp_spec (k n : Int) (d : Nat) :
    (compare (k * 10 ^ d) n = .lt ↔ (k : ℚ) < (n : ℚ) / 10 ^ d) ∧ (compare (k * 10 ^ d) n = .eq ↔ (k : ℚ) = (n : ℚ) / 10 ^ d) ∧
      (compare (k * 10 ^ d) n = .gt ↔ (n : ℚ) / 10 ^ d < k) := by
  have hd : (0 : ℚ) < 10 ^ d := by positivity
  refine ⟨?_, ?_, ?_⟩
  · rw [compare_lt_iff_lt, lt_div_iff₀ hd, ← @Int.cast_lt ℚ]; push_cast; rfl
  · rw [compare_eq_iff_eq, eq_div_iff (ne_of_gt hd), ← @Int.cast_inj ℚ]; push_cast; rfl
  · rw [compare_gt_iff_gt, div_lt_iff₀ hd, ← @Int.cast_lt ℚ]; push_cast; rfl

/-- The ranges of one comparison. -/
def cmpSpans (n : Int) (d : Nat) : Cmp → List Span
  | .lt => [.below n d]
  | .le => [.upTo n d]
  | .eq => [.point n d]
  | .ne => [.below n d, .above n d]
  | .ge => [.atLeast n d]
  | .gt => [.above n d]

/-- A lower and an upper end together. -/
def meet : Span → Span → Option Span
  | ⟨l, none⟩, ⟨none, h⟩ => some ⟨l, h⟩
  | ⟨none, h⟩, ⟨l, none⟩ => some ⟨l, h⟩
  | _, _ => none

/-- The ranges in which a condition holds. -/
def Chk.body : Chk → Option (List Span)
  | .cmp o n d => some (cmpSpans n d o)
  | .inInts l => some (l.map (fun n => .point n 0))
  | .or a b => match a.body, b.body with
    | some x, some y => some (x ++ y)
    | _, _ => none
  | .and a b => match a.body, b.body with
    | some [s], some [t] => (meet s t).map (fun u => [u])
    | _, _ => none
  | _ => none

theorem has_ord {q : ℚ} {n : Int} {d : Nat} {o : Ordering}
    (h : (o = .lt ↔ q < (n : ℚ) / 10 ^ d) ∧ (o = .eq ↔ q = (n : ℚ) / 10 ^ d) ∧ (o = .gt ↔ (n : ℚ) / 10 ^ d < q)) (c : Cmp) :
    (c.holds o = true ↔ ∃ s ∈ cmpSpans n d c, s.Has (.fin q)) := by
  obtain ⟨h1, h2, h3⟩ := h
  have hle : o ≠ .gt ↔ q ≤ (n : ℚ) / 10 ^ d := by rw [← not_lt, ← h3]
  have hge : o ≠ .lt ↔ (n : ℚ) / 10 ^ d ≤ q := by rw [← not_lt, ← h1]
  have hne : o ≠ .eq ↔ (q < (n : ℚ) / 10 ^ d ∨ (n : ℚ) / 10 ^ d < q) := by rw [← h1, ← h3]; cases o <;> simp
  cases c with
  | lt => simpa [Cmp.holds, cmpSpans, Span.Has, Span.below, End.val] using h1
  | le => simpa [Cmp.holds, cmpSpans, Span.Has, Span.upTo, End.val] using hle
  | eq =>
    have h2' : o = .eq ↔ ((n : ℚ) / 10 ^ d ≤ q ∧ q ≤ (n : ℚ) / 10 ^ d) := by rw [h2, le_antisymm_iff, and_comm]
    simpa [Cmp.holds, cmpSpans, Span.Has, Span.point, End.val] using h2'
  | ne => simpa [Cmp.holds, cmpSpans, Span.Has, Span.below, Span.above, End.val] using hne
  | ge => simpa [Cmp.holds, cmpSpans, Span.Has, Span.atLeast, End.val] using hge
  | gt => simpa [Cmp.holds, cmpSpans, Span.Has, Span.above, End.val] using h3

theorem has_inf (neg : Bool) (c : Cmp) (n : Int) (d : Nat) :
    (c.holds (if neg then .lt else .gt) = true ↔ ∃ s ∈ cmpSpans n d c, s.Has (.inf neg)) := by
  cases c <;> cases neg <;> simp [Cmp.holds, cmpSpans, Span.Has, Span.below, Span.upTo, Span.point, Span.above, Span.atLeast]

theorem cmp_spans {real : Bool} {v : Val} {x : Num} (hx : numOf real v = some x) (c : Cmp) (n : Int) (d : Nat) :
    ∃ b, cmpVal c n d v = .ok b ∧ (b = true ↔ ∃ s ∈ cmpSpans n d c, s.Has x) := by
  unfold numOf at hx
  split at hx
  · cases real <;> simp at hx
    subst hx
    exact ⟨_, rfl, has_ord (intCmp_spec _ n d) c⟩
  · cases real <;> simp at hx
    subst hx
    exact ⟨_, rfl, has_ord (decCmp_spec _ n d) c⟩
  · cases real <;> simp at hx
    subst hx
    exact ⟨_, rfl, has_inf _ c n d⟩
  · cases hx

theorem ints_sound {real : Bool} {v : Val} {x : Num} (hx : numOf real v = some x) (l : List Int) :
    ∃ b, inIntsVal l v = .ok b ∧ (b = true ↔ ∃ s ∈ l.map (fun n => Span.point n 0), s.Has x) := by
  unfold numOf at hx
  split at hx
  · rename_i k
    cases real <;> simp at hx
    subst hx
    refine ⟨_, rfl, ?_⟩
    simp [Span.Has, Span.point, End.val]
    constructor
    · intro h; exact ⟨k, h, le_refl _, le_refl _⟩
    · rintro ⟨n, hn, h1, h2⟩
      have : n = k := by omega
      subst this; exact hn
  · rename_i y
    cases real <;> simp at hx
    subst hx
    refine ⟨_, rfl, ?_⟩
    simp only [List.any_eq_true, List.mem_map, exists_exists_and_eq_and, beq_iff_eq]
    constructor
    · rintro ⟨n, hn, h⟩
      have := (decCmp_spec y n 0).2.1.1 h
      exact ⟨n, hn, by simp [Span.Has, Span.point, End.val, this]⟩
    · rintro ⟨n, hn, h⟩
      refine ⟨n, hn, (decCmp_spec y n 0).2.1.2 ?_⟩
      simp [Span.Has, Span.point, End.val] at h
      simpa using le_antisymm h.2 h.1
  · rename_i neg
    cases real <;> simp at hx
    subst hx
    refine ⟨_, rfl, ?_⟩
    cases neg <;> simp [Span.Has, Span.point]
  · cases hx

theorem meet_has {s t u : Span} (h : meet s t = some u) (x : Num) : u.Has x ↔ s.Has x ∧ t.Has x := by
  unfold meet at h
  split at h <;> cases h
  · cases x with
    | fin q => simp [Span.Has]
    | inf neg => cases neg <;> simp [Span.Has]
  · cases x with
    | fin q => simp [Span.Has]; exact and_comm
    | inf neg => cases neg <;> simp [Span.Has]

theorem body_sound (env : List (String × Val)) {real : Bool} {v : Val} {x : Num} (hx : numOf real v = some x) :
    ∀ (c : Chk) {ss : List Span}, c.body = some ss → ∃ b, c.eval env v = .ok b ∧ (b = true ↔ ∃ s ∈ ss, s.Has x)
  | .cmp o n d, ss, h => by
    cases h
    simpa [Chk.eval] using cmp_spans hx o n d
  | .inInts l, ss, h => by
    cases h
    simpa [Chk.eval] using ints_sound hx l
  | .or a b, ss, h => by
    unfold Chk.body at h
    split at h
    · rename_i p q ha hb
      cases h
      obtain ⟨u, hu, hp⟩ := body_sound env hx a ha
      obtain ⟨w, hw, hq⟩ := body_sound env hx b hb
      refine ⟨u || w, ?_, ?_⟩
      · simp only [Chk.eval, hu, hw, Except.bind]
        cases u <;> simp
      · simp only [Bool.or_eq_true, hp, hq, List.mem_append, or_and_right, exists_or]
    · cases h
  | .and a b, ss, h => by
    unfold Chk.body at h
    split at h
    · rename_i p q ha hb
      cases hm : meet p q with
      | none => rw [hm] at h; cases h
      | some m =>
        rw [hm] at h; cases h
        obtain ⟨u, hu, hp⟩ := body_sound env hx a ha
        obtain ⟨w, hw, hq⟩ := body_sound env hx b hb
        refine ⟨u && w, ?_, ?_⟩
        · simp only [Chk.eval, hu, hw, Except.bind]
          cases u <;> simp
        · simp only [List.mem_singleton, exists_eq_left] at hp hq ⊢
          rw [Bool.and_eq_true, hp, hq, meet_has hm]
    · cases h

/-- The ranges and the remainders of a condition. -/
def Chk.restBody : Chk → Option (List Span × Option (Int × List Int))
  | .modEq m r => some ([⟨none, none⟩], some (m, [r]))
  | .and a (.modEq m r) => a.body.map (fun l => (l, some (m, [r])))
  | .and a (.modIn m l) => a.body.map (fun ss => (ss, some (m, l)))
  | c => c.body.map (fun l => (l, none))

/-- The condition that accepts, with jumps or without. -/
def Chk.jumpBody : Chk → Option (Bool × List Span × Option (Int × List Int))
  | .or .isJump c => c.restBody.map (fun p => (true, p))
  | c => c.restBody.map (fun p => (false, p))

/-- The condition of a setter: whether `None` is accepted, and the condition that accepts. -/
def Chk.split : Chk → Option (Bool × Chk)
  | .or .isNone (.not c) => some (false, c)
  | .and .notNone (.not c) => some (true, c)
  | _ => none

theorem mod_num {real : Bool} {v : Val} {x : Num} (hx : numOf real v = some x) (hr : real = false) (m : Int) (p : Int → Bool) :
    ∃ k : Int, v = .sc (.int (.num k)) ∧ modVal m p v = .ok (p (k % m)) := by
  subst hr
  unfold numOf at hx
  split at hx
  · exact ⟨_, rfl, rfl⟩
  all_goals simp at hx

/-- A condition that is read as ranges and remainders accepts exactly the numbers in them. -/
theorem rest_sound (env : List (String × Val)) {real : Bool} {v : Val} {x : Num} (hx : numOf real v = some x) (c : Chk) {ss : List Span}
    {rest : Option (Int × List Int)} (h : c.restBody = some (ss, rest)) (hr : rest ≠ none → real = false) :
    ∃ b, c.eval env v = .ok b ∧ (b = true ↔ (∃ s ∈ ss, s.Has x) ∧ RestOk rest v) := by
  unfold Chk.restBody at h
  split at h
  · rename_i m r
    cases h
    obtain ⟨k, rfl, hk⟩ := mod_num hx (hr (by simp)) m (fun k => k == r)
    refine ⟨_, by rw [Chk.eval, hk], ?_⟩
    have hall : (∃ s ∈ [(⟨none, none⟩ : Span)], s.Has x) := ⟨_, List.mem_singleton.2 rfl, by
      cases x with
      | fin q => simp [Span.Has]
      | inf neg => cases neg <;> rfl⟩
    simp only [hall, true_and, RestOk]
    simp
  · rename_i a m r
    cases ha : a.body with
    | none => rw [ha] at h; cases h
    | some l =>
      rw [ha] at h; cases h
      obtain ⟨u, hu, hp⟩ := body_sound env hx a ha
      obtain ⟨k, rfl, hk⟩ := mod_num hx (hr (by simp)) m (fun k => k == r)
      refine ⟨u && (k % m == r), ?_, ?_⟩
      · simp only [Chk.eval, hu, hk, Except.bind]
        cases u <;> simp
      · rw [Bool.and_eq_true, hp]
        simp [RestOk]
  · rename_i a m l
    cases ha : a.body with
    | none => rw [ha] at h; cases h
    | some ss' =>
      rw [ha] at h; cases h
      obtain ⟨u, hu, hp⟩ := body_sound env hx a ha
      obtain ⟨k, rfl, hk⟩ := mod_num hx (hr (by simp)) m (fun k => l.contains k)
      refine ⟨u && l.contains (k % m), ?_, ?_⟩
      · simp only [Chk.eval, hu, hk, Except.bind]
        cases u <;> simp
      · rw [Bool.and_eq_true, hp]
        simp [RestOk]
  · cases ha : c.body with
    | none => rw [ha] at h; cases h
    | some l =>
      rw [ha] at h; cases h
      obtain ⟨u, hu, hp⟩ := body_sound env hx c ha
      exact ⟨u, hu, by rw [hp]; simp [RestOk]⟩

theorem jump_eval (env : List (String × Val)) {v : Val} (h : isJumpVal v) : Chk.eval env v .isJump = .ok true := by
  unfold isJumpVal at h
  split at h
  · rfl
  · rfl
  · cases h

theorem num_not_jump (env : List (String × Val)) {real : Bool} {v : Val} {x : Num} (hx : numOf real v = some x) :
    Chk.eval env v .isJump = .ok false ∧ ¬ isJumpVal v ∧ v ≠ .none := by
  unfold numOf at hx
  split at hx
  · exact ⟨rfl, id, nofun⟩
  · exact ⟨rfl, id, nofun⟩
  · exact ⟨rfl, id, nofun⟩
  · cases hx

theorem jump_sound (env : List (String × Val)) {real : Bool} {v : Val} {x : Num} (hx : numOf real v = some x) (c : Chk) {j : Bool} {ss : List Span}
    {rest : Option (Int × List Int)} (h : c.jumpBody = some (j, ss, rest)) (hr : rest ≠ none → real = false) :
    ∃ b, c.eval env v = .ok b ∧ (b = true ↔ (∃ s ∈ ss, s.Has x) ∧ RestOk rest v) := by
  unfold Chk.jumpBody at h
  split at h
  · rename_i d
    cases hd : d.restBody with
    | none => rw [hd] at h; cases h
    | some p =>
      rw [hd] at h; cases h
      obtain ⟨u, hu, hp⟩ := rest_sound env hx d hd hr
      refine ⟨u, ?_, hp⟩
      show (Chk.eval env v .isJump).bind (fun p => if p then .ok true else d.eval env v) = _
      rw [(num_not_jump env hx).1, hu]
      rfl
  · cases hd : c.restBody with
    | none => rw [hd] at h; cases h
    | some p =>
      rw [hd] at h; cases h
      exact rest_sound env hx c hd hr

theorem jump_true (env : List (String × Val)) {v : Val} (hv : isJumpVal v) (c : Chk) {ss : List Span}
    {rest : Option (Int × List Int)} (h : c.jumpBody = some (true, ss, rest)) : c.eval env v = .ok true := by
  unfold Chk.jumpBody at h
  split at h
  · rename_i d
    show (Chk.eval env v .isJump).bind (fun p => if p then .ok true else d.eval env v) = _
    rw [jump_eval env hv]
    rfl
  · cases hd : c.restBody with
    | none => rw [hd] at h; cases h
    | some p => rw [hd] at h; cases h

theorem split_none (env : List (String × Val)) {c d : Chk} {o : Bool} (h : c.split = some (o, d)) : c.eval env .none = .ok (!o) := by
  unfold Chk.split at h
  split at h <;> cases h <;> rfl

theorem split_some (env : List (String × Val)) {c d : Chk} {o : Bool} (h : c.split = some (o, d)) {v : Val} (hv : v ≠ .none) :
    c.eval env v = (d.eval env v).map (!·) := by
  unfold Chk.split at h
  split at h <;> cases h
  all_goals
    simp only [Chk.eval, Except.bind]
    cases v <;> first | exact absurd rfl hv | rfl

/-- The names of the attributes of a class are different, and this one is set by the constructor. -/
def wellSet (c : Cls) (n : String) : Bool := decide (c.attrs.map (·.name)).Nodup && c.init.contains n

/-- The test of an attribute is read as the ranges of the row. -/
def NumRow.reads (r : NumRow) (a : Attr) : Bool :=
  match a with
  | ⟨_, .base k, false, some c⟩ =>
    (match k with | .real => r.real | .int => !r.real | _ => false) &&
    (match c.split with
    | some (o, d) => o == r.optional && decide (d.jumpBody = some (r.jump, r.spans, r.rest)) && (r.rest.isNone || !r.real)
    | none => false)
  | _ => false

def TextRow.reads (r : TextRow) (a : Attr) : Bool :=
  match a with
  | ⟨_, .base .str, false, some c⟩ =>
    (match c.split with
    | some (o, d) => o == r.optional && (match d, r.rule with
      | .lowIn l, .words l' => l == l'
      | .eqStr s, .exactly t => s == t
      | .lenLe n, .upto m => n == m
      | _, _ => false)
    | none => false)
  | _ => false

def needs (a : Attr) : Bool :=
  match a.chk with
  | some .isNone => true
  | _ => false

def NumRow.tested (r : NumRow) : Bool := wellSet r.cls r.attr && r.cls.attrs.any (fun a => a.name == r.attr) &&
  r.cls.attrs.all (fun a => !(a.name == r.attr) || r.reads a)
def TextRow.tested (r : TextRow) : Bool := wellSet r.cls r.attr && r.cls.attrs.any (fun a => a.name == r.attr) &&
  r.cls.attrs.all (fun a => !(a.name == r.attr) || r.reads a)
def NeedRow.tested (r : NeedRow) : Bool := r.attrs.all (fun n => wellSet r.cls n && r.cls.attrs.any (fun a => a.name == n) &&
  r.cls.attrs.all (fun a => !(a.name == n) || needs a))

/-- The setter of a row: accepts what is documented and refuses other numbers with the documented error. -/
theorem num_set {r : NumRow} {a : Attr} (h : r.reads a = true) (env : List (String × Val)) {v : Val} (hf : r.Fits v) :
    (r.Allows v → ∃ c, a.chk = some c ∧ c.eval env v = .ok false) ∧ (¬ r.Allows v → ∃ c, a.chk = some c ∧ c.eval env v = .ok true) := by
  unfold NumRow.reads at h
  split at h
  · rename_i n k c
    rw [Bool.and_eq_true] at h
    obtain ⟨_, h⟩ := h
    split at h
    · rename_i o d hs
      simp only [Bool.and_eq_true, beq_iff_eq, decide_eq_true_eq, Bool.or_eq_true] at h
      obtain ⟨⟨ho, hj⟩, hr⟩ := h
      have hr' : r.rest ≠ none → r.real = false := by
        intro hne
        rcases hr with hr | hr
        · exact absurd (Option.isNone_iff_eq_none.1 hr) hne
        · simpa using hr
      by_cases hv : v = .none
      · subst hv
        have hev := split_none env hs
        have hiff : r.Allows .none ↔ r.optional = true := by
          constructor
          · rintro (⟨_, h⟩ | ⟨h, _⟩ | ⟨⟨x, hx, _⟩, _⟩)
            · exact h
            · cases h
            · cases hx
          · intro h; exact .inl ⟨rfl, h⟩
        rw [hiff, ← ho]
        refine ⟨fun h => ⟨c, rfl, by rw [hev, h]; rfl⟩, fun h => ⟨c, rfl, ?_⟩⟩
        rw [hev]
        cases o
        · rfl
        · exact absurd rfl h
      · have hev := split_some env hs hv
        rcases hf with h0 | ⟨hjv, hjt⟩ | hn
        · exact absurd h0 hv
        · rw [hjt] at hj
          have := jump_true env hjv d hj
          refine ⟨fun _ => ⟨c, rfl, by rw [hev, this]; rfl⟩, fun h => absurd (.inr (.inl ⟨hjv, hjt⟩)) h⟩
        · obtain ⟨x, hx⟩ := Option.isSome_iff_exists.1 hn
          obtain ⟨b, hb, hiff⟩ := jump_sound env hx d hj hr'
          have hA : r.Allows v ↔ b = true := by
            rw [hiff]
            constructor
            · rintro (⟨h, _⟩ | ⟨h, _⟩ | ⟨⟨y, hy, hsp⟩, hro⟩)
              · exact absurd h hv
              · exact absurd h (num_not_jump env hx).2.1
              · rw [hx] at hy
                cases hy
                exact ⟨hsp, hro⟩
            · rintro ⟨h1, h2⟩
              exact .inr (.inr ⟨⟨x, hx, h1⟩, h2⟩)
          rw [hA]
          refine ⟨fun h => ⟨c, rfl, by rw [hev, hb, h]; rfl⟩, fun h => ⟨c, rfl, ?_⟩⟩
          rw [hev, hb]
          cases b
          · rfl
          · exact absurd rfl h
    · cases h
  · cases h

theorem text_set {r : TextRow} {a : Attr} (h : r.reads a = true) (env : List (String × Val)) {v : Val} (hf : TextRow.Fits v) :
    (r.Allows v → ∃ c, a.chk = some c ∧ c.eval env v = .ok false) ∧ (¬ r.Allows v → ∃ c, a.chk = some c ∧ c.eval env v = .ok true) := by
  unfold TextRow.reads at h
  split at h
  · rename_i n c
    split at h
    · rename_i o d hs
      simp only [Bool.and_eq_true, beq_iff_eq] at h
      obtain ⟨ho, hj⟩ := h
      rcases hf with rfl | ⟨s, rfl⟩
      · have hev := split_none env hs
        have hiff : r.Allows .none ↔ r.optional = true := by
          constructor
          · rintro (⟨_, h⟩ | ⟨_, h, _⟩)
            · exact h
            · cases h
          · intro h; exact .inl ⟨rfl, h⟩
        rw [hiff, ← ho]
        refine ⟨fun h => ⟨c, rfl, by rw [hev, h]; rfl⟩, fun h => ⟨c, rfl, ?_⟩⟩
        rw [hev]
        cases o
        · rfl
        · exact absurd rfl h
      · have hev := split_some env hs (v := .sc (.str s)) nofun
        have hb : ∃ b, d.eval env (.sc (.str s)) = .ok b ∧ (b = true ↔ r.rule.Has s) := by
          split at hj
          · rename_i l l' hl
            rw [beq_iff_eq] at hj
            subst hj
            rw [hl]
            refine ⟨_, by rw [Chk.eval], ?_⟩
            simp only [List.any_eq_true, beq_iff_eq, TextRule.Has]
            exact ⟨fun ⟨w, h1, h2⟩ => ⟨w, h1, h2.symm⟩, fun ⟨w, h1, h2⟩ => ⟨w, h1, h2.symm⟩⟩
          · rename_i l l' hl
            rw [beq_iff_eq] at hj
            subst hj
            rw [hl]
            refine ⟨_, by rw [Chk.eval], ?_⟩
            simp only [beq_iff_eq, TextRule.Has]
          · rename_i l l' hl
            rw [beq_iff_eq] at hj
            subst hj
            rw [hl]
            refine ⟨_, by rw [Chk.eval], ?_⟩
            simp only [decide_eq_true_eq, TextRule.Has]
          · cases hj
        obtain ⟨b, hb, hiff⟩ := hb
        have hA : r.Allows (.sc (.str s)) ↔ b = true := by
          rw [hiff]
          constructor
          · rintro (⟨h, _⟩ | ⟨t, h, ht⟩)
            · cases h
            · cases h; exact ht
          · intro h; exact .inr ⟨s, rfl, h⟩
        rw [hA]
        refine ⟨fun h => ⟨c, rfl, by rw [hev, hb, h]; rfl⟩, fun h => ⟨c, rfl, ?_⟩⟩
        rw [hev, hb]
        cases b
        · rfl
        · exact absurd rfl h
    · cases h
  · cases h

theorem put_accept {c : Cls} {a : Attr} {i : Nat} (ha : c.attrs[i]? = some a) {k : Chk} (hk : a.chk = some k) {vs : List Val} {v : Val}
    (h : k.eval (c.env vs) v = .ok false) : c.put vs i v = .ok (vs.set i v) := by
  unfold Cls.put setAttr
  rw [ha]
  simp only [hk, h]

theorem put_refuse {c : Cls} {a : Attr} {i : Nat} (ha : c.attrs[i]? = some a) {k : Chk} (hk : a.chk = some k) {vs : List Val} {v : Val}
    (h : k.eval (c.env vs) v = .ok true) : c.put vs i v = .error .inp := by
  unfold Cls.put setAttr
  rw [ha]
  simp only [hk, h]

theorem all_named {as : List Attr} {n : String} {p : Attr → Bool} (h : as.all (fun a => !(a.name == n) || p a) = true) {i : Nat} {a : Attr}
    (ha : as[i]? = some a) (hn : a.name = n) : p a = true := by
  have := List.all_eq_true.1 h a (List.mem_of_getElem? ha)
  rw [hn] at this
  simpa using this

/-- In an object that was constructed the test of every attribute was passed. -/
theorem mk_passed {c : Cls} {n : String} (hw : wellSet c n = true) {vs : List Val} (hl : vs.length = c.attrs.length) {o : Val} (ho : c.mk' vs = .ok o)
    {i : Nat} {a : Attr} (ha : c.attrs[i]? = some a) (hn : a.name = n) {v : Val} (hv : vs[i]? = some v) {k : Chk} (hk : a.chk = some k) :
    ∃ env, k.eval env v = .ok false := by
  unfold wellSet at hw
  rw [Bool.and_eq_true] at hw
  subst hn
  exact mk_chk ho (find_zip (of_decide_eq_true hw.1) hl.symm ha hv) hk (List.contains_iff_mem.1 hw.2)

theorem num_held {r : NumRow} (ht : r.tested = true) {vs : List Val} (hl : vs.length = r.cls.attrs.length) {o : Val} (ho : r.cls.mk' vs = .ok o)
    {i : Nat} (hi : (r.cls.attrs.map (·.name))[i]? = some r.attr) {v : Val} (hv : vs[i]? = some v) (hf : r.Fits v) : r.Allows v := by
  unfold NumRow.tested at ht
  simp only [Bool.and_eq_true] at ht
  rw [List.getElem?_map] at hi
  obtain ⟨a, ha, hn⟩ := Option.map_eq_some_iff.1 hi
  have hr := all_named ht.2 ha hn
  by_contra hna
  obtain ⟨c, hc, _⟩ := (num_set hr [] hf).2 hna
  obtain ⟨env, he⟩ := mk_passed ht.1.1 hl ho ha hn hv hc
  obtain ⟨c', hc', he'⟩ := (num_set hr env hf).2 hna
  rw [hc] at hc'; cases hc'
  rw [he] at he'; cases he'

theorem text_held {r : TextRow} (ht : r.tested = true) {vs : List Val} (hl : vs.length = r.cls.attrs.length) {o : Val} (ho : r.cls.mk' vs = .ok o)
    {i : Nat} (hi : (r.cls.attrs.map (·.name))[i]? = some r.attr) {v : Val} (hv : vs[i]? = some v) (hf : TextRow.Fits v) : r.Allows v := by
  unfold TextRow.tested at ht
  simp only [Bool.and_eq_true] at ht
  rw [List.getElem?_map] at hi
  obtain ⟨a, ha, hn⟩ := Option.map_eq_some_iff.1 hi
  have hr := all_named ht.2 ha hn
  by_contra hna
  obtain ⟨c, hc, _⟩ := (text_set hr [] hf).2 hna
  obtain ⟨env, he⟩ := mk_passed ht.1.1 hl ho ha hn hv hc
  obtain ⟨c', hc', he'⟩ := (text_set hr env hf).2 hna
  rw [hc] at hc'; cases hc'
  rw [he] at he'; cases he'

theorem need_held {r : NeedRow} (ht : r.tested = true) {n : String} (hm : n ∈ r.attrs) {vs : List Val} (hl : vs.length = r.cls.attrs.length) {o : Val}
    (ho : r.cls.mk' vs = .ok o) {i : Nat} (hi : (r.cls.attrs.map (·.name))[i]? = some n) : vs[i]? ≠ some .none := by
  intro hv
  have ht := List.all_eq_true.1 ht n hm
  simp only [Bool.and_eq_true] at ht
  rw [List.getElem?_map] at hi
  obtain ⟨a, ha, hn⟩ := Option.map_eq_some_iff.1 hi
  have hr := all_named ht.2 ha hn
  unfold needs at hr
  split at hr
  · rename_i hc
    obtain ⟨env, he⟩ := mk_passed ht.1.1 hl ho ha hn hv hc
    cases he
  · cases hr

end Inp
