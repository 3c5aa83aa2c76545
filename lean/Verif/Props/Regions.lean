import Verif.Types.Regions
import Verif.Props.Geometry
import Verif.Py.Lit
/-!
# C89: regions composed from surface objects

`s & t` unites, `s | t` intersects, `-s` and `+s` are the sides and `~s` is the complement, as documented.  The spec is `Inside`,
which looks only at the sides of the surfaces.
-/
set_option maxRecDepth 100000
namespace Props
open Py Types

/-- Whether a point is in the region, given on which side of the surfaces it is. -/
def Inside (side : Int → Bool) : Compose → Bool
  | .surf n => side n
  | .neg e => !Inside side e
  | .pos e => Inside side e
  | .inv e => !Inside side e
  | .and a b => Inside side a || Inside side b
  | .or a b => Inside side a && Inside side b

/-- The numbers of the surfaces are positive. -/
def Numbered : Compose → Prop
  | .surf n => 0 < n
  | .neg e | .pos e | .inv e => Numbered e
  | .and a b | .or a b => Numbered a ∧ Numbered b

/-- The expression is a surface. -/
def Compose.bare : Compose → Bool
  | .surf _ => true
  | _ => false

/-- No operator has a surface on one side and a geometry on the other. -/
def Unmixed : Compose → Bool
  | .surf _ => true
  | .neg e | .pos e | .inv e => Unmixed e
  | .and a b | .or a b => Unmixed a && Unmixed b && (Compose.bare a == Compose.bare b)

/-- Unions of sides and of surfaces. -/
def Unions : Compose → Bool
  | .neg (.surf _) | .pos (.surf _) => true
  | .and (.surf _) (.surf _) => true
  | .and a b => Unions a && Unions b
  | _ => false

/-- Intersections of unions: no intersection below a union, no sign before an operator. -/
def Layered : Compose → Bool
  | .or (.surf _) (.surf _) => true
  | .or a b => Layered a && Layered b
  | e => Unions e

theorem int_num {n : Int} (h : 0 < n) : isNum (intStr n) := by
  obtain ⟨k, rfl⟩ := Int.eq_ofNat_of_zero_le (Int.le_of_lt h)
  exact (isNum_iff _).2 ⟨natStr k, [], natStr_ne_nil k, natStr_digits k, .inl rfl⟩

theorem read_sign {n : Int} (h : 0 < n) (o : GOp) : readGeo (o.str ++ intStr n) = .ok (.geo (.unary o (.digit (intStr n)))) := by
  have := geoParse_str (.up1 (.up0 (.unDigit (o := o) (int_num h))))
  unfold readGeo
  rw [show o.str ++ intStr n = (Ast.unary o (.digit (intStr n))).str from rfl, this]
  rfl

theorem read_union {m n : Int} (hm : 0 < m) (hn : 0 < n) :
    readGeo (intStr m ++ ':' :: intStr n) = .ok (.geo (.union (.digit (intStr m)) (.digit (intStr n)))) := by
  have := geoParse_str (.up1 (.union (.up0 (.digit (int_num hm))) (.digit (int_num hn))))
  unfold readGeo
  rw [show intStr m ++ ':' :: intStr n = (Ast.union (.digit (intStr m)) (.digit (intStr n))).str from rfl, this]
  rfl

theorem read_inter {m n : Int} (hm : 0 < m) (hn : 0 < n) :
    readGeo (intStr m ++ ' ' :: intStr n) = .ok (.geo (.inter (.digit (intStr m)) (.digit (intStr n)))) := by
  have := geoParse_str (.inter (.up1 (.up0 (.digit (int_num hm)))) (.up0 (.digit (int_num hn))))
  unfold readGeo
  rw [show intStr m ++ ' ' :: intStr n = (Ast.inter (.digit (intStr m)) (.digit (intStr n))).str from rfl, this]
  rfl

/-- The value of an expression is a surface only if the expression is. -/
def FitsValue (e : Compose) (x : Composed) : Prop := match x with
  | .surf n => e = .surf n
  | .geo _ => Compose.bare e = false

theorem eval_outcome (e : Compose) (h : Numbered e) :
    (Unmixed e = true → ∃ x, e.eval = .ok x ∧ FitsValue e x) ∧ (Unmixed e = false → e.eval = .error .attribute) := by
  have un : ∀ (o : GOp) (e e' : Compose), Numbered e → Compose.bare e' = false →
      ((Unmixed e = true → ∃ x, e.eval = .ok x ∧ FitsValue e x) ∧ (Unmixed e = false → e.eval = .error .attribute)) →
      ((Unmixed e = true → ∃ x, e.eval.bind (·.sign o) = .ok x ∧ FitsValue e' x) ∧ (Unmixed e = false → e.eval.bind (·.sign o) = .error .attribute)) := by
    intro o e e' hn hb ih
    constructor
    · intro hp
      obtain ⟨x, hx, hf⟩ := ih.1 hp
      rw [hx]
      cases x with
      | surf n =>
        simp only [FitsValue] at hf
        subst hf
        exact ⟨_, read_sign hn o, hb⟩
      | geo a => exact ⟨_, rfl, hb⟩
    · intro hp; rw [ih.2 hp]; rfl
  induction e with
  | surf n => exact ⟨fun _ => ⟨_, rfl, rfl⟩, fun h => by cases h⟩
  | neg e ih => exact un .minus e _ h rfl (ih h)
  | pos e ih => exact un .plus e _ h rfl (ih h)
  | inv e ih => exact un .hash e _ h rfl (ih h)
  | and a b iha ihb =>
    have ha := iha h.1
    have hb := ihb h.2
    simp only [Unmixed, Bool.and_eq_true, beq_iff_eq]
    constructor
    · rintro ⟨⟨pa, pb⟩, pe⟩
      obtain ⟨x, hx, fx⟩ := ha.1 pa
      obtain ⟨y, hy, fy⟩ := hb.1 pb
      simp only [Compose.eval, hx, hy, Except.bind]
      cases x <;> cases y <;> simp only [FitsValue] at fx fy
      · subst fx; subst fy; exact ⟨_, read_union h.1 h.2, rfl⟩
      · subst fx; rw [fy] at pe; cases pe
      · subst fy; rw [fx] at pe; cases pe
      · exact ⟨_, rfl, rfl⟩
    · intro hp
      cases pa : Unmixed a with
      | false => simp only [Compose.eval, ha.2 pa, Except.bind]
      | true =>
        obtain ⟨x, hx, fx⟩ := ha.1 pa
        cases pb : Unmixed b with
        | false => simp only [Compose.eval, hx, hb.2 pb, Except.bind]
        | true =>
          obtain ⟨y, hy, fy⟩ := hb.1 pb
          simp only [pa, pb, Bool.true_and, beq_eq_false_iff_ne] at hp
          simp only [Compose.eval, hx, hy, Except.bind]
          cases x <;> cases y <;> simp only [FitsValue] at fx fy
          · subst fx; subst fy; exact absurd rfl hp
          · rfl
          · rfl
          · exact absurd (fx.trans fy.symm) hp
  | or a b iha ihb =>
    have ha := iha h.1
    have hb := ihb h.2
    simp only [Unmixed, Bool.and_eq_true, beq_iff_eq]
    constructor
    · rintro ⟨⟨pa, pb⟩, pe⟩
      obtain ⟨x, hx, fx⟩ := ha.1 pa
      obtain ⟨y, hy, fy⟩ := hb.1 pb
      simp only [Compose.eval, hx, hy, Except.bind]
      cases x <;> cases y <;> simp only [FitsValue] at fx fy
      · subst fx; subst fy; exact ⟨_, read_inter h.1 h.2, rfl⟩
      · subst fx; rw [fy] at pe; cases pe
      · subst fy; rw [fx] at pe; cases pe
      · exact ⟨_, rfl, rfl⟩
    · intro hp
      cases pa : Unmixed a with
      | false => simp only [Compose.eval, ha.2 pa, Except.bind]
      | true =>
        obtain ⟨x, hx, fx⟩ := ha.1 pa
        cases pb : Unmixed b with
        | false => simp only [Compose.eval, hx, hb.2 pb, Except.bind]
        | true =>
          obtain ⟨y, hy, fy⟩ := hb.1 pb
          simp only [pa, pb, Bool.true_and, beq_eq_false_iff_ne] at hp
          simp only [Compose.eval, hx, hy, Except.bind]
          cases x <;> cases y <;> simp only [FitsValue] at fx fy
          · subst fx; subst fy; exact absurd rfl hp
          · rfl
          · rfl
          · exact absurd (fx.trans fy.symm) hp

/-- **C89**: an expression raises `AttributeError` exactly when some operator has a surface on one side and a geometry on the other;
nothing else is raised. -/
theorem C89_outcome (e : Compose) (h : Numbered e) :
    (Unmixed e = true → ∃ x, e.eval = .ok x) ∧ (Unmixed e = false → e.eval = .error .attribute) :=
  ⟨fun hp => (eval_outcome e h).1 hp |>.imp fun _ hx => hx.1, (eval_outcome e h).2⟩

/-- `-s1 | +s2` and `-s1 | s2` -/
example : Numbered (.or (.neg (.surf 1)) (.pos (.surf 2))) ∧ Unmixed (.or (.neg (.surf 1)) (.pos (.surf 2))) = true ∧
    Unmixed (.or (.neg (.surf 1)) (.surf 2)) = false := by
  refine ⟨⟨?_, ?_⟩, ?_, ?_⟩ <;> first | decide | simp [Numbered]

theorem unions_built (e : Compose) (h : Unions e = true) (hn : Numbered e) :
    ∃ a, e.eval = .ok (.geo a) ∧ Built 1 a ∧ ∀ v : Env, Meaning a v = Inside (fun n => v.surf (intStr n)) e := by
  have leaf : ∀ (o : GOp) (n : Int), 0 < n → Built 1 (.unary o (.digit (intStr n))) := by
    intro o n hn
    exact .parsed1 (geoParse_str (.up1 (.up0 (.unDigit (int_num hn))))) (by intro l r e; cases e)
  fun_induction Unions e with
  | case1 n => exact ⟨_, read_sign hn .minus, leaf _ _ hn, fun v => rfl⟩
  | case2 n => exact ⟨_, read_sign hn .plus, leaf _ _ hn, fun v => rfl⟩
  | case3 m n =>
    exact ⟨_, read_union hn.1 hn.2, .parsed1 (geoParse_str (.up1 (.union (.up0 (.digit (int_num hn.1))) (.digit (int_num hn.2)))))
      (by intro l r e; cases e), fun v => rfl⟩
  | case4 a b _ iha ihb =>
    simp only [Bool.and_eq_true] at h
    obtain ⟨x, hx, bx, mx⟩ := iha h.1 hn.1
    obtain ⟨y, hy, b_y, my⟩ := ihb h.2 hn.2
    refine ⟨x.and y, by simp only [Compose.eval, hx, hy, Except.bind, Composed.and], .and bx b_y, fun v => ?_⟩
    simp only [Ast.and, Meaning, Inside, mx, my]
  | case5 => cases h

theorem layered_built (e : Compose) (h : Layered e = true) (hn : Numbered e) :
    ∃ a, e.eval = .ok (.geo a) ∧ Built 2 a ∧ ∀ v : Env, Meaning a v = Inside (fun n => v.surf (intStr n)) e := by
  fun_induction Layered e with
  | case1 m n =>
    exact ⟨_, read_inter hn.1 hn.2, .parsed (geoParse_str (.inter (.up1 (.up0 (.digit (int_num hn.1)))) (.up0 (.digit (int_num hn.2))))),
      fun v => rfl⟩
  | case2 a b _ iha ihb =>
    simp only [Bool.and_eq_true] at h
    obtain ⟨x, hx, bx, mx⟩ := iha h.1 hn.1
    obtain ⟨y, hy, b_y, my⟩ := ihb h.2 hn.2
    refine ⟨x.or y, by simp only [Compose.eval, hx, hy, Except.bind, Composed.or], .or bx b_y, fun v => ?_⟩
    simp only [Ast.or, Meaning, Inside, mx, my]
  | case3 e _ _ =>
    obtain ⟨a, h1, h2, h3⟩ := unions_built e h hn
    exact ⟨a, h1, .weaken h2, h3⟩

/-- **C89**: intersections of unions of sides: the expression has a value, its text is accepted, and read back it is the region of the
expression.  Missing: unions of intersections and signs before operators, for which the claim is false, and complements of
surfaces, for which it is false as well (`C89_violated`). -/
theorem C89_region_partial (e : Compose) (h : Layered e = true) (hn : Numbered e) :
    ∃ a, e.eval = .ok (.geo a) ∧ ∃ g, geoParse a.str = .ok g ∧ ∀ v : Env, Meaning g v = Inside (fun n => v.surf (intStr n)) e := by
  obtain ⟨a, h1, h2, h3⟩ := layered_built e h hn
  obtain ⟨g, g1, g2⟩ := C13_compose_partial 2 a h2
  exact ⟨a, h1, g, g1, fun v => by rw [g2, h3]⟩

/-- `(-s1 & +s2) | (s3 | s4) | -s5` -/
example : Layered (.or (.or (.and (.neg (.surf 1)) (.pos (.surf 2))) (.or (.surf 3) (.surf 4))) (.neg (.surf 5))) = true ∧
    Compose.eval (.or (.or (.and (.neg (.surf 1)) (.pos (.surf 2))) (.or (.surf 3) (.surf 4))) (.neg (.surf 5))) =
      .ok (.geo (.inter (.inter (.union (.unary .minus (.digit c!"1")) (.unary .plus (.digit c!"2"))) (.inter (.digit c!"3") (.digit c!"4")))
        (.unary .minus (.digit c!"5")))) := by
  refine ⟨?_, ?_⟩ <;> decide +kernel

/-- No complement of a surface. -/
def NoFlip : Compose → Bool
  | .surf _ => true
  | .neg e | .pos e => NoFlip e
  | .inv e => NoFlip e && !Compose.bare e
  | .and a b | .or a b => NoFlip a && NoFlip b

/-- The tree is not a bare number. -/
def NotDigit : Ast → Bool
  | .digit _ => false
  | _ => true

/-- What the value of an expression stands for. -/
def DenotesRegion (e : Compose) : Composed → Prop
  | .surf n => e = .surf n
  | .geo a => NotDigit a = true ∧ ∀ v : Env, Meaning a v = Inside (fun n => v.surf (intStr n)) e

theorem eval_denotes (e : Compose) (hn : Numbered e) (hf : NoFlip e = true) : ∀ x, e.eval = .ok x → DenotesRegion e x := by
  induction e with
  | surf n => intro x hx; cases hx; exact rfl
  | neg e ih =>
    intro x hx
    cases he : e.eval with
    | error r => rw [Compose.eval, he] at hx; cases hx
    | ok y =>
      have hy := ih hn hf y he
      rw [Compose.eval, he] at hx
      cases y with
      | surf n =>
        replace hy : e = .surf n := hy
        subst hy
        have := (read_sign hn .minus).symm.trans hx
        cases this
        exact ⟨rfl, fun v => rfl⟩
      | geo a => cases hx; exact ⟨rfl, fun v => congrArg (!·) (hy.2 v)⟩
  | pos e ih =>
    intro x hx
    cases he : e.eval with
    | error r => rw [Compose.eval, he] at hx; cases hx
    | ok y =>
      have hy := ih hn hf y he
      rw [Compose.eval, he] at hx
      cases y with
      | surf n =>
        replace hy : e = .surf n := hy
        subst hy
        have := (read_sign hn .plus).symm.trans hx
        cases this
        exact ⟨rfl, fun v => rfl⟩
      | geo a => cases hx; exact ⟨rfl, fun v => hy.2 v⟩
  | inv e ih =>
    intro x hx
    simp only [NoFlip, Bool.and_eq_true, Bool.not_eq_true'] at hf
    cases he : e.eval with
    | error r => rw [Compose.eval, he] at hx; cases hx
    | ok y =>
      have hy := ih hn hf.1 y he
      rw [Compose.eval, he] at hx
      cases y with
      | surf n =>
        replace hy : e = .surf n := hy
        rw [hy] at hf
        cases hf.2
      | geo a =>
        cases hx
        refine ⟨rfl, fun v => ?_⟩
        rw [Inside, ← hy.2 v]
        cases a with
        | digit s => cases hy.1
        | _ => rfl
  | and a b iha ihb =>
    intro x hx
    simp only [NoFlip, Bool.and_eq_true] at hf
    cases ha : a.eval with
    | error r => rw [Compose.eval, ha] at hx; cases hx
    | ok y =>
      cases hb : b.eval with
      | error r => rw [Compose.eval, ha, hb] at hx; cases hx
      | ok z =>
        have hy := iha hn.1 hf.1 y ha
        have hz := ihb hn.2 hf.2 z hb
        rw [Compose.eval, ha, hb] at hx
        cases y <;> cases z
        · replace hy : a = _ := hy
          replace hz : b = _ := hz
          subst hy; subst hz
          have := (read_union hn.1 hn.2).symm.trans hx
          cases this
          exact ⟨rfl, fun v => rfl⟩
        · cases hx
        · cases hx
        · cases hx
          refine ⟨rfl, fun v => ?_⟩
          rw [Inside, ← hy.2 v, ← hz.2 v]; rfl
  | or a b iha ihb =>
    intro x hx
    simp only [NoFlip, Bool.and_eq_true] at hf
    cases ha : a.eval with
    | error r => rw [Compose.eval, ha] at hx; cases hx
    | ok y =>
      cases hb : b.eval with
      | error r => rw [Compose.eval, ha, hb] at hx; cases hx
      | ok z =>
        have hy := iha hn.1 hf.1 y ha
        have hz := ihb hn.2 hf.2 z hb
        rw [Compose.eval, ha, hb] at hx
        cases y <;> cases z
        · replace hy : a = _ := hy
          replace hz : b = _ := hz
          subst hy; subst hz
          have := (read_inter hn.1 hn.2).symm.trans hx
          cases this
          exact ⟨rfl, fun v => rfl⟩
        · cases hx
        · cases hx
        · cases hx
          refine ⟨rfl, fun v => ?_⟩
          rw [Inside, ← hy.2 v, ← hz.2 v]; rfl

/-- **C89**: the geometry object an expression yields is the region of the expression, signs before operators included, unless the
complement of a surface is taken.  Missing: that its text is the same region (`C89_region_partial`, `C89_violated`). -/
theorem C89_object_partial (e : Compose) (hn : Numbered e) (hf : NoFlip e = true) (a : Ast) (h : e.eval = .ok (.geo a)) (v : Env) :
    Meaning a v = Inside (fun n => v.surf (intStr n)) e := (eval_denotes e hn hf _ h).2 v

/-- `~((-s1 & +s2) | -(s3 | s4))` -/
example : NoFlip (.inv (.or (.and (.neg (.surf 1)) (.pos (.surf 2))) (.neg (.or (.surf 3) (.surf 4))))) = true ∧
    Compose.eval (.inv (.or (.and (.neg (.surf 1)) (.pos (.surf 2))) (.neg (.or (.surf 3) (.surf 4))))) =
      .ok (.geo (.unary .hash (.inter (.union (.unary .minus (.digit c!"1")) (.unary .plus (.digit c!"2")))
        (.unary .minus (.inter (.digit c!"3") (.digit c!"4")))))) := by
  refine ⟨?_, ?_⟩ <;> decide +kernel

/-- **C89 fails**: the complement of any surface is printed as the complement of the cell of that number; a surface with any geometry
raises `AttributeError`; and `(s1 | s2) & -s3` is read back as another region. -/
theorem C89_violated :
    (∀ n : Int, 0 < n → ∃ a, Compose.eval (.inv (.surf n)) = .ok (.geo a) ∧ geoParse a.str = .ok a ∧ (∀ v : Env, Meaning a v = !v.cell (intStr n)) ∧
      ∃ v : Env, Meaning a v ≠ Inside (fun n => v.surf (intStr n)) (.inv (.surf n))) ∧
    (∀ m n : Int, 0 < n → Compose.eval (.or (.surf m) (.neg (.surf n))) = .error .attribute ∧
      Compose.eval (.or (.neg (.surf n)) (.surf m)) = .error .attribute) ∧
    (∃ a g, Compose.eval (.and (.or (.surf 1) (.surf 2)) (.neg (.surf 3))) = .ok (.geo a) ∧ geoParse a.str = .ok g ∧
      ∃ v : Env, Meaning g v ≠ Inside (fun n => v.surf (intStr n)) (.and (.or (.surf 1) (.surf 2)) (.neg (.surf 3)))) := by
  refine ⟨fun n hn => ⟨_, read_sign hn .hash, geoParse_str (.up1 (.up0 (.unDigit (int_num hn)))), fun v => rfl,
    ⟨fun _ => false, fun _ => true⟩, by simp [Meaning, Inside]⟩, fun m n hn => ?_, ?_⟩
  · simp only [Compose.eval, Except.bind, Composed.sign, read_sign hn .minus, Composed.or, and_self]
  · refine ⟨.union (.inter (.digit c!"1") (.digit c!"2")) (.unary .minus (.digit c!"3")),
      .inter (.digit c!"1") (.union (.digit c!"2") (.unary .minus (.digit c!"3"))), ?_, ?_, ⟨fun _ => false, fun _ => false⟩, ?_⟩ <;> decide +kernel

end Props
