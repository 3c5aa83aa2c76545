import Verif.Inp.CaseTypes
/-! Helper lemmas: the classes of cards and options read texts alike whatever the case of letters. -/
namespace Inp
open Py Types Ptrac Props

/-! ### Checks -/

theorem lows_map : ∀ l : List Val, Val.lows l = l.map Val.low
  | [] => by unfold Val.lows; rfl
  | v :: l => by unfold Val.lows; rw [lows_map l]; rfl

/-- The values set so far, texts in lower case. -/
def lowEnv (env : List (String × Val)) : List (String × Val) := env.map (fun p => (p.1, p.2.low))

theorem lookup_low (n : String) : ∀ env : List (String × Val), (lowEnv env).lookup n = (env.lookup n).map Val.low
  | [] => rfl
  | p :: env => by
    unfold lowEnv
    rw [List.map_cons, List.lookup_cons, List.lookup_cons]
    cases n == p.1
    · exact lookup_low n env
    · rfl

theorem getAttr_low (env : List (String × Val)) (n : String) : getAttr (lowEnv env) n = (getAttr env n).map Val.low := by
  unfold getAttr
  rw [lookup_low]
  cases env.lookup n <;> rfl

theorem cmp_low (o n d) (x : Val) : cmpVal o n d x.low = cmpVal o n d x := by
  cases x with
  | sc s => cases s <;> rfl
  | none => rfl
  | tuple l => rfl
  | obj i l => rfl

theorem ints_low (l) (x : Val) : inIntsVal l x.low = inIntsVal l x := by
  cases x with
  | sc s => cases s <;> rfl
  | none => rfl
  | tuple l => rfl
  | obj i l => rfl

theorem mod_low (m p) (x : Val) : modVal m p x.low = modVal m p x := by
  cases x with
  | sc s => cases s <;> rfl
  | none => rfl
  | tuple l => rfl
  | obj i l => rfl

theorem falsy_low (x : Val) : falsyVal x.low = falsyVal x := by
  cases x with
  | sc s => cases s <;> rfl
  | none => rfl
  | tuple l => rfl
  | obj i l => rfl

/-- Case analysis of two values down to the numbers. -/
macro "two_values" x:ident y:ident : tactic => `(tactic| (
  rcases $x:ident with _ | s | l | ⟨i, l⟩ <;> rcases $y:ident with _ | t | l | ⟨i, l⟩ <;> try rfl
  all_goals (try cases s) <;> (try cases t)
  all_goals first | rfl | skip
  all_goals (try cases ‹RealVal›)
  all_goals first | rfl | skip
  all_goals (try cases ‹RealVal›)
  all_goals first | rfl | skip
  all_goals (try cases ‹DecVal›)
  all_goals first | rfl | skip))

theorem lt_low (x y : Val) : ltVal x.low y.low = ltVal x y := by
  two_values x y

theorem diff_low (x y : Val) : diffVal x.low y.low = diffVal x y := by
  two_values x y

theorem minPos_low (x : Val) : minPosVal x.low = minPosVal x := by
  cases x with
  | sc s => cases s <;> rfl
  | none => rfl
  | obj i l => rfl
  | tuple l =>
    unfold Val.low
    rw [lows_map]
    cases l with
    | nil => rfl
    | cons v l =>
      have h1 : ∀ v : Val, (match v.low with | .sc (.real (.num (.fin _))) => true | _ => false) =
          (match v with | .sc (.real (.num (.fin _))) => true | _ => false) := by
        intro v
        cases v with
        | sc s => cases s <;> rfl
        | none => rfl
        | tuple l => rfl
        | obj i l => rfl
      have h2 : ∀ (v : Val) l, minPosVal (.tuple (v :: l)) =
          if (v :: l).all (fun v => match v with | .sc (.real (.num (.fin _))) => true | _ => false) then
            .ok ((v :: l).all (fun v => match cmpVal .gt 0 0 v with | .ok b => b | .error _ => false))
          else .error .typeErr := fun _ _ => rfl
      rw [List.map_cons, h2, h2, ← List.map_cons, List.all_map, List.all_map]
      simp only [Function.comp_def, h1, cmp_low]

theorem flat_low (l : List Val) : flatVal (l.map Val.low) = flatVal l := by
  match l with
  | [] | [_] | [_, _] | [_, _, _] | [_, _, _, _] | [_, _, _, _, _] | [_, _, _, _, _, _] | [_, _, _, _, _, _, _]
  | [_, _, _, _, _, _, _, _] => rfl
  | [_, _, _, _, _, _, _, _, _] =>
    simp only [List.map_cons, List.map_nil, flatVal, diff_low]
  | _ :: _ :: _ :: _ :: _ :: _ :: _ :: _ :: _ :: _ :: _ => rfl

theorem flatArgs_low (env : List (String × Val)) (n : String) (x : Val) : flatArgs (lowEnv env) n x.low = (flatArgs env n x).map Val.low := by
  have key : ∀ ks : List String, (ks.mapM fun k => if k = n then some x.low else (lowEnv env).lookup k) =
      (ks.mapM fun k => if k = n then some x else env.lookup k).map (List.map Val.low) := by
    intro ks
    induction ks with
    | nil => rfl
    | cons k ks ih =>
      rw [List.mapM_cons, List.mapM_cons, ih, lookup_low]
      by_cases hk : k = n
      · simp only [if_pos hk]
        cases (ks.mapM fun k => if k = n then some x else env.lookup k) <;> rfl
      · simp only [if_neg hk]
        cases env.lookup k <;> cases (ks.mapM fun k => if k = n then some x else env.lookup k) <;> rfl
  unfold flatArgs
  rw [key]
  cases (["x1", "y1", "z1", "x2", "y2", "z2", "x3", "y3", "z3"].mapM fun k => if k = n then some x else env.lookup k) <;> rfl

/-- No comparison with a text that has letters. -/
def chkCase : Chk → Bool
  | .eqStr t => t.toList.all (fun c => !letters.contains c)
  | .not a => chkCase a
  | .and a b => chkCase a && chkCase b
  | .or a b => chkCase a && chkCase b
  | .ite c a b => chkCase c && chkCase a && chkCase b
  | .self _ a => chkCase a
  | _ => true

theorem lower_idem (s : Str) : lower (lower s) = lower s := by
  unfold lower
  rw [List.map_map]
  apply List.map_congr_left
  intro c _
  exact lowerC_idem c

theorem eqStr_low (s : Str) {t : Str} (ht : t.all (fun c => !letters.contains c) = true) : (s == t) = (lower s == t) := by
  have hl : ∀ c ∈ t, c ∉ letters := by
    intro c hc
    have := List.all_eq_true.1 ht c hc
    simpa using this
  have e : lower t = t := low_eq (lower_idem t) hl
  rw [Bool.eq_iff_iff, beq_iff_eq, beq_iff_eq]
  constructor
  · rintro rfl; exact e
  · intro h; exact low_eq (h.trans e.symm) hl

/-- Such a test does not see the case of letters. -/
theorem chk_low (env : List (String × Val)) (x : Val) (c : Chk) (hc : chkCase c = true) :
    Chk.eval (lowEnv env) x.low c = Chk.eval env x c := by
  induction c generalizing x with
  | isNone => cases x <;> rfl
  | notNone => cases x <;> rfl
  | cmp o n d => exact cmp_low o n d x
  | inInts l => exact ints_low l x
  | lowIn l =>
    cases x with
    | sc s => cases s <;> try rfl
              simp only [Val.low, Sc.low, Chk.eval, lower_idem]
    | none => rfl
    | tuple l => rfl
    | obj i l => rfl
  | eqStr t =>
    cases x with
    | sc s => cases s <;> try rfl
              exact congrArg Except.ok (eqStr_low _ hc).symm
    | none => rfl
    | tuple l => rfl
    | obj i l => rfl
  | lenLe n =>
    cases x with
    | sc s => cases s <;> try rfl
              simp only [Val.low, Sc.low, Chk.eval, lower, List.length_map]
    | none => rfl
    | tuple l => rfl
    | obj i l => rfl
  | isJump =>
    cases x with
    | sc s => cases s <;> rfl
    | none => rfl
    | tuple l => rfl
    | obj i l => rfl
  | modEq m r => exact mod_low _ _ x
  | modIn m l => exact mod_low _ _ x
  | minPos => exact minPos_low x
  | falsy => exact falsy_low x
  | tt => cases x <;> rfl
  | not a ih =>
    unfold Chk.eval
    rw [ih x hc]
  | and a b iha ihb =>
    simp only [chkCase, Bool.and_eq_true] at hc
    unfold Chk.eval
    rw [iha x hc.1, ihb x hc.2]
  | or a b iha ihb =>
    simp only [chkCase, Bool.and_eq_true] at hc
    unfold Chk.eval
    rw [iha x hc.1, ihb x hc.2]
  | ite c a b ihc iha ihb =>
    simp only [chkCase, Bool.and_eq_true] at hc
    unfold Chk.eval
    rw [iha x hc.1.2, ihb x hc.2, ihc x hc.1.1]
  | self n a ih =>
    unfold Chk.eval
    rw [getAttr_low]
    cases getAttr env n with
    | error e => rfl
    | ok v => exact ih v hc
  | ltSelf n =>
    unfold Chk.eval
    rw [getAttr_low]
    cases getAttr env n with
    | error e => rfl
    | ok v => exact lt_low v x
  | flat n =>
    unfold Chk.eval
    rw [flatArgs_low, flat_low]
  | kcode =>
    unfold Chk.eval
    rw [getAttr_low]
    cases getAttr env "nsrck" with
    | error e => rfl
    | ok v =>
      cases v with
      | sc s => cases s <;> simp only [Except.map, Except.bind, Val.low, Sc.low, cmp_low]
      | none => exact cmp_low _ _ _ x
      | tuple l => rfl
      | obj i l => rfl

/-! ### Constructors -/

/-- The decidable condition on an attribute. -/
def attrCase (a : Attr) : Bool :=
  (!a.many || caseless (a.ty.re 1)) && (match a.chk with | none => true | some c => chkCase c)

/-- A type reads recased texts alike. -/
def TyCase : Ty → Prop
  | .base _ => True
  | .other _ _ _ p => ∀ s t, Recased s t → (p s).map Val.low = (p t).map Val.low

/-- What is known about the types of the attributes. -/
def AllCase : List Attr → Prop
  | [] => True
  | a :: as => TyCase a.ty ∧ AllCase as

/-- What is known about a class. -/
def ClsCase (c : Cls) : Prop := caseless c.re = true ∧ c.attrs.all attrCase = true ∧ AllCase c.attrs

theorem ty_case {ty : Ty} (h : TyCase ty) {s t : Str} (hst : Recased s t) : (ty.parse s).map Val.low = (ty.parse t).map Val.low := by
  cases ty with
  | base k => exact kind_rec k hst
  | other n r g p => exact h s t hst

theorem mapM_case {ty : Ty} (h : TyCase ty) : ∀ {l m : List Str}, RecList true l m →
    (l.mapM ty.parse).map (List.map Val.low) = (m.mapM ty.parse).map (List.map Val.low)
  | [], [], _ => rfl
  | x :: l, y :: m, hlm => by
    have h1 := ty_case h hlm.1
    have h2 := mapM_case h hlm.2
    rw [List.mapM_cons, List.mapM_cons]
    revert h1 h2
    cases ty.parse x <;> cases ty.parse y <;> intro h1 <;> simp only [Except.map] at h1
    · cases h1; intro _; rfl
    · cases h1
    · cases h1
    · cases l.mapM ty.parse <;> cases m.mapM ty.parse <;> intro h2 <;> simp only [Except.map] at h2
      · cases h2; rfl
      · cases h2
      · cases h2
      · change Except.ok _ = Except.ok _
        simp only [List.map_cons]
        rw [Except.ok.inj h1, Except.ok.inj h2]
  | [], _ :: _, h => h.elim
  | _ :: _, [], h => h.elim

theorem tuple_case {ty : Ty} (h : TyCase ty) (hr : caseless (ty.re 1) = true) {s t : Str} (hst : Recased s t) :
    (tupleParse ty s).map Val.low = (tupleParse ty t).map Val.low := by
  unfold tupleParse
  rw [map_map', map_map']
  exact map_of_map Val.tuple (fun l => by unfold Val.low; rw [lows_map]) (mapM_case h (finditer_rec hr hst))

theorem attr_case {a : Attr} (h : TyCase a.ty) (ha : attrCase a = true) {s t : Str} (hst : Recased s t) :
    (a.parse s).map Val.low = (a.parse t).map Val.low := by
  unfold Attr.parse
  simp only [attrCase, Bool.and_eq_true, Bool.or_eq_true, Bool.not_eq_true'] at ha
  cases hm : a.many with
  | false => exact ty_case h hst
  | true =>
    rw [hm] at ha
    exact tuple_case h (ha.1.resolve_left (by decide)) hst

theorem attrVal_case (ng : Nat) {m m' : List (Nat × Str)} (hc : RecCaps true m m') (i : Nat) {a : Attr} (h : TyCase a.ty) (ha : attrCase a = true) :
    (attrVal ng m i a).map Val.low = (attrVal ng m' i a).map Val.low := by
  unfold attrVal
  split
  · rfl
  · rcases cap_cases (i + 1) hc with ⟨p, q⟩ | ⟨x, y, p, q, hxy⟩ <;> rw [p, q]
    cases x with
    | nil => cases y with
      | nil => rfl
      | cons d y => exact hxy.elim
    | cons c x => cases y with
      | nil => exact hxy.elim
      | cons d y => exact attr_case h ha (strip_rec hxy)

theorem attrVals_case (ng : Nat) {m m' : List (Nat × Str)} (hc : RecCaps true m m') : ∀ (i : Nat) {as : List Attr}, AllCase as →
    as.all attrCase = true → (attrVals ng m i as).map (List.map Val.low) = (attrVals ng m' i as).map (List.map Val.low)
  | _, [], _, _ => rfl
  | i, a :: as, h, ha => by
    simp only [List.all_cons, Bool.and_eq_true] at ha
    have h1 := attrVal_case ng hc i h.1 ha.1
    have h2 := attrVals_case ng hc (i + 1) h.2 ha.2
    unfold attrVals
    revert h1 h2
    cases attrVal ng m i a <;> cases attrVal ng m' i a <;> intro h1 <;> simp only [Except.map] at h1
    · cases h1; intro _; rfl
    · cases h1
    · cases h1
    · cases attrVals ng m (i + 1) as <;> cases attrVals ng m' (i + 1) as <;> intro h2 <;> simp only [Except.map] at h2
      · cases h2; rfl
      · cases h2
      · cases h2
      · simp only [Except.map, List.map_cons]
        rw [Except.ok.inj h1, Except.ok.inj h2]

theorem setAttr_case {env env' : List (String × Val)} (he : lowEnv env = lowEnv env') {a : Attr} (ha : attrCase a = true) {v w : Val}
    (hv : v.low = w.low) : (setAttr env a v).map lowEnv = (setAttr env' a w).map lowEnv := by
  simp only [attrCase, Bool.and_eq_true] at ha
  unfold setAttr
  have hok : lowEnv ((a.name, v) :: env) = lowEnv ((a.name, w) :: env') := by
    unfold lowEnv at he ⊢
    rw [List.map_cons, List.map_cons, he, hv]
  cases hc : a.chk with
  | none => exact congrArg Except.ok hok
  | some c =>
    rw [hc] at ha
    simp only
    rw [← chk_low env v c ha.2, ← chk_low env' w c ha.2, he, hv]
    split
    · rfl
    · rfl
    · exact congrArg Except.ok hok

/-- The value in lower case beside its attribute. -/
def lowPair (p : Attr × Val) : Attr × Val := (p.1, p.2.low)

theorem runInit_case : ∀ (ns : List String) {avs avs' : List (Attr × Val)} {env env' : List (String × Val)},
    avs.map lowPair = avs'.map lowPair → (∀ p ∈ avs, attrCase p.1 = true) → lowEnv env = lowEnv env' → runInit avs env ns = runInit avs' env' ns
  | [], _, _, _, _, _, _, _ => rfl
  | n :: ns, avs, avs', env, env', h, ha, he => by
    unfold runInit
    have key : (avs.find? (fun p => p.1.name == n)).map lowPair = (avs'.find? (fun p => p.1.name == n)).map lowPair := by
      have e : (fun p : Attr × Val => p.1.name == n) = (fun p : Attr × Val => p.1.name == n) ∘ lowPair := rfl
      have := congrArg (List.find? (fun p : Attr × Val => p.1.name == n)) h
      rw [List.find?_map, List.find?_map, ← e] at this
      exact this
    cases hf : avs.find? (fun p => p.1.name == n) with
    | none =>
      rw [hf] at key
      cases hg : avs'.find? (fun p => p.1.name == n) with
      | none => rfl
      | some q => rw [hg] at key; cases key
    | some p =>
      rw [hf] at key
      cases hg : avs'.find? (fun p => p.1.name == n) with
      | none => rw [hg] at key; cases key
      | some q =>
        rw [hg] at key
        obtain ⟨a, v⟩ := p
        obtain ⟨b, w⟩ := q
        simp only [Option.map_some, Option.some.injEq, lowPair, Prod.mk.injEq] at key
        obtain ⟨rfl, hv⟩ := key
        have h1 := setAttr_case he (ha _ (List.mem_of_find?_eq_some hf)) hv
        simp only at h1 ⊢
        revert h1
        cases setAttr env a v <;> cases setAttr env' a w <;> intro h1 <;> simp only [Except.map] at h1
        · cases h1; rfl
        · cases h1
        · cases h1
        · exact runInit_case ns h ha (Except.ok.inj h1)

theorem mk_case {c : Cls} (hc : ClsCase c) {vs ws : List Val} (h : vs.map Val.low = ws.map Val.low) :
    (c.mk' vs).map Val.low = (c.mk' ws).map Val.low := by
  unfold Cls.mk'
  have hz : ∀ us : List Val, (c.attrs.zip us).map lowPair = c.attrs.zip (us.map Val.low) := by
    intro us
    rw [List.zip_map_right]
    rfl
  rw [runInit_case c.init (avs := c.attrs.zip vs) (avs' := c.attrs.zip ws) (env := []) (env' := []) (by rw [hz, hz, h]) ?_ rfl]
  · split
    · rfl
    · simp only [Except.map, Val.low]
      rw [lows_map, lows_map, h]
  · intro p hp
    exact List.all_eq_true.1 hc.2.1 p.1 (List.of_mem_zip hp).1

theorem build_case {c : Cls} (hc : ClsCase c) {m m' : List (Nat × Str)} (h : RecCaps true m m') :
    (c.build m).map Val.low = (c.build m').map Val.low := by
  unfold Cls.build
  have key := attrVals_case c.pat.ng h 0 hc.2.2 hc.2.1
  revert key
  cases attrVals c.pat.ng m 0 c.attrs <;> cases attrVals c.pat.ng m' 0 c.attrs <;> intro key <;> simp only [Except.map] at key
  · cases key; rfl
  · cases key
  · cases key
  · exact mk_case hc (Except.ok.inj key)

/-- A class reads recased texts alike. -/
theorem card_case {c : Cls} (hc : ClsCase c) {s t : Str} (h : Recased s t) : outcome c s = outcome c t := by
  have h0 := cardPreprocess_rec h
  unfold outcome cardParse
  revert h0
  generalize cardPreprocess s = x
  generalize cardPreprocess t = y
  intro h0
  obtain ⟨h1, h2⟩ := h0
  rcases match_cases hc.1 h1 with ⟨a, b⟩ | ⟨m, m', a, b, hm⟩
  · rw [a, b]
  · rw [a, b]
    have key := build_case hc hm
    simp only
    revert key
    cases c.build m <;> cases c.build m' <;> intro key <;> simp only [Except.map] at key
    · cases key; rfl
    · cases key
    · cases key
    · simp only [Except.map]
      rw [Except.ok.inj key, h2]

/-! ### Options -/

theorem match_whole {r : Re} {s t : Str} {m m'} (h : Recased s t) (hs : reMatch r s = some m) (ht : reMatch r t = some m') (hc : RecCaps true m m') :
    cap m 0 = some s ↔ cap m' 0 = some t := by
  obtain ⟨st, -, rfl⟩ := reMatch_some hs
  obtain ⟨st', -, rfl⟩ := reMatch_some ht
  have e1 : ∀ (x : Str) l, cap ((0, x) :: l) 0 = some x := fun x l => rfl
  have hx := hc.2.1
  rw [e1, e1, Option.some.injEq, Option.some.injEq]
  have hl := rec_len hx
  simp only at hl
  have hlen := rec_len h
  constructor
  · intro e
    have := congrArg List.length e
    rw [hl] at this
    rw [List.length_take] at this
    exact List.take_of_length_le (by omega)
  · intro e
    have := congrArg List.length e
    rw [← hl] at this
    rw [List.length_take] at this
    exact List.take_of_length_le (by omega)

theorem firstMatch_case {s t : Str} (h : Recased s t) : ∀ {cs : List Cls}, (∀ c ∈ cs, ClsCase c) →
    (firstMatch s cs = none ∧ firstMatch t cs = none) ∨
    ∃ c m m', c ∈ cs ∧ firstMatch s cs = some (c, m) ∧ firstMatch t cs = some (c, m') ∧ RecCaps true m m'
  | [], _ => .inl ⟨rfl, rfl⟩
  | c :: cs, hc => by
    have ih := firstMatch_case h (cs := cs) (fun d hd => hc d (List.mem_cons_of_mem _ hd))
    have lift : (firstMatch s cs = none ∧ firstMatch t cs = none) ∨
        ∃ d m m', d ∈ c :: cs ∧ firstMatch s cs = some (d, m) ∧ firstMatch t cs = some (d, m') ∧ RecCaps true m m' := by
      rcases ih with ih | ⟨d, m, m', hd, x⟩
      · exact .inl ih
      · exact .inr ⟨d, m, m', List.mem_cons_of_mem _ hd, x⟩
    unfold firstMatch
    rcases match_cases (hc c List.mem_cons_self).1 h with ⟨a, b⟩ | ⟨m, m', a, b, hm⟩
    · rw [a, b]; exact lift
    · rw [a, b]
      simp only
      have e := match_whole h a b hm
      by_cases hw : cap m 0 = some s
      · rw [if_pos hw, if_pos (e.1 hw)]
        exact .inr ⟨c, m, m', List.mem_cons_self, rfl, rfl, hm⟩
      · rw [if_neg hw, if_neg (fun x => hw (e.2 x))]
        exact lift

/-- The class found in a text builds the object. -/
def unionAt (cs : List Cls) (x : Str) : Res Val :=
  match firstMatch x cs with
  | none => .error .inp
  | some (c, m) => c.build m

theorem unionAt_case {cs : List Cls} (hc : ∀ c ∈ cs, ClsCase c) {x y : Str} (h : Recased x y) :
    (unionAt cs x).map Val.low = (unionAt cs y).map Val.low := by
  unfold unionAt
  rcases firstMatch_case h hc with ⟨a, b⟩ | ⟨c, m, m', hcm, a, b, hm⟩ <;> rw [a, b]
  exact build_case (hc c hcm) hm

section
attribute [local irreducible] RecasedIf preprocess
theorem unionParse_case {cs : List Cls} (hc : ∀ c ∈ cs, ClsCase c) (s t : Str) (h : Recased s t) :
    (unionParse cs s).map Val.low = (unionParse cs t).map Val.low := unionAt_case hc (preprocess_rec h)
end

theorem union_case {cs : List Cls} (nm : String) (h : ∀ c ∈ cs, ClsCase c) : TyCase (unionTy nm cs) := unionParse_case h

theorem asTy_case {c : Cls} (nm : String) (h : ∀ d ∈ [c], ClsCase d) : TyCase (c.asTy nm) := unionParse_case h

theorem embedded_case : TyCase (.other "tme_1.Embedded" embeddedPat.re embeddedPat.ng embeddedParse) := by
  intro s t h
  unfold embeddedParse
  rcases match_cases (r := anchored (embeddedPat.re 1)) (by decide +kernel) h with ⟨a, b⟩ | ⟨m, m', a, b, hm⟩
  · rw [a, b]
  · rw [a, b]
    simp only
    have key := tuple_case (ty := .base .dist) trivial (by decide +kernel)
      (join_rec (x := ' ') (by decide +kernel) (splitC_rec (x := '<') (by decide +kernel) h))
    revert key
    cases tupleParse (.base .dist) (join [' '] (splitC '<' s)) <;> cases tupleParse (.base .dist) (join [' '] (splitC '<' t)) <;> intro key <;>
      simp only [Except.map] at key
    · cases key; rfl
    · cases key
    · cases key
    · simp only [Except.map, Val.low, Val.lows]
      rw [Except.ok.inj key]

/-! ### Lists of classes -/

/-- Only the types of src/pymcnp/types. -/
def baseOnlyC (as : List Attr) : Bool := as.all (fun a => match a.ty with | .base _ => true | .other _ _ _ _ => false)

theorem base_case : ∀ {as : List Attr}, baseOnlyC as = true → AllCase as
  | [], _ => trivial
  | a :: as, h => by
    simp only [baseOnlyC, List.all_cons, Bool.and_eq_true] at h
    refine ⟨?_, base_case h.2⟩
    cases ht : a.ty with
    | base k => trivial
    | other n r g p => rw [ht] at h; cases h.1

/-- Decidable part of `ClsCase`. -/
def clsCase (c : Cls) : Bool := caseless c.re && c.attrs.all attrCase && baseOnlyC c.attrs

theorem caseAll {cs : List Cls} (h : cs.all clsCase = true) : ∀ c ∈ cs, ClsCase c := by
  intro c hc
  have := List.all_eq_true.1 h c hc
  simp only [clsCase, Bool.and_eq_true] at this
  exact ⟨this.1.1, this.1.2, base_case this.2⟩

theorem case_nil : ∀ c ∈ ([] : List Cls), ClsCase c := by intro c hc; cases hc

theorem case_cons {c : Cls} {cs : List Cls} (h : ClsCase c) (hs : ∀ d ∈ cs, ClsCase d) : ∀ d ∈ c :: cs, ClsCase d := by
  intro d hd
  rcases List.mem_cons.1 hd with rfl | hd
  · exact h
  · exact hs d hd

theorem case_both {as bs : List Cls} (h : ∀ d ∈ as, ClsCase d) (hs : ∀ d ∈ bs, ClsCase d) : ∀ d ∈ as ++ bs, ClsCase d := by
  intro d hd
  rcases List.mem_append.1 hd with hd | hd
  · exact h d hd
  · exact hs d hd

end Inp
