import Verif.Inp.Put
import Verif.Inp.TableAll
/-! Helper lemmas: tests that look only at the new value. -/
set_option maxRecDepth 100000
namespace Inp
open Py Types

/-- The test does not look at other attributes. -/
def Chk.isLocal : Chk → Bool
  | .self _ _ | .ltSelf _ | .flat _ | .kcode => false
  | .not a => a.isLocal
  | .and a b | .or a b => a.isLocal && b.isLocal
  | .ite c a b => c.isLocal && a.isLocal && b.isLocal
  | _ => true

theorem eval_local {c : Chk} (h : c.isLocal = true) (env env' : List (String × Val)) : ∀ x, c.eval env x = c.eval env' x := by
  induction c with
  | self _ _ _ => cases h
  | ltSelf _ => cases h
  | flat _ => cases h
  | kcode => cases h
  | not a ih => intro x; rw [Chk.eval, Chk.eval, ih h]
  | and a b iha ihb =>
    simp only [Chk.isLocal, Bool.and_eq_true] at h
    intro x; rw [Chk.eval, Chk.eval, iha h.1, ihb h.2]
  | or a b iha ihb =>
    simp only [Chk.isLocal, Bool.and_eq_true] at h
    intro x; rw [Chk.eval, Chk.eval, iha h.1, ihb h.2]
  | ite c a b ihc iha ihb =>
    simp only [Chk.isLocal, Bool.and_eq_true] at h
    intro x; rw [Chk.eval, Chk.eval, ihc h.1.1, iha h.1.2, ihb h.2]
  | lowIn l =>
    intro x
    by_cases hx : ∃ s, x = .sc (.str s)
    · obtain ⟨s, rfl⟩ := hx; rw [Chk.eval, Chk.eval]
    · rw [Chk.eval, Chk.eval] <;> (intro s hs; exact hx ⟨s, hs⟩)
  | eqStr l =>
    intro x
    by_cases hx : ∃ s, x = .sc (.str s)
    · obtain ⟨s, rfl⟩ := hx; rw [Chk.eval, Chk.eval]
    · rw [Chk.eval, Chk.eval] <;> (intro s hs; exact hx ⟨s, hs⟩)
  | lenLe l =>
    intro x
    by_cases hx : ∃ s, x = .sc (.str s)
    · obtain ⟨s, rfl⟩ := hx; rw [Chk.eval, Chk.eval]
    · rw [Chk.eval, Chk.eval] <;> (intro s hs; exact hx ⟨s, hs⟩)
  | isNone | notNone | cmp _ _ _ | inInts _ | isJump | modEq _ _ | modIn _ _ | minPos | falsy | tt =>
    intro x; simp only [Chk.eval]

/-- The test of an attribute does not look at others. -/
def Attr.isLocal (a : Attr) : Bool := match a.chk with | none => true | some c => c.isLocal

/-- The setter's verdict. -/
def verdict (a : Attr) (v : Val) : Res Unit := (setAttr [] a v).map (fun _ => ())

theorem set_local {a : Attr} (h : a.isLocal = true) (env : List (String × Val)) (v : Val) :
    setAttr env a v = (verdict a v).map (fun _ => (a.name, v) :: env) := by
  unfold verdict setAttr
  unfold Attr.isLocal at h
  cases hc : a.chk with
  | none => rfl
  | some c =>
    rw [hc] at h
    simp only
    rw [eval_local h env []]
    cases c.eval [] v with
    | error e => rfl
    | ok b => cases b <;> rfl

/-- The verdict on the attribute called `n`. -/
def verdictOf (avs : List (Attr × Val)) (n : String) : Res Unit :=
  match avs.find? (fun p => p.1.name == n) with
  | none => .error .attribute
  | some (a, v) => verdict a v

theorem run_local {avs : List (Attr × Val)} (h : ∀ p ∈ avs, p.1.isLocal = true) (ns : List String) : ∀ env,
    runInit avs env ns = ns.foldr (fun n r => (verdictOf avs n).bind (fun _ => r)) (.ok ()) := by
  induction ns with
  | nil => intro env; rfl
  | cons n ns ih =>
    intro env
    unfold runInit
    rw [List.foldr_cons]
    unfold verdictOf
    cases hf : avs.find? (fun p => p.1.name == n) with
    | none => rfl
    | some p =>
      obtain ⟨a, v⟩ := p
      simp only
      rw [set_local (h _ (List.mem_of_find?_eq_some hf))]
      cases verdict a v with
      | error e => rfl
      | ok u => exact ih _

theorem fold_ok {f : String → Res Unit} {ns : List String} :
    ns.foldr (fun n r => (f n).bind (fun _ => r)) (.ok ()) = .ok () ↔ ∀ n ∈ ns, f n = .ok () := by
  induction ns with
  | nil => simp
  | cons n ns ih =>
    rw [List.foldr_cons, List.forall_mem_cons, ← ih]
    cases f n with
    | error e => simp [Except.bind]
    | ok u => simp [Except.bind]

theorem fold_one {f : String → Res Unit} {ns : List String} {m : String} (hm : m ∈ ns) (h : ∀ n ∈ ns, n ≠ m → f n = .ok ()) :
    ns.foldr (fun n r => (f n).bind (fun _ => r)) (.ok ()) = f m := by
  induction ns with
  | nil => cases hm
  | cons n ns ih =>
    rw [List.foldr_cons]
    by_cases e : n = m
    · subst e
      cases hf : f n with
      | error e => rfl
      | ok u =>
        by_cases hn : n ∈ ns
        · have := ih hn (fun k hk => h k (List.mem_cons_of_mem _ hk))
          rw [hf] at this
          exact this
        · exact fold_ok.2 (fun k hk => h k (List.mem_cons_of_mem _ hk) (fun e => hn (e ▸ hk)))
    · rw [h n List.mem_cons_self e]
      rcases List.mem_cons.1 hm with h1 | h1
      · exact absurd h1.symm e
      · exact ih h1 (fun k hk => h k (List.mem_cons_of_mem _ hk))

theorem find_zip {as : List Attr} (hn : (as.map (·.name)).Nodup) {vs : List Val} (hl : as.length = vs.length) {j : Nat} {a : Attr} {v : Val}
    (ha : as[j]? = some a) (hv : vs[j]? = some v) : (as.zip vs).find? (fun p => p.1.name == a.name) = some (a, v) := by
  induction as generalizing vs j with
  | nil => simp at ha
  | cons b as ih =>
    cases vs with
    | nil => simp at hl
    | cons w vs =>
      rw [List.zip_cons_cons, List.find?_cons]
      cases j with
      | zero =>
        simp only [List.getElem?_cons_zero, Option.some.injEq] at ha hv
        subst ha; subst hv
        simp
      | succ j =>
        simp only [List.getElem?_cons_succ] at ha hv
        have hne : b.name ≠ a.name := by
          intro he
          rw [List.map_cons, List.nodup_cons] at hn
          exact hn.1 (he ▸ List.mem_map_of_mem (List.mem_of_getElem? ha))
        simp only [beq_eq_false_iff_ne.2 hne]
        exact ih (List.nodup_cons.1 hn).2 (by simpa using hl) ha hv

/-- Names are distinct, the constructor sets each attribute, and the tests look at their own value only. -/
def Cls.isLocal (c : Cls) : Bool :=
  c.attrs.all Attr.isLocal && decide (c.attrs.map (·.name)).Nodup && c.init.all (fun n => (c.attrs.map (·.name)).contains n) &&
    c.attrs.all (fun a => c.init.contains a.name)

theorem put_local {c : Cls} (h : c.isLocal = true) {vs : List Val} (hl : vs.length = c.attrs.length) {o : Val} (ho : c.mk' vs = .ok o)
    {i : Nat} (hi : i < c.attrs.length) (v : Val) : c.put vs i v = (c.mk' (vs.set i v)).map (fun _ => vs.set i v) := by
  simp only [Cls.isLocal, Bool.and_eq_true, decide_eq_true_eq] at h
  obtain ⟨⟨⟨h1, h2⟩, h3⟩, h4⟩ := h
  have hloc : ∀ ws : List Val, ∀ p ∈ c.attrs.zip ws, p.1.isLocal = true := by
    intro ws p hp
    exact List.all_eq_true.1 h1 _ (List.of_mem_zip hp).1
  obtain ⟨a, ha⟩ : ∃ a, c.attrs[i]? = some a := ⟨_, List.getElem?_eq_getElem hi⟩
  have hmem := List.mem_of_getElem? ha
  have haL : a.isLocal = true := List.all_eq_true.1 h1 a hmem
  have hold : ∀ n ∈ c.init, verdictOf (c.attrs.zip vs) n = .ok () := by
    unfold Cls.mk' at ho
    rw [run_local (hloc vs)] at ho
    refine fold_ok.1 ?_
    split at ho
    · cases ho
    · assumption
  have hnew : runInit (c.attrs.zip (vs.set i v)) [] c.init = verdict a v := by
    rw [run_local (hloc _)]
    have hat : verdictOf (c.attrs.zip (vs.set i v)) a.name = verdict a v := by
      unfold verdictOf
      rw [find_zip h2 (by simp [hl]) ha (v := v) (by simp [hl, hi])]
    rw [← hat]
    refine fold_one (by simpa using List.all_eq_true.1 h4 a hmem) ?_
    intro n hn hne
    rw [← hold n hn]
    have : n ∈ c.attrs.map (·.name) := by simpa using List.all_eq_true.1 h3 n hn
    obtain ⟨b, hb, rfl⟩ := List.mem_map.1 this
    obtain ⟨j, hj, hbj⟩ := List.getElem_of_mem hb
    have hbj' : c.attrs[j]? = some b := by rw [List.getElem?_eq_getElem hj, hbj]
    have hij : i ≠ j := by
      rintro rfl
      rw [ha] at hbj'
      cases hbj'
      exact hne rfl
    unfold verdictOf
    rw [find_zip h2 (by simp [hl]) hbj' (v := vs[j]'(by omega)) (by rw [List.getElem?_set_ne hij, List.getElem?_eq_getElem]),
      find_zip h2 hl.symm hbj' (v := vs[j]'(by omega)) (by rw [List.getElem?_eq_getElem])]
  unfold Cls.put Cls.mk'
  rw [ha, hnew]
  simp only [set_local haL]
  cases verdict a v <;> rfl

/-! The plane through three points. -/

/-- `x is None` -/
def isNil : Val → Bool
  | .none => true
  | _ => false

/-- The verdict of the last setter. -/
def planeVerdict (vs : List Val) : Res Unit :=
  match flatVal vs with
  | .error e => .error e
  | .ok true => .error .inp
  | .ok false => .ok ()

theorem set_pt (n : String) (t : Ty) (m : Bool) (env : List (String × Val)) (v : Val) :
    setAttr env ⟨n, t, m, some (.or .isNone (.flat n))⟩ v =
      if isNil v then .error .inp else (planeVerdict (flatArgs env n v)).map (fun _ => (n, v) :: env) := by
  unfold setAttr planeVerdict
  cases v with
  | none => rfl
  | sc s =>
    simp only [Chk.eval, isNil, Except.bind]
    cases flatVal (flatArgs env n (.sc s)) with
    | error e => rfl
    | ok b => cases b <;> rfl
  | tuple s =>
    simp only [Chk.eval, isNil, Except.bind]
    cases flatVal (flatArgs env n (.tuple s)) with
    | error e => rfl
    | ok b => cases b <;> rfl
  | obj i s =>
    simp only [Chk.eval, isNil, Except.bind]
    cases flatVal (flatArgs env n (.obj i s)) with
    | error e => rfl
    | ok b => cases b <;> rfl

theorem early (env : List (String × Val)) (h : env.lookup "z3" = none) (n : String) (hn : n ≠ "z3") (v : Val) :
    planeVerdict (flatArgs env n v) = .ok () := by
  have : flatArgs env n v = [] := by
    unfold flatArgs
    have : ["x1", "y1", "z1", "x2", "y2", "z2", "x3", "y3", "z3"].mapM (fun k => if k = n then some v else env.lookup k) = none := by
      simp only [List.mapM_cons, List.mapM_nil, if_neg (Ne.symm hn), h, bind, Option.bind, pure]
      repeat' split
      all_goals first | rfl | simp_all
    rw [this]; rfl
  rw [this]; rfl

theorem first_set (env : List (String × Val)) (h : env.lookup "z3" = none) (n : String) (hn : n ≠ "z3") (v : Val) :
    (if isNil v = true then .error .inp else Except.map (fun _ => (n, v) :: env) (planeVerdict (flatArgs env n v)) : Res (List (String × Val))) =
      if isNil v = true then .error .inp else .ok ((n, v) :: env) := by
  rw [early env h n hn]; rfl

theorem plane_run (v1 v2 v3 v4 v5 v6 v7 v8 v9 : Val) :
    runInit (Tab.surface_P_1.attrs.zip [v1, v2, v3, v4, v5, v6, v7, v8, v9]) [] Tab.surface_P_1.init =
      if [v1, v2, v3, v4, v5, v6, v7, v8, v9].any isNil then .error .inp else planeVerdict [v1, v2, v3, v4, v5, v6, v7, v8, v9] := by
  simp only [Tab.surface_P_1, List.zip_cons_cons, List.zip_nil_left, runInit, List.find?, String.reduceBEq, set_pt]
  rw [first_set [] rfl "x1" (by decide)]
  cases h1 : isNil v1 with
  | true => simp [h1]
  | false =>
  simp only [Bool.false_eq_true, if_false]
  rw [first_set _ (by rfl) "y1" (by decide)]
  cases h2 : isNil v2 with
  | true => simp [h2]
  | false =>
  simp only [Bool.false_eq_true, if_false]
  rw [first_set _ (by rfl) "z1" (by decide)]
  cases h3 : isNil v3 with
  | true => simp [h3]
  | false =>
  simp only [Bool.false_eq_true, if_false]
  rw [first_set _ (by rfl) "x2" (by decide)]
  cases h4 : isNil v4 with
  | true => simp [h4]
  | false =>
  simp only [Bool.false_eq_true, if_false]
  rw [first_set _ (by rfl) "y2" (by decide)]
  cases h5 : isNil v5 with
  | true => simp [h5]
  | false =>
  simp only [Bool.false_eq_true, if_false]
  rw [first_set _ (by rfl) "z2" (by decide)]
  cases h6 : isNil v6 with
  | true => simp [h6]
  | false =>
  simp only [Bool.false_eq_true, if_false]
  rw [first_set _ (by rfl) "x3" (by decide)]
  cases h7 : isNil v7 with
  | true => simp [h7]
  | false =>
  simp only [Bool.false_eq_true, if_false]
  rw [first_set _ (by rfl) "y3" (by decide)]
  cases h8 : isNil v8 with
  | true => simp [h8]
  | false =>
  simp only [Bool.false_eq_true, if_false]
  cases h9 : isNil v9 with
  | true => simp [h9]
  | false =>
  simp only [Bool.false_eq_true, if_false, List.any_cons, List.any_nil, h1, h2, h3, h4, h5, h6, h7, h8, h9, Bool.or_false]
  have : flatArgs [("y3", v8), ("x3", v7), ("z2", v6), ("y2", v5), ("x2", v4), ("z1", v3), ("y1", v2), ("x1", v1)] "z3" v9 =
    [v1, v2, v3, v4, v5, v6, v7, v8, v9] := rfl
  rw [this]
  cases planeVerdict [v1, v2, v3, v4, v5, v6, v7, v8, v9] <;> rfl

theorem nine {vs : List Val} (h : vs.length = 9) : ∃ a b c d e f g h i, vs = [a, b, c, d, e, f, g, h, i] := by
  match vs, h with
  | [a, b, c, d, e, f, g, h, i], _ => exact ⟨a, b, c, d, e, f, g, h, i, rfl⟩

theorem plane_agrees (vs : List Val) (hl : vs.length = 9) (hm : vs.any isNil = false) (i : Nat) (hi : i < 9) (v : Val) :
    Tab.surface_P_1.put vs i v = (Tab.surface_P_1.mk' (vs.set i v)).map (fun _ => vs.set i v) := by
  obtain ⟨v1, v2, v3, v4, v5, v6, v7, v8, v9, rfl⟩ := nine hl
  simp only [List.any_cons, List.any_nil, Bool.or_eq_false_iff] at hm
  obtain ⟨h1, h2, h3, h4, h5, h6, h7, h8, h9, _⟩ := hm
  have key : ∀ n t m ws, flatArgs (Tab.surface_P_1.env [v1, v2, v3, v4, v5, v6, v7, v8, v9]) n v = ws → 
      (match setAttr (Tab.surface_P_1.env [v1, v2, v3, v4, v5, v6, v7, v8, v9]) ⟨n, t, m, some (.or .isNone (.flat n))⟩ v with
        | .error e => .error e
        | .ok _ => .ok ws) = ((if isNil v then .error .inp else planeVerdict ws).map (fun _ => ws) : Res (List Val)) := by
    intro n t m ws hw
    rw [set_pt, hw]
    cases isNil v with
    | true => rfl
    | false => cases planeVerdict ws <;> rfl
  have mk : ∀ a1 a2 a3 a4 a5 a6 a7 a8 a9, (Tab.surface_P_1.mk' [a1, a2, a3, a4, a5, a6, a7, a8, a9]).map
      (fun _ => [a1, a2, a3, a4, a5, a6, a7, a8, a9]) = 
      ((if [a1, a2, a3, a4, a5, a6, a7, a8, a9].any isNil then .error .inp else planeVerdict [a1, a2, a3, a4, a5, a6, a7, a8, a9]).map
        (fun _ => [a1, a2, a3, a4, a5, a6, a7, a8, a9]) : Res (List Val)) := by
    intro a1 a2 a3 a4 a5 a6 a7 a8 a9
    unfold Cls.mk'
    rw [plane_run]
    cases (if [a1, a2, a3, a4, a5, a6, a7, a8, a9].any isNil then .error .inp else planeVerdict [a1, a2, a3, a4, a5, a6, a7, a8, a9] : Res Unit) <;> rfl
  match i, hi with
  | 0, _ => exact (key "x1" _ _ [v, v2, v3, v4, v5, v6, v7, v8, v9] rfl).trans (by simp only [List.set]; rw [mk]; simp [*])
  | 1, _ => exact (key "y1" _ _ [v1, v, v3, v4, v5, v6, v7, v8, v9] rfl).trans (by simp only [List.set]; rw [mk]; simp [*])
  | 2, _ => exact (key "z1" _ _ [v1, v2, v, v4, v5, v6, v7, v8, v9] rfl).trans (by simp only [List.set]; rw [mk]; simp [*])
  | 3, _ => exact (key "x2" _ _ [v1, v2, v3, v, v5, v6, v7, v8, v9] rfl).trans (by simp only [List.set]; rw [mk]; simp [*])
  | 4, _ => exact (key "y2" _ _ [v1, v2, v3, v4, v, v6, v7, v8, v9] rfl).trans (by simp only [List.set]; rw [mk]; simp [*])
  | 5, _ => exact (key "z2" _ _ [v1, v2, v3, v4, v5, v, v7, v8, v9] rfl).trans (by simp only [List.set]; rw [mk]; simp [*])
  | 6, _ => exact (key "x3" _ _ [v1, v2, v3, v4, v5, v6, v, v8, v9] rfl).trans (by simp only [List.set]; rw [mk]; simp [*])
  | 7, _ => exact (key "y3" _ _ [v1, v2, v3, v4, v5, v6, v7, v, v9] rfl).trans (by simp only [List.set]; rw [mk]; simp [*])
  | 8, _ => exact (key "z3" _ _ [v1, v2, v3, v4, v5, v6, v7, v8, v] rfl).trans (by simp only [List.set]; rw [mk]; simp [*])

end Inp
