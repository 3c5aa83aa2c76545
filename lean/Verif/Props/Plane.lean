import Verif.Inp.Card
import Verif.Inp.TableSurface
import Verif.Py.DoubleLemmas
/-!
# C87: a plane through three points needs three points that are not on a line

`P_1` (src/pymcnp/inp/surface/P_1.py) tests this with the cross product of two differences, in floating point.  For whole
coordinates below 2^25 the test is exact.  For others it fails in both directions.
-/
set_option maxRecDepth 100000
namespace Props
open Py Types Inp

/-- A point of space. -/
structure Pt where
  x : Int
  y : Int
  z : Int

/-- Three points are on a line: the differences to the first are multiples of one another. -/
def OnLine (p q r : Pt) : Prop :=
  ∃ s t : Int, (s ≠ 0 ∨ t ≠ 0) ∧ s * (q.x - p.x) = t * (r.x - p.x) ∧ s * (q.y - p.y) = t * (r.y - p.y) ∧
    s * (q.z - p.z) = t * (r.z - p.z)

/-- The coordinates of a point are below 2^25. -/
def Pt.small (p : Pt) : Prop := p.x.natAbs < 2 ^ 25 ∧ p.y.natAbs < 2 ^ 25 ∧ p.z.natAbs < 2 ^ 25

/-- The `Real` object read from the digits of a whole number. -/
def wholeReal (k : Int) : Val := .sc (.real (.num (wholeDec k)))

/-- The arguments of the constructor. -/
def pointArgs (p q r : Pt) : List Val :=
  [wholeReal p.x, wholeReal p.y, wholeReal p.z, wholeReal q.x, wholeReal q.y, wholeReal q.z, wholeReal r.x, wholeReal r.y, wholeReal r.z]

theorem cross_line {a1 a2 a3 b1 b2 b3 : Int} : (a2 * b3 - a3 * b2 = 0 ∧ a3 * b1 - a1 * b3 = 0 ∧ a1 * b2 - a2 * b1 = 0) ↔
    ∃ s t : Int, (s ≠ 0 ∨ t ≠ 0) ∧ s * a1 = t * b1 ∧ s * a2 = t * b2 ∧ s * a3 = t * b3 := by
  constructor
  · rintro ⟨h1, h2, h3⟩
    by_cases e1 : a1 = 0
    · by_cases e2 : a2 = 0
      · by_cases e3 : a3 = 0
        · exact ⟨1, 0, by decide, by simp [e1], by simp [e2], by simp [e3]⟩
        · exact ⟨b3, a3, .inr e3, by grind, by grind, by grind⟩
      · exact ⟨b2, a2, .inr e2, by grind, by grind, by grind⟩
    · exact ⟨b1, a1, .inr e1, by grind, by grind, by grind⟩
  · rintro ⟨s, t, hst, h1, h2, h3⟩
    have key : ∀ u v x y : Int, s * u = t * x → s * v = t * y → u * y - v * x = 0 := by
      intro u v x y hu hv
      rcases hst with hs | ht
      · have : s * (u * y - v * x) = 0 := by grind
        rcases Int.mul_eq_zero.1 this with h | h
        · exact absurd h hs
        · exact h
      · have : t * (u * y - v * x) = 0 := by grind
        rcases Int.mul_eq_zero.1 this with h | h
        · exact absurd h ht
        · exact h
    exact ⟨key _ _ _ _ h2 h3, key _ _ _ _ h3 h1, key _ _ _ _ h1 h2⟩

theorem prod_bound {a b : Int} (ha : a.natAbs < 2 ^ 26) (hb : b.natAbs < 2 ^ 26) : (a * b).natAbs < 2 ^ 52 := by
  rw [Int.natAbs_mul]
  calc a.natAbs * b.natAbs < 2 ^ 26 * 2 ^ 26 := Nat.mul_lt_mul'' ha hb
    _ = 2 ^ 52 := by decide

theorem minor {a b c d : Int} (ha : a.natAbs < 2 ^ 26) (hb : b.natAbs < 2 ^ 26) (hc : c.natAbs < 2 ^ 26) (hd : d.natAbs < 2 ^ 26) :
    (((whole a).mul (whole b)).sub ((whole c).mul (whole d))).truth = decide (a * b - c * d ≠ 0) := by
  have h1 := prod_bound ha hb
  have h2 := prod_bound hc hd
  rw [mul_whole _ _ (by omega), mul_whole _ _ (by omega), sub_whole _ _ (by omega), truth_whole]

theorem cross_whole {a1 a2 a3 b1 b2 b3 : Int} (h1 : a1.natAbs < 2 ^ 26) (h2 : a2.natAbs < 2 ^ 26) (h3 : a3.natAbs < 2 ^ 26)
    (k1 : b1.natAbs < 2 ^ 26) (k2 : b2.natAbs < 2 ^ 26) (k3 : b3.natAbs < 2 ^ 26) :
    crossZero (whole a1, whole a2, whole a3) (whole b1, whole b2, whole b3) = true ↔
      (a2 * b3 - a3 * b2 = 0 ∧ a3 * b1 - a1 * b3 = 0 ∧ a1 * b2 - a2 * b1 = 0) := by
  unfold crossZero
  simp only [minor h2 k3 h3 k2, minor h3 k1 h1 k3, minor h1 k2 h2 k1]
  simp only [Bool.not_eq_true', Bool.or_eq_false_iff, decide_eq_false_iff_not, Decidable.not_not, and_assoc]

theorem diff_whole {a b : Int} (ha : a.natAbs < 2 ^ 25) (hb : b.natAbs < 2 ^ 25) :
    diffVal (wholeReal a) (wholeReal b) = .ok (whole (a - b)) := dec_sub_whole a b (by omega)

theorem sub_bound {a b : Int} (ha : a.natAbs < 2 ^ 25) (hb : b.natAbs < 2 ^ 25) : (a - b).natAbs < 2 ^ 26 := by omega

theorem flat_whole {p q r : Pt} (hp : p.small) (hq : q.small) (hr : r.small) :
    (flatVal (pointArgs p q r) = .ok true ∧ OnLine p q r) ∨ (flatVal (pointArgs p q r) = .ok false ∧ ¬ OnLine p q r) := by
  obtain ⟨p1, p2, p3⟩ := hp
  obtain ⟨q1, q2, q3⟩ := hq
  obtain ⟨r1, r2, r3⟩ := hr
  unfold flatVal pointArgs
  simp only [diff_whole q1 p1, diff_whole q2 p2, diff_whole q3 p3, diff_whole r1 p1, diff_whole r2 p2, diff_whole r3 p3, bind, Except.bind]
  have key := cross_whole (a1 := q.x - p.x) (a2 := q.y - p.y) (a3 := q.z - p.z) (b1 := r.x - p.x) (b2 := r.y - p.y) (b3 := r.z - p.z)
    (sub_bound q1 p1) (sub_bound q2 p2) (sub_bound q3 p3) (sub_bound r1 p1) (sub_bound r2 p2) (sub_bound r3 p3)
  rw [cross_line] at key
  cases hc : crossZero (whole (q.x - p.x), whole (q.y - p.y), whole (q.z - p.z)) (whole (r.x - p.x), whole (r.y - p.y), whole (r.z - p.z)) with
  | true => exact .inl ⟨rfl, key.1 hc⟩
  | false =>
    refine .inr ⟨rfl, fun h => ?_⟩
    rw [key.2 h] at hc; cases hc

/-- The arguments of the setter of coordinate `n` on a plane with the coordinates `c`. -/
theorem set_args {env : List (String × Val)} {c : String → Int} {n : String} {k : Int}
    (h : ∀ m ∈ ["x1", "y1", "z1", "x2", "y2", "z2", "x3", "y3", "z3"], env.lookup m = some (wholeReal (c m))) :
    flatArgs env n (wholeReal k) = ["x1", "y1", "z1", "x2", "y2", "z2", "x3", "y3", "z3"].map (fun m => wholeReal (if m = n then k else c m)) := by
  have gen : ∀ ms : List String, (∀ m ∈ ms, env.lookup m = some (wholeReal (c m))) →
      ms.mapM (fun m => if m = n then some (wholeReal k) else env.lookup m) = some (ms.map (fun m => wholeReal (if m = n then k else c m))) := by
    intro ms
    induction ms with
    | nil => intro _; rfl
    | cons m ms ih =>
      intro hm
      rw [List.mapM_cons, ih (fun x hx => hm x (List.mem_cons_of_mem _ hx)), hm m List.mem_cons_self]
      by_cases e : m = n <;> simp [e]
  unfold flatArgs
  rw [gen _ h]
  rfl

/-- The points with the coordinates `c`. -/
def pts (c : String → Int) : Pt × Pt × Pt := (⟨c "x1", c "y1", c "z1"⟩, ⟨c "x2", c "y2", c "z2"⟩, ⟨c "x3", c "y3", c "z3"⟩)

/-- The attribute of a coordinate. -/
theorem plane_attr {a : Attr} (h : a ∈ Tab.surface_P_1.attrs) : a.chk = some (.or .isNone (.flat a.name)) := by
  simp only [Tab.surface_P_1, List.mem_cons, List.not_mem_nil, or_false] at h
  rcases h with rfl | rfl | rfl | rfl | rfl | rfl | rfl | rfl | rfl <;> rfl

theorem eval_plane (env : List (String × Val)) (n : String) (k : Int) :
    Chk.eval env (wholeReal k) (.or .isNone (.flat n)) = flatVal (flatArgs env n (wholeReal k)) := rfl

theorem set_plane {a : Attr} (ha : a ∈ Tab.surface_P_1.attrs) (env : List (String × Val)) (k : Int) :
    setAttr env a (wholeReal k) = match flatVal (flatArgs env a.name (wholeReal k)) with
      | .error e => .error e
      | .ok true => .error .inp
      | .ok false => .ok ((a.name, wholeReal k) :: env) := by
  unfold setAttr
  rw [plane_attr ha]
  simp only [eval_plane]
  cases flatVal (flatArgs env a.name (wholeReal k)) with
  | error e => rfl
  | ok b => cases b <;> rfl

/-- The plane before the last coordinate is set. -/
def lastEnv (p q r : Pt) : List (String × Val) :=
  [("y3", wholeReal r.y), ("x3", wholeReal r.x), ("z2", wholeReal q.z), ("y2", wholeReal q.y), ("x2", wholeReal q.x),
   ("z1", wholeReal p.z), ("y1", wholeReal p.y), ("x1", wholeReal p.x)]

theorem run_last (p q r : Pt) (a : Attr) (ha : Tab.surface_P_1.attrs[8]? = some a) :
    runInit (Tab.surface_P_1.attrs.zip (pointArgs p q r)) [] Tab.surface_P_1.init =
      match setAttr (lastEnv p q r) a (wholeReal r.z) with
      | .error e => .error e
      | .ok env' => runInit (Tab.surface_P_1.attrs.zip (pointArgs p q r)) env' [] := by
  cases ha
  rfl

theorem args_last (p q r : Pt) : flatArgs (lastEnv p q r) "z3" (wholeReal r.z) = pointArgs p q r := rfl

/-- **C87**: a coordinate of a plane through three points can be changed to a whole number exactly when the points are not on a
line then; else `InpError` is raised.  Missing: coordinates that are not whole numbers below 2^25 (`C87_violated`). -/
theorem C87_change_partial {a : Attr} (ha : a ∈ Tab.surface_P_1.attrs) {env : List (String × Val)} {c : String → Int} {k : Int}
    (h : ∀ m ∈ Tab.surface_P_1.init, env.lookup m = some (wholeReal (c m)))
    (hs : ∀ m, (if m = a.name then k else c m).natAbs < 2 ^ 25) :
    let p := pts (fun m => if m = a.name then k else c m)
    (OnLine p.1 p.2.1 p.2.2 ∧ setAttr env a (wholeReal k) = .error .inp) ∨
    (¬ OnLine p.1 p.2.1 p.2.2 ∧ setAttr env a (wholeReal k) = .ok ((a.name, wholeReal k) :: env)) := by
  intro p
  rw [set_plane ha, set_args h]
  have key := flat_whole (p := p.1) (q := p.2.1) (r := p.2.2) ⟨hs _, hs _, hs _⟩ ⟨hs _, hs _, hs _⟩ ⟨hs _, hs _, hs _⟩
  have e : List.map (fun m => wholeReal (if m = a.name then k else c m)) ["x1", "y1", "z1", "x2", "y2", "z2", "x3", "y3", "z3"] =
    pointArgs p.1 p.2.1 p.2.2 := rfl
  rw [e]
  rcases key with ⟨h1, h2⟩ | ⟨h1, h2⟩
  · left; refine ⟨h2, ?_⟩; rw [h1]
  · right; refine ⟨h2, ?_⟩; rw [h1]

/-- A plane with coordinates, and the attribute `z3`. -/
example : ∃ a ∈ Tab.surface_P_1.attrs, ∃ c : String → Int, ∃ env : List (String × Val), (∀ m ∈ Tab.surface_P_1.init, env.lookup m = some (wholeReal (c m))) ∧
    (∀ m, (if m = a.name then 7 else c m).natAbs < 2 ^ 25) := by
  refine ⟨_, List.mem_cons_self, fun m => if m = "x2" then 1 else if m = "y3" then 1 else 0,
    ("z3", wholeReal 0) :: lastEnv ⟨0, 0, 0⟩ ⟨1, 0, 0⟩ ⟨0, 1, 0⟩, ?_, ?_⟩
  · simp only [Tab.surface_P_1, List.forall_mem_cons]
    refine ⟨rfl, rfl, rfl, rfl, rfl, rfl, rfl, rfl, rfl, by simp⟩
  · intro m
    split
    · decide
    · simp only
      split
      · decide
      · split <;> decide

/-- **C87**: a plane through three points with whole coordinates is made exactly when the points are not on a line; else
`InpError` is raised.  Missing: as for changes. -/
theorem C87_make_partial {p q r : Pt} (hp : p.small) (hq : q.small) (hr : r.small) :
    (OnLine p q r ∧ Tab.surface_P_1.mk' (pointArgs p q r) = .error .inp) ∨
    (¬ OnLine p q r ∧ Tab.surface_P_1.mk' (pointArgs p q r) = .ok (.obj Tab.surface_P_1.info (pointArgs p q r))) := by
  have key := flat_whole hp hq hr
  obtain ⟨a, ha, hn⟩ : ∃ a, Tab.surface_P_1.attrs[8]? = some a ∧ a.name = "z3" :=
    ⟨⟨"z3", .base .real, false, some (.or .isNone (.flat "z3"))⟩, by simp only [Tab.surface_P_1]; rfl, rfl⟩
  unfold Cls.mk'
  rw [run_last p q r a ha, set_plane (List.mem_of_getElem? ha), hn, args_last]
  rcases key with ⟨h1, h2⟩ | ⟨h1, h2⟩
  · left; refine ⟨h2, ?_⟩; rw [h1]
  · right; refine ⟨h2, ?_⟩; rw [h1]; rfl

/-- Both happen. -/
example : OnLine ⟨0, 0, 0⟩ ⟨1, 2, 3⟩ ⟨-2, -4, -6⟩ ∧ ¬ OnLine ⟨0, 0, 0⟩ ⟨1, 2, 3⟩ ⟨-2, -4, -5⟩ := by
  refine ⟨⟨2, -1, by decide⟩, ?_⟩
  rintro ⟨s, t, h⟩
  simp at h
  omega

/-- **C87**, violated: three points on a line make a plane when rounding hides it, and three points close together that are
not on a line do not. -/
theorem C87_violated :
    (unionParse [Tab.surface_P_1] c!"p 0 0 0 .1 .3 0 .3 .9 0").isOk = true ∧
    unionParse [Tab.surface_P_1] c!"p 0 0 0 1e-200 0 0 0 1e-200 0" = .error .inp ∧
    unionParse [Tab.surface_P_1] c!"p 0 0 0 1 3 0 3 9 0" = .error .inp := by
  refine ⟨?_, ?_, ?_⟩ <;> decide +kernel

end Props
