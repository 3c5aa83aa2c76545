import Mathlib.Tactic.Linarith
import Mathlib.Tactic.NormNum
import Mathlib.Tactic.Ring
import Mathlib.Tactic.FieldSimp
import Mathlib.Tactic.LinearCombination
import Verif.Show.Cells
import Verif.Props.Geometry
import Verif.Py.Lit
/-!
# Drawings: C78
-/
namespace Props
open Py Types Show

/-! ## Specification: the senses of surfaces, after the MCNP manual -/

/-- `(p − v)·h / h·h`: how far along `h` from `v` a point lies. -/
noncomputable def along (v h p : Vec) : ℝ := ((p.sub v).dot h) / (h.dot h)

/-- The square of the distance from the axis through `v` along `h`. -/
noncomputable def offAxis (v h p : Vec) : ℝ := (p.sub v).dot (p.sub v) - ((p.sub v).dot h) ^ 2 / (h.dot h)

/-- The side of the plane through three points: `g` is the equation of the plane, with either sign. -/
def PointsSide (n : Vec) (d : ℝ) (p : Vec) : Prop :=
  let g := fun q : Vec => n.dot q - d
  if g Vec.zero ≠ 0 then g p * g Vec.zero < 0
  else if n.z ≠ 0 then g p * n.z > 0
  else if n.y ≠ 0 then g p * n.y > 0
  else g p * n.x > 0

/-- The points with positive sense: for equations, where the equation is positive; for bodies, the outside.  The plane through three points has
its positive side away from the origin; if the origin is on it, towards (0, 0, ∞), or (0, ∞, 0), or (∞, 0, 0).  A sheet of a cone has the points
within it on its negative side.  Surfaces that are never drawn right are left out. -/
def Positive : Surf → Vec → Prop
  | .px d, p => p.x - d > 0
  | .py d, p => p.y - d > 0
  | .pz d, p => p.z - d > 0
  | .p a b c d, p => a * p.x + b * p.y + c * p.z - d > 0
  | .points a b c, p => PointsSide ((b.sub a).cross (c.sub a)) (((b.sub a).cross (c.sub a)).dot a) p
  | .so r, p => p.x ^ 2 + p.y ^ 2 + p.z ^ 2 - r ^ 2 > 0
  | .s c r, p => (p.x - c.x) ^ 2 + (p.y - c.y) ^ 2 + (p.z - c.z) ^ 2 - r ^ 2 > 0
  | .sx x r, p => (p.x - x) ^ 2 + p.y ^ 2 + p.z ^ 2 - r ^ 2 > 0
  | .sy y r, p => p.x ^ 2 + (p.y - y) ^ 2 + p.z ^ 2 - r ^ 2 > 0
  | .sz z r, p => p.x ^ 2 + p.y ^ 2 + (p.z - z) ^ 2 - r ^ 2 > 0
  | .cx r, p => p.y ^ 2 + p.z ^ 2 - r ^ 2 > 0
  | .cy r, p => p.x ^ 2 + p.z ^ 2 - r ^ 2 > 0
  | .cz r, p => p.x ^ 2 + p.y ^ 2 - r ^ 2 > 0
  | .c_x y z r, p => (p.y - y) ^ 2 + (p.z - z) ^ 2 - r ^ 2 > 0
  | .c_y x z r, p => (p.x - x) ^ 2 + (p.z - z) ^ 2 - r ^ 2 > 0
  | .c_z x y r, p => (p.x - x) ^ 2 + (p.y - y) ^ 2 - r ^ 2 > 0
  | .kx x t sign, p => ¬ (p.y ^ 2 + p.z ^ 2 ≤ t * (p.x - x) ^ 2 ∧ sign * (p.x - x) ≥ 0)
  | .ky y t sign, p => ¬ (p.x ^ 2 + p.z ^ 2 ≤ t * (p.y - y) ^ 2 ∧ sign * (p.y - y) ≥ 0)
  | .kz z t sign, p => ¬ (p.x ^ 2 + p.y ^ 2 ≤ t * (p.z - z) ^ 2 ∧ sign * (p.z - z) ≥ 0)
  | .k_x c t sign, p => ¬ ((p.y - c.y) ^ 2 + (p.z - c.z) ^ 2 ≤ t * (p.x - c.x) ^ 2 ∧ sign * (p.x - c.x) ≥ 0)
  | .k_y c t sign, p => ¬ ((p.x - c.x) ^ 2 + (p.z - c.z) ^ 2 ≤ t * (p.y - c.y) ^ 2 ∧ sign * (p.y - c.y) ≥ 0)
  | .k_z c t sign, p => ¬ ((p.x - c.x) ^ 2 + (p.y - c.y) ^ 2 ≤ t * (p.z - c.z) ^ 2 ∧ sign * (p.z - c.z) ≥ 0)
  | .rpp x0 x1 y0 y1 z0 z1, p => ¬ (x0 ≤ p.x ∧ p.x ≤ x1 ∧ y0 ≤ p.y ∧ p.y ≤ y1 ∧ (∀ z ∈ z0, z ≤ p.z) ∧ (∀ z ∈ z1, p.z ≤ z))
  | .box v a1 a2 a3, p => ¬ ∃ s t u : ℝ, (0 ≤ s ∧ s ≤ 1) ∧ (0 ≤ t ∧ t ≤ 1) ∧ (0 ≤ u ∧ u ≤ 1) ∧
      p = ((v.add (a1.smul s)).add (a2.smul t)).add (a3.smul u)
  | .sph v r, p => (p.x - v.x) ^ 2 + (p.y - v.y) ^ 2 + (p.z - v.z) ^ 2 - r ^ 2 > 0
  | .rcc v h r, p => ¬ (0 ≤ along v h p ∧ along v h p ≤ 1 ∧ offAxis v h p ≤ r ^ 2)
  | .trc v h r1 r2, p => ¬ (0 ≤ along v h p ∧ along v h p ≤ 1 ∧ offAxis v h p ≤ (r1 + along v h p * (r2 - r1)) ^ 2)
  | .ell v1 v2 rm, p =>
    if rm < 0 then (along v1 v2 p) ^ 2 + offAxis v1 v2 p / rm ^ 2 > 1
    else (p.sub v1).norm + (p.sub v2).norm > 2 * rm
  | .recc v h v1 v2, p => ¬ (0 ≤ along v h p ∧ along v h p ≤ 1 ∧ (along v v1 p) ^ 2 + (along v v2 p) ^ 2 ≤ 1)
  | _, _ => False

/-- The surfaces that are drawn right: planes with their equation; planes through three points given counter-clockwise as seen from the
positive side; spheres; parallelepipeds with three pairs of bounds; boxes whose edges point along the axes; cylinders, also elliptical ones, that stand upright. -/
inductive Upright : Surf → Prop where
  | px (d) : Upright (.px d)
  | py (d) : Upright (.py d)
  | pz (d) : Upright (.pz d)
  | p (a b c d) : ¬ (a = 0 ∧ b = 0 ∧ c = 0) → Upright (.p a b c d)
  | points (a b c n : Vec) (d : ℝ) : n = (b.sub a).cross (c.sub a) → d = n.dot a →
      (d > 0 ∨ (d = 0 ∧ (n.z > 0 ∨ (n.z = 0 ∧ (n.y > 0 ∨ (n.y = 0 ∧ n.x > 0)))))) → Upright (.points a b c)
  | so (r) : Upright (.so r)
  | s (c r) : Upright (.s c r)
  | sx (x r) : Upright (.sx x r)
  | sy (y r) : Upright (.sy y r)
  | sz (z r) : Upright (.sz z r)
  | sph (v r) : Upright (.sph v r)
  | rpp (x0 x1 y0 y1 z0 z1) : Upright (.rpp x0 x1 y0 y1 (some z0) (some z1))
  | box (v a b c) : 0 < a → 0 < b → 0 < c → Upright (.box v ⟨a, 0, 0⟩ ⟨0, b, 0⟩ ⟨0, 0, c⟩)
  | rcc (v c r) : 0 < c → Upright (.rcc v ⟨0, 0, c⟩ r)
  | recc (v a b c) : 0 < a → 0 < b → 0 < c → Upright (.recc v ⟨0, 0, c⟩ ⟨a, 0, 0⟩ ⟨0, b, 0⟩)

/-- The surface is drawn, and `cell` gives the points with positive sense. -/
def RightSide (s : Surf) : Prop := ∃ sh f, s.toShow = .ok sh ∧ sh.cell = .truth f ∧ ∀ p, f p ↔ Positive s p

/-! ## Helper lemmas -/

theorem plane_cell (a b c d : ℝ) (h : ¬ (a = 0 ∧ b = 0 ∧ c = 0)) :
    ∃ sh, plane a b c d = .ok sh ∧ sh.cell = .truth fun p => a * p.x + b * p.y + c * p.z - d > 0 := by
  have : ∃ q, planePoint a b c d = .ok q := by
    unfold planePoint
    split
    · rename_i h1
      split
      · rename_i h2; exact absurd ⟨h2, h1.2, h1.1⟩ h
      · exact ⟨_, rfl⟩
    all_goals (repeat' split)
    all_goals exact ⟨_, rfl⟩
  obtain ⟨q, hq⟩ := this
  unfold plane
  rw [hq]
  exact ⟨_, rfl, rfl⟩

theorem rotate_cell (s : Shape) (a : Vec) (c : ℝ) : (s.rotate a c).cell = s.cell := by
  unfold Shape.rotate
  split <;> rfl

theorem translate_cell (s : Shape) (v : Vec) : (s.translate v).cell = s.cell.map fun p => p.sub v := rfl

theorem norm_axis (a b c : ℝ) (ha : 0 ≤ a) (h : b = 0 ∧ c = 0) : (Vec.mk a b c).norm = a ∧ (Vec.mk b a c).norm = a ∧ (Vec.mk b c a).norm = a := by
  obtain ⟨rfl, rfl⟩ := h
  unfold Vec.norm Vec.dot
  refine ⟨?_, ?_, ?_⟩ <;> (simp only [mul_zero, zero_mul, add_zero, zero_add]; exact Real.sqrt_mul_self ha)

/-! ## C78 – cells are drawn on the right sides of their surfaces -/

/-- **C78, surfaces:** these surfaces are drawn, and the points on their positive side are the points with positive sense.
Missing: the other kinds of surfaces, for which the claim is false (`C78_cylinders_violated`, `C78_cones_violated`,
`C78_bodies_violated`). -/
theorem C78_sides_partial (s : Surf) (h : Upright s) : RightSide s := by
  cases h with
  | px d =>
    obtain ⟨sh, h1, h2⟩ := plane_cell 1 0 0 d (by simp)
    exact ⟨sh, _, h1, h2, fun p => by simp [Positive]⟩
  | py d =>
    obtain ⟨sh, h1, h2⟩ := plane_cell 0 1 0 d (by simp)
    exact ⟨sh, _, h1, h2, fun p => by simp [Positive]⟩
  | pz d =>
    obtain ⟨sh, h1, h2⟩ := plane_cell 0 0 1 d (by simp)
    exact ⟨sh, _, h1, h2, fun p => by simp [Positive]⟩
  | p a b c d h =>
    obtain ⟨sh, h1, h2⟩ := plane_cell a b c d h
    exact ⟨sh, _, h1, h2, fun p => Iff.rfl⟩
  | points a b c n d hn hd h =>
    have hne : ¬ (n.x = 0 ∧ n.y = 0 ∧ n.z = 0) := by
      rintro ⟨hx, hy, hz⟩
      have : d = 0 := by rw [hd]; unfold Vec.dot; rw [hx, hy, hz]; ring
      rcases h with h | ⟨-, h | ⟨-, h | ⟨-, h⟩⟩⟩ <;> linarith
    obtain ⟨sh, h1, h2⟩ := plane_cell n.x n.y n.z d hne
    refine ⟨sh, _, ?_, h2, fun p => ?_⟩
    · rw [← h1, hd]; unfold Surf.toShow; simp only [← hn]; rfl
    · simp only [Positive, ← hn, ← hd]
      unfold PointsSide
      have hz0 : n.dot Vec.zero - d = -d := by unfold Vec.dot Vec.zero; ring
      have hp : n.dot p - d = n.x * p.x + n.y * p.y + n.z * p.z - d := rfl
      simp only [hz0, hp]
      generalize n.x * p.x + n.y * p.y + n.z * p.z - d = g
      rcases h with h | ⟨h, h'⟩
      · rw [if_pos (by simp; linarith)]
        constructor
        · intro hg; nlinarith
        · intro hg; by_contra hc; nlinarith
      · rw [if_neg (by simp [h])]
        rcases h' with h' | ⟨h0, h' | ⟨h1, h'⟩⟩
        · rw [if_pos (by linarith)]
          exact ⟨fun hg => mul_pos hg h', fun hg => (mul_pos_iff_of_pos_right h').1 hg⟩
        · rw [if_neg (by simp [h0]), if_pos (by linarith)]
          exact ⟨fun hg => mul_pos hg h', fun hg => (mul_pos_iff_of_pos_right h').1 hg⟩
        · rw [if_neg (by simp [h0]), if_neg (by simp [h1])]
          exact ⟨fun hg => mul_pos hg h', fun hg => (mul_pos_iff_of_pos_right h').1 hg⟩
  | so r =>
    refine ⟨_, _, rfl, rfl, fun p => ?_⟩
    simp only [Positive]
    constructor <;> intro h <;> linarith
  | s c r =>
    refine ⟨_, _, rfl, rfl, fun p => ?_⟩
    simp only [Positive, Vec.sub]
    constructor <;> intro h <;> linarith
  | sx x r =>
    refine ⟨_, _, rfl, rfl, fun p => ?_⟩
    simp only [Positive, Vec.sub, sub_zero]
    constructor <;> intro h <;> linarith
  | sy y r =>
    refine ⟨_, _, rfl, by rw [translate_cell, rotate_cell]; rfl, fun p => ?_⟩
    simp only [Positive, Vec.sub, sub_zero]
    constructor <;> intro h <;> linarith
  | sz z r =>
    refine ⟨_, _, rfl, rfl, fun p => ?_⟩
    simp only [Positive, Vec.sub, sub_zero]
    constructor <;> intro h <;> linarith
  | sph v r =>
    refine ⟨_, _, rfl, rfl, fun p => ?_⟩
    simp only [Positive, Vec.sub]
    constructor <;> intro h <;> linarith
  | rpp x0 x1 y0 y1 z0 z1 =>
    refine ⟨_, _, rfl, rfl, fun p => ?_⟩
    simp only [Positive, ge_iff_le, and_assoc, Option.mem_def, Option.some.injEq, forall_eq']
  | box v a b c ha hb hc =>
    refine ⟨_, _, rfl, by rw [translate_cell, rotate_cell]; rfl, fun p => ?_⟩
    simp only [Positive]
    refine not_congr ?_
    rw [(norm_axis a 0 0 ha.le ⟨rfl, rfl⟩).1, (norm_axis b 0 0 hb.le ⟨rfl, rfl⟩).2.1, (norm_axis c 0 0 hc.le ⟨rfl, rfl⟩).2.2]
    simp only [Vec.sub, Vec.add, Vec.smul, Vec.ext_iff]
    constructor
    · rintro ⟨⟨h1, h2⟩, ⟨h3, h4⟩, h5, h6⟩
      refine ⟨(p.x - v.x) / a, (p.y - v.y) / b, (p.z - v.z) / c, ⟨by positivity, ?_⟩, ⟨by positivity, ?_⟩, ⟨by positivity, ?_⟩, ?_, ?_, ?_⟩
      · rw [div_le_one ha]; exact h2
      · rw [div_le_one hb]; exact h4
      · rw [div_le_one hc]; exact h6
      · field_simp; ring
      · field_simp; ring
      · field_simp; ring
    · rintro ⟨s, t, u, ⟨s0, s1⟩, ⟨t0, t1⟩, ⟨u0, u1⟩, ex, ey, ez⟩
      rw [ex, ey, ez]
      refine ⟨⟨?_, ?_⟩, ⟨?_, ?_⟩, ?_, ?_⟩ <;> nlinarith
  | rcc v c r hc =>
    refine ⟨_, fun p => ¬ (p.z - v.z ≥ 0 ∧ p.z - v.z ≤ c ∧ (p.x - v.x) ^ 2 + (p.y - v.y) ^ 2 ≤ r ^ 2), rfl, ?_, fun p => ?_⟩
    · rw [translate_cell, (norm_axis c 0 0 hc.le ⟨rfl, rfl⟩).2.2]
      split
      · rw [rotate_cell]; rfl
      · rfl
    · simp only [Positive]
      refine not_congr ?_
      have h1 : along v ⟨0, 0, c⟩ p = (p.z - v.z) / c := by
        unfold along Vec.dot Vec.sub; field_simp; ring
      have h2 : offAxis v ⟨0, 0, c⟩ p = (p.x - v.x) ^ 2 + (p.y - v.y) ^ 2 := by
        unfold offAxis Vec.dot Vec.sub; field_simp; ring
      rw [h1, h2, div_le_one hc]
      constructor
      · rintro ⟨h, h', h''⟩; exact ⟨by positivity, h', h''⟩
      · rintro ⟨h, h', h''⟩
        refine ⟨?_, h', h''⟩
        by_contra hn
        have : (p.z - v.z) / c < 0 := div_neg_of_neg_of_pos (by linarith) hc
        linarith
  | recc v a b c ha hb hc =>
    refine ⟨_, fun p => ¬ (p.z - v.z ≥ 0 ∧ p.z - v.z ≤ c ∧ ((p.x - v.x) / a) ^ 2 + ((p.y - v.y) / b) ^ 2 ≤ 1), rfl, ?_, fun p => ?_⟩
    · rw [translate_cell, rotate_cell, (norm_axis a 0 0 ha.le ⟨rfl, rfl⟩).1, (norm_axis b 0 0 hb.le ⟨rfl, rfl⟩).2.1,
        (norm_axis c 0 0 hc.le ⟨rfl, rfl⟩).2.2]
      rfl
    · simp only [Positive]
      refine not_congr ?_
      have h1 : along v ⟨0, 0, c⟩ p = (p.z - v.z) / c := by
        unfold along Vec.dot Vec.sub; field_simp; ring
      have h2 : along v ⟨a, 0, 0⟩ p = (p.x - v.x) / a := by
        unfold along Vec.dot Vec.sub; field_simp; ring
      have h3 : along v ⟨0, b, 0⟩ p = (p.y - v.y) / b := by
        unfold along Vec.dot Vec.sub; field_simp; ring
      rw [h1, h2, h3, div_le_one hc, le_div_iff₀ hc, zero_mul]

example : Upright (.points ⟨1, 0, 0⟩ ⟨0, 1, 0⟩ ⟨0, 0, 1⟩) :=
  .points _ _ _ ⟨1, 1, 1⟩ 1 (by ext <;> norm_num [Vec.cross, Vec.sub]) (by norm_num [Vec.dot]) (.inl (by norm_num))
example : RightSide (.rcc ⟨1, 2, 3⟩ ⟨0, 0, 5⟩ 2) := C78_sides_partial _ (.rcc _ _ _ (by norm_num))

theorem not_right {s : Surf} {sh : Shape} (f : Vec → Prop) (h : s.toShow = .ok sh) (hc : sh.cell = .truth f) (p : Vec)
    (hp : ¬ (f p ↔ Positive s p)) : ¬ RightSide s := by
  rintro ⟨sh', f', h', hc', hf⟩
  rw [h] at h'; cases h'
  rw [hc] at hc'; cases hc'
  exact hp (hf p)

theorem not_right_error {s : Surf} {e : Err} (h : s.toShow = .error e) : ¬ RightSide s := by
  rintro ⟨sh', f', h', -⟩
  rw [h] at h'; cases h'

/-- **C78, planes through three points:** they are drawn right exactly if the points are given counter-clockwise as seen from the positive
side. -/
theorem C78_points (a b c : Vec) : RightSide (.points a b c) ↔ Upright (.points a b c) := by
  refine ⟨fun h => ?_, C78_sides_partial _⟩
  obtain ⟨n, hn⟩ : ∃ n, n = (b.sub a).cross (c.sub a) := ⟨_, rfl⟩
  obtain ⟨d, hd⟩ : ∃ d, d = n.dot a := ⟨_, rfl⟩
  by_contra hu
  have ho : ¬ (d > 0 ∨ (d = 0 ∧ (n.z > 0 ∨ (n.z = 0 ∧ (n.y > 0 ∨ (n.y = 0 ∧ n.x > 0)))))) := fun ho => hu (.points a b c n d hn hd ho)
  have hshow : (Surf.points a b c).toShow = plane n.x n.y n.z d := by rw [hd]; unfold Surf.toShow; simp only [← hn]; rfl
  by_cases hz : n.x = 0 ∧ n.y = 0 ∧ n.z = 0
  · refine not_right_error (e := .value) ?_ h
    rw [hshow]; unfold plane planePoint; simp [hz]
  · obtain ⟨sh, h1, h2⟩ := plane_cell n.x n.y n.z d hz
    refine not_right _ (hshow.trans h1) h2 (a.add n) (fun hiff => ?_) h
    have hnn : n.x * n.x + n.y * n.y + n.z * n.z > 0 := by
      by_contra hc
      have h1 := mul_self_nonneg n.x
      have h2 := mul_self_nonneg n.y
      have h3 := mul_self_nonneg n.z
      exact hz ⟨mul_self_eq_zero.1 (by linarith), mul_self_eq_zero.1 (by linarith), mul_self_eq_zero.1 (by linarith)⟩
    have hg : n.x * (a.add n).x + n.y * (a.add n).y + n.z * (a.add n).z - d = n.x * n.x + n.y * n.y + n.z * n.z := by
      rw [hd]; unfold Vec.add Vec.dot; ring
    have hpos := hiff.1 (by rw [hg]; exact hnn)
    simp only [Positive, ← hn, ← hd] at hpos
    unfold PointsSide at hpos
    have hz0 : n.dot Vec.zero - d = -d := by unfold Vec.dot Vec.zero; ring
    have hp : n.dot (a.add n) - d = n.x * n.x + n.y * n.y + n.z * n.z := hg
    simp only [hz0, hp] at hpos
    generalize n.x * n.x + n.y * n.y + n.z * n.z = g at hnn hpos
    refine ho ?_
    by_cases hd0 : d = 0
    · right
      refine ⟨hd0, ?_⟩
      rw [if_neg (by simp [hd0])] at hpos
      by_cases hz' : n.z = 0
      · right
        refine ⟨hz', ?_⟩
        rw [if_neg (by simp [hz'])] at hpos
        by_cases hy' : n.y = 0
        · right
          rw [if_neg (by simp [hy'])] at hpos
          exact ⟨hy', (mul_pos_iff_of_pos_left hnn).1 hpos⟩
        · left
          rw [if_pos hy'] at hpos
          exact (mul_pos_iff_of_pos_left hnn).1 hpos
      · left
        rw [if_pos hz'] at hpos
        exact (mul_pos_iff_of_pos_left hnn).1 hpos
    · left
      rw [if_pos (by simpa using hd0)] at hpos
      by_contra hc
      nlinarith

example : ¬ RightSide (.points ⟨1, 0, 0⟩ ⟨0, 0, 1⟩ ⟨0, 1, 0⟩) := by
  rw [C78_points]
  rintro (_ | _)
  rename_i n d h hd hn
  subst hn
  norm_num [Vec.dot, Vec.cross, Vec.sub] at hd h
  subst hd
  norm_num at h

/-- **C78 is violated:** no cylinder about an axis or parallel to one is drawn right, whatever its radius: the axis is drawn outside. -/
theorem C78_cylinders_violated (x y z r : ℝ) :
    ¬ RightSide (.cx r) ∧ ¬ RightSide (.cy r) ∧ ¬ RightSide (.cz r) ∧
      ¬ RightSide (.c_x y z r) ∧ ¬ RightSide (.c_y x z r) ∧ ¬ RightSide (.c_z x y r) := by
  have hr := sq_nonneg r
  refine ⟨?_, ?_, ?_, ?_, ?_, ?_⟩
  · refine not_right _ rfl (rotate_cell _ _ _) ⟨0, 0, 0⟩ fun h => ?_
    have := h.1 (by norm_num; exact hr)
    norm_num [Positive] at this
    linarith
  · refine not_right _ rfl (rotate_cell _ _ _) ⟨0, 0, 0⟩ fun h => ?_
    have := h.1 (by norm_num; exact hr)
    norm_num [Positive] at this
    linarith
  · refine not_right _ rfl rfl ⟨0, 0, 0⟩ fun h => ?_
    have := h.1 (by norm_num; exact hr)
    norm_num [Positive] at this
    linarith
  · refine not_right _ rfl (by rw [translate_cell, rotate_cell]; rfl) ⟨0, y, z⟩ fun h => ?_
    have := h.1 (by norm_num [Vec.sub]; exact hr)
    norm_num [Positive] at this
    linarith
  · refine not_right _ rfl (by rw [translate_cell, rotate_cell]; rfl) ⟨x, 0, z⟩ fun h => ?_
    have := h.1 (by norm_num [Vec.sub]; exact hr)
    norm_num [Positive] at this
    linarith
  · refine not_right _ rfl (by rw [translate_cell, rotate_cell]; rfl) ⟨x, y, 0⟩ fun h => ?_
    have := h.1 (by norm_num [Vec.sub]; exact hr)
    norm_num [Positive] at this
    linarith

/-- How cylinders are drawn: the inside of a cylinder about the third axis (or a parallel to it), whatever axis the card names. -/
theorem C78_cylinders (x y z r : ℝ) :
    (∃ sh f, (Surf.cx r).toShow = .ok sh ∧ sh.cell = .truth f ∧ ∀ p, f p ↔ ¬ Positive (.cz r) p) ∧
    (∃ sh f, (Surf.cy r).toShow = .ok sh ∧ sh.cell = .truth f ∧ ∀ p, f p ↔ ¬ Positive (.cz r) p) ∧
    (∃ sh f, (Surf.cz r).toShow = .ok sh ∧ sh.cell = .truth f ∧ ∀ p, f p ↔ ¬ Positive (.cz r) p) ∧
    (∃ sh f, (Surf.c_x y z r).toShow = .ok sh ∧ sh.cell = .truth f ∧ ∀ p, f p ↔ ¬ Positive (.c_z 0 y r) p) ∧
    (∃ sh f, (Surf.c_y x z r).toShow = .ok sh ∧ sh.cell = .truth f ∧ ∀ p, f p ↔ ¬ Positive (.c_z x 0 r) p) ∧
    (∃ sh f, (Surf.c_z x y r).toShow = .ok sh ∧ sh.cell = .truth f ∧ ∀ p, f p ↔ ¬ Positive (.c_z x y r) p) := by
  refine ⟨⟨_, _, rfl, rotate_cell _ _ _, fun p => ?_⟩, ⟨_, _, rfl, rotate_cell _ _ _, fun p => ?_⟩, ⟨_, _, rfl, rfl, fun p => ?_⟩,
    ⟨_, _, rfl, by rw [translate_cell, rotate_cell]; rfl, fun p => ?_⟩, ⟨_, _, rfl, by rw [translate_cell, rotate_cell]; rfl, fun p => ?_⟩,
    ⟨_, _, rfl, by rw [translate_cell, rotate_cell]; rfl, fun p => ?_⟩⟩ <;>
  simp only [Positive, Vec.sub, gt_iff_lt, not_lt] <;> constructor <;> intro h <;> linarith

theorem cone_cases (t sign : ℝ) : (∃ e, cone t sign = .error e) ∨ (0 < t ∧ cone t sign = .ok (coneUnbounded (Real.sqrt t) sign)) := by
  unfold cone
  split
  · exact .inl ⟨_, rfl⟩
  · split
    · exact .inl ⟨_, rfl⟩
    · rename_i h1 h2
      exact .inr ⟨lt_of_le_of_ne (not_lt.1 h1) (Ne.symm h2), rfl⟩

/-- **C78 is violated:** no cone is drawn right, whatever its apex, its opening and its sheet: the inside is drawn outside. -/
theorem C78_cones_violated (x : ℝ) (c : Vec) (t sign : ℝ) (hs : sign ≠ 0) :
    ¬ RightSide (.kx x t sign) ∧ ¬ RightSide (.ky x t sign) ∧ ¬ RightSide (.kz x t sign) ∧
      ¬ RightSide (.k_x c t sign) ∧ ¬ RightSide (.k_y c t sign) ∧ ¬ RightSide (.k_z c t sign) := by
  have hss : 0 < sign * sign := mul_self_pos.2 hs
  rcases cone_cases t sign with ⟨e, he⟩ | ⟨ht, he⟩
  · refine ⟨?_, ?_, ?_, ?_, ?_, ?_⟩ <;>
    exact not_right_error (e := e) (by simp only [Surf.toShow, he]; rfl)
  · have hsq := Real.sq_sqrt ht.le
    refine ⟨?_, ?_, ?_, ?_, ?_, ?_⟩
    · refine not_right _ (by simp only [Surf.toShow, he]; rfl) (by rw [translate_cell, rotate_cell]; rfl) ⟨x + sign, 0, 0⟩ fun h => ?_
      have := h.1 (by simp [Vec.sub, hs])
      simp only [Positive, add_sub_cancel_left] at this
      exact this ⟨by nlinarith, hss.le⟩
    · refine not_right _ (by simp only [Surf.toShow, he]; rfl) (by rw [translate_cell, rotate_cell]; rfl) ⟨0, x + sign, 0⟩ fun h => ?_
      have := h.1 (by simp [Vec.sub, hs])
      simp only [Positive, add_sub_cancel_left] at this
      exact this ⟨by nlinarith, hss.le⟩
    · refine not_right _ (by simp only [Surf.toShow, he]; rfl) rfl ⟨0, 0, x + sign⟩ fun h => ?_
      have := h.1 (by simp [Vec.sub, hsq, hs, ht.ne'])
      simp only [Positive, add_sub_cancel_left] at this
      exact this ⟨by nlinarith, hss.le⟩
    · refine not_right _ (by simp only [Surf.toShow, he]; rfl) (by rw [translate_cell, rotate_cell]; rfl) ⟨c.x + sign, c.y, c.z⟩ fun h => ?_
      have := h.1 (by simp [Vec.sub, hs])
      simp only [Positive, add_sub_cancel_left, sub_self] at this
      exact this ⟨by nlinarith, hss.le⟩
    · refine not_right _ (by simp only [Surf.toShow, he]; rfl) (by rw [translate_cell, rotate_cell]; rfl) ⟨c.x, c.y + sign, c.z⟩ fun h => ?_
      have := h.1 (by simp [Vec.sub, hs])
      simp only [Positive, add_sub_cancel_left, sub_self] at this
      exact this ⟨by nlinarith, hss.le⟩
    · refine not_right _ (by simp only [Surf.toShow, he]; rfl) rfl ⟨c.x, c.y, c.z + sign⟩ fun h => ?_
      have := h.1 (by simp [Vec.sub, hsq, hs, ht.ne'])
      simp only [Positive, add_sub_cancel_left, sub_self] at this
      exact this ⟨by nlinarith, hss.le⟩

/-- **C78 is violated:** ellipsoids are drawn inside out; cylinders that lie along the first axis, truncated cones (even upright ones) and
boxes with an edge that points backwards are drawn wrong. -/
theorem C78_bodies_violated (v v2 : Vec) (rm a b c r r2 : ℝ) (hrm : rm < 0) (ha : 0 < a) (hb : 0 < b) (hc : 0 < c) (hr : 0 < r) :
    ¬ RightSide (.ell v v2 rm) ∧ ¬ RightSide (.rcc v ⟨c, 0, 0⟩ r) ∧ ¬ RightSide (.trc v ⟨0, 0, c⟩ r r2) ∧
      ¬ RightSide (.box v ⟨-a, 0, 0⟩ ⟨0, b, 0⟩ ⟨0, 0, c⟩) := by
  refine ⟨?_, ?_, ?_, ?_⟩
  · refine not_right _ (by simp only [Surf.toShow, gt_iff_lt, if_neg (not_lt.2 hrm.le), if_pos hrm]; rfl)
      (by rw [translate_cell, rotate_cell]; rfl) v fun h => ?_
    have := h.1 (by simp [Vec.sub])
    simp only [Positive, if_pos hrm, along, offAxis, Vec.sub, Vec.dot] at this
    norm_num at this
  · refine not_right (fun p => ¬ (p.z - v.z ≥ 0 ∧ p.z - v.z ≤ c ∧ (p.x - v.x) ^ 2 + (p.y - v.y) ^ 2 ≤ r ^ 2)) rfl ?_
      ⟨v.x + c / 2, v.y, v.z - r / 2⟩ fun h => ?_
    · rw [translate_cell, (norm_axis c 0 0 hc.le ⟨rfl, rfl⟩).1]
      split
      · rw [rotate_cell]; rfl
      · rfl
    · have := h.1 (by rintro ⟨h1, -⟩; simp only at h1; linarith)
      have h1 : along v ⟨c, 0, 0⟩ ⟨v.x + c / 2, v.y, v.z - r / 2⟩ = 1 / 2 := by
        unfold along Vec.dot Vec.sub; field_simp; ring
      have h2 : offAxis v ⟨c, 0, 0⟩ ⟨v.x + c / 2, v.y, v.z - r / 2⟩ = r ^ 2 / 4 := by
        unfold offAxis Vec.dot Vec.sub; field_simp; ring
      simp only [Positive, h1, h2] at this
      exact this ⟨by norm_num, by norm_num, by nlinarith⟩
  · refine not_right _ rfl (by rw [translate_cell, rotate_cell]; rfl) ⟨v.x, v.y, v.z - 1⟩ fun h => ?_
    have h1 : along v ⟨0, 0, c⟩ ⟨v.x, v.y, v.z - 1⟩ = -1 / c := by
      unfold along Vec.dot Vec.sub; field_simp; ring
    have := h.2 (by
      simp only [Positive, h1]
      rintro ⟨h2, -⟩
      have : -1 / c < 0 := div_neg_of_neg_of_pos (by norm_num) hc
      linarith)
    have h3 := this.2.1
    simp only [Vec.sub] at h3
    linarith
  · refine not_right _ rfl (by rw [translate_cell, rotate_cell]; rfl) ⟨v.x - a / 2, v.y, v.z⟩ fun h => ?_
    have := h.1 (by
      rintro ⟨⟨h1, -⟩, -⟩
      simp only [Vec.sub] at h1
      linarith)
    simp only [Positive] at this
    refine this ⟨1 / 2, 0, 0, by norm_num, by norm_num, by norm_num, ?_⟩
    ext <;> simp only [Vec.add, Vec.smul] <;> ring

example : ¬ RightSide (.trc ⟨1, 2, 3⟩ ⟨0, 0, 4⟩ 2 1) :=
  (C78_bodies_violated _ ⟨0, 0, 0⟩ (-1) 1 1 4 2 1 (by norm_num) (by norm_num) (by norm_num) (by norm_num) (by norm_num)).2.2.1

/-! ## Cells -/

open Classical in
/-- The senses of a point with respect to the surfaces of a file. -/
noncomputable def senses (surfs : List (Str × Option Nat × Surf)) (p : Vec) : Env :=
  ⟨fun d => decide (∃ t s, (d, t, s) ∈ surfs ∧ Positive s p), fun _ => false⟩

/-- The geometry of the cell with a number: its own, or that of the cell it is like. -/
inductive Shaped (items : List CellItem) : Str → Ast → Prop where
  | cell {n g t} : CellItem.cell n g t ∈ items → Shaped items n g
  | like {n b t g} : CellItem.like n b t ∈ items → Shaped items b g → Shaped items n g

/-- The number of an item. -/
def itemNumber : CellItem → Option Str
  | .cell n _ _ => some n
  | .like n _ _ => some n
  | .comment => none

/-- Cells that can be drawn, after those in `seen`: they are not moved, their geometry is made from surfaces there are, without complements
of cells; cells are like cells that come before them and are not skipped. -/
def Drawable (surfs : List (Str × Option Nat × Surf)) (skip : Str → Bool) : List Str → List CellItem → Prop
  | _, [] => True
  | seen, .comment :: l => Drawable surfs skip seen l
  | seen, .cell n g t :: l =>
    if skip n then Drawable surfs skip seen l
    else t = none ∧ NoCellComplement g ∧ (∀ d ∈ Numbers g, d ∈ surfs.map (·.1)) ∧ Drawable surfs skip (n :: seen) l
  | seen, .like n b t :: l =>
    if skip n then Drawable surfs skip seen l
    else t = none ∧ b ∈ seen ∧ Drawable surfs skip (n :: seen) l

/-- `a` is the region where the geometry holds. -/
def Draws (surfs : List (Str × Option Nat × Surf)) (a : Show.Region) (g : Ast) : Prop :=
  ∃ f, a = .truth f ∧ ∀ p, f p ↔ Meaning g (senses surfs p) = true

theorem shaped_unique {items : List CellItem} (hd : (items.filterMap itemNumber).Nodup) {n g} (h : Shaped items n g) :
    ∀ g', Shaped items n g' → g' = g := by
  have key : ∀ a ∈ items, ∀ b ∈ items, ∀ n, itemNumber a = some n → itemNumber b = some n → a = b := by
    clear h
    induction items with
    | nil => simp
    | cons x l ih =>
      have hl : (l.filterMap itemNumber).Nodup := by
        rw [List.filterMap_cons] at hd
        split at hd
        · exact hd
        · exact (List.nodup_cons.1 hd).2
      have hx : ∀ n, itemNumber x = some n → ∀ b ∈ l, itemNumber b ≠ some n := by
        intro n hn b hb hbn
        rw [List.filterMap_cons, hn] at hd
        exact (List.nodup_cons.1 hd).1 (List.mem_filterMap.2 ⟨b, hb, hbn⟩)
      intro a ha b hb n han hbn
      rcases List.mem_cons.1 ha with ha | ha <;> rcases List.mem_cons.1 hb with hb | hb
      · rw [ha, hb]
      · exact absurd hbn (hx n (by rw [← ha]; exact han) b hb)
      · exact absurd han (hx n (by rw [← hb]; exact hbn) a ha)
      · exact ih hl a ha b hb n han hbn
  induction h with
  | cell hm =>
    intro g' h'
    cases h' with
    | cell hm' => cases key _ hm _ hm' _ rfl rfl; rfl
    | like hm' _ => cases key _ hm _ hm' _ rfl rfl
  | like hm _ ih =>
    intro g' h'
    cases h' with
    | cell hm' => cases key _ hm _ hm' _ rfl rfl
    | like hm' h'' => cases key _ hm _ hm' _ rfl rfl; exact ih _ h''

theorem region_draws {surfs : List (Str × Option Nat × Surf)} {surf cells : Str → Option Show.Region}
    (hs : ∀ d ∈ surfs.map (·.1), ∃ f, surf d = some (.truth f) ∧ ∀ p, f p ↔ (senses surfs p).surf d = true)
    (g : Ast) (hg : NoCellComplement g) (hn : ∀ d ∈ Numbers g, d ∈ surfs.map (·.1)) :
    ∃ a, region surf cells g = .ok a ∧ Draws surfs a g := by
  induction g with
  | inter l r ihl ihr =>
    obtain ⟨a, h1, f, rfl, h2⟩ := ihl hg.1 (fun d hd => hn d (by simp [Numbers, hd]))
    obtain ⟨b, h3, f', rfl, h4⟩ := ihr hg.2 (fun d hd => hn d (by simp [Numbers, hd]))
    exact ⟨_, by simp only [region, h1, h3]; rfl, _, rfl, fun p => by simp [Meaning, h2, h4]⟩
  | union l r ihl ihr =>
    obtain ⟨a, h1, f, rfl, h2⟩ := ihl hg.1 (fun d hd => hn d (by simp [Numbers, hd]))
    obtain ⟨b, h3, f', rfl, h4⟩ := ihr hg.2 (fun d hd => hn d (by simp [Numbers, hd]))
    exact ⟨_, by simp only [region, h1, h3]; rfl, _, rfl, fun p => by simp [Meaning, h2, h4]⟩
  | paren e ih =>
    obtain ⟨a, h1, h2⟩ := ih hg hn
    exact ⟨a, by simpa only [region] using h1, h2⟩
  | digit d =>
    obtain ⟨f, h1, h2⟩ := hs d (hn d (by simp [Numbers]))
    exact ⟨_, by simp only [region, h1], f, rfl, h2⟩
  | unary o e ih =>
    cases o with
    | plus =>
      obtain ⟨a, h1, h2⟩ := ih (by simpa [NoCellComplement] using hg) hn
      exact ⟨a, by simpa only [region] using h1, by simpa only [Draws, Meaning] using h2⟩
    | minus =>
      obtain ⟨a, h1, f, rfl, h2⟩ := ih (by simpa [NoCellComplement] using hg) hn
      exact ⟨_, by simp only [region, h1]; rfl, _, rfl, fun p => by simp [Meaning, h2]⟩
    | hash =>
      cases e with
      | digit d => exact absurd hg id
      | _ =>
        obtain ⟨a, h1, f, rfl, h2⟩ := ih (by simpa [NoCellComplement] using hg) hn
        exact ⟨_, by simp only [region] at h1 ⊢; rw [h1]; rfl, _, rfl, fun p => by rw [h2 p]; simp only [Meaning, Bool.not_eq_true, Bool.not_eq_eq_eq_not, Bool.not_true]⟩

theorem dict_draws {surfs : List (Str × Option Nat × Surf)} (h : ∀ x ∈ surfs, Upright x.2.2) :
    ∃ d, surfaceDict surfs = .ok d ∧ d.map (·.1) = surfs.map (·.1) ∧
      ∀ n a, (n, a) ∈ d → ∃ t s f, (n, t, s) ∈ surfs ∧ a = .truth f ∧ ∀ p, f p ↔ Positive s p := by
  induction surfs with
  | nil => exact ⟨[], rfl, rfl, by simp⟩
  | cons x l ih =>
    obtain ⟨n, t, s⟩ := x
    obtain ⟨d, h1, h2, h3⟩ := ih (fun x hx => h x (List.mem_cons_of_mem _ hx))
    obtain ⟨sh, f, e1, e2, e3⟩ := C78_sides_partial s (h _ List.mem_cons_self)
    refine ⟨(n, sh.cell) :: d, by simp only [surfaceDict, e1, h1], by simp [h2], ?_⟩
    intro m a hm
    rcases List.mem_cons.1 hm with he | hm
    · cases he
      exact ⟨t, s, f, List.mem_cons_self, e2, e3⟩
    · obtain ⟨t', s', f', hm', hh⟩ := h3 m a hm
      exact ⟨t', s', f', List.mem_cons_of_mem _ hm', hh⟩

theorem dictGet_some {d : List (Str × Show.Region)} {n : Str} (h : n ∈ d.map (·.1)) : ∃ a, dictGet d n = some a ∧ (n, a) ∈ d := by
  obtain ⟨x, hx, rfl⟩ := List.mem_map.1 h
  unfold dictGet
  cases hf : d.reverse.find? (fun y => y.1 == x.1) with
  | none =>
    rw [List.find?_eq_none] at hf
    exact absurd (hf x (by simpa using hx)) (by simp)
  | some y =>
    have h1 := List.find?_some hf
    have h2 := List.mem_of_find?_eq_some hf
    simp only [beq_iff_eq] at h1
    exact ⟨y.2, rfl, by rw [← h1]; simpa using h2⟩

theorem draw_cells {surfs : List (Str × Option Nat × Surf)} {surf : Str → Option Show.Region} {skip : Str → Bool} {items : List CellItem}
    (hs : ∀ d ∈ surfs.map (·.1), ∃ f, surf d = some (.truth f) ∧ ∀ p, f p ↔ (senses surfs p).surf d = true) :
    ∀ (l : List CellItem) (seen : List Str) (done : List (Str × Show.Region)), (∀ x ∈ l, x ∈ items) → Drawable surfs skip seen l →
      (∀ n ∈ seen, n ∈ done.map (·.1)) → (∀ n a, (n, a) ∈ done → ∃ g, Shaped items n g ∧ Draws surfs a g) →
      ∃ out, drawCells surf skip l done = .ok out ∧
        out.map (·.1) = done.map (·.1) ++ (l.filterMap itemNumber).filter (fun n => !skip n) ∧
        ∀ n a, (n, a) ∈ out → ∃ g, Shaped items n g ∧ Draws surfs a g := by
  intro l
  induction l with
  | nil => intro seen done _ _ _ hd; exact ⟨done, rfl, by simp, hd⟩
  | cons x l ih =>
    intro seen done hi hl hseen hdone
    have hi' : ∀ y ∈ l, y ∈ items := fun y hy => hi y (List.mem_cons_of_mem _ hy)
    have hx := hi x List.mem_cons_self
    have step : ∀ n a, itemNumber x = some n → skip n = false → Drawable surfs skip (n :: seen) l → (∃ g, Shaped items n g ∧ Draws surfs a g) →
        ∃ out, drawCells surf skip l (done ++ [(n, a)]) = .ok out ∧
          out.map (·.1) = done.map (·.1) ++ ((x :: l).filterMap itemNumber).filter (fun n => !skip n) ∧
          ∀ n a, (n, a) ∈ out → ∃ g, Shaped items n g ∧ Draws surfs a g := by
      intro n a hn hk hdr hg
      obtain ⟨out, h1, h2, h3⟩ := ih (n :: seen) (done ++ [(n, a)]) hi' hdr
        (by
          intro m hm
          rcases List.mem_cons.1 hm with rfl | hm
          · simp
          · rw [List.map_append]; exact List.mem_append_left _ (hseen m hm))
        (by
          intro m b hm
          rcases List.mem_append.1 hm with hm | hm
          · exact hdone m b hm
          · simp only [List.mem_singleton, Prod.mk.injEq] at hm
            obtain ⟨rfl, rfl⟩ := hm
            exact hg)
      exact ⟨out, h1, by rw [h2, List.filterMap_cons, hn]; simp [hk], h3⟩
    have skipped : ∀ n, itemNumber x = some n → skip n = true → Drawable surfs skip seen l →
        ∃ out, drawCells surf skip l done = .ok out ∧
          out.map (·.1) = done.map (·.1) ++ ((x :: l).filterMap itemNumber).filter (fun n => !skip n) ∧
          ∀ n a, (n, a) ∈ out → ∃ g, Shaped items n g ∧ Draws surfs a g := by
      intro n hn hk hdr
      obtain ⟨out, h1, h2, h3⟩ := ih seen done hi' hdr hseen hdone
      exact ⟨out, h1, by rw [h2, List.filterMap_cons, hn]; simp [hk], h3⟩
    cases x with
    | comment =>
      obtain ⟨out, h1, h2, h3⟩ := ih seen done hi' hl hseen hdone
      exact ⟨out, h1, by rw [h2, List.filterMap_cons]; rfl, h3⟩
    | cell n g t =>
      simp only [Drawable] at hl
      by_cases hk : skip n = true
      · rw [if_pos hk] at hl
        obtain ⟨out, h1, h2⟩ := skipped n rfl hk hl
        exact ⟨out, by simp only [drawCells, if_pos hk, h1], h2⟩
      · rw [if_neg hk] at hl
        obtain ⟨a, h1, f, rfl, h2⟩ := region_draws (cells := dictGet done) hs g hl.2.1 hl.2.2.1
        obtain ⟨out, h3, h4⟩ := step n (.truth f) rfl (by simpa using hk) hl.2.2.2 ⟨g, .cell hx, f, rfl, h2⟩
        exact ⟨out, by simp only [drawCells, if_neg hk, h1, Region.eval, h3], h4⟩
    | like n b t =>
      simp only [Drawable] at hl
      by_cases hk : skip n = true
      · rw [if_pos hk] at hl
        obtain ⟨out, h1, h2⟩ := skipped n rfl hk hl
        exact ⟨out, by simp only [drawCells, if_pos hk, h1], h2⟩
      · rw [if_neg hk] at hl
        obtain ⟨a, h1, hm⟩ := dictGet_some (hseen b hl.2.1)
        obtain ⟨g, hg, f, rfl, h2⟩ := hdone b a hm
        obtain ⟨out, h3, h4⟩ := step n (.truth f) rfl (by simpa using hk) hl.2.2 ⟨g, .like hx hg, f, rfl, h2⟩
        exact ⟨out, by simp only [drawCells, if_neg hk, h1, Region.eval, h3], h4⟩

/-- **C78, cells:** if the surfaces are ones that are drawn right and have distinct numbers, and the cells can be drawn, all cells that are
not skipped are drawn, in order, and each of them where its geometry holds.

Missing: surfaces that are not `Upright`, surfaces and cells with transformations, complements of cells; see the theorems on violations. -/
theorem C78_cells_partial (surfs : List (Str × Option Nat × Surf)) (items : List CellItem) (skip : Str → Bool)
    (hs : ∀ x ∈ surfs, x.2.1 = none ∧ Upright x.2.2) (hd : (surfs.map (·.1)).Nodup) (hi : (items.filterMap itemNumber).Nodup)
    (hdr : Drawable surfs skip [] items) :
    ∃ out, showCells surfs items skip = .ok out ∧ out.map (·.1) = (items.filterMap itemNumber).filter (fun n => !skip n) ∧
      ∀ n a, (n, a) ∈ out → (∃ g, Shaped items n g) ∧ ∀ g, Shaped items n g → Draws surfs a g := by
  obtain ⟨d, h1, h2, h3⟩ := dict_draws (fun x hx => (hs x hx).2)
  have hsurf : ∀ m ∈ surfs.map (·.1), ∃ f, dictGet d m = some (.truth f) ∧ ∀ p, f p ↔ (senses surfs p).surf m = true := by
    intro m hm
    rw [← h2] at hm
    obtain ⟨a, ha, hma⟩ := dictGet_some hm
    obtain ⟨t, s, f, hts, rfl, hf⟩ := h3 m a hma
    refine ⟨f, ha, fun p => ?_⟩
    simp only [senses, decide_eq_true_eq]
    rw [hf p]
    refine ⟨fun h => ⟨t, s, hts, h⟩, ?_⟩
    rintro ⟨t', s', hts', h⟩
    have : ∀ (l : List (Str × Option Nat × Surf)), (l.map (·.1)).Nodup → (m, t, s) ∈ l → (m, t', s') ∈ l → s = s' := by
      intro l
      induction l with
      | nil => simp
      | cons x l ih =>
        intro hl h1 h2
        rw [List.map_cons, List.nodup_cons] at hl
        rcases List.mem_cons.1 h1 with rfl | h1' <;> rcases List.mem_cons.1 h2 with h2' | h2'
        · cases h2'; rfl
        · exact absurd (List.mem_map.2 ⟨_, h2', rfl⟩) hl.1
        · subst h2'; exact absurd (List.mem_map.2 ⟨_, h1', rfl⟩) hl.1
        · exact ih hl.2 h1' h2'
    rw [this surfs hd hts hts']
    exact h
  obtain ⟨out, h4, h5, h6⟩ := draw_cells (items := items) hsurf items [] [] (fun _ h => h) hdr (by simp) (by simp)
  refine ⟨out, by simp only [showCells, h1, h4], by simpa using h5, fun n a hna => ?_⟩
  obtain ⟨g, hg, hdraw⟩ := h6 n a hna
  exact ⟨⟨g, hg⟩, fun g' hg' => by rw [shaped_unique hi hg g' hg']; exact hdraw⟩

/-- A sphere above a plane, all the rest, and a copy of the first cell. -/
noncomputable def exSurfs : List (Str × Option Nat × Surf) := [(c!"1", none, .so 5), (c!"2", none, .pz 0)]
def exItems : List CellItem :=
  [.comment, .cell c!"10" (.inter (.unary .minus (.digit c!"1")) (.digit c!"2")) none,
    .cell c!"20" (.unary .hash (.paren (.inter (.unary .minus (.digit c!"1")) (.digit c!"2")))) none, .like c!"30" c!"10" none]

example : (∀ x ∈ exSurfs, x.2.1 = none ∧ Upright x.2.2) ∧ (exSurfs.map (·.1)).Nodup ∧ (exItems.filterMap itemNumber).Nodup ∧
    Drawable exSurfs (fun _ => false) [] exItems := by
  refine ⟨?_, by decide, by decide, ?_⟩
  · intro x hx
    simp only [exSurfs, List.mem_cons, List.not_mem_nil, or_false] at hx
    rcases hx with rfl | rfl
    · exact ⟨rfl, .so _⟩
    · exact ⟨rfl, .pz _⟩
  · simp [Drawable, exItems, exSurfs, NoCellComplement, Numbers]

/-- **C78 is violated:** transformations of surfaces and cells make no difference to what is drawn. -/
theorem C78_transformations_violated (surfs surfs' : List (Str × Option Nat × Surf)) (items items' : List CellItem) (skip : Str → Bool)
    (h : surfs.map (fun x => (x.1, x.2.2)) = surfs'.map (fun x => (x.1, x.2.2)))
    (h' : items.map (fun | .cell n g _ => CellItem.cell n g none | .like n b _ => .like n b none | .comment => .comment) =
      items'.map (fun | .cell n g _ => CellItem.cell n g none | .like n b _ => .like n b none | .comment => .comment)) :
    showCells surfs items skip = showCells surfs' items' skip := by
  have e1 : surfaceDict surfs = surfaceDict surfs' := by
    induction surfs generalizing surfs' with
    | nil => cases surfs' with
      | nil => rfl
      | cons x l => simp at h
    | cons x l ih =>
      cases surfs' with
      | nil => simp at h
      | cons x' l' =>
        obtain ⟨n, t, s⟩ := x
        obtain ⟨n', t', s'⟩ := x'
        simp only [List.map_cons, List.cons.injEq, Prod.mk.injEq] at h
        obtain ⟨⟨rfl, rfl⟩, h⟩ := h
        simp only [surfaceDict, ih l' h]
  have e2 : ∀ surf done, drawCells surf skip items done = drawCells surf skip items' done := by
    intro surf
    clear h e1
    induction items generalizing items' with
    | nil => cases items' with
      | nil => intro _; rfl
      | cons x l => simp at h'
    | cons x l ih =>
      cases items' with
      | nil => simp at h'
      | cons x' l' =>
        simp only [List.map_cons, List.cons.injEq] at h'
        obtain ⟨hx, hl⟩ := h'
        have ih' := ih l' hl
        cases x <;> cases x' <;> simp only [CellItem.cell.injEq, CellItem.like.injEq, reduceCtorEq] at hx <;> intro done
        · obtain ⟨rfl, rfl, -⟩ := hx
          simp only [drawCells, ih']
        · obtain ⟨rfl, rfl, -⟩ := hx
          simp only [drawCells, ih']
        · simp only [drawCells, ih']
  unfold showCells
  rw [e1]
  cases surfaceDict surfs' with
  | error e => rfl
  | ok d => exact e2 _ _

/-- **C78 is violated:** one surface of a kind without a drawing, or a parallelepiped without its last bounds, and no cell is drawn. -/
theorem C78_undrawn_violated (surfs : List (Str × Option Nat × Surf)) (items : List CellItem) (skip : Str → Bool) (x : Str × Option Nat × Surf)
    (hx : x ∈ surfs) (h : x.2.2 = .arb ∨ x.2.2 = .gq ∨ x.2.2 = .sq ∨ x.2.2 = .xs ∨ x.2.2 = .ys ∨ x.2.2 = .zs ∨
      ∃ x0 x1 y0 y1, x.2.2 = .rpp x0 x1 y0 y1 none none) : ∃ e, showCells surfs items skip = .error e := by
  have hx' : ∃ e, x.2.2.toShow = .error e := by
    rcases h with h | h | h | h | h | h | ⟨x0, x1, y0, y1, h⟩ <;> rw [h] <;> exact ⟨_, rfl⟩
  have : ∃ e, surfaceDict surfs = .error e := by
    induction surfs with
    | nil => simp at hx
    | cons y l ih =>
      obtain ⟨n, t, s⟩ := y
      simp only [surfaceDict]
      cases hs : s.toShow with
      | error e => exact ⟨e, rfl⟩
      | ok a =>
        rcases List.mem_cons.1 hx with rfl | hx
        · obtain ⟨e, he⟩ := hx'
          simp only at he
          rw [hs] at he; cases he
        · obtain ⟨e, he⟩ := ih hx
          exact ⟨e, by rw [he]⟩
  obtain ⟨e, he⟩ := this
  exact ⟨e, by simp only [showCells, he]⟩

/-- **C78 is violated:** the inside of a torus, of a hexagonal prism and of a wedge cannot be drawn. -/
theorem C78_insides_violated (s : Surf) (n m : Str) (t t' : Option Nat)
    (hs : s = .rhp ∨ s = .wed ∨ ∃ c a b d, s = .tx c a b d ∨ s = .ty c a b d ∨ s = .tz c a b d) :
    ∃ e, showCells [(n, t, s)] [.cell m (.unary .minus (.digit n)) t'] (fun _ => false) = .error e := by
  have : ∃ sh, s.toShow = .ok sh ∧ sh.cell.invert = .raises := by
    rcases hs with rfl | rfl | ⟨c, a, b, d, rfl | rfl | rfl⟩
    · exact ⟨_, rfl, rfl⟩
    · exact ⟨_, rfl, rfl⟩
    · exact ⟨_, rfl, by rw [translate_cell, rotate_cell]; rfl⟩
    · exact ⟨_, rfl, by rw [translate_cell, rotate_cell]; rfl⟩
    · exact ⟨_, rfl, rfl⟩
  obtain ⟨sh, h1, h2⟩ := this
  have h3 : dictGet [(n, sh.cell)] n = some sh.cell := by simp [dictGet]
  refine ⟨.typeErr, ?_⟩
  simp only [showCells, surfaceDict, h1, drawCells, region, h3]
  simp [Except.map, h2, Region.eval]

end Props
