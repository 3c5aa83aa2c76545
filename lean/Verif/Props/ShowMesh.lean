import Verif.Props.Show
/-!
# Drawings: C79
-/
namespace Props
open Py Types Show

/-! ## Specification: where surfaces are, after the MCNP manual -/

/-- The points of a surface.  Surfaces that are not treated here are left out. -/
def OnSurface : Surf → Vec → Prop
  | .px d, p => p.x = d
  | .py d, p => p.y = d
  | .pz d, p => p.z = d
  | .p a b c d, p => a * p.x + b * p.y + c * p.z = d
  | .points a b c, p => ((b.sub a).cross (c.sub a)).dot (p.sub a) = 0
  | .so r, p => p.x ^ 2 + p.y ^ 2 + p.z ^ 2 = r ^ 2
  | .s c r, p => (p.x - c.x) ^ 2 + (p.y - c.y) ^ 2 + (p.z - c.z) ^ 2 = r ^ 2
  | .sx x r, p => (p.x - x) ^ 2 + p.y ^ 2 + p.z ^ 2 = r ^ 2
  | .sy y r, p => p.x ^ 2 + (p.y - y) ^ 2 + p.z ^ 2 = r ^ 2
  | .sz z r, p => p.x ^ 2 + p.y ^ 2 + (p.z - z) ^ 2 = r ^ 2
  | .sph c r, p => (p.x - c.x) ^ 2 + (p.y - c.y) ^ 2 + (p.z - c.z) ^ 2 = r ^ 2
  | .cx r, p => p.y ^ 2 + p.z ^ 2 = r ^ 2
  | .cy r, p => p.x ^ 2 + p.z ^ 2 = r ^ 2
  | .cz r, p => p.x ^ 2 + p.y ^ 2 = r ^ 2
  | .c_x y z r, p => (p.y - y) ^ 2 + (p.z - z) ^ 2 = r ^ 2
  | .c_y x z r, p => (p.x - x) ^ 2 + (p.z - z) ^ 2 = r ^ 2
  | .c_z x y r, p => (p.x - x) ^ 2 + (p.y - y) ^ 2 = r ^ 2
  | .kx x t sign, p => p.y ^ 2 + p.z ^ 2 = t * (p.x - x) ^ 2 ∧ sign * (p.x - x) ≥ 0
  | .ky y t sign, p => p.x ^ 2 + p.z ^ 2 = t * (p.y - y) ^ 2 ∧ sign * (p.y - y) ≥ 0
  | .kz z t sign, p => p.x ^ 2 + p.y ^ 2 = t * (p.z - z) ^ 2 ∧ sign * (p.z - z) ≥ 0
  | .k_x c t sign, p => (p.y - c.y) ^ 2 + (p.z - c.z) ^ 2 = t * (p.x - c.x) ^ 2 ∧ sign * (p.x - c.x) ≥ 0
  | .k_y c t sign, p => (p.x - c.x) ^ 2 + (p.z - c.z) ^ 2 = t * (p.y - c.y) ^ 2 ∧ sign * (p.y - c.y) ≥ 0
  | .k_z c t sign, p => (p.x - c.x) ^ 2 + (p.y - c.y) ^ 2 = t * (p.z - c.z) ^ 2 ∧ sign * (p.z - c.z) ≥ 0
  | .tx c a b d, p => (p.x - c.x) ^ 2 / b ^ 2 + (Real.sqrt ((p.y - c.y) ^ 2 + (p.z - c.z) ^ 2) - a) ^ 2 / d ^ 2 = 1
  | .ty c a b d, p => (p.y - c.y) ^ 2 / b ^ 2 + (Real.sqrt ((p.x - c.x) ^ 2 + (p.z - c.z) ^ 2) - a) ^ 2 / d ^ 2 = 1
  | .tz c a b d, p => (p.z - c.z) ^ 2 / b ^ 2 + (Real.sqrt ((p.x - c.x) ^ 2 + (p.y - c.y) ^ 2) - a) ^ 2 / d ^ 2 = 1
  | .rpp x0 x1 y0 y1 (some z0) (some z1), p =>
    (x0 ≤ p.x ∧ p.x ≤ x1 ∧ y0 ≤ p.y ∧ p.y ≤ y1 ∧ z0 ≤ p.z ∧ p.z ≤ z1) ∧
      (p.x = x0 ∨ p.x = x1 ∨ p.y = y0 ∨ p.y = y1 ∨ p.z = z0 ∨ p.z = z1)
  | .rcc v h r, p =>
    (0 ≤ along v h p ∧ along v h p ≤ 1 ∧ offAxis v h p = r ^ 2) ∨ ((along v h p = 0 ∨ along v h p = 1) ∧ offAxis v h p ≤ r ^ 2)
  | .trc v h r1 r2, p =>
    (0 ≤ along v h p ∧ along v h p ≤ 1 ∧ offAxis v h p = (r1 + along v h p * (r2 - r1)) ^ 2) ∨
      (along v h p = 0 ∧ offAxis v h p ≤ r1 ^ 2) ∨ (along v h p = 1 ∧ offAxis v h p ≤ r2 ^ 2)
  | .box v a1 a2 a3, p => ∃ s t u : ℝ, (0 ≤ s ∧ s ≤ 1) ∧ (0 ≤ t ∧ t ≤ 1) ∧ (0 ≤ u ∧ u ≤ 1) ∧
      (s = 0 ∨ s = 1 ∨ t = 0 ∨ t = 1 ∨ u = 0 ∨ u = 1) ∧ p = ((v.add (a1.smul s)).add (a2.smul t)).add (a3.smul u)
  | .recc v h v1 v2, p =>
    (0 ≤ along v h p ∧ along v h p ≤ 1 ∧ (along v v1 p) ^ 2 + (along v v2 p) ^ 2 = 1) ∨
      ((along v h p = 0 ∨ along v h p = 1) ∧ (along v v1 p) ^ 2 + (along v v2 p) ^ 2 ≤ 1)
  | .ell v1 v2 rm, p =>
    if rm < 0 then (along v1 v2 p) ^ 2 + offAxis v1 v2 p / rm ^ 2 = 1
    else (p.sub v1).norm + (p.sub v2).norm = 2 * rm
  | _, _ => False

/-- The surface is drawn, and within `w` the points drawn are the points of the surface; beyond, none are drawn. -/
def MeshedWithin (s : Surf) (w : Vec → Prop) : Prop := ∃ sh f, s.toShow = .ok sh ∧ sh.surface = some f ∧ ∀ p, f p ↔ OnSurface s p ∧ w p

/-- The points drawn are the points of the surface. -/
def Meshed (s : Surf) : Prop := ∃ sh f, s.toShow = .ok sh ∧ sh.surface = some f ∧ ∀ p, f p ↔ OnSurface s p

/-! ## Helper lemmas -/

theorem rotate_surface (s : Shape) (axis : Vec) (cos : ℝ) (f : Vec → Prop) (h : s.surface = some f) (h1 : cos ≠ 1) (h2 : axis ≠ Vec.zero) :
    (s.rotate axis cos).surface = some fun p => f (rotBack (axis.smul axis.norm⁻¹) cos (Real.sqrt (1 - cos ^ 2)) p) := by
  unfold Shape.rotate
  rw [if_pos ⟨h1, h2⟩]
  simp [h]

theorem translate_surface (s : Shape) (v : Vec) (f : Vec → Prop) (h : s.surface = some f) :
    (s.translate v).surface = some fun p => f (p.sub v) := by
  simp [Shape.translate, h]

/-- A quarter turn about the second axis. -/
theorem rotate_y (s : Shape) (f : Vec → Prop) (h : s.surface = some f) :
    (s.rotate ⟨0, 1, 0⟩ 0).surface = some fun p => f ⟨-p.z, p.y, p.x⟩ := by
  rw [rotate_surface s _ _ f h (by norm_num) (by intro h; have := congrArg Vec.y h; norm_num [Vec.zero] at this)]
  congr 1
  funext p
  congr 1
  have h1 : (Vec.mk 0 1 0).norm = 1 := (norm_axis 1 0 0 (by norm_num) ⟨rfl, rfl⟩).2.1
  ext <;> simp [rotBack, h1, Vec.smul, Vec.cross, Vec.dot, Vec.add, Vec.sub]

/-- A quarter turn about the first axis. -/
theorem rotate_x (s : Shape) (f : Vec → Prop) (h : s.surface = some f) :
    (s.rotate ⟨1, 0, 0⟩ 0).surface = some fun p => f ⟨p.x, p.z, -p.y⟩ := by
  rw [rotate_surface s _ _ f h (by norm_num) (by intro h; have := congrArg Vec.x h; norm_num [Vec.zero] at this)]
  congr 1
  funext p
  congr 1
  have h1 : (Vec.mk 1 0 0).norm = 1 := (norm_axis 1 0 0 (by norm_num) ⟨rfl, rfl⟩).1
  ext <;> simp [rotBack, h1, Vec.smul, Vec.cross, Vec.dot, Vec.add, Vec.sub]

/-- The centre of the square is on the plane. -/
theorem planePoint_on (a b c d : ℝ) (h : ¬ (a = 0 ∧ b = 0 ∧ c = 0)) :
    ∃ q, planePoint a b c d = .ok q ∧
      (a * q.x + b * q.y + c * q.z = d ↔ a = 0 ∨ b = 0 ∨ c = 0 ∨ c = 1 ∨ d = 0) := by
  unfold planePoint
  by_cases ha : a = 0 <;> by_cases hb : b = 0 <;> by_cases hc : c = 0
  · exact absurd ⟨ha, hb, hc⟩ h
  all_goals simp only [ha, hb, hc, and_true, true_and, and_false, false_and, if_true, if_false, and_self]
  all_goals refine ⟨_, rfl, ?_⟩
  all_goals try (simp; field_simp)
  constructor
  · intro h
    by_cases hd : d = 0
    · exact .inr hd
    · left; exact mul_right_cancel₀ hd (by linarith)
  · rintro (rfl | rfl) <;> simp

theorem plane_mesh (a b c d : ℝ) (h : ¬ (a = 0 ∧ b = 0 ∧ c = 0)) :
    ∃ sh f, plane a b c d = .ok sh ∧ sh.surface = some f ∧
      ((∀ p, f p ↔ a * p.x + b * p.y + c * p.z = d) ↔ a = 0 ∨ b = 0 ∨ c = 0 ∨ c = 1 ∨ d = 0) := by
  obtain ⟨q, hq, hon⟩ := planePoint_on a b c d h
  refine ⟨_, _, by unfold plane; rw [hq], rfl, ?_⟩
  rw [← hon]
  constructor
  · intro hall
    exact (hall q).1 (by simp [Vec.dot, Vec.sub])
  · intro hq p
    simp only [Vec.dot, Vec.sub]
    constructor <;> intro h <;> linarith

/-! ## C79 – surfaces are drawn where they are -/

/-- **C79, planes:** a plane is drawn where it is exactly if it is parallel to an axis, or goes through the origin, or its third coefficient
is one. -/
theorem C79_planes (a b c d : ℝ) (h : ¬ (a = 0 ∧ b = 0 ∧ c = 0)) :
    Meshed (.p a b c d) ↔ a = 0 ∨ b = 0 ∨ c = 0 ∨ c = 1 ∨ d = 0 := by
  obtain ⟨sh, f, h1, h2, h3⟩ := plane_mesh a b c d h
  rw [← h3]
  constructor
  · rintro ⟨sh', f', h1', h2', h3'⟩
    have : sh = sh' := by
      have := h1.symm.trans h1'
      cases this; rfl
    subst this
    rw [h2] at h2'; cases h2'
    exact h3'
  · intro h; exact ⟨sh, f, h1, h2, h⟩

example : Meshed (.p 1 0 2 3) := (C79_planes 1 0 2 3 (by norm_num)).2 (by norm_num)

/-- **C79 is violated:** this plane is drawn elsewhere. -/
theorem C79_planes_violated : ¬ Meshed (.p 1 1 2 1) := by
  rw [C79_planes _ _ _ _ (by norm_num)]; norm_num

/-- **C79, part:** planes across the axes, spheres, and parallelepipeds are drawn where they are. Missing: the other kinds,
below; for some the claim is false (`C79_planes_violated`). -/
theorem C79_meshes_partial (d r x y z x0 x1 y0 y1 z0 z1 : ℝ) (c : Vec) :
    Meshed (.px d) ∧ Meshed (.py d) ∧ Meshed (.pz d) ∧ Meshed (.so r) ∧ Meshed (.s c r) ∧ Meshed (.sph c r) ∧ Meshed (.sx x r) ∧
      Meshed (.sy y r) ∧ Meshed (.sz z r) ∧ Meshed (.rpp x0 x1 y0 y1 (some z0) (some z1)) := by
  refine ⟨?_, ?_, ?_, ⟨_, _, rfl, rfl, fun p => Iff.rfl⟩, ⟨_, _, rfl, rfl, fun p => Iff.rfl⟩, ⟨_, _, rfl, rfl, fun p => Iff.rfl⟩,
    ⟨_, _, rfl, rfl, fun p => ?_⟩, ⟨_, _, rfl, translate_surface _ _ _ (rotate_x _ _ rfl), fun p => ?_⟩, ⟨_, _, rfl, rfl, fun p => ?_⟩,
    ⟨_, _, rfl, rfl, fun p => Iff.rfl⟩⟩
  · obtain ⟨sh, f, h1, h2, h3⟩ := plane_mesh 1 0 0 d (by norm_num)
    exact ⟨sh, f, h1, h2, fun p => by rw [h3.2 (by norm_num) p]; simp [OnSurface]⟩
  · obtain ⟨sh, f, h1, h2, h3⟩ := plane_mesh 0 1 0 d (by norm_num)
    exact ⟨sh, f, h1, h2, fun p => by rw [h3.2 (by norm_num) p]; simp [OnSurface]⟩
  · obtain ⟨sh, f, h1, h2, h3⟩ := plane_mesh 0 0 1 d (by norm_num)
    exact ⟨sh, f, h1, h2, fun p => by rw [h3.2 (by norm_num) p]; simp [OnSurface]⟩
  · simp [OnSurface, Vec.sub]
  · simp only [OnSurface, Vec.sub, sub_zero]
    constructor <;> intro h <;> linarith
  · simp [OnSurface, Vec.sub]

/-- **C79, part:** cylinders about the axes, and cylinders parallel to the first two axes, are drawn where they are, up to 50
either way. Missing: cylinders parallel to the third axis, for which the claim is false (`C79_parallel_violated`). -/
theorem C79_cylinders_partial (x y z r : ℝ) :
    MeshedWithin (.cx r) (fun p => -50 ≤ p.x ∧ p.x ≤ 50) ∧ MeshedWithin (.cy r) (fun p => -50 ≤ p.y ∧ p.y ≤ 50) ∧
      MeshedWithin (.cz r) (fun p => -50 ≤ p.z ∧ p.z ≤ 50) ∧ MeshedWithin (.c_x y z r) (fun p => -50 ≤ p.x ∧ p.x ≤ 50) ∧
      MeshedWithin (.c_y x z r) (fun p => -50 ≤ p.y ∧ p.y ≤ 50) := by
  have hb : bound / 2 = 50 := by unfold bound; norm_num
  refine ⟨⟨_, _, rfl, rotate_y _ _ rfl, fun p => ?_⟩, ⟨_, _, rfl, rotate_x _ _ rfl, fun p => ?_⟩, ⟨_, _, rfl, rfl, fun p => ?_⟩,
    ⟨_, _, rfl, translate_surface _ _ _ (rotate_y _ _ rfl), fun p => ?_⟩,
    ⟨_, _, rfl, translate_surface _ _ _ (rotate_x _ _ rfl), fun p => ?_⟩⟩ <;>
  simp only [hb, OnSurface, Vec.sub, sub_zero] <;> constructor <;> rintro ⟨h1, h2, h3⟩ <;>
    exact ⟨by linarith, by linarith, by linarith⟩

/-- **C79 is violated:** a cylinder parallel to the third axis is drawn along the first, so that points are drawn that are not on it. -/
theorem C79_parallel_violated (x y r : ℝ) (hr : r ≠ 0) (w : Vec → Prop) : ¬ MeshedWithin (.c_z x y r) w := by
  rintro ⟨sh, f, h1, h2, h3⟩
  cases h1
  rw [translate_surface _ _ _ (rotate_y _ _ rfl)] at h2
  cases h2
  have := ((h3 ⟨x, y, r⟩).1 (by norm_num [Vec.sub, bound])).1
  simp only [OnSurface, sub_self] at this
  exact hr (by nlinarith [sq_nonneg r])

theorem cone_mesh (t sign R z : ℝ) (ht : 0 < t) (hs : sign = 1 ∨ sign = -1) :
    (∃ τ, 0 ≤ τ ∧ τ ≤ 1 ∧ R = (τ * bound) ^ 2 ∧ z = τ * (bound * sign / Real.sqrt t)) ↔ (R = t * z ^ 2 ∧ sign * z ≥ 0) ∧ R ≤ 100 ^ 2 := by
  have hss : sign * sign = 1 := by rcases hs with rfl | rfl <;> norm_num
  have hm : 0 < Real.sqrt t := Real.sqrt_pos.2 ht
  have hmm : Real.sqrt t * Real.sqrt t = t := Real.mul_self_sqrt ht.le
  unfold bound
  constructor
  · rintro ⟨τ, h0, h1, rfl, rfl⟩
    refine ⟨⟨?_, ?_⟩, by nlinarith⟩
    · have : τ * (100 * sign / Real.sqrt t) = τ * 100 * sign / Real.sqrt t := by ring
      rw [this, div_pow, mul_pow _ sign, sq sign, hss, sq (Real.sqrt t), hmm]
      field_simp
    · have : sign * (τ * (100 * sign / Real.sqrt t)) = τ * 100 * (sign * sign) / Real.sqrt t := by ring
      rw [this, hss]
      positivity
  · rintro ⟨⟨h1, h2⟩, h3⟩
    refine ⟨sign * z * Real.sqrt t / 100, by positivity, ?_, ?_, ?_⟩
    · have hR : (sign * z * Real.sqrt t) ^ 2 = R := by
        rw [h1]
        calc (sign * z * Real.sqrt t) ^ 2 = (sign * sign) * z ^ 2 * (Real.sqrt t * Real.sqrt t) := by ring
          _ = t * z ^ 2 := by rw [hss, hmm]; ring
      rw [div_le_one (by norm_num)]
      exact le_of_sq_le_sq (by rw [hR]; exact h3) (by norm_num)
    · rw [h1]
      calc t * z ^ 2 = (sign * sign) * z ^ 2 * (Real.sqrt t * Real.sqrt t) := by rw [hss, hmm]; ring
        _ = (sign * z * Real.sqrt t / 100 * 100) ^ 2 := by ring
    · calc z = (sign * sign) * z := by rw [hss]; ring
        _ = sign * z * Real.sqrt t / 100 * (100 * sign / Real.sqrt t) := by field_simp

theorem cone_ok (t sign : ℝ) (ht : 0 < t) : cone t sign = .ok (coneUnbounded (Real.sqrt t) sign) := by
  rcases cone_cases t sign with ⟨e, he⟩ | ⟨-, he⟩
  · unfold cone at he
    rw [if_neg (not_lt.2 ht.le), if_neg ht.ne'] at he
    cases he
  · exact he

/-- **C79, part:** cones along the first and third axes are drawn where they are, the one sheet, up to a radius of 100.
Missing: cones along the second axis, for which the claim is false (`C79_sheets_violated`). -/
theorem C79_cones_partial (x z t sign : ℝ) (c : Vec) (ht : 0 < t) (hs : sign = 1 ∨ sign = -1) :
    MeshedWithin (.kx x t sign) (fun p => p.y ^ 2 + p.z ^ 2 ≤ 100 ^ 2) ∧
      MeshedWithin (.kz z t sign) (fun p => p.x ^ 2 + p.y ^ 2 ≤ 100 ^ 2) ∧
      MeshedWithin (.k_x c t sign) (fun p => (p.y - c.y) ^ 2 + (p.z - c.z) ^ 2 ≤ 100 ^ 2) ∧
      MeshedWithin (.k_z c t sign) (fun p => (p.x - c.x) ^ 2 + (p.y - c.y) ^ 2 ≤ 100 ^ 2) := by
  refine ⟨⟨_, _, by simp only [Surf.toShow, cone_ok t sign ht]; rfl, translate_surface _ _ _ (rotate_y _ _ rfl), fun p => ?_⟩,
    ⟨_, _, by simp only [Surf.toShow, cone_ok t sign ht]; rfl, translate_surface _ _ _ rfl, fun p => ?_⟩,
    ⟨_, _, by simp only [Surf.toShow, cone_ok t sign ht]; rfl, translate_surface _ _ _ (rotate_y _ _ rfl), fun p => ?_⟩,
    ⟨_, _, by simp only [Surf.toShow, cone_ok t sign ht]; rfl, translate_surface _ _ _ rfl, fun p => ?_⟩⟩
  · rw [cone_mesh t sign _ _ ht hs]
    simp only [OnSurface, Vec.sub, sub_zero, neg_sq, add_comm]
  · rw [cone_mesh t sign _ _ ht hs]
    simp only [OnSurface, Vec.sub, sub_zero]
  · rw [cone_mesh t sign _ _ ht hs]
    simp only [OnSurface, Vec.sub, neg_sq, add_comm]
  · rw [cone_mesh t sign _ _ ht hs]
    simp only [OnSurface, Vec.sub]

example : MeshedWithin (.kz 5 4 (-1)) (fun p => p.x ^ 2 + p.y ^ 2 ≤ 100 ^ 2) :=
  (C79_cones_partial 0 5 4 (-1) ⟨0, 0, 0⟩ (by norm_num) (by norm_num)).2.1

/-- **C79 is violated:** of a cone along the second axis the other sheet is drawn. -/
theorem C79_sheets_violated (y t sign : ℝ) (c : Vec) (ht : 0 < t) (hs : sign = 1 ∨ sign = -1) :
    (∃ sh f, (Surf.ky y t sign).toShow = .ok sh ∧ sh.surface = some f ∧ ∀ p, f p ↔ OnSurface (.ky y t (-sign)) p ∧ p.x ^ 2 + p.z ^ 2 ≤ 100 ^ 2) ∧
    (∃ sh f, (Surf.k_y c t sign).toShow = .ok sh ∧ sh.surface = some f ∧
      ∀ p, f p ↔ OnSurface (.k_y c t (-sign)) p ∧ (p.x - c.x) ^ 2 + (p.z - c.z) ^ 2 ≤ 100 ^ 2) := by
  refine ⟨⟨_, _, by simp only [Surf.toShow, cone_ok t sign ht]; rfl, translate_surface _ _ _ (rotate_x _ _ rfl), fun p => ?_⟩,
    ⟨_, _, by simp only [Surf.toShow, cone_ok t sign ht]; rfl, translate_surface _ _ _ (rotate_x _ _ rfl), fun p => ?_⟩⟩
  · rw [cone_mesh t sign _ _ ht hs]
    simp only [OnSurface, Vec.sub, sub_zero, neg_sq, mul_neg, neg_mul]
  · rw [cone_mesh t sign _ _ ht hs]
    simp only [OnSurface, Vec.sub, neg_sq, mul_neg, neg_mul]

theorem torus_mesh (a b d R z : ℝ) (hb : 0 < b) (hba : b ≤ a) (hd : 0 < d) (hR : 0 ≤ R) :
    (∃ u v, u ^ 2 + v ^ 2 = 1 ∧ R = (b * u + a) ^ 2 ∧ z = d * v) ↔ z ^ 2 / d ^ 2 + (Real.sqrt R - a) ^ 2 / b ^ 2 = 1 := by
  constructor
  · rintro ⟨u, v, h, rfl, rfl⟩
    have hu : -1 ≤ u := by nlinarith [sq_nonneg v]
    have h0 : 0 ≤ b * u + a := by nlinarith
    rw [Real.sqrt_sq h0]
    have e1 : (d * v) ^ 2 / d ^ 2 = v ^ 2 := by field_simp
    have e2 : (b * u + a - a) ^ 2 / b ^ 2 = u ^ 2 := by rw [add_sub_cancel_right]; field_simp
    rw [e1, e2]; linarith
  · intro h
    refine ⟨(Real.sqrt R - a) / b, z / d, ?_, ?_, ?_⟩
    · rw [div_pow, div_pow]; linarith
    · have : b * ((Real.sqrt R - a) / b) + a = Real.sqrt R := by field_simp; ring
      rw [this, Real.sq_sqrt hR]
    · field_simp

/-- **C79, tori:** a torus is drawn with its two radii swapped. -/
theorem C79_tori (c : Vec) (a b d : ℝ) (hb : 0 < b) (hba : b ≤ a) (hd : 0 < d) :
    (∃ sh f, (Surf.tx c a b d).toShow = .ok sh ∧ sh.surface = some f ∧ ∀ p, f p ↔ OnSurface (.tx c a d b) p) ∧
    (∃ sh f, (Surf.ty c a b d).toShow = .ok sh ∧ sh.surface = some f ∧ ∀ p, f p ↔ OnSurface (.ty c a d b) p) ∧
    (∃ sh f, (Surf.tz c a b d).toShow = .ok sh ∧ sh.surface = some f ∧ ∀ p, f p ↔ OnSurface (.tz c a d b) p) := by
  refine ⟨⟨_, _, rfl, translate_surface _ _ _ (rotate_y _ _ rfl), fun p => ?_⟩, ⟨_, _, rfl, translate_surface _ _ _ (rotate_x _ _ rfl), fun p => ?_⟩,
    ⟨_, _, rfl, translate_surface _ _ _ rfl, fun p => ?_⟩⟩
  · rw [torus_mesh a b d _ _ hb hba hd (by positivity)]
    simp only [OnSurface, Vec.sub, neg_sq, add_comm ((p.z - c.z) ^ 2)]
  · rw [torus_mesh a b d _ _ hb hba hd (by positivity)]
    simp only [OnSurface, Vec.sub, neg_sq]
  · rw [torus_mesh a b d _ _ hb hba hd (by positivity)]
    simp only [OnSurface, Vec.sub]

/-- **C79, part:** tori with a circular section are drawn where they are. Missing: other tori, for which the claim is false
(`C79_tori_violated`). -/
theorem C79_tori_partial (c : Vec) (a b : ℝ) (hb : 0 < b) (hba : b ≤ a) :
    Meshed (.tx c a b b) ∧ Meshed (.ty c a b b) ∧ Meshed (.tz c a b b) := C79_tori c a b b hb hba hb

example : Meshed (.tz ⟨1, 2, 3⟩ 5 2 2) := (C79_tori_partial _ _ _ (by norm_num) (by norm_num)).2.2

/-- **C79 is violated:** other tori are not. -/
theorem C79_tori_violated (c : Vec) (a b d : ℝ) (hb : 0 < b) (hba : b ≤ a) (hd : 0 < d) (h : b ≠ d) : ¬ Meshed (.tz c a b d) := by
  rintro ⟨sh, f, h1, h2, h3⟩
  obtain ⟨sh', f', h1', h2', h3'⟩ := (C79_tori c a b d hb hba hd).2.2
  rw [h1] at h1'; cases h1'
  rw [h2] at h2'; cases h2'
  have ha : 0 ≤ a := by linarith
  have hp := (h3 ⟨c.x + a, c.y, c.z + d⟩).symm.trans (h3' ⟨c.x + a, c.y, c.z + d⟩)
  simp only [OnSurface, add_sub_cancel_left, sub_self] at hp
  have hs : Real.sqrt (a ^ 2 + 0 ^ 2) = a := by rw [zero_pow (by norm_num), add_zero, Real.sqrt_sq ha]
  rw [hs, sub_self] at hp
  have := hp.2 (by field_simp; norm_num)
  have hb2 : b ^ 2 ≠ 0 := by positivity
  have h5 : d ^ 2 = b ^ 2 := by
    have : d ^ 2 / b ^ 2 = 1 := by simpa using this
    field_simp at this
    linarith
  exact h ((sq_eq_sq₀ hb.le hd.le).1 h5.symm)

/-! ### Upright and inclined cylinders -/

/-- Rotating about a unit vector keeps lengths. -/
theorem rotBack_dot (k : Vec) (cos sin : ℝ) (hk : k.dot k = 1) (hcs : cos ^ 2 + sin ^ 2 = 1) (p : Vec) :
    (rotBack k cos sin p).dot (rotBack k cos sin p) = p.dot p := by
  simp only [rotBack, Vec.dot, Vec.add, Vec.sub, Vec.smul, Vec.cross] at *
  linear_combination (sin ^ 2 * (p.x * p.x + p.y * p.y + p.z * p.z) + (1 - cos) ^ 2 * (k.x * p.x + k.y * p.y + k.z * p.z) ^ 2) * hk +
    ((p.x * p.x + p.y * p.y + p.z * p.z) - (k.x * p.x + k.y * p.y + k.z * p.z) ^ 2) * hcs

theorem norm_sq (h : Vec) : h.norm * h.norm = h.dot h :=
  Real.mul_self_sqrt (by unfold Vec.dot; nlinarith [mul_self_nonneg h.x, mul_self_nonneg h.y, mul_self_nonneg h.z])

/-- The mesh of a cylinder, by the square of the distance from the axis and the height. -/
def CylMesh (L r R z : ℝ) : Prop := (R = r ^ 2 ∧ -(L / 2) ≤ z ∧ z ≤ L / 2) ∨ (R ≤ r ^ 2 ∧ (z = -(L / 2) ∨ z = L / 2))

theorem cylMesh_neg (L r R z : ℝ) : CylMesh L r R (-z) ↔ CylMesh L r R z := by
  unfold CylMesh
  constructor
  · rintro (⟨h1, h2, h3⟩ | ⟨h1, h2 | h2⟩)
    · exact .inl ⟨h1, by linarith, by linarith⟩
    · exact .inr ⟨h1, .inr (by linarith)⟩
    · exact .inr ⟨h1, .inl (by linarith)⟩
  · rintro (⟨h1, h2, h3⟩ | ⟨h1, h2 | h2⟩)
    · exact .inl ⟨h1, by linarith, by linarith⟩
    · exact .inr ⟨h1, .inr (by linarith)⟩
    · exact .inr ⟨h1, .inl (by linarith)⟩

/-- The points drawn for a cylinder with this height vector. -/
theorem rcc_mesh (v h : Vec) (r : ℝ) (hn : 0 < h.norm)
    (hk : (Vec.mk 0 0 1).cross (h.smul h.norm⁻¹) = Vec.zero ∨ ((Vec.mk 0 0 1).cross (h.smul h.norm⁻¹)).norm > 1 / 10 ^ 10) :
    ∃ sh f, (Surf.rcc v h r).toShow = .ok sh ∧ sh.surface = some f ∧
      ∀ p, f p ↔ CylMesh h.norm r ((p.sub v).dot (p.sub v) - ((h.smul h.norm⁻¹).dot (p.sub v)) ^ 2) ((h.smul h.norm⁻¹).dot (p.sub v)) := by
  have huu : (h.smul h.norm⁻¹).dot (h.smul h.norm⁻¹) = 1 := by
    have : (h.smul h.norm⁻¹).dot (h.smul h.norm⁻¹) = h.dot h * (h.norm⁻¹ * h.norm⁻¹) := by unfold Vec.dot Vec.smul; ring
    rw [this, ← norm_sq]; field_simp
  simp only [Surf.toShow]
  generalize h.smul h.norm⁻¹ = u at huu hk
  generalize h.norm = L at hn
  obtain ⟨k, hkd⟩ : ∃ k, k = (Vec.mk 0 0 1).cross u := ⟨_, rfl⟩
  rw [← hkd] at hk ⊢
  have hkx : k = ⟨-u.y, u.x, 0⟩ := by rw [hkd]; ext <;> simp [Vec.cross]
  have hkk : k.dot k = 1 - u.z ^ 2 := by
    rw [hkx]; unfold Vec.dot at huu ⊢; simp only; linarith
  rcases hk with hk | hk
  · have hk0 : ¬ (k.norm > 1 / 10 ^ 10) := by
      have : k.norm = 0 := by rw [hk]; unfold Vec.norm Vec.dot Vec.zero; simp
      rw [this]; norm_num
    rw [if_neg (fun h => hk0 h.2)]
    refine ⟨_, _, rfl, translate_surface _ _ _ rfl, fun p => ?_⟩
    have hx : u.x = 0 := by rw [hkx] at hk; exact congrArg Vec.y hk
    have hy : u.y = 0 := by rw [hkx] at hk; have := congrArg Vec.x hk; simpa [Vec.zero] using this
    have hz : u.z = 1 ∨ u.z = -1 := by
      unfold Vec.dot at huu; rw [hx, hy] at huu
      exact mul_self_eq_one_iff.1 (by linarith)
    generalize p.sub v = q
    change CylMesh L r (q.x ^ 2 + q.y ^ 2) q.z ↔ _
    rcases hz with hz | hz
    · have e1 : u.dot q = q.z := by unfold Vec.dot; rw [hx, hy, hz]; ring
      have e2 : q.dot q - q.z ^ 2 = q.x ^ 2 + q.y ^ 2 := by unfold Vec.dot; ring
      rw [e1, e2]
    · have e1 : u.dot q = -q.z := by unfold Vec.dot; rw [hx, hy, hz]; ring
      have e2 : q.dot q - (-q.z) ^ 2 = q.x ^ 2 + q.y ^ 2 := by unfold Vec.dot; ring
      rw [e1, e2, cylMesh_neg]
  · rw [if_pos ⟨hn, hk⟩]
    have hk0 : 0 < k.norm := lt_trans (by norm_num) hk
    have hnn : k.norm * k.norm = 1 - u.z ^ 2 := by rw [norm_sq, hkk]
    have hz1 : u.z ^ 2 < 1 := by nlinarith
    have hmm : max (-1) (min 1 u.z) = u.z := by
      rw [min_eq_right (by nlinarith), max_eq_right (by nlinarith)]
    rw [hmm]
    have hsin : Real.sqrt (1 - u.z ^ 2) = k.norm := by rw [← hnn]; exact Real.sqrt_mul_self hk0.le
    have hne : k ≠ Vec.zero := by
      intro h0
      rw [h0] at hk0
      unfold Vec.norm Vec.dot Vec.zero at hk0
      simp at hk0
    refine ⟨_, _, rfl, translate_surface _ _ _ (rotate_surface _ _ _ _ rfl (by intro h; rw [h] at hz1; norm_num at hz1) hne), fun p => ?_⟩
    rw [hsin]
    generalize p.sub v = q
    obtain ⟨w, hw⟩ : ∃ w, w = rotBack (k.smul k.norm⁻¹) u.z k.norm q := ⟨_, rfl⟩
    rw [← hw]
    have hone : (k.smul k.norm⁻¹).dot (k.smul k.norm⁻¹) = 1 := by
      have : (k.smul k.norm⁻¹).dot (k.smul k.norm⁻¹) = k.dot k * (k.norm⁻¹ * k.norm⁻¹) := by unfold Vec.dot Vec.smul; ring
      rw [this, ← norm_sq]; field_simp
    have hww : w.dot w = q.dot q := by
      rw [hw]; exact rotBack_dot _ _ _ hone (by rw [sq k.norm, hnn]; ring) q
    have hwz : w.z = u.dot q := by
      rw [hw]
      have e : k.norm * k.norm⁻¹ = 1 := mul_inv_cancel₀ hk0.ne'
      generalize k.norm⁻¹ = i at e
      generalize k.norm = n at e
      rw [hkx]
      simp only [rotBack, Vec.dot, Vec.add, Vec.sub, Vec.smul, Vec.cross]
      linear_combination (u.x * q.x + u.y * q.y) * e
    change CylMesh L r (w.x ^ 2 + w.y ^ 2) w.z ↔ _
    have e2 : w.x ^ 2 + w.y ^ 2 = q.dot q - (u.dot q) ^ 2 := by rw [← hww, ← hwz]; unfold Vec.dot; ring
    rw [e2, hwz]

/-- **C79, cylinders of finite length:** they are drawn half their length too far back, whatever their direction. -/
theorem C79_rcc (v h : Vec) (r : ℝ) (hn : 0 < h.norm)
    (hk : (Vec.mk 0 0 1).cross (h.smul h.norm⁻¹) = Vec.zero ∨ ((Vec.mk 0 0 1).cross (h.smul h.norm⁻¹)).norm > 1 / 10 ^ 10) :
    ∃ sh f, (Surf.rcc v h r).toShow = .ok sh ∧ sh.surface = some f ∧ ∀ p, f p ↔ OnSurface (.rcc v h r) (p.add (h.smul (1 / 2))) := by
  obtain ⟨sh, f, h1, h2, h3⟩ := rcc_mesh v h r hn hk
  refine ⟨sh, f, h1, h2, fun p => ?_⟩
  rw [h3 p]
  obtain ⟨z, hz⟩ : ∃ z, z = (h.smul h.norm⁻¹).dot (p.sub v) := ⟨_, rfl⟩
  have hzz : (p.sub v).dot h = z * h.norm := by
    have : (h.smul h.norm⁻¹).dot (p.sub v) = (p.sub v).dot h * h.norm⁻¹ := by unfold Vec.dot Vec.smul; ring
    rw [hz, this]; field_simp
  have e1 : along v h (p.add (h.smul (1 / 2))) = z / h.norm + 1 / 2 := by
    have : ((p.add (h.smul (1 / 2))).sub v).dot h = (p.sub v).dot h + 1 / 2 * h.dot h := by unfold Vec.dot Vec.sub Vec.add Vec.smul; ring
    unfold along
    rw [this, hzz, ← norm_sq h]; field_simp
  have e2 : offAxis v h (p.add (h.smul (1 / 2))) = (p.sub v).dot (p.sub v) - z ^ 2 := by
    have i1 : ((p.add (h.smul (1 / 2))).sub v).dot h = (p.sub v).dot h + 1 / 2 * h.dot h := by unfold Vec.dot Vec.sub Vec.add Vec.smul; ring
    have i2 : ((p.add (h.smul (1 / 2))).sub v).dot ((p.add (h.smul (1 / 2))).sub v) = (p.sub v).dot (p.sub v) + (p.sub v).dot h + 1 / 4 * h.dot h := by
      unfold Vec.dot Vec.sub Vec.add Vec.smul; ring
    unfold offAxis
    rw [i1, i2, hzz, ← norm_sq h]; field_simp; ring
  simp only [OnSurface, e1, e2, ← hz]
  generalize (p.sub v).dot (p.sub v) - z ^ 2 = R
  generalize h.norm = L at hn
  unfold CylMesh
  have f1 : -(L / 2) ≤ z ↔ 0 ≤ z / L + 1 / 2 := by
    rw [show z / L + 1 / 2 = (z + L / 2) / L by field_simp, le_div_iff₀ hn]
    constructor <;> intro h <;> linarith
  have f2 : z ≤ L / 2 ↔ z / L + 1 / 2 ≤ 1 := by
    rw [show z / L + 1 / 2 = (z + L / 2) / L by field_simp, div_le_iff₀ hn]
    constructor <;> intro h <;> linarith
  have f3 : z = -(L / 2) ↔ z / L + 1 / 2 = 0 := by
    rw [show z / L + 1 / 2 = (z + L / 2) / L by field_simp, div_eq_iff hn.ne']
    constructor <;> intro h <;> linarith
  have f4 : z = L / 2 ↔ z / L + 1 / 2 = 1 := by
    rw [show z / L + 1 / 2 = (z + L / 2) / L by field_simp, div_eq_iff hn.ne']
    constructor <;> intro h <;> linarith
  rw [f1, f2, f3, f4]
  constructor
  · rintro (⟨a, b, c⟩ | ⟨a, b⟩)
    · exact .inl ⟨b, c, a⟩
    · exact .inr ⟨b, a⟩
  · rintro (⟨b, c, a⟩ | ⟨b, a⟩)
    · exact .inl ⟨a, b, c⟩
    · exact .inr ⟨a, b⟩

/-- **C79 is violated:** no such cylinder is drawn where it is. -/
theorem C79_rcc_violated (v h : Vec) (r : ℝ) (hn : 0 < h.norm) (hr : r ≠ 0)
    (hk : (Vec.mk 0 0 1).cross (h.smul h.norm⁻¹) = Vec.zero ∨ ((Vec.mk 0 0 1).cross (h.smul h.norm⁻¹)).norm > 1 / 10 ^ 10) :
    ¬ Meshed (.rcc v h r) := by
  rintro ⟨sh, f, h1, h2, h3⟩
  obtain ⟨sh', f', h1', h2', h3'⟩ := C79_rcc v h r hn hk
  rw [h1] at h1'; cases h1'
  rw [h2] at h2'; cases h2'
  have hp := (h3 v).symm.trans (h3' v)
  have hr2 : 0 < r ^ 2 := by positivity
  have a1 : along v h v = 0 := by unfold along Vec.dot Vec.sub; simp
  have a2 : offAxis v h v = 0 := by unfold offAxis Vec.dot Vec.sub; simp
  have hh : h.dot h ≠ 0 := by rw [← norm_sq]; positivity
  have a3 : along v h (v.add (h.smul (1 / 2))) = 1 / 2 := by
    have : ((v.add (h.smul (1 / 2))).sub v).dot h = 1 / 2 * h.dot h := by unfold Vec.dot Vec.sub Vec.add Vec.smul; ring
    unfold along; rw [this]; field_simp
  have a4 : offAxis v h (v.add (h.smul (1 / 2))) = 0 := by
    have i1 : ((v.add (h.smul (1 / 2))).sub v).dot h = 1 / 2 * h.dot h := by unfold Vec.dot Vec.sub Vec.add Vec.smul; ring
    have i2 : ((v.add (h.smul (1 / 2))).sub v).dot ((v.add (h.smul (1 / 2))).sub v) = 1 / 4 * h.dot h := by
      unfold Vec.dot Vec.sub Vec.add Vec.smul; ring
    unfold offAxis; rw [i1, i2]; field_simp; norm_num
  simp only [OnSurface, a1, a2, a3, a4] at hp
  have := hp.1 (.inr ⟨.inl trivial, hr2.le⟩)
  rcases this with ⟨-, -, h⟩ | ⟨h | h, -⟩
  · linarith
  · norm_num at h
  · norm_num at h

example : ¬ Meshed (.rcc ⟨1, 2, 3⟩ ⟨0, 0, 4⟩ 2) := by
  have hn : (Vec.mk 0 0 4).norm = 4 := (norm_axis 4 0 0 (by norm_num) ⟨rfl, rfl⟩).2.2
  refine C79_rcc_violated _ _ _ (by rw [hn]; norm_num) (by norm_num) (.inl ?_)
  ext <;> simp [Vec.cross, Vec.smul, Vec.zero]

/-- **C79 is violated:** a truncated cone that lies along the first axis is drawn on the other side of its base. -/
theorem C79_trc_violated (v : Vec) (c r1 r2 : ℝ) (hc : 0 < c) : ¬ Meshed (.trc v ⟨c, 0, 0⟩ r1 r2) := by
  rintro ⟨sh, f, h1, h2, h3⟩
  cases h1
  have hn : (Vec.mk c 0 0).norm = c := (norm_axis c 0 0 hc.le ⟨rfl, rfl⟩).1
  have hax : (Vec.mk c 0 0).cross ⟨0, 0, 1⟩ = ⟨0, -c, 0⟩ := by ext <;> simp [Vec.cross]
  rw [hax, hn] at h2
  rw [translate_surface _ _ _ (rotate_surface _ _ _ _ rfl (by simp)
    (by intro h; have := congrArg Vec.y h; simp [Vec.zero] at this; exact hc.ne' this))] at h2
  cases h2
  have hm : (Vec.mk 0 (-c) 0).norm = c := by
    unfold Vec.norm Vec.dot; simp only [mul_zero, zero_add, add_zero, neg_mul_neg]; exact Real.sqrt_mul_self hc.le
  have a1 : along v ⟨c, 0, 0⟩ ⟨v.x + c, v.y, v.z⟩ = 1 := by unfold along Vec.dot Vec.sub; field_simp; ring
  have a2 : offAxis v ⟨c, 0, 0⟩ ⟨v.x + c, v.y, v.z⟩ = 0 := by unfold offAxis Vec.dot Vec.sub; field_simp; ring
  have := (h3 ⟨v.x + c, v.y, v.z⟩).2 (by
    simp only [OnSurface, a1, a2]
    exact .inr (.inr ⟨trivial, sq_nonneg _⟩))
  have hz : (rotBack ((Vec.mk 0 (-c) 0).smul (Vec.mk 0 (-c) 0).norm⁻¹) (0 / c) (Real.sqrt (1 - (0 / c) ^ 2)) ((Vec.mk (v.x + c) v.y v.z).sub v)).z = -c := by
    rw [hm]
    simp [rotBack, Vec.smul, Vec.cross, Vec.dot, Vec.add, Vec.sub, hc.ne']
  simp only [hz] at this
  rcases this with ⟨-, h, -⟩ | ⟨-, h⟩ | ⟨-, h⟩ <;> linarith

theorem rotate_not (s : Shape) (axis : Vec) (cos : ℝ) (h : cos = 1 ∨ axis = Vec.zero) : s.rotate axis cos = s := by
  unfold Shape.rotate
  rw [if_neg]
  rintro ⟨h1, h2⟩
  exact h.elim h1 h2

/-- **C79, part:** boxes with edges along the axes, and ellipsoids along the first axis given by their centre, are drawn
where they are. Missing: oblique boxes and ellipsoids given by their foci, and the other bodies, for which the claim is false
(`C79_bodies_violated`, `C79_rcc_violated`, `C79_trc_violated`). -/
theorem C79_bodies_partial (v : Vec) (a b c rm : ℝ) (ha : 0 < a) (hb : 0 < b) (hc : 0 < c) (hrm : rm < 0) :
    Meshed (.box v ⟨a, 0, 0⟩ ⟨0, b, 0⟩ ⟨0, 0, c⟩) ∧ Meshed (.ell v ⟨c, 0, 0⟩ rm) := by
  have na := (norm_axis a 0 0 ha.le ⟨rfl, rfl⟩).1
  have nb := (norm_axis b 0 0 hb.le ⟨rfl, rfl⟩).2.1
  have nc := (norm_axis c 0 0 hc.le ⟨rfl, rfl⟩).2.2
  have nc' := (norm_axis c 0 0 hc.le ⟨rfl, rfl⟩).1
  constructor
  · refine ⟨_, _, rfl, by rw [rotate_not _ _ _ (.inl (by rw [na, div_self ha.ne']))]; exact translate_surface _ _ _ rfl, fun p => ?_⟩
    rw [na, nb, nc]
    simp only [OnSurface, faces, Vec.sub, Vec.add, Vec.smul, Vec.ext_iff]
    constructor
    · rintro ⟨⟨h1, h2, h3, h4, h5, h6⟩, h7⟩
      refine ⟨(p.x - v.x) / a, (p.y - v.y) / b, (p.z - v.z) / c, ⟨by positivity, (div_le_one ha).2 h2⟩, ⟨by positivity, (div_le_one hb).2 h4⟩,
        ⟨by positivity, (div_le_one hc).2 h6⟩, ?_, by field_simp; ring, by field_simp; ring, by field_simp; ring⟩
      rw [div_eq_iff ha.ne', div_eq_iff ha.ne', div_eq_iff hb.ne', div_eq_iff hb.ne', div_eq_iff hc.ne', div_eq_iff hc.ne']
      simpa using h7
    · rintro ⟨s, t, u, ⟨s0, s1⟩, ⟨t0, t1⟩, ⟨u0, u1⟩, h, ex, ey, ez⟩
      rw [ex, ey, ez]
      refine ⟨⟨by nlinarith, by nlinarith, by nlinarith, by nlinarith, by nlinarith, by nlinarith⟩, ?_⟩
      rcases h with h | h | h | h | h | h
      · exact .inl (by rw [h]; ring)
      · exact .inr (.inl (by rw [h]; ring))
      · exact .inr (.inr (.inl (by rw [h]; ring)))
      · exact .inr (.inr (.inr (.inl (by rw [h]; ring))))
      · exact .inr (.inr (.inr (.inr (.inl (by rw [h]; ring)))))
      · exact .inr (.inr (.inr (.inr (.inr (by rw [h]; ring)))))
  · refine ⟨_, _, by simp only [Surf.toShow, gt_iff_lt, if_neg (not_lt.2 hrm.le), if_pos hrm]; rfl,
      by rw [rotate_not _ _ _ (.inl (by rw [nc', div_self hc.ne']))]; exact translate_surface _ _ _ rfl, fun p => ?_⟩
    have h1 : along v ⟨c, 0, 0⟩ p = (p.x - v.x) / c := by
      unfold along Vec.dot Vec.sub; field_simp; ring
    have h2 : offAxis v ⟨c, 0, 0⟩ p = (p.y - v.y) ^ 2 + (p.z - v.z) ^ 2 := by
      unfold offAxis Vec.dot Vec.sub; field_simp; ring
    simp only [OnSurface, if_pos hrm, h1, h2, nc', Vec.sub, div_pow, neg_sq, add_div, add_assoc]

example : Meshed (.box ⟨1, 2, 3⟩ ⟨4, 0, 0⟩ ⟨0, 5, 0⟩ ⟨0, 0, 6⟩) :=
  (C79_bodies_partial _ _ _ _ (-1) (by norm_num) (by norm_num) (by norm_num) (by norm_num)).1

/-- **C79 is violated:** an upright elliptical cylinder is drawn with twice its height; an ellipsoid along a diagonal is drawn along the other. -/
theorem C79_bodies_violated (t a b c rm : ℝ) (v : Vec) (ht : 0 < t) (hc : 0 < c) (hrm : rm < 0) (hd : rm ^ 2 ≠ 2 * c ^ 2) :
    ¬ Meshed (.recc ⟨0, 0, t⟩ ⟨0, 0, c⟩ ⟨a, 0, 0⟩ ⟨0, b, 0⟩) ∧ ¬ Meshed (.ell v ⟨c, c, 0⟩ rm) := by
  constructor
  · rintro ⟨sh, f, h1, h2, h3⟩
    cases h1
    rw [rotate_not _ _ _ (.inr (by ext <;> simp [Vec.cross, Vec.zero]))] at h2
    cases h2
    have nc := (norm_axis c 0 0 hc.le ⟨rfl, rfl⟩).2.2
    have := (h3 ⟨0, 0, t - c⟩).1 (.inr ⟨by simp [Vec.sub], .inl (by rw [nc]; simp [Vec.sub])⟩)
    have ha : along ⟨0, 0, t⟩ ⟨0, 0, c⟩ ⟨0, 0, t - c⟩ = -1 := by unfold along Vec.dot Vec.sub; field_simp; ring
    simp only [OnSurface, ha] at this
    rcases this with ⟨h, -⟩ | ⟨h | h, -⟩ <;> norm_num at h
  · rintro ⟨sh, f, h1, h2, h3⟩
    simp only [Surf.toShow, gt_iff_lt, if_neg (not_lt.2 hrm.le), if_pos hrm] at h1
    cases h1
    have hn : (Vec.mk c c 0).norm = Real.sqrt 2 * c := by
      unfold Vec.norm Vec.dot
      rw [show c * c + c * c + 0 * 0 = 2 * (c * c) by ring, Real.sqrt_mul (by norm_num), Real.sqrt_mul_self hc.le]
    have h20 : (0 : ℝ) < Real.sqrt 2 := Real.sqrt_pos.2 (by norm_num)
    have h22 : Real.sqrt 2 ^ 2 = 2 := Real.sq_sqrt (by norm_num)
    have hcos : c / (Real.sqrt 2 * c) = (Real.sqrt 2)⁻¹ := by field_simp
    have hax : (Vec.mk c c 0).cross ⟨1, 0, 0⟩ = ⟨0, 0, -c⟩ := by ext <;> simp [Vec.cross]
    have hm : (Vec.mk 0 0 (-c)).norm = c := by
      unfold Vec.norm Vec.dot; simp only [mul_zero, zero_add, add_zero, neg_mul_neg]; exact Real.sqrt_mul_self hc.le
    have hsin : Real.sqrt (1 - (Real.sqrt 2)⁻¹ ^ 2) = (Real.sqrt 2)⁻¹ := by
      rw [inv_pow, h22, ← Real.sqrt_inv]; norm_num
    rw [hn, hax, hcos] at h2
    rw [translate_surface _ _ _ (rotate_surface _ _ _ _ rfl
      (by intro h; have := congrArg (· ^ 2) h; simp only [inv_pow, h22] at this; norm_num at this)
      (by intro h; have := congrArg Vec.z h; simp [Vec.zero] at this; exact hc.ne' this))] at h2
    cases h2
    have hp := h3 ⟨v.x + c, v.y + c, v.z⟩
    have a1 : along v ⟨c, c, 0⟩ ⟨v.x + c, v.y + c, v.z⟩ = 1 := by unfold along Vec.dot Vec.sub; field_simp; ring
    have a2 : offAxis v ⟨c, c, 0⟩ ⟨v.x + c, v.y + c, v.z⟩ = 0 := by unfold offAxis Vec.dot Vec.sub; field_simp; ring
    have hq : rotBack ((Vec.mk 0 0 (-c)).smul (Vec.mk 0 0 (-c)).norm⁻¹) (Real.sqrt 2)⁻¹ (Real.sqrt (1 - (Real.sqrt 2)⁻¹ ^ 2))
        ((Vec.mk (v.x + c) (v.y + c) v.z).sub v) = ⟨0, Real.sqrt 2 * c, 0⟩ := by
      rw [hm, hsin]
      have hs : (Real.sqrt 2)⁻¹ + (Real.sqrt 2)⁻¹ = Real.sqrt 2 := by
        field_simp; linarith
      ext
      · simp [rotBack, Vec.smul, Vec.cross, Vec.dot, Vec.add, Vec.sub, hc.ne']
      · simp [rotBack, Vec.smul, Vec.cross, Vec.dot, Vec.add, Vec.sub, hc.ne']
        rw [← add_mul, hs]
      · simp [rotBack, Vec.smul, Vec.cross, Vec.dot, Vec.add, Vec.sub, hc.ne']
    simp only [OnSurface, if_pos hrm, a1, a2, hq] at hp
    have := hp.2 (by norm_num)
    simp only [zero_div, div_pow, mul_pow, h22, neg_sq] at this
    apply hd
    have hr2 : rm ≠ 0 := hrm.ne
    field_simp at this
    norm_num at this
    linarith

end Props
