import Mathlib.Tactic.Linarith
import Mathlib.Tactic.NormNum
import Mathlib.Tactic.Ring
import Mathlib.Tactic.FieldSimp
import Mathlib.Tactic.Positivity
import Mathlib.Algebra.Order.Floor.Semiring
import Mathlib.Algebra.Order.Archimedean.Real.Basic
import Verif.Show.Grid
/-!
# Drawings: C81
-/
namespace Props
open Show

/-- Within the bounds of what is drawn. -/
def Within (b : Bounds) (p : Vec) : Prop := (b.x0 ≤ p.x ∧ p.x ≤ b.x1) ∧ (b.y0 ≤ p.y ∧ p.y ≤ b.y1) ∧ (b.z0 ≤ p.z ∧ p.z ≤ b.z1)

/-- Samples lie on both sides of every point, at most `1/256` of the extent away, in each direction. -/
def Near (b : Bounds) (p q : Vec) : Prop :=
  |p.x - q.x| ≤ (b.x1 - b.x0) / 256 ∧ |p.y - q.y| ≤ (b.y1 - b.y0) / 256 ∧ |p.z - q.z| ≤ (b.z1 - b.z0) / 256

/-- Every point within the bounds is near a sample. -/
def Covered (b : Bounds) : Prop := ∀ p, Within b p → ∃ q, b.Sample q ∧ Near b p q

theorem axis_near (m p : ℝ) (hm : 0 < m) (h0 : -m ≤ p) (h1 : p ≤ m) :
    ∃ i : Nat, i < resolution ∧ |p - (-(m - -m) / 2 + i * ((m - -m) / resolution))| ≤ (m - -m) / 256 := by
  have hs : (0 : ℝ) < 2 * m / 256 := by positivity
  obtain ⟨n, hn⟩ : ∃ n, n = ⌊(p + m) / (2 * m / 256)⌋₊ := ⟨_, rfl⟩
  have hq : 0 ≤ (p + m) / (2 * m / 256) := div_nonneg (by linarith) hs.le
  have hle := Nat.floor_le hq
  have hlt := Nat.lt_floor_add_one ((p + m) / (2 * m / 256))
  rw [← hn] at hle hlt
  rw [le_div_iff₀ hs] at hle
  rw [div_lt_iff₀ hs] at hlt
  have hr : ((resolution : Nat) : ℝ) = 256 := by norm_num [resolution]
  rw [hr]
  by_cases h : n < 256
  · refine ⟨n, h, ?_⟩
    rw [abs_le]
    constructor <;> linarith
  · have hn' : (256 : ℝ) ≤ n := by exact_mod_cast not_lt.1 h
    refine ⟨255, by norm_num [resolution], ?_⟩
    have : p = m := by nlinarith
    rw [this, abs_le]
    constructor <;> push_cast <;> linarith

/-- **C81, part:** if what is drawn extends as far to one side of the origin as to the other, along each axis, every point within its bounds is near a
sample.

Missing: other bounds (`C81_violated`). -/
theorem C81_partial (b : Bounds) (hx : b.x0 = -b.x1) (hy : b.y0 = -b.y1) (hz : b.z0 = -b.z1) (px : 0 < b.x1) (py : 0 < b.y1) (pz : 0 < b.z1) :
    Covered b := by
  rintro p ⟨⟨h1, h2⟩, ⟨h3, h4⟩, h5, h6⟩
  obtain ⟨i, hi, e1⟩ := axis_near b.x1 p.x px (by linarith) h2
  obtain ⟨j, hj, e2⟩ := axis_near b.y1 p.y py (by linarith) h4
  obtain ⟨k, hk, e3⟩ := axis_near b.z1 p.z pz (by linarith) h6
  refine ⟨_, ⟨i, j, k, ⟨hi, hj, hk⟩, rfl⟩, ?_⟩
  simp only [Near, Bounds.origin, Bounds.spacing, hx, hy, hz]
  exact ⟨e1, e2, e3⟩

example : Covered ⟨-5, 5, -3, 3, -1, 1⟩ := C81_partial _ rfl rfl rfl (by norm_num) (by norm_num) (by norm_num)

/-- **C81 is violated:** the samples lie about the origin, wherever the surfaces are: if what is drawn is further from the origin than half its extent along
the first axis, no sample is within its bounds, and nothing of the cells is seen. -/
theorem C81_violated (b : Bounds) (h : (b.x1 - b.x0) / 2 < b.x0) (hw : b.x0 < b.x1) : ∀ p, b.Sample p → ¬ Within b p := by
  rintro p ⟨i, j, k, ⟨hi, -, -⟩, rfl⟩ ⟨⟨h1, -⟩, -⟩
  simp only [Bounds.origin, Bounds.spacing] at h1
  have hi' : (i : ℝ) ≤ (resolution : Nat) := by exact_mod_cast hi.le
  have hr : (0 : ℝ) < (resolution : Nat) := by norm_num [resolution]
  have : (i : ℝ) * ((b.x1 - b.x0) / (resolution : Nat)) ≤ b.x1 - b.x0 := by
    rw [mul_div_assoc', div_le_iff₀ hr]
    nlinarith
  linarith

example : ∀ p, (Bounds.mk 10 20 (-5) 5 (-5) 5).Sample p → ¬ Within ⟨10, 20, -5, 5, -5, 5⟩ p := C81_violated _ (by norm_num) (by norm_num)

end Props
