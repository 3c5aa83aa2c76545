import Verif.State.Cell
/-!
# Lemmas on cell and surface objects
-/
namespace State
open Py Types Inp

theorem density_ok {m : Held} {a : DArg} {d : Option Dens} (h : cellDensity m a = .ok d) :
    (m.isZero = true ↔ d = none) := by
  unfold cellDensity at h
  split at h
  · cases h
  · split at h
    · cases h
    · rename_i hn
      cases h
      cases d <;> cases hz : m.isZero <;> simp_all

theorem init_ok {n : Arg} {a : CellArgs} {s : CellSt} (h : cellInit n a = .ok s) :
    cellNumber n = .ok s.number ∧ cellMaterial a.material = .ok s.material ∧
    cellDensity s.material a.density = .ok s.density ∧ cellGeometry a.geometry = .ok s.geometry ∧
    cellOptions a.options = .ok s.options := by
  unfold cellInit at h
  split at h
  · cases h
  · rename_i h1
    split at h
    · cases h
    · rename_i h2
      split at h
      · cases h
      · rename_i h3
        split at h
        · cases h
        · rename_i h4
          split at h
          · cases h
          · rename_i h5
            cases h
            exact ⟨h1, h2, h3, h4, h5⟩

theorem new_ok {c : Nat} {a : CellArgs} {s : CellSt} (h : (newCell c a).1 = .ok s) :
    ∃ n, (pickNumber c a.number).1 = .ok n ∧ cellInit n a = .ok s := by
  unfold newCell at h
  split at h
  · cases h
  · rename_i n _ hp
    exact ⟨n, by rw [hp], h⟩

theorem new_counter (c : Nat) (a : CellArgs) : (newCell c a).2 = (pickNumber c a.number).2 := by
  unfold newCell
  split <;> simp_all

theorem surf_init_ok {n : Arg} {a : SurfArgs} {s : SurfSt} (h : surfInit n a = .ok s) :
    surfTransform a.transform = .ok s.transform ∧ surfNumber s.transform n = .ok s.number ∧
    surfOption a.option = .ok s.option ∧ surfPrefix a.pre = .ok s.pre := by
  unfold surfInit at h
  split at h
  · cases h
  · rename_i h1
    split at h
    · cases h
    · rename_i h2
      split at h
      · cases h
      · rename_i h3
        split at h
        · cases h
        · rename_i h4
          cases h
          exact ⟨h1, h2, h3, h4⟩

theorem new_surf_ok {c : Nat} {a : SurfArgs} {s : SurfSt} (h : (newSurf c a).1 = .ok s) :
    ∃ n, (pickNumber c a.number).1 = .ok n ∧ surfInit n a = .ok s := by
  unfold newSurf at h
  split at h
  · cases h
  · rename_i n _ hp
    exact ⟨n, by rw [hp], h⟩

theorem new_surf_counter (c : Nat) (a : SurfArgs) : (newSurf c a).2 = (pickNumber c a.number).2 := by
  unfold newSurf
  split <;> simp_all

theorem pick_mono (c : Nat) (a : Arg) : c ≤ (pickNumber c a).2 := by
  unfold pickNumber nextNumber
  split
  · split
    · rename_i h; split at h <;> cases h; omega
    · rename_i h; split at h <;> cases h; omega
  · exact Nat.le_refl _

theorem pick_auto {c : Nat} {n : Arg} (h : (pickNumber c .none).1 = .ok n) :
    n = .int c ∧ (pickNumber c .none).2 = c + 1 ∧ c < 100000000 := by
  unfold pickNumber nextNumber at *
  by_cases hc : c < 100000000
  · simp only [hc, if_true] at *
    cases h; simp
  · simp only [hc, if_false] at h; cases h

theorem needRange_int {lo hi n : Int} {h : Held} (hh : needRange lo hi (.int n) = .ok h) : h = .int (.num n) := by
  simp only [needRange, holdInt, Held.between] at hh
  split at hh <;> cases hh; rfl

end State
