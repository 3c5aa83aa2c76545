import Verif.Props.MeshtalFile
/-!
# C60: lines of bins of mesh tally headers
-/
set_option maxRecDepth 100000
namespace Props
open Py Types Meshtal

/-- The five names of lines of bins. -/
def binNames : List Str := [c!"X direction", c!"Y direction", c!"Z direction", c!"Energy bin boundaries", c!"Time bin boundaries"]

/-- The text of the last line of bins with a name. -/
def lastBin (k : Str) (ls : List (Str × Str)) : Option Str := ((ls.filter (fun p => p.1 == k)).getLast?).map (·.2)

theorem lastBin_nil (k : Str) : lastBin k [] = none := rfl

theorem lastBin_cons (k k' v : Str) (ls : List (Str × Str)) :
    lastBin k ((k', v) :: ls) = (lastBin k ls).or (if k' = k then some v else none) := by
  unfold lastBin
  by_cases h : k' = k
  · subst h
    cases hf : ls.filter (fun p => p.1 == k') with
    | nil => simp [hf]
    | cons a as => simp [hf, List.getLast?_cons]
  · have : (k' == k) = false := by simpa using h
    simp [h, this]

theorem bins_last (ls : List (Str × Str)) : ∀ b : Bins, (∀ p ∈ ls, p.1 ∈ binNames) →
    readBins b ls = .ok ⟨(lastBin c!"X direction" ls).or b.x, (lastBin c!"Y direction" ls).or b.y, (lastBin c!"Z direction" ls).or b.z,
      (lastBin c!"Energy bin boundaries" ls).or b.energy, (lastBin c!"Time bin boundaries" ls).or b.time⟩ := by
  induction ls with
  | nil => intro b _; rfl
  | cons p ls ih =>
    obtain ⟨k, v⟩ := p
    intro b h
    have hk := h (k, v) (by simp)
    have ih := fun b => ih b (fun p hp => h p (by simp [hp]))
    simp only [binNames, List.mem_cons, List.not_mem_nil, or_false] at hk
    unfold readBins
    rcases hk with rfl | rfl | rfl | rfl | rfl <;> simp [ih, lastBin_cons]

theorem bins_unknown (ls : List (Str × Str)) : ∀ b : Bins, (∃ p ∈ ls, p.1 ∉ binNames) → readBins b ls = .error .meshtal := by
  induction ls with
  | nil => intro b h; obtain ⟨p, hp, -⟩ := h; cases hp
  | cons p ls ih =>
    obtain ⟨k, v⟩ := p
    intro b h
    by_cases hk : k ∈ binNames
    · have h' : ∃ p ∈ ls, p.1 ∉ binNames := by
        obtain ⟨p, hp, hn⟩ := h
        rcases List.mem_cons.1 hp with rfl | hp
        · exact absurd hk hn
        · exact ⟨p, hp, hn⟩
      simp only [binNames, List.mem_cons, List.not_mem_nil, or_false] at hk
      unfold readBins
      rcases hk with rfl | rfl | rfl | rfl | rfl <;> simp [ih _ h']
    · simp only [binNames, List.mem_cons, List.not_mem_nil, or_false, not_or] at hk
      unfold readBins
      simp [hk]

/-- **Lines of bins:** the lines of bins of a header may come in any order and any number of times.  Of each of the five kinds the last line
counts; a line of any other kind refuses the header. -/
theorem C60_bins (ls : List (Str × Str)) (hl : ∀ p ∈ ls, ((∃ c cs, p.1 = c :: cs ∧ isSpace c = false) ∧ ∀ c ∈ p.1, c ≠ '\n' ∧ c ≠ ':') ∧
      p.2 ≠ [] ∧ '\n' ∉ p.2) :
    (∀ b, readBins ⟨none, none, none, none, none⟩ (findBins (ls.map (fun p => c!"    " ++ (p.1 ++ ':' :: (p.2 ++ ['\n'])))).flatten) = .ok b →
      b.x = lastBin c!"X direction" ls ∧ b.y = lastBin c!"Y direction" ls ∧ b.z = lastBin c!"Z direction" ls ∧
      b.energy = lastBin c!"Energy bin boundaries" ls ∧ b.time = lastBin c!"Time bin boundaries" ls) ∧
    ((∃ b, readBins ⟨none, none, none, none, none⟩ (findBins (ls.map (fun p => c!"    " ++ (p.1 ++ ':' :: (p.2 ++ ['\n'])))).flatten) = .ok b) ↔ ∀ p ∈ ls, p.1 ∈ binNames) := by
  have ht : findBins (ls.map (fun p => c!"    " ++ (p.1 ++ ':' :: (p.2 ++ ['\n'])))).flatten = ls := findBins_text ls hl
  rw [ht]
  by_cases h : ∀ p ∈ ls, p.1 ∈ binNames
  · have e := bins_last ls ⟨none, none, none, none, none⟩ h
    simp only [Option.or_none] at e
    rw [e]
    exact ⟨by intro b hb; cases hb; exact ⟨rfl, rfl, rfl, rfl, rfl⟩, fun _ => h, fun _ => ⟨_, rfl⟩⟩
  · have h' : ∃ p ∈ ls, p.1 ∉ binNames := by
      apply Classical.byContradiction
      intro hn
      exact h (fun p hp => Classical.byContradiction fun hq => hn ⟨p, hp, hq⟩)
    rw [bins_unknown ls _ h']
    exact ⟨(by intro b hb; cases hb), (by rintro ⟨b, hb⟩; cases hb), fun g => absurd g h⟩

example : readBins ⟨none, none, none, none, none⟩ [(c!"X direction", c!"1 2"), (c!"Time bin boundaries", c!"0 9"), (c!"X direction", c!"3 4")] =
    .ok ⟨some c!"3 4", none, none, none, some c!"0 9"⟩ := by decide +kernel

end Props
