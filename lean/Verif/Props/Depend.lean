import Verif.Inp.DepRead
/-!
# C92: sources that depend on another source
-/
set_option maxRecDepth 100000
namespace Props
open Py Types Inp

/-- Reading such a card.  Any text with arbitrary spacing, continuation lines and shorthand whose words are `ds` with a number, the letter
of the kind, and rows of entries is read row by row. -/
theorem C92_depend_read (d : Dep) (hd : d ∈ depCards) (g0 w0 : Str) (l : List (Gap × Str)) (g1 : Str) (ht : Spaced g0 w0 l g1) (s : Str)
    (h1 : readHead depHead w0 = some [some s]) (tw : Str) (htw : lower tw = [d.letter]) (rows : List (List Str)) (hne : rows ≠ [])
    (he : entries l = tw :: rows.flatten) (hx : ∀ y ∈ rows, All2 d.ps y) :
    cardParse d.c (g0 ++ (w0 ++ (body l ++ g1))) = (d.read s rows).map (fun v => (v, [])) := by
  obtain ⟨hp, -, hw⟩ := spaced_prep ht
  rw [he] at hp hw
  have h := dep_words (depCards_ok d hd) hw h1 htw hne hx
  unfold cardParse
  rw [hp]
  simp only
  rw [← h]
  cases reMatch d.c.re (w0 ++ enc (tw :: rows.flatten)) with
  | none => rfl
  | some m =>
    simp only
    cases d.c.build m <;> rfl

/-- **C92, pairs of values:** a card of pairs of independent and dependent values that was built is printed as a text that is read back as
the same card.  Missing: values with shorthand that has a count. -/
theorem C92_depend_pairs_partial (n : Nat) (xs : List Val) (hne : xs ≠ []) (hx : ∀ x ∈ xs, RowItemVal (.entry Tab.ds_1_Variables [.real, .real]) x)
    (v : Val) (hmk : Tab.Ds_1.mk' [.sc (.int (.num n)), .tuple xs] = .ok v) : cardParse Tab.Ds_1 v.str = .ok (v, []) := by
  have e : RowEntry Tab.ds_1_Variables [.real, .real] := ⟨rfl, rfl, by simp [Tab.ds_1_Variables], rfl, rfl, by simp⟩
  exact dep_round (d := ⟨Tab.Ds_1, 't', ⟨"ijs", Tab.T_ds_1_Variables, true, some .isNone⟩, false⟩) (by simp [depCards]) n xs hne
    (fun x h => item_entry e x (hx x h)) v hmk

/-- **C92, lists of distributions:** a card of distributions is read back as the same card.  Missing: numbers of more than one digit, which
are cut (`C08_violated`). -/
theorem C92_depend_distributions_partial (n : Nat) (ks : List Nat) (hne : ks ≠ []) (hk : ∀ k ∈ ks, k ≤ 9)
    (v : Val) (hmk : Tab.Ds_3.mk' [.sc (.int (.num n)), .tuple (ks.map (fun k => .sc (.dist k)))] = .ok v) :
    cardParse Tab.Ds_3 v.str = .ok (v, []) := by
  refine dep_round (d := ⟨Tab.Ds_3, 's', ⟨"distributions", .base .dist, true, some .isNone⟩, true⟩) (by simp [depCards]) n _ (by simpa using hne) ?_ v hmk
  intro x hx
  obtain ⟨k, hk', rfl⟩ := List.mem_map.1 hx
  obtain ⟨h1, h2⟩ := sc_round (k := .dist) (s := .dist k) (hk k hk')
  refine ⟨[(Sc.dist k).text], ⟨?_, trivial⟩, ?_, rfl, h2⟩
  · have := sc_unit (k := .dist) (s := .dist k) (hk k hk')
    exact (unitOk_iff (.ty (.base .dist)) (by decide) 1 _).1 this
  · intro w hw
    simp only [List.mem_singleton] at hw
    subst hw; exact h1

/-- One row of a card of distributions and values: the distribution `x v`, and the value that depends on it. -/
structure DistRow where
  x : Char
  v : Str
  w : Str

def DistRow.Ok (r : DistRow) : Prop :=
  (r.x = 'd' ∨ r.x = 'D') ∧ r.v ≠ [] ∧ Digits r.v ∧ Full numRe r.w ∧ Stable (r.x :: r.v) ∧ Stable r.w

/-- What a card of such rows is read as. -/
def readShifted (s : Str) (rs : List DistRow) : Res Val :=
  match intParse s with
  | .error e => .error e
  | .ok n => match rs.mapM (fun r => distShifted r.x r.v) with
    | .error e => .error e
    | .ok ys => Tab.Ds_2.mk' [.sc (.int n), .tuple ys]

theorem rows_shifted : ∀ rs : List DistRow, (∀ r ∈ rs, r.Ok) →
    (rs.map (fun r => [r.x :: r.v, r.w])).mapM (fun y => unionParse [Tab.ds_2_Variables] (join [' '] y)) = rs.mapM (fun r => distShifted r.x r.v) := by
  intro rs
  induction rs with
  | nil => intro _; rw [List.map_nil, List.mapM_nil, List.mapM_nil]
  | cons r rs ih =>
    intro hr
    obtain ⟨hx, hv, hd, hw, k1, k2⟩ := hr r (by simp)
    rw [List.map_cons, List.mapM_cons, List.mapM_cons, ih (fun r h => hr r (by simp [h])), pair_shift hx hv hd hw k1 k2]

/-- **C92 fails for values that depend on distributions, all such cards:** the dependent values are never read.  Whatever they are, the
number of the distribution is read in their place. -/
theorem C92_depend_lost (rs : List DistRow) (hne : rs ≠ []) (hr : ∀ r ∈ rs, r.Ok) (g0 w0 : Str) (l : List (Gap × Str)) (g1 : Str)
    (ht : Spaced g0 w0 l g1) (s : Str) (h1 : readHead depHead w0 = some [some s]) (tw : Str) (htw : lower tw = c!"q")
    (he : entries l = tw :: (rs.map (fun r => [r.x :: r.v, r.w])).flatten) :
    cardParse Tab.Ds_2 (g0 ++ (w0 ++ (body l ++ g1))) = (readShifted s rs).map (fun v => (v, [])) := by
  have h := C92_depend_read ⟨Tab.Ds_2, 'q', ⟨"vss", Tab.T_ds_2_Variables, true, some .isNone⟩, false⟩ (by simp [depCards]) g0 w0 l g1 ht s h1 tw htw
    (rs.map (fun r => [r.x :: r.v, r.w])) (by simpa using hne) he (by
      intro y hy
      obtain ⟨r, hr', rfl⟩ := List.mem_map.1 hy
      obtain ⟨hx, hv, hd, hw, -, -⟩ := hr r hr'
      exact ⟨⟨_, mt_alt.2 (.inl (mt_seq.2 ⟨[r.x], r.v, [], _, mt_cls.2 ⟨r.x, by rcases hx with h | h <;> rw [h] <;> rfl, rfl, rfl⟩,
        mt_grp.2 ⟨_, mt_plus_cls.2 ⟨hv, hd, rfl⟩, rfl⟩, rfl, rfl⟩))⟩, hw, trivial⟩)
  refine h.trans ?_
  have e : Dep.read ⟨Tab.Ds_2, 'q', ⟨"vss", Tab.T_ds_2_Variables, true, some .isNone⟩, false⟩ s (rs.map (fun r => [r.x :: r.v, r.w])) = readShifted s rs := by
    have hp : Tab.T_ds_2_Variables.parse = unionParse [Tab.ds_2_Variables] := by
      unfold Tab.T_ds_2_Variables
      rw [asTy_parse]
    unfold Dep.read readShifted
    simp only [hp]
    rw [rows_shifted rs hr]
    cases intParse s with
    | error => rfl
    | ok n => cases rs.mapM (fun r => distShifted r.x r.v) <;> rfl
  rw [e]

/-! ## Cases -/

def exDeps : List Val := [
  .obj Tab.ds_1_Variables.info [.sc (.real (.num (.fin ⟨false, 1, 0⟩))), .sc (.real (.num (.fin ⟨true, 25, -1⟩)))],
  .obj Tab.ds_1_Variables.info [.sc (.real (.num (.fin ⟨false, 2, 0⟩))), .sc (.real (.num (.fin ⟨false, 35, -1⟩)))]]

def exDep : Val := .obj Tab.Ds_1.info [.sc (.int (.num 12)), .tuple exDeps]

example : exDep.str = c!"ds12 t 1 -2.5 2 3.5" ∧ cardParse Tab.Ds_1 exDep.str = .ok (exDep, []) := by
  refine ⟨by decide +kernel, C92_depend_pairs_partial 12 exDeps (by simp [exDeps]) ?_ exDep (by decide +kernel)⟩
  intro x hx
  simp only [exDeps, List.mem_cons, List.not_mem_nil, or_false] at hx
  rcases hx with rfl | rfl
  · exact ⟨[.sc (.real (.num (.fin ⟨false, 1, 0⟩))), .sc (.real (.num (.fin ⟨true, 25, -1⟩)))],
      ⟨⟨rfl, .real, rfl, trivial⟩, ⟨rfl, .real, rfl, trivial⟩, trivial⟩, by simp, rfl⟩
  · exact ⟨[.sc (.real (.num (.fin ⟨false, 2, 0⟩))), .sc (.real (.num (.fin ⟨false, 35, -1⟩)))],
      ⟨⟨rfl, .real, rfl, trivial⟩, ⟨rfl, .real, rfl, trivial⟩, trivial⟩, by simp, rfl⟩

def exDists : Val := .obj Tab.Ds_3.info [.sc (.int (.num 3)), .tuple [.sc (.dist 4), .sc (.dist 5)]]

example : exDists.str = c!"ds3 s d4 d5" ∧ cardParse Tab.Ds_3 exDists.str = .ok (exDists, []) :=
  ⟨by decide +kernel, C92_depend_distributions_partial 3 [4, 5] (by simp) (by simp) exDists (by decide +kernel)⟩

def exShift : List (Gap × Str) := [(.ws c!" ", c!"Q"), (.ws c!" ", c!"d4"), (.ws c!" &\n ", c!"2.5"), (.ws c!" ", c!"d5"), (.ws c!" ", c!"-7")]

theorem exShift_spaced : Spaced [] c!"DS1" exShift [] where
  first := .nil
  word := by decide
  words := by
    intro x hx
    simp only [exShift, List.mem_cons, List.not_mem_nil, or_false] at hx
    rcases hx with rfl | rfl | rfl | rfl | rfl
    · exact ⟨⟨.sp .nil, by decide⟩, by decide⟩
    · exact ⟨⟨.sp .nil, by decide⟩, by decide⟩
    · exact ⟨⟨.sp (.amp 0 (.sp .nil)), by decide⟩, by decide⟩
    · exact ⟨⟨.sp .nil, by decide⟩, by decide⟩
    · exact ⟨⟨.sp .nil, by decide⟩, by decide⟩
  last := .nil
  low := by decide
  pos := by decide
  adj := by decide

/-- The values 2.5 and -7 become 4 and 5. -/
example : (cardParse Tab.Ds_2 c!"DS1 Q d4 &\n 2.5 d5 -7").map (fun p => p.1.str) = .ok c!"ds1 q d4 4 d5 5" := by
  have k : ∀ w, unitOk (.ty (.base .int)) w = true → Full numRe w := fun w h => int_full h
  have h := C92_depend_lost [⟨'d', c!"4", c!"2.5"⟩, ⟨'d', c!"5", c!"-7"⟩] (by simp) (by
      intro r hr
      simp only [List.mem_cons, List.not_mem_nil, or_false] at hr
      rcases hr with rfl | rfl <;>
        exact ⟨.inl rfl, by decide, by decide, k _ (by decide +kernel), ⟨by decide, by decide, by decide +kernel⟩, ⟨by decide, by decide, by decide +kernel⟩⟩)
    [] c!"DS1" exShift [] exShift_spaced c!"1" (by decide) c!"Q" (by decide) (by decide)
  rw [show [] ++ (c!"DS1" ++ (body exShift ++ [])) = c!"DS1 Q d4 &\n 2.5 d5 -7" by decide] at h
  rw [h]
  decide +kernel

end Props
