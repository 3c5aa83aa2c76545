import Verif.Props.Whole
/-!
# Materials, tallies, detectors, distributions and dose functions: C92
-/
set_option maxRecDepth 100000
namespace Props
open Py Types Inp State

/-! ## C92 – cards with keywords, rows and totals -/

/-- **C92, dose functions and source distributions, the exact condition:** a card with a list that may follow a keyword is read
back from its text as it was exactly if the keyword is set, or the first entry is not itself such a keyword, or there is only one
entry. -/
theorem C92_keyword (r : KwCard) (hr : r ∈ kwCards) (n : Nat) (o : Option Str) (ho : ∀ w ∈ o, w ∈ r.kws) (xs : List Val) (hne : xs ≠ [])
    (hx : ∀ x ∈ xs, ∃ s, x = .sc s ∧ ReadSc r.k s) (v : Val)
    (hmk : r.c.mk' [.sc (.int (.num n)), o.elim .none (fun w => .sc (.str w)), .tuple xs] = .ok v) :
    cardParse r.c v.str = .ok (v, []) ↔ (o = none → xs.length = 1 ∨ ∀ x ∈ xs.head?, lower x.str ∉ r.kws) :=
  kw_round hr n o ho xs hne hx v hmk

/-- A number. -/
def num (m : Nat) (e : Int) : Val := .sc (.real (.num (.fin ⟨false, m, e⟩)))

def exDose : Val := .obj Tab.De.info [.sc (.int (.num 4)), .sc (.str c!"lin"), .tuple [num 1 0, num 25 (-1)]]

def exPlain : Val := .obj Tab.De.info [.sc (.int (.num 4)), .none, .tuple [num 1 0, num 25 (-1)]]

def exLog : Val := .obj Tab.De.info [.sc (.int (.num 4)), .none, .tuple [.sc (.real (.hor (.log none))), num 1 0]]

theorem exKw : (⟨Tab.De, ⟨.no, c!"de", .req, .no⟩, .ngrp (.alt (.lits c!"log") (.lits c!"lin")), [c!"log", c!"lin"], .real⟩ : KwCard) ∈ kwCards :=
  List.mem_cons_self

theorem stable_no : Stable c!"no" :=
  ⟨⟨by decide, by decide, by decide, by decide, by decide, by decide, by decide⟩, by intro h; revert h; decide +kernel, by decide +kernel⟩

theorem stable_nt : Stable c!"nt" :=
  ⟨⟨by decide, by decide, by decide, by decide, by decide, by decide, by decide⟩, by intro h; revert h; decide +kernel, by decide +kernel⟩

theorem stable_c : Stable c!"c" :=
  ⟨⟨by decide, by decide, by decide, by decide, by decide, by decide, by decide⟩, by intro h; revert h; decide +kernel, by decide +kernel⟩

theorem lower_n {c : Char} (h : lowerC c = 'n') : c = 'n' ∨ c = 'N' := by
  unfold lowerC at h
  split at h
  · rename_i hu
    right
    simp only [Bool.and_eq_true, decide_eq_true_eq] at hu
    have h1 : 65 ≤ c.toNat := hu.1
    have h2 : c.toNat ≤ 90 := hu.2
    rw [← Char.ofNat_toNat c]
    have h3 : c.toNat = 65 ∨ c.toNat = 66 ∨ c.toNat = 67 ∨ c.toNat = 68 ∨ c.toNat = 69 ∨ c.toNat = 70 ∨ c.toNat = 71 ∨ c.toNat = 72 ∨ c.toNat = 73 ∨ c.toNat = 74 ∨ c.toNat = 75 ∨ c.toNat = 76 ∨ c.toNat = 77 ∨ c.toNat = 78 ∨ c.toNat = 79 ∨ c.toNat = 80 ∨ c.toNat = 81 ∨ c.toNat = 82 ∨ c.toNat = 83 ∨ c.toNat = 84 ∨ c.toNat = 85 ∨ c.toNat = 86 ∨ c.toNat = 87 ∨ c.toNat = 88 ∨ c.toNat = 89 ∨ c.toNat = 90 := by omega
    revert h
    rcases h3 with h | h | h | h | h | h | h | h | h | h | h | h | h | h | h | h | h | h | h | h | h | h | h | h | h | h <;> rw [h] <;> decide
  · left; exact h

theorem lower_nc {x c : Char} (hc : c = 'n' ∨ c = 'c') (h : lowerC x = c) : numHead x = false ∧ isDigit x = false ∧ c ∉ c!"jirlm" := by
  rcases hc with rfl | rfl
  · rcases lower_n h with rfl | rfl <;> decide
  · rcases lower_c h with rfl | rfl <;> decide

/-- No number begins with `n` or `c`. -/
theorem num_head {w : Str} (h : NumWord w) {x : Char} {t : Str} (hw : w = x :: t) : lowerC x ≠ 'n' ∧ lowerC x ≠ 'c' := by
  have key : ∀ c, (c = 'n' ∨ c = 'c') → lowerC x ≠ c := by
    intro c hc hx
    obtain ⟨h1, h2, h3⟩ := lower_nc hc hx
    have lit : ∀ (y : Char) (s : Str), lower w = lower (y :: s) → lowerC y ∈ c!"jirlm" → False := by
      intro y s hl hy
      rw [hw] at hl
      simp only [lower, List.map_cons, List.cons.injEq] at hl
      rw [← hl.1, hx] at hy
      exact h3 hy
    cases h with
    | lit y _ hy hl =>
      refine lit y [] hl ?_
      have : ∀ y ∈ c!"jir", lowerC y ∈ c!"jirlm" := by decide
      exact this y hy
    | log _ hl => exact lit 'l' _ hl (by decide)
    | ilog _ hl => exact lit 'i' _ hl (by decide)
    | mul ds l hd hl =>
      cases ds with
      | nil => exact lit 'm' [] hl (by decide)
      | cons d ds =>
        simp only [List.cons_append, List.cons.injEq] at hw
        have := hd d (by simp)
        rw [hw.1, h2] at this
        cases this
    | num y s hy _ =>
      simp only [List.cons.injEq] at hw
      rw [hw.1, h1] at hy
      cases hy
  exact ⟨key 'n' (.inl rfl), key 'c' (.inr rfl)⟩

theorem real_not {w s : Str} {c : Char} (hs : (Pat.lits (c :: s)).word = true) (hc : lowerC c = 'n' ∨ lowerC c = 'c')
    (h : unitOk (.ty (.base .real)) w = true) : unitOk (.lits (c :: s)) w = false := by
  cases ht : unitOk (.lits (c :: s)) w with
  | false => rfl
  | true =>
    obtain ⟨e, he⟩ := (unitOk_iff (.lits (c :: s)) hs 1 _).1 ht
    have hl := (mt_lit.1 he).1
    have hn : NumWord w := full_num.1 ((unitOk_iff (.ty (.base .real)) rfl 1 w).1 h)
    cases w with
    | nil => cases hl
    | cons x t =>
      obtain ⟨n1, n2⟩ := num_head hn rfl
      simp only [lower, List.map_cons, List.cons.injEq] at hl
      rw [hl.1] at n1 n2
      rcases hc with hc | hc
      · exact absurd hc n1
      · exact absurd hc n2

theorem real_not_no {w : Str} (h : unitOk (.ty (.base .real)) w = true) : unitOk (.lits c!"no") w = false :=
  real_not (by decide +kernel) (.inl (by decide)) h

theorem real_not_nt {w : Str} (h : unitOk (.ty (.base .real)) w = true) : unitOk (.lits c!"nt") w = false :=
  real_not (by decide +kernel) (.inl (by decide)) h

theorem real_not_c {w : Str} (h : unitOk (.ty (.base .real)) w = true) : unitOk (.lits c!"c") w = false :=
  real_not (by decide +kernel) (.inr (by decide)) h

theorem reals_ok {xs : List Val} (hxs : ∀ x ∈ xs, ∃ s, x = .sc s ∧ ReadSc .real s) :
    ∀ w ∈ xs.map Val.str, unitOk (.ty (.base .real)) w = true := by
  intro w hw
  obtain ⟨x, hx, rfl⟩ := List.mem_map.1 hw
  obtain ⟨s, rfl, hs⟩ := hxs x hx
  exact sc_unit hs

theorem exReals : ∀ x ∈ [num 1 0, num 25 (-1)], ∃ s, x = .sc s ∧ ReadSc .real s := by
  intro x hx
  simp only [List.mem_cons, List.not_mem_nil, or_false] at hx
  rcases hx with rfl | rfl <;> exact ⟨_, rfl, trivial⟩

/-- A dose function with and without a method; and one whose first entry is the shorthand `log`. -/
example : exDose.str = c!"de4 lin 1 2.5" ∧ cardParse Tab.De exDose.str = .ok (exDose, []) ∧
    exPlain.str = c!"de4 1 2.5" ∧ cardParse Tab.De exPlain.str = .ok (exPlain, []) ∧
    exLog.str = c!"de4 log 1" ∧ cardParse Tab.De exLog.str ≠ .ok (exLog, []) := by
  have hy : ∀ x ∈ [.sc (.real (.hor (.log none))), num 1 0], ∃ s, x = .sc s ∧ ReadSc .real s := by
    intro x hx
    simp only [List.mem_cons, List.not_mem_nil, or_false] at hx
    rcases hx with rfl | rfl <;> exact ⟨_, rfl, by first | trivial | rfl⟩
  refine ⟨by decide +kernel, (C92_keyword _ exKw 4 (some c!"lin") (by simp) _ (by simp) exReals exDose (by decide +kernel)).2 (by simp),
    by decide +kernel, (C92_keyword _ exKw 4 none (by simp) _ (by simp) exReals exPlain (by decide +kernel)).2 (fun _ => .inr (by decide +kernel)),
    by decide +kernel, ?_⟩
  rw [ne_eq, C92_keyword _ exKw 4 none (by simp) _ (by simp) hy exLog (by decide +kernel)]
  decide +kernel

/-- **C92, segments of tallies:** the surfaces, the request for the total and the accumulation are read back. -/
theorem C92_segments (n : Nat) (xs : List Val) (hne : xs ≠ []) (hxs : ∀ x ∈ xs, ∃ s, x = .sc s ∧ ReadSc .int s) (t c : Val)
    (ht : t = .none ∨ t = .sc (.str c!"t")) (hc : c = .none ∨ c = .sc (.str c!"c")) (v : Val)
    (hmk : Tab.Fs.mk' [.sc (.int (.num n)), .tuple xs, t, c] = .ok v) : cardParse Tab.Fs v.str = .ok (v, []) := by
  refine (C23_card_exact_partial Tab.Fs ⟨.no, c!"fs", .req, .no⟩ [⟨.ty (.base .int), .many⟩, ⟨.lits c!"t", .opt⟩, ⟨.lits c!"c", .opt⟩]
    rfl (by decide +kernel) rfl [.sc (.int (.num n))] [.tuple xs, t, c] ⟨[], [.sc (.int (.num n))], [], rfl, rfl, ⟨n, rfl⟩, rfl⟩ ?_ v hmk).2
    (fs_assigned hne hxs ht hc)
  have h1 : Stable c!"t" := ⟨⟨by decide, by decide, by decide, by decide, by decide, by decide, by decide⟩, by intro h; revert h; decide +kernel, by decide +kernel⟩
  have h2 : Stable c!"c" := ⟨⟨by decide, by decide, by decide, by decide, by decide, by decide, by decide⟩, by intro h; revert h; decide +kernel, by decide +kernel⟩
  refine ⟨⟨rfl, hne, .int, rfl, hxs⟩, ?_, ?_, trivial⟩
  · rcases ht with rfl | rfl
    · trivial
    · exact ⟨rfl, .str, rfl, h1⟩
  · rcases hc with rfl | rfl
    · trivial
    · exact ⟨rfl, .str, rfl, h2⟩

def exSegments : Val := .obj Tab.Fs.info [.sc (.int (.num 4)), .tuple [.sc (.int (.num (-1))), .sc (.int (.num 2))], .none, .sc (.str c!"c")]

/-- Segments without a total, accumulated. -/
example : exSegments.str = c!"fs4 -1 2 c" ∧ cardParse Tab.Fs exSegments.str = .ok (exSegments, []) := by
  refine ⟨by decide +kernel, ?_⟩
  refine C92_segments 4 [.sc (.int (.num (-1))), .sc (.int (.num 2))] (by simp) ?_ .none (.sc (.str c!"c")) (.inl rfl) (.inr rfl) exSegments (by decide +kernel)
  intro x hx
  simp only [List.mem_cons, List.not_mem_nil, or_false] at hx
  rcases hx with rfl | rfl <;> exact ⟨_, rfl, trivial⟩

/-- **C92, volumes:** the request for no calculation and the volumes are read back, whatever the entries are. -/
theorem C92_volumes (o : Val) (ho : o = .none ∨ o = .sc (.str c!"no")) (xs : List Val) (hne : xs ≠ [])
    (hxs : ∀ x ∈ xs, ∃ s, x = .sc s ∧ ReadSc .real s) (v : Val) (hmk : Tab.Vol.mk' [o, .tuple xs] = .ok v) :
    cardParse Tab.Vol v.str = .ok (v, []) := by
  have hu := reals_ok hxs
  refine apart_round Tab.Vol ⟨.no, c!"vol", .no, .no⟩ [⟨.lits c!"no", .opt⟩, ⟨.ty (.base .real), .many⟩] rfl (by decide +kernel) rfl [] [o, .tuple xs]
    ⟨[], [], [], rfl, rfl, rfl, rfl⟩ ?_ ?_ ?_ v hmk
  · refine ⟨?_, ⟨rfl, hne, .real, rfl, hxs⟩, trivial⟩
    rcases ho with rfl | rfl
    · trivial
    · exact ⟨rfl, .str, rfl, stable_no⟩
  · have h2 : Fits [Field.spec ⟨.ty (.base .real), .many⟩] [Val.words (.tuple xs)] := ⟨by simpa using hne, hu, by simp, trivial⟩
    rcases ho with rfl | rfl
    · exact ⟨.inl rfl, h2⟩
    · exact ⟨by simp, by intro w hw; rw [List.mem_singleton.1 hw]; decide +kernel, by simp, h2⟩
  · refine ⟨(by rintro (h | h) <;> cases h), ?_, ?_, (by rintro (h | h) <;> cases h), trivial⟩
    · intro _ w hw
      refine real_not_no (hu w ?_)
      have : Assign.flat [Val.words (.tuple xs)] = xs.map Val.str := by simp [Assign.flat, Val.words]
      rw [show ([Val.words (.tuple xs)] : Assign) = [Val.words (.tuple xs)] from rfl] at this
      simp only [List.map_cons, List.map_nil] at hw
      rw [this] at hw
      exact List.mem_of_mem_head? hw
    · intro _ w hw f hf; cases hf

/-- **C92, special bins of tallies:** the bounds, `nt` and `c` are read back. -/
theorem C92_bins (n : Nat) (xs : List Val) (hne : xs ≠ []) (hxs : ∀ x ∈ xs, ∃ s, x = .sc s ∧ ReadSc .real s) (t c : Val)
    (ht : t = .none ∨ t = .sc (.str c!"nt")) (hc : c = .none ∨ c = .sc (.str c!"c")) (v : Val)
    (hmk : Tab.Fu.mk' [.sc (.int (.num n)), .tuple xs, t, c] = .ok v) : cardParse Tab.Fu v.str = .ok (v, []) := by
  have hu := reals_ok hxs
  refine apart_round Tab.Fu ⟨.no, c!"fu", .req, .no⟩ [⟨.ty (.base .real), .many⟩, ⟨.lits c!"nt", .opt⟩, ⟨.lits c!"c", .opt⟩] rfl (by decide +kernel) rfl
    [.sc (.int (.num n))] [.tuple xs, t, c] ⟨[], [.sc (.int (.num n))], [], rfl, rfl, ⟨n, rfl⟩, rfl⟩ ?_ ?_ ?_ v hmk
  · refine ⟨⟨rfl, hne, .real, rfl, hxs⟩, ?_, ?_, trivial⟩
    · rcases ht with rfl | rfl
      · trivial
      · exact ⟨rfl, .str, rfl, stable_nt⟩
    · rcases hc with rfl | rfl
      · trivial
      · exact ⟨rfl, .str, rfl, stable_c⟩
  · refine ⟨by simpa using hne, hu, by simp, ?_⟩
    have h2 : Fits [Field.spec ⟨.lits c!"c", .opt⟩] [c.words] := by
      rcases hc with rfl | rfl
      · exact ⟨.inl rfl, trivial⟩
      · exact ⟨by simp, by intro w hw; rw [List.mem_singleton.1 hw]; decide +kernel, by simp, trivial⟩
    rcases ht with rfl | rfl
    · exact ⟨.inl rfl, h2⟩
    · exact ⟨by simp, by intro w hw; rw [List.mem_singleton.1 hw]; decide +kernel, by simp, h2⟩
  · refine ⟨?_, (by rintro (h | h) <;> cases h), (by rintro (h | h) <;> cases h), ?_, (by rintro (h | h) <;> cases h), ?_, trivial⟩
    · intro _ w hw f hf
      simp only [List.map_cons, List.map_nil, List.mem_cons, List.not_mem_nil, or_false] at hf
      rcases hf with rfl | rfl
      · exact real_not_nt (hu w (List.mem_of_mem_tail hw))
      · exact real_not_c (hu w (List.mem_of_mem_tail hw))
    · intro _ w hw
      rcases hc with rfl | rfl
      · cases hw
      · simp [Val.words, Assign.flat] at hw
        subst hw; decide +kernel
    · intro _ w hw; cases hw

def exVol : Val := .obj Tab.Vol.info [.sc (.str c!"no"), .tuple [num 1 0, num 25 (-1)]]

def exFu : Val := .obj Tab.Fu.info [.sc (.int (.num 4)), .tuple [num 1 0, num 25 (-1)], .none, .sc (.str c!"c")]

/-- Volumes that are not calculated; bins that are accumulated. -/
example : exVol.str = c!"vol no 1 2.5" ∧ cardParse Tab.Vol exVol.str = .ok (exVol, []) ∧
    exFu.str = c!"fu4 1 2.5 c" ∧ cardParse Tab.Fu exFu.str = .ok (exFu, []) :=
  ⟨by decide +kernel, C92_volumes _ (.inr rfl) _ (by simp) exReals exVol (by decide +kernel),
   by decide +kernel, C92_bins 4 _ (by simp) exReals .none (.sc (.str c!"c")) (.inl rfl) (.inr rfl) exFu (by decide +kernel)⟩

/-- **C92, every card of flat entries:** if no entry can slide into another field (`Apart`), the card is read back as it was.  Missing:
cards that are not flat, and lists of objects (`C92_rows_partial`). -/
theorem C92_apart_partial (c : Cls) (h : Head) (fs : List Field) (hs : c.plainly.shape = .flat h fs) (hst : c.plainly.std h fs = true)
    (hc : c.info.style = .card) (hv fv : List Val) (ho : HeadOk h hv) (hr : ReadVals (c.attrs.drop h.ng) fv)
    (hf : Fits (fs.map Field.spec) (fv.map Val.words)) (ha : Apart (fs.map Field.spec) (fv.map Val.words))
    (v : Val) (hmk : c.mk' (hv ++ fv) = .ok v) : cardParse c v.str = .ok (v, []) :=
  apart_round c h fs hs hst hc hv fv ho hr hf ha v hmk

def exBins : Val := .obj Tab.Sp_0.info [.sc (.int (.num 1)), .sc (.str c!"d"), .tuple [num 1 0, num 25 (-1)]]

/-- Probabilities of the bins of a source. -/
example : exBins.str = c!"sp1 d 1 2.5" ∧ cardParse Tab.Sp_0 exBins.str = .ok (exBins, []) := by
  refine ⟨by decide +kernel, ?_⟩
  refine C92_apart_partial Tab.Sp_0 ⟨.no, c!"sp", .req, .no⟩ [⟨.cls (.set false [.ch 'd', .ch 'c', .ch 'v', .ch 'w']), .opt⟩, ⟨.ty (.base .real), .many⟩] rfl
    (by decide +kernel) rfl [.sc (.int (.num 1))] [.sc (.str c!"d"), .tuple [num 1 0, num 25 (-1)]]
    ⟨[], [.sc (.int (.num 1))], [], rfl, rfl, ⟨1, rfl⟩, rfl⟩ ?_ ?_ ?_ exBins (by decide +kernel)
  · refine ⟨⟨rfl, .str, rfl, ?_⟩, ⟨rfl, by simp, .real, rfl, exReals⟩, trivial⟩
    exact ⟨⟨by decide, by decide, by decide, by decide, by decide, by decide, by decide⟩, by intro h; revert h; decide +kernel, by decide +kernel⟩
  · exact ⟨by decide +kernel, by decide +kernel, by decide, by decide +kernel, by decide +kernel, by decide, trivial⟩
  · refine ⟨(by rintro (h | h) <;> cases h), (by rintro (h | h) <;> cases h), ?_, (by rintro (h | h) <;> cases h), trivial⟩
    intro _ w _ f hf; cases hf

/-- **C92, rows of entries:** criticality sources, detector diagnostics, stochastic geometry, and tables of atomic weights are read back
with all their rows.  Missing: rows with shorthand that has a count. -/
theorem C92_rows_partial (r : RowCard) (hr : r ∈ rowCards) (hv xs : List Val) (hh : HeadOk r.h hv) (hne : xs ≠ [])
    (hx : ∀ x ∈ xs, RowItemVal r.item x) (v : Val) (hmk : r.c.mk' (hv ++ [.tuple xs]) = .ok v) : cardParse r.c v.str = .ok (v, []) := by
  obtain ⟨-, -, -, -, -, h, -⟩ := rows_round hr hv xs hh hne hx v hmk
  exact h

def exPoint : Val := .obj Tab.ksrc_Location.info [num 0 0, num 0 0, num 25 (-1)]

def exJump : Val := .obj Tab.ksrc_Location.info [num 1 0, .sc (.real (.hor (.jump none))), num 0 0]

theorem exPoint_ok : RowItemVal (.entry Tab.ksrc_Location [.real, .real, .real]) exPoint :=
  ⟨[num 0 0, num 0 0, num 25 (-1)], ⟨⟨rfl, .real, rfl, trivial⟩, ⟨rfl, .real, rfl, trivial⟩, ⟨rfl, .real, rfl, trivial⟩, trivial⟩, by simp [num], by decide +kernel⟩

theorem exJump_ok : RowItemVal (.entry Tab.ksrc_Location [.real, .real, .real]) exJump :=
  ⟨[num 1 0, .sc (.real (.hor (.jump none))), num 0 0], ⟨⟨rfl, .real, rfl, trivial⟩, ⟨rfl, .real, rfl, rfl⟩, ⟨rfl, .real, rfl, trivial⟩, trivial⟩,
    by simp [num], by decide +kernel⟩

def exPoints : Val := .obj Tab.Ksrc.info [.tuple [exPoint, exJump]]

theorem exRow : (⟨Tab.Ksrc, ⟨.no, c!"ksrc", .no, .no⟩, .ty Tab.T_ksrc_Location, [],
    ⟨"locations", Tab.T_ksrc_Location, true, some .isNone⟩, .entry Tab.ksrc_Location [.real, .real, .real]⟩ : RowCard) ∈ rowCards := List.mem_cons_self

theorem exPoints_ok : ∀ x ∈ [exPoint, exJump], RowItemVal (.entry Tab.ksrc_Location [.real, .real, .real]) x := by
  intro x hx
  simp only [List.mem_cons, List.not_mem_nil, or_false] at hx
  rcases hx with rfl | rfl
  · exact exPoint_ok
  · exact exJump_ok

/-- The points of a criticality source. -/
example : exPoints.str = c!"ksrc 0 0 2.5 1 j 0" ∧ cardParse Tab.Ksrc exPoints.str = .ok (exPoints, []) :=
  ⟨by decide +kernel, C92_rows_partial _ exRow [] [exPoint, exJump] ⟨[], [], [], rfl, rfl, rfl, rfl⟩ (by simp) exPoints_ok exPoints (by decide +kernel)⟩

/-- **C92, materials:** the number, the nuclides and the fractions of a material without options are read back.  Missing: options, which
are lost (`C92_lost_violated`). -/
theorem C92_material_partial (n : Nat) (xs : List Val) (hne : xs ≠ []) (hx : ∀ x ∈ xs, RowItemVal .subst x) (o : Val)
    (ho : o = .none ∨ o = .tuple []) : cardParse Tab.M_0 (Val.obj Tab.M_0.info [.sc (.int (.num n)), .tuple xs, o]).str =
      .ok (.obj Tab.M_0.info [.sc (.int (.num n)), .tuple xs, .tuple []], []) := by
  obtain ⟨-, -, -, -, h⟩ := mat_round n xs hne hx o ho _ rfl
  exact h

/-- Hydrogen and oxygen. -/
def exWater : List Val := [.sc (.subst ⟨⟨1, 1, none⟩, .num (.fin ⟨false, 2, 0⟩)⟩), .sc (.subst ⟨⟨8, 16, some c!"80c"⟩, .num (.fin ⟨false, 1, 0⟩)⟩)]

theorem exWater_ok : ∀ x ∈ exWater, RowItemVal .subst x := by
  intro x hx
  simp only [exWater, List.mem_cons, List.not_mem_nil, or_false] at hx
  rcases hx with rfl | rfl
  · exact ⟨_, _, rfl, by decide, by decide, by simp, ⟨by decide, by decide, by decide, by decide, by decide, by decide, by decide⟩, by intro h; revert h; decide +kernel, by decide +kernel⟩
  · exact ⟨_, _, rfl, by decide, by decide, by decide, ⟨by decide, by decide, by decide, by decide, by decide, by decide, by decide⟩, by intro h; revert h; decide +kernel, by decide +kernel⟩

example : (Val.obj Tab.M_0.info [.sc (.int (.num 1)), .tuple exWater, .none]).str = c!"m1 001001 2 008016.80c 1" ∧
    cardParse Tab.M_0 c!"m1 001001 2 008016.80c 1" = .ok (.obj Tab.M_0.info [.sc (.int (.num 1)), .tuple exWater, .tuple []], []) :=
  ⟨by decide +kernel, C92_material_partial 1 exWater (by simp [exWater]) exWater_ok .none (.inl rfl)⟩

/-- **C92, reading a tally:** any text of a tally of cells or surfaces, with arbitrary spacing, continuation lines and shorthand, is read
entry by entry: first word, cells or surfaces, total. -/
theorem C92_tally_read (c : Cls) (ds : List Char) (hx : (c, ds) ∈ tallyCards) (g0 w0 : Str) (l : List (Gap × Str)) (g1 : Str)
    (ht : Spaced g0 w0 l g1) :
    cardParse c (g0 ++ (w0 ++ (body l ++ g1))) = (tallyWords c ds w0 (entries l)).map (fun v => (v, [])) := by
  obtain ⟨hpre, -, hw⟩ := spaced_prep ht
  unfold cardParse
  rw [hpre]
  obtain ⟨e, -⟩ := tally_read hx w0 _ hw
  rw [← e]
  cases reMatch c.re (w0 ++ enc (entries l)) with
  | none => rfl
  | some m =>
    simp only
    cases c.build m <;> rfl

/-- The text `f4:n  1 &⏎ 2 t`. -/
example : cardParse Tab.F_0 c!"f4:n  1 &\n 2 t" =
    .ok (.obj Tab.F_0.info [.none, .sc (.int (.num 4)), .sc (.desig ['n']), .tuple [.sc (.int (.num 1)), .sc (.int (.num 2))], .sc (.str c!"t")], []) := by
  have h : Spaced [] c!"f4:n" [(.ws c!"  ", c!"1"), (.ws c!" &\n ", c!"2"), (.ws c!" ", c!"t")] [] := {
    first := .nil
    word := by decide
    words := by
      intro x hx
      simp only [List.mem_cons, List.not_mem_nil, or_false] at hx
      rcases hx with rfl | rfl | rfl
      · exact ⟨⟨.sp (.sp .nil), by decide⟩, by decide⟩
      · exact ⟨⟨.sp (.amp 0 (.sp .nil)), by decide⟩, by decide⟩
      · exact ⟨⟨.sp .nil, by decide⟩, by decide⟩
    last := .nil
    low := by decide
    pos := by decide
    adj := by decide }
  have := C92_tally_read Tab.F_0 _ List.mem_cons_self [] _ _ _ h
  rw [show [] ++ (c!"f4:n" ++ (body [(Gap.ws c!"  ", c!"1"), (.ws c!" &\n ", c!"2"), (.ws c!" ", c!"t")] ++ [])) = c!"f4:n  1 &\n 2 t" by decide] at this
  rw [this]
  decide +kernel

/-- **C92, printing and reading a tally:** tallies of cells and surfaces survive.  Missing: cells or surfaces in parentheses
(`C92_refused_violated`); point and ring detectors are in C105. -/
theorem C92_tally_partial (c : Cls) (ds : List Char) (hx : (c, ds) ∈ tallyCards) (hv : List Val) (hh : HeadOk tallyHead hv) (xs : List Val)
    (hne : xs ≠ []) (hxs : ∀ x ∈ xs, ∃ s, x = .sc s ∧ ReadSc .int s) (t : Val) (ht : t = .none ∨ t = .sc (.str c!"t"))
    (v : Val) (hmk : c.mk' (hv ++ [.tuple xs, t]) = .ok v) : cardParse c v.str = .ok (v, []) := by
  obtain ⟨-, -, -, -, -, h, -⟩ := tally_round hx hv hh xs hne hxs t ht v hmk
  exact h

/-- Pulse heights in two cells with their total. -/
def exTally : Val := .obj Tab.F_3.info [.sc (.str c!"*"), .sc (.int (.num 8)), .sc (.desig ['p']), .tuple [.sc (.int (.num 1)), .sc (.int (.num 2))], .sc (.str c!"t")]

example : exTally.str = c!"*f8:p 1 2 t" ∧ cardParse Tab.F_3 exTally.str = .ok (exTally, []) := by
  refine ⟨by decide +kernel, ?_⟩
  refine C92_tally_partial Tab.F_3 ['8'] (by simp [tallyCards]) [.sc (.str c!"*"), .sc (.int (.num 8)), .sc (.desig ['p'])]
    ⟨[.sc (.str c!"*")], [.sc (.int (.num 8))], [.sc (.desig ['p'])], rfl, .inr ⟨'*', by decide, rfl⟩, ⟨8, rfl⟩,
      .inr ⟨['p'], rfl, by decide +kernel, by decide, by decide, by decide⟩⟩ [.sc (.int (.num 1)), .sc (.int (.num 2))] (by simp) ?_
    (.sc (.str c!"t")) (.inr rfl) exTally (by decide +kernel)
  intro x hx
  simp only [List.mem_cons, List.not_mem_nil, or_false] at hx
  rcases hx with rfl | rfl <;> exact ⟨_, rfl, trivial⟩

/-! ## Whole files with materials and tallies -/

def exMaterial : Val := .obj Tab.M_0.info [.sc (.int (.num 1)), .tuple exWater, .tuple []]

def exFlux : Val := .obj Tab.F_0.info [.none, .sc (.int (.num 4)), .sc (.desig ['n']), .tuple [.sc (.int (.num 1))], .none]

/-- A material, a tally, a source and a dose function in a file. -/
example : inpPrint ⟨none, c!"t", [exCell], [exSphere], [exMaterial, exFlux, exPoints, exDose], none⟩ =
      c!"t\n1 0  -1 imp:n 1\n\n1  so 5\n\nm1 001001 2 008016.80c 1\nf4:n 1\nksrc 0 0 2.5 1 j 0\nde4 lin 1 2.5\n\n" ∧
    inpRead (inpPrint ⟨none, c!"t", [exCell], [exSphere], [exMaterial, exFlux, exPoints, exDose], none⟩) =
      .ok ⟨none, c!"t", [exCell], [exSphere], [exMaterial, exFlux, exPoints, exDose], none⟩ := by
  refine ⟨by decide +kernel, ?_⟩
  refine C71_roundtrip_partial _ rfl [c!"t"] ⟨⟨by decide, by decide⟩, by decide⟩ (by decide) (by simp only [IsMessage]; decide)
    (by decide) ⟨by simp, ?_⟩ ⟨exCell, by simp, by decide +kernel⟩ ⟨by simp, ?_⟩ ⟨by simp, ?_⟩ .none
  · intro x hx; simp only [List.mem_cons, List.not_mem_nil, or_false] at hx
    subst hx; exact exCell_good
  · intro x hx; simp only [List.mem_cons, List.not_mem_nil, or_false] at hx
    subst hx; exact exSphere_good
  · intro x hx; simp only [List.mem_cons, List.not_mem_nil, or_false] at hx
    rcases hx with rfl | rfl | rfl | rfl
    · exact .material 1 exWater (by simp [exWater]) exWater_ok (by decide)
    · refine .tally Tab.F_0 _ List.mem_cons_self [.none, .sc (.int (.num 4)), .sc (.desig ['n'])]
        ⟨[.none], [.sc (.int (.num 4))], [.sc (.desig ['n'])], rfl, .inl rfl, ⟨4, rfl⟩, .inr ⟨['n'], rfl, by decide +kernel, by decide, by decide, by decide⟩⟩
        [.sc (.int (.num 1))] (by simp) ?_ .none (.inl rfl) _ (by decide +kernel) (by decide +kernel) (first_unclaimed (by decide +kernel))
      intro x hx
      simp only [List.mem_cons, List.not_mem_nil, or_false] at hx
      subst hx; exact ⟨_, rfl, trivial⟩
    · exact .rows _ exRow [] [exPoint, exJump] ⟨[], [], [], rfl, rfl, rfl, rfl⟩ (by simp) exPoints_ok exPoints (by decide +kernel) (by decide +kernel)
    · exact .keyword _ exKw 4 (some c!"lin") (by simp) [num 1 0, num 25 (-1)] (by simp) exReals (by simp) exDose (by decide +kernel) (by decide +kernel)
        (first_unclaimed (by decide +kernel))

/-! ## What such cards lose -/

/-- The text of a data card after reading and printing it. -/
def reprintCard (s : Str) : Res Str := (cardUnion dataCards s).map (fun p => p.1.str)

/-- Numbers are changed: the third coordinate and the radius of a point detector and the radius of a ring detector lose their decimals;
the biases of photon production become atomic numbers; the dependent values of a source become the number of the independent distribution;
numbers of a source become distributions. -/
theorem C92_changed_violated :
    reprintCard c!"f5:n 0 0 1.5 0.5" = .ok c!"f5:n 0 0 1 0" ∧
    reprintCard c!"f5z:n 1.5 0 0.5" = .ok c!"f5z:n 1.5 0 0 " ∧
    reprintCard c!"pikmt 26055 2" = .ok c!"pikmt 026055 26" ∧
    reprintCard c!"ds1 q d1 2.5" = .ok c!"ds1 q d1 1" ∧
    reprintCard c!"si1 0 0" = .ok c!"si1 d0 d0" := by
  refine ⟨?_, ?_, ?_, ?_, ?_⟩ <;> decide +kernel

/-- Options are lost: libraries of a material, neutrons of spontaneous fission. -/
theorem C92_lost_violated :
    reprintCard c!"m1 1001 2 nlib=80c" = .ok c!"m1 001001 2" ∧
    reprintCard c!"fmult 92235 sfnu 2.4" = .ok c!"fmult 092235" ∧
    reprintCard c!"ssr old 1 2" = .ok c!"ssr old 1" := by
  refine ⟨?_, ?_, ?_⟩ <;> decide +kernel

/-- Cells in parentheses raise an error that is not one of the library; tallies of type 3 are not accepted, although the
pattern names them. -/
theorem C92_refused_violated :
    reprintCard c!"f4:n (1 2 3) 4 t" = .error .assertion ∧ reprintCard c!"f14:n 1 2 (3 4)" = .error .assertion ∧
    (∃ e, cardParse Tab.F_0 c!"f13:n 1" = .error e ∧ reMatch Tab.F_0.re c!"f13:n 1" ≠ none) := by
  refine ⟨by decide +kernel, by decide +kernel, .inp, by decide +kernel, by decide +kernel⟩

end Props
