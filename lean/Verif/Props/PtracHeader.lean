import Verif.Ptrac.HeaderLemmas
import Verif.Props.PtracLine
/-!
# Properties of the header of PTRAC files (C40)

Specification: lists of integers and decimals; precision is stated with `Kept`.
-/
namespace Props
open Py Types Ptrac

/-! ## C40: N blocks -/

/-- C40 for N blocks: the twenty counts of at most five characters are printed and read back unchanged. -/
theorem C40_n_block (ns : List Int) (hl : ns.length = 20) (h : ∀ n ∈ ns, (intStr n).length ≤ 5) :
    nParse (nStr (ns.map .num)) = .ok (ns.map .num) := nline_round ns hl h

/-- The counts 5, -1, 99999, 0, 0, … -/
def exampleN : List Int := 5 :: -1 :: 99999 :: List.replicate 17 0

set_option maxRecDepth 20000 in
example : exampleN.length = 20 ∧ (∀ n ∈ exampleN, (intStr n).length ≤ 5) := by decide

/-! ## C40: L blocks -/

/-- C40 for L blocks.  Missing: lists whose length is a multiple of thirty (`C40_l_violated`), values of four
or more characters (`C40_l_merge_violated`). -/
theorem C40_l_block_partial (ns : List Int) (h : ∀ n ∈ ns, (intStr n).length ≤ 3) (he : ns.length % 30 ≠ 0) :
    lParse (lStr (ns.map .num)) = .ok (ns.map .num) := lline_round ns h he

/-- The ids 1, …, 31: the second line holds one id. -/
example : (∀ n ∈ (List.range 31).map Int.ofNat, (intStr n).length ≤ 3) ∧ ((List.range 31).map Int.ofNat).length % 30 ≠ 0 := by
  decide +kernel

/-- C40 fails for every L block whose length is a multiple of thirty: what is printed is refused. -/
theorem C40_l_violated (vs : List IntVal) (h : vs.length % 30 = 0) : lParse (lStr vs) = .error .ptrac :=
  lline_none vs h

set_option maxRecDepth 20000 in
/-- C40 fails for values of four characters, which are glued to the value before. -/
theorem C40_l_merge_violated :
    lParse (lStr [.num 5, .num 1000]) = .ok [.num 51000] := by decide +kernel

/-! ## C40: V blocks -/

/-- C40 for V blocks: decimals of at most two exponent digits are kept to five digits, if their number is a
multiple of ten other than zero.  Missing: all other numbers of values (`C40_v_violated`). -/
theorem C40_v_block_partial (ds : List Dec) (h0 : ds ≠ []) (he : ds.length % 10 = 0)
    (h : ∀ d ∈ ds, d.coeff = 0 ∨ (-100 < d.adjusted ∧ d.adjusted < 100)) :
    ∃ (s : Str) (ds' : List Dec), vStr (ds.map fun d => .num (.fin d)) = .ok s ∧ vParse s = .ok (ds'.map fun d => .num (.fin d)) ∧
      ds'.length = ds.length ∧ ∀ i (h : i < ds.length) (h' : i < ds'.length), Kept 5 ds[i] ds'[i] := by
  obtain ⟨s, h1, h2⟩ := vblock_round ds h0 he (fun d hd => by
    rcases h d hd with h | h
    · exact .inl h
    · exact .inr (by omega))
  refine ⟨s, _, h1, h2, by simp, ?_⟩
  intro i hi hi'
  rw [List.getElem_map]
  exact kept_printed 4 0 _

/-- C40 for V blocks of decimals of one to five digits: the same values are read back. -/
theorem C40_v_block_same (ds : List Dec) (h0 : ds ≠ []) (he : ds.length % 10 = 0)
    (h : ∀ d ∈ ds, 0 < d.coeff ∧ d.coeff < 10 ^ 5 ∧ -100 < d.adjusted ∧ d.adjusted < 100) :
    ∃ s, vStr (ds.map fun d => .num (.fin d)) = .ok s ∧ vParse s = .ok (ds.map fun d => .num (.fin d)) := by
  obtain ⟨s, ds', h1, h2, h3, h4⟩ := C40_v_block_partial ds h0 he (fun d hd => .inr (h d hd).2.2)
  refine ⟨s, h1, ?_⟩
  have : ds' = ds := by
    refine List.ext_getElem h3 fun i hi hi' => ?_
    have hd := h ds[i] (List.getElem_mem hi')
    exact (h4 i hi' hi).exact (by omega) hd.2.1 (by decide)
  rw [← this]; exact this ▸ h2

/-- Twenty times -12.345. -/
example : List.replicate 20 (⟨true, 12345, -3⟩ : Dec) ≠ [] ∧ (List.replicate 20 (⟨true, 12345, -3⟩ : Dec)).length % 10 = 0 ∧
    ∀ d ∈ List.replicate 20 (⟨true, 12345, -3⟩ : Dec), 0 < d.coeff ∧ d.coeff < 10 ^ 5 ∧ -100 < d.adjusted ∧ d.adjusted < 100 := by
  decide +kernel

/-- C40 fails for every V block whose length is zero or no multiple of ten: what is printed is refused. -/
theorem C40_v_violated (ds : List Dec) (he : ds = [] ∨ ds.length % 10 ≠ 0) :
    ∃ s, vStr (ds.map fun d => .num (.fin d)) = .ok s ∧ vParse s = .error .ptrac := vblock_none ds he

end Props
