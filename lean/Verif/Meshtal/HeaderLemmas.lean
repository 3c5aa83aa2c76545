import Verif.Meshtal.RowLemmas
import Verif.Ptrac.HeaderLemmas
import Verif.Py.TmplLemmas
/-! Lemmas on mesh tally headers and files. -/
namespace Meshtal
open Py Types Ptrac

/-- The names of the bins, in the order they are printed, with their values. -/
def binPairs (h : Header) : List (Str × Str) :=
  [(c!"X direction", h.bx), (c!"Y direction", h.by'), (c!"Z direction", h.bz), (c!"Time bin boundaries", h.time),
   (c!"Energy bin boundaries", h.energy)].filterMap fun p => p.2.map fun v => (p.1, v)

def binText (p : Str × Str) : Str := c!"    " ++ (p.1 ++ ':' :: (p.2 ++ ['\n']))

/-- The fields of a printed header. -/
def headVals (h : Header) (hs ns : Str) : Nat → Str
  | 1 => rjust 7 h.code
  | 2 => rjust 6 h.version
  | 3 => rjust 10 h.ld
  | 4 => rjust 20 h.probid
  | 5 => h.title
  | 6 => hs
  | 7 => ns
  | 8 => rjust 8 h.particle
  | 9 => ((binPairs h).map binText).flatten
  | 10 => h.columns
  | _ => []

theorem words_bins (ps : List (Str × Str)) (h0 : ps ≠ []) (h : ∀ p ∈ ps, '\n' ∉ p.1 ∧ '\n' ∉ p.2) : Words binLine (ps.map binText) := by
  refine ⟨by simpa using h0, ?_, ?_⟩
  · intro w hw
    obtain ⟨p, hp, rfl⟩ := List.mem_map.1 hw
    obtain ⟨h1, h2⟩ := h p hp
    refine ⟨?_, ' ', _, rfl, by decide⟩
    have hu : '\n' ∉ p.1 ++ ':' :: p.2 := by
      simp only [List.mem_append, List.mem_cons, not_or]
      exact ⟨h1, by decide, h2⟩
    have := runsTo_many (words_dot (u := p.1 ++ ':' :: p.2) (by simp) hu) true false 0
    rw [flatten_chars] at this
    have e : binText p = c!"    " ++ ((p.1 ++ ':' :: p.2) ++ ['\n']) := by simp [binText]
    rw [e]
    exact runsTo_seq (runsTo_litC c!"    ") this
  · intro α prev s caps k
    unfold binLine
    rw [run_seq, litC, run_seq, Re.chr, run_cls_cons, if_neg (by decide)]

theorem run_bin {α : Type} (k v R prev : Str) (K : St → Option α) (x : α) (hk : ∃ c cs, k = c :: cs ∧ isSpace c = false) (hk2 : ∀ c ∈ k, c ≠ '\n' ∧ c ≠ ':')
    (hv : v ≠ []) (hv2 : '\n' ∉ v) (hx : K ⟨(binText (k, v)).reverse ++ prev, R, [(2, v), (1, k)]⟩ = some x) :
    run binRe ⟨prev, binText (k, v) ++ R, []⟩ K = some x := by
  obtain ⟨c, cs, rfl, hc⟩ := hk
  have e : binText (c :: cs, v) ++ R = c!"    " ++ (c :: cs ++ (':' :: (v ++ '\n' :: R))) := by simp [binText]
  unfold binRe
  rw [e, run_seq, Re.plus, run_seq, Re.space]
  show run (.cls isSpace) ⟨prev, ' ' :: (c!"   " ++ (c :: cs ++ (':' :: (v ++ '\n' :: R)))), []⟩ _ = _
  rw [run_cls_cons, if_pos (by decide)]
  refine run_star_cls_full isSpace c!"   " _ _ _ _ x (by decide) (by intro c' cs' e; cases e; exact hc) ?_
  rw [run_seq, run_grp, Re.plus, run_seq]
  show run (.cls _) ⟨_, c :: (cs ++ (':' :: (v ++ '\n' :: R))), []⟩ _ = _
  have hk3 : ∀ d ∈ c :: cs, (d != '\n' && d != ':') = true := by
    intro d hd; simpa using hk2 d hd
  rw [run_cls_cons, if_pos (hk3 c (by simp))]
  refine run_star_cls_full _ cs _ _ _ _ x (fun d hd => hk3 d (by simp [hd])) (by intro c' cs' e; cases e; rfl) ?_
  have t1 : (c :: cs ++ ':' :: (v ++ '\n' :: R)).take ((c :: cs ++ ':' :: (v ++ '\n' :: R)).length - (':' :: (v ++ '\n' :: R)).length) = c :: cs :=
    take_consumed _ _
  simp only [t1]
  rw [run_seq, Re.chr, run_cls_cons, if_pos (by decide), run_seq, run_grp, Re.plus, run_seq, Re.dot]
  obtain ⟨d, ds, rfl⟩ := List.exists_cons_of_ne_nil hv
  have hv3 : ∀ d' ∈ d :: ds, (d' != '\n') = true := by
    intro d' hd
    have : d' ≠ '\n' := fun e => hv2 (e ▸ hd)
    simpa using this
  show run (.cls _) ⟨_, d :: (ds ++ '\n' :: R), _⟩ _ = _
  rw [run_cls_cons, if_pos (hv3 d (by simp))]
  refine run_star_cls_full _ ds _ _ _ _ x (fun d' hd => hv3 d' (by simp [hd])) (by intro c' cs' e; cases e; rfl) ?_
  have t2 : (d :: ds ++ '\n' :: R).take ((d :: ds ++ '\n' :: R).length - ('\n' :: R).length) = d :: ds := take_consumed _ _
  simp only [t2]
  rw [run_alt, Re.chr, run_cls_cons, if_pos (by decide)]
  have e2 : '\n' :: (ds.reverse ++ d :: ':' :: (cs.reverse ++ c :: (List.reverse c!"   " ++ ' ' :: prev))) = (binText (c :: cs, d :: ds)).reverse ++ prev := by
    simp [binText]
  rw [e2, hx]; rfl

theorem bins_lex (ps : List (Str × Str)) (h : ∀ p ∈ ps, ((∃ c cs, p.1 = c :: cs ∧ isSpace c = false) ∧ ∀ c ∈ p.1, c ≠ '\n' ∧ c ≠ ':') ∧
    p.2 ≠ [] ∧ '\n' ∉ p.2) : LexesC binRe (ps.map fun p => (binText p, [(2, p.2), (1, p.1)])) := by
  induction ps with
  | nil => trivial
  | cons p ps ih =>
    obtain ⟨⟨h1, h2⟩, h3, h4⟩ := h p (by simp)
    refine ⟨by simp [binText], fun prev => ?_, ih fun q hq => h q (by simp [hq])⟩
    refine run_bin p.1 p.2 _ prev _ _ h1 h2 h3 h4 ?_
    unfold findK
    rw [if_pos (by simp [binText]; omega)]

theorem findBins_text (ps : List (Str × Str)) (h : ∀ p ∈ ps, ((∃ c cs, p.1 = c :: cs ∧ isSpace c = false) ∧ ∀ c ∈ p.1, c ≠ '\n' ∧ c ≠ ':') ∧
    p.2 ≠ [] ∧ '\n' ∉ p.2) : findBins (ps.map binText).flatten = ps := by
  have := finditerAux_lexesC _ _ (bins_lex ps h) (ps.map binText).flatten.length [] (by
    rw [List.map_map]; exact Nat.le_refl _)
  rw [List.map_map, show ((fun x => x.1) ∘ fun p : Str × Str => (binText p, [(2, p.2), (1, p.1)])) = binText from rfl] at this
  unfold findBins
  rw [this]
  induction ps with
  | nil => rfl
  | cons p ps ih =>
    simp only [List.map_cons, List.filterMap_cons, List.map_map]
    have := ih (fun q hq => h q (by simp [hq])) (by
      have := finditerAux_lexesC _ _ (bins_lex ps fun q hq => h q (by simp [hq])) (ps.map binText).flatten.length [] (by
        rw [List.map_map]; exact Nat.le_refl _)
      rw [List.map_map] at this
      exact this)
    rw [List.map_map] at this
    rw [this]
    rfl

theorem readBins_pairs (h : Header) : readBins ⟨none, none, none, none, none⟩ (binPairs h) =
    .ok ⟨h.bx, h.by', h.bz, h.energy, h.time⟩ := by
  obtain ⟨_, _, _, _, _, _, _, _, _, a, b, c, d, e⟩ := h
  rcases a with _ | a <;> rcases b with _ | b <;> rcases c with _ | c <;> rcases d with _ | d <;> rcases e with _ | e <;>
    simp [binPairs, readBins]

theorem intParse_dec (n : Int) (k : Nat) : intParse (List.replicate k ' ' ++ (intStr n ++ c!".00")) = .ok (.num n) := by
  have hm : ∀ k, MantOk (natStr k) (some c!"00") := fun k =>
    ⟨natStr_digits k, (by decide), .inl (natStr_ne_nil k)⟩
  cases n with
  | ofNat j =>
    have hp := plain_mant .none _ _ (hm j)
    have := intParse_plain .none _ _ (hm j)
    have e : intStr (Int.ofNat j) ++ c!".00" = mantText .none (natStr j) (some c!"00") := by
      simp [mantText, Sg.text, fracText, intStr]
    rw [e, intParse_pad _ _ hp.ch hp.chain hp.head, this]
    simp [mantDec, Dec.trunc, fracDigits, Sg.neg, strNat_append, strNat_natStr, show strNat ['0', '0'] = 0 from rfl]
  | negSucc j =>
    have hp := plain_mant .minus _ _ (hm (j + 1))
    have := intParse_plain .minus _ _ (hm (j + 1))
    have e : intStr (Int.negSucc j) ++ c!".00" = mantText .minus (natStr (j + 1)) (some c!"00") := by
      simp [mantText, Sg.text, fracText, intStr]
    rw [e, intParse_pad _ _ hp.ch hp.chain hp.head, this]
    simp [mantDec, Dec.trunc, fracDigits, Sg.neg, strNat_append, strNat_natStr, show strNat ['0', '0'] = 0 from rfl]
    omega

theorem head_text (h : Header) (hs ns : Str) (hne : ∀ o ∈ [h.bx, h.by', h.bz, h.time, h.energy], o ≠ some []) (g : Bool) :
    tmplText (headVals h hs ns) (headItems g) =
    rjust 7 h.code ++ (c!"version " ++ (rjust 6 h.version ++ (c!"ld=" ++ (rjust 10 h.ld ++ (c!"probid =" ++ (rjust 20 h.probid ++
    (c!"\n " ++ (h.title ++ (c!"\n Number of histories used for normalizing tallies =" ++ (hs ++
    (c!"\n\n Mesh Tally Number" ++ (ns ++ (c!"\n " ++ (rjust 8 h.particle ++ (c!" mesh tally.\n\n Tally bin boundaries:\n" ++
    (binStr c!"X direction" h.bx ++ (binStr c!"Y direction" h.by' ++ (binStr c!"Z direction" h.bz ++
    (binStr c!"Time bin boundaries" h.time ++ (binStr c!"Energy bin boundaries" h.energy ++
    ('\n' :: (h.columns ++ ['\n'])))))))))))))))))))))) := by
  have hb : ((binPairs h).map binText).flatten = binStr c!"X direction" h.bx ++ (binStr c!"Y direction" h.by' ++ (binStr c!"Z direction" h.bz ++
    (binStr c!"Time bin boundaries" h.time ++ binStr c!"Energy bin boundaries" h.energy))) := by
    have one : ∀ (k : Str) (o : Option Str), o ≠ some [] → binStr k o = ((o.map fun v => (k, v)).toList.map binText).flatten := by
      intro k o ho
      cases o with
      | none => rfl
      | some v =>
        have : v ≠ [] := fun e => ho (by rw [e])
        simp [binStr, this, binText]
    have cat : ∀ (p : Str × Option Str) (l : List (Str × Option Str)),
        (((p :: l).filterMap fun p => p.2.map fun v => (p.1, v)).map binText).flatten =
          ((p.2.map fun v => (p.1, v)).toList.map binText).flatten ++ ((l.filterMap fun p => p.2.map fun v => (p.1, v)).map binText).flatten := by
      intro p l
      obtain ⟨k, o⟩ := p
      cases o <;> simp
    rw [one _ _ (hne h.bx (by simp)), one _ _ (hne h.by' (by simp)), one _ _ (hne h.bz (by simp)), one _ _ (hne h.time (by simp)),
      one _ _ (hne h.energy (by simp))]
    unfold binPairs
    rw [cat, cat, cat, cat, cat]
    simp
  simp only [tmplText, headItems, Item.text, headVals, hb]
  simp

end Meshtal
